import Verif.Props.Transforms
import Verif.Model.Sensors

/-!
# Properties C27, C28, C34 and C74: chipped, affine, composite and projective sensor models
-/

set_option linter.unusedSectionVars false

namespace Verif.Props.Sensors

open Verif.Transforms Verif.Spec.Transforms Verif.Sensors
open Verif.Dem (Geo)

section
variable {K O : Type} [Field K] [LinearOrder K] [IsStrictOrderedRing K]

/-- The four corners of a rectangle, in the order used by the builders. -/
def corners (x y w h : K) : List (K × K) := [(x, y), (x + w, y), (x + w, y + h), (x, y + h)]

theorem corners_general {x y w h : K} (hw : w ≠ 0) (hh : h ≠ 0) : GeneralPosition (corners x y w h) := by
  have e : w * h ≠ 0 := mul_ne_zero hw hh
  refine ⟨(x, y), by simp [corners], (x + w, y), by simp [corners], (x + w, y + h), by simp [corners], (x, y + h),
    by simp [corners], ?_, ?_, ?_, ?_⟩ <;> unfold area <;> simp only <;> intro hz <;> apply e <;> linear_combination hz

/-- The map of one axis-parallel rectangle to another. -/
def boxMap (x y w h u v s t : K) : Projective K := ⟨u - x * s / w, s / w, 0, v - y * t / h, 0, t / h, 0, 0⟩

theorem boxMap_forward {x y w h u v s t : K} (p : K × K) :
    (boxMap x y w h u v s t).forward p = some (u + (p.1 - x) * s / w, v + (p.2 - y) * t / h) := by
  rw [forward_some _ _ (by simp [boxMap, Projective.den])]
  have : (boxMap x y w h u v s t).den p = 1 := by simp [boxMap, Projective.den]
  rw [this]
  simp only [boxMap, div_one, Option.some.injEq, Prod.mk.injEq]
  constructor <;> ring

theorem boxMap_det {x y w h u v s t : K} : (boxMap x y w h u v s t).det = s / w * (t / h) := by
  simp [boxMap, Projective.det]

/-- The estimate for the corners of two rectangles, whatever list contains them. -/
theorem estimate_boxes (lstsq : List (Row K) → Projective K) (hl : ∀ rows, IsLstsq rows (lstsq rows))
    {x y w h u v s t : K} (hw : w ≠ 0) (hh : h ≠ 0) (hs : s ≠ 0) (ht : t ≠ 0) :
    estimateStacked lstsq (corners x y w h) (corners u v s t) = .ok (boxMap x y w h u v s t) := by
  unfold estimateStacked
  rw [if_neg (by simp [corners])]
  congr 1
  apply Verif.Props.Transforms.estimate_recovers lstsq (boxMap x y w h u v s t)
  · rw [boxMap_det]
    exact mul_ne_zero (div_ne_zero hs hw) (div_ne_zero ht hh)
  · exact hl _
  · intro p hp
    simp only [corners, List.zip_cons_cons, List.zip_nil_right, List.mem_cons, List.not_mem_nil, or_false] at hp
    rw [boxMap_forward]
    rcases hp with rfl | rfl | rfl | rfl <;> simp only [Option.some.injEq, Prod.mk.injEq] <;>
      constructor <;> field_simp <;> ring
  · have : (List.zip (corners x y w h) (corners u v s t)).map Prod.fst = corners x y w h := by simp [corners]
    rw [this]
    exact corners_general hw hh

/-- **C27**: a chip whose corners `(u, v)`–`(u+s, v+t)` are those of the rectangle
`(x, y)`–`(x+w, y+h)` of the full image has a sensor model, and that model is the full image
model at the proportional position; also errors and options are those of the full model. -/
theorem chipped_model_is_full_model (lstsq : List (Row K) → Projective K) (hl : ∀ rows, IsLstsq rows (lstsq rows))
    (full : SensorModel K O) (x y w h u v s t : K) (hw : w ≠ 0) (hh : h ≠ 0) (hs : s ≠ 0) (ht : t ≠ 0) :
    ∃ m, chipped lstsq (corners x y w h) (corners u v s t) full = .ok m ∧
      (∀ c r e o, m.imageToWorld (c, r) e o = full.imageToWorld (x + (c - u) * w / s, y + (r - v) * h / t) e o) ∧
      (∀ g, m.worldToImage g = (full.worldToImage g).map (fun q => (u + (q.1 - x) * s / w, v + (q.2 - y) * t / h))) := by
  unfold chipped
  rw [estimate_boxes lstsq hl hw hh hs ht]
  refine ⟨_, rfl, ?_, ?_⟩
  · intro c r e o
    simp only
    have hinv : (boxMap x y w h u v s t).inverse (c, r) = some (x + (c - u) * w / s, y + (r - v) * h / t) := by
      apply Verif.Props.Transforms.inverse_forward
      · rw [boxMap_det]
        exact mul_ne_zero (div_ne_zero hs hw) (div_ne_zero ht hh)
      · rw [boxMap_forward]
        simp only [Option.some.injEq, Prod.mk.injEq]
        constructor <;> field_simp <;> ring
    rw [hinv]
    rfl
  · intro g
    simp only
    cases full.worldToImage g with
    | error f => rfl
    | ok q =>
      show finite ((boxMap x y w h u v s t).forward q) = _
      rw [boxMap_forward]
      rfl

/-- **C27**: for a crop without scaling the sensor model is the full model shifted by the
offset of the crop. -/
theorem crop_model_is_shifted_model (lstsq : List (Row K) → Projective K) (hl : ∀ rows, IsLstsq rows (lstsq rows))
    (full : SensorModel K O) (x y w h : K) (hw : 0 < w) (hh : 0 < h) :
    ∃ m, chipped lstsq (corners x y w h) (corners 0 0 w h) full = .ok m ∧
      (∀ c r e o, m.imageToWorld (c, r) e o = full.imageToWorld (x + c, y + r) e o) ∧
      (∀ g, m.worldToImage g = (full.worldToImage g).map (fun q => (q.1 - x, q.2 - y))) := by
  obtain ⟨m, h1, h2, h3⟩ := chipped_model_is_full_model lstsq hl full x y w h 0 0 w h hw.ne' hh.ne' hw.ne' hh.ne'
  refine ⟨m, h1, ?_, ?_⟩
  · intro c r e o
    rw [h2, sub_zero, sub_zero, mul_div_cancel_right₀ _ hw.ne', mul_div_cancel_right₀ _ hh.ne']
  · intro g
    rw [h3]
    congr 1
    funext q
    rw [mul_div_cancel_right₀ _ hw.ne', mul_div_cancel_right₀ _ hh.ne', zero_add, zero_add]

/-- **C27**: a chip of a chip is the crop at the sum of the offsets. -/
theorem crop_of_crop (lstsq : List (Row K) → Projective K) (hl : ∀ rows, IsLstsq rows (lstsq rows))
    (full : SensorModel K O) (x y w h x' y' w' h' : K) (hw : 0 < w) (hh : 0 < h) (hw' : 0 < w') (hh' : 0 < h') :
    ∃ m m', chipped lstsq (corners x y w h) (corners 0 0 w h) full = .ok m ∧
      chipped lstsq (corners x' y' w' h') (corners 0 0 w' h') m = .ok m' ∧
      (∀ c r e o, m'.imageToWorld (c, r) e o = full.imageToWorld (x + x' + c, y + y' + r) e o) ∧
      (∀ g, m'.worldToImage g = (full.worldToImage g).map (fun q => (q.1 - (x + x'), q.2 - (y + y')))) := by
  obtain ⟨m, h1, h2, h3⟩ := crop_model_is_shifted_model lstsq hl full x y w h hw hh
  obtain ⟨m', k1, k2, k3⟩ := crop_model_is_shifted_model lstsq hl m x' y' w' h' hw' hh'
  refine ⟨m, m', h1, k1, ?_, ?_⟩
  · intro c r e o
    rw [k2, h2, add_assoc, add_assoc]
  · intro g
    rw [k3, h3]
    cases full.worldToImage g with
    | error f => rfl
    | ok q =>
      simp only [Except.map, Except.ok.injEq, Prod.mk.injEq]
      constructor <;> ring

/-- **C74**: a projective sensor model ignores the elevation of its argument, sets the
elevation to 0 before asking the elevation model, and with an elevation model that keeps
the position its two directions undo each other. -/
theorem projective_model (lstsq : List (Row K) → Projective K) (world : List (Geo K)) (image : List (K × K))
    (m : SensorModel K O) (hm : projective lstsq world image = .ok m)
    (hdet : (estimate lstsq ((world.map (fun g => (g.longitude, g.latitude))).zip image)).det ≠ 0) :
    (∀ g z, m.worldToImage { g with elevation := z } = m.worldToImage g) ∧
    (∀ p o g, m.imageToWorld p none o = .ok g → g.elevation = 0 ∧ m.worldToImage g = .ok p) ∧
    (∀ g p, m.worldToImage g = .ok p → ∀ o, m.imageToWorld p none o = .ok { g with elevation := 0 }) ∧
    (∀ p e o, m.imageToWorld p (some e) o = (m.imageToWorld p none o).bind e) ∧
    (∀ p o o', m.imageToWorld p none o = m.imageToWorld p none o') := by
  unfold projective estimateStacked at hm
  split_ifs at hm with hbad
  simp only [Except.ok.injEq] at hm
  set t := estimate lstsq ((world.map (fun g => (g.longitude, g.latitude))).zip image) with ht
  subst hm
  refine ⟨fun g z => rfl, ?_, ?_, ?_, fun p o o' => rfl⟩
  · intro p o g hg
    simp only [withElevation] at hg
    cases hi : t.inverse p with
    | none => rw [hi] at hg; cases hg
    | some q =>
      rw [hi] at hg
      have hg' : (⟨q.1, q.2, 0⟩ : Geo K) = g := by simpa [finite, bind, Except.bind] using hg
      subst hg'
      refine ⟨rfl, ?_⟩
      simp only
      rw [Verif.Props.Transforms.forward_inverse t hdet (q.1, q.2) p hi]
      rfl
  · intro g p hp o
    simp only at hp ⊢
    cases hf : t.forward (g.longitude, g.latitude) with
    | none => rw [hf] at hp; cases hp
    | some q =>
      rw [hf] at hp
      have : q = p := by simpa [finite] using hp
      subst this
      rw [Verif.Props.Transforms.inverse_forward t hdet _ q hf]
      rfl
  · intro p e o
    simp only [withElevation]
    cases t.inverse p with
    | none => rfl
    | some q => rfl

/-- **C74**: and when the ground control points fit some projective map exactly, the model
places every control point on its pixel. -/
theorem projective_model_through_gcps (lstsq : List (Row K) → Projective K) (hl : ∀ rows, IsLstsq rows (lstsq rows))
    (world : List (Geo K)) (image : List (K × K)) (m : SensorModel K O) (hm : projective lstsq world image = .ok m)
    (t0 : Projective K) (hdet : t0.det ≠ 0)
    (hmap : ∀ p ∈ (world.map (fun g => (g.longitude, g.latitude))).zip image, t0.forward p.1 = some p.2)
    (hgp : GeneralPosition (world.map (fun g => (g.longitude, g.latitude)))) :
    ∀ i (hi : i < world.length) (hi' : i < image.length), m.worldToImage world[i] = .ok image[i] := by
  unfold projective estimateStacked at hm
  split_ifs at hm with hbad
  push Not at hbad
  simp only [Except.ok.injEq] at hm
  subst hm
  have hlen : world.length = image.length := by simpa using hbad.2.2
  have hfst : ((world.map (fun g => (g.longitude, g.latitude))).zip image).map Prod.fst
      = world.map (fun g => (g.longitude, g.latitude)) := by
    apply List.map_fst_zip
    simp [hlen]
  have hest := Verif.Props.Transforms.estimate_recovers lstsq t0 hdet _ (hl _) hmap (by rw [hfst]; exact hgp)
  intro i hi hi'
  simp only
  rw [hest]
  have hmem : ((world[i].longitude, world[i].latitude), image[i]) ∈ (world.map (fun g => (g.longitude, g.latitude))).zip image := by
    rw [List.mem_iff_getElem]
    exact ⟨i, by simp; omega, by simp⟩
  rw [hmap _ hmem]
  rfl

/-- **C116**: the projective model does not depend on the order of its control points: permuted together, the two lists give the same model. -/
theorem projective_order_irrelevant (lstsq : List (Row K) → Projective K) (hl : ∀ rows, IsLstsq rows (lstsq rows))
    (points points' : List (Geo K × (K × K))) (h : points.Perm points') :
    projective (O := O) lstsq (points.map Prod.fst) (points.map Prod.snd) = projective lstsq (points'.map Prod.fst) (points'.map Prod.snd) := by
  have key : ∀ l : List (Geo K × (K × K)), estimateStacked lstsq ((l.map Prod.fst).map (fun g => (g.longitude, g.latitude))) (l.map Prod.snd)
      = if l = [] then .error .valueError else .ok (estimate lstsq (l.map (fun p => ((p.1.longitude, p.1.latitude), p.2)))) := by
    intro l
    unfold estimateStacked
    rw [List.map_map, List.zip_map']
    by_cases hl : l = []
    · subst hl; rfl
    · rw [if_neg hl, if_neg (by simp [hl])]
      rfl
  unfold projective
  rw [key, key, Verif.Props.Transforms.estimate_order_irrelevant lstsq hl _ _ (h.map _)]
  have : points = [] ↔ points' = [] := ⟨fun e => (e ▸ h).nil_eq.symm, fun e => (e ▸ h).eq_nil⟩
  simp only [this]

/-- With the solver that exists, at concrete rectangles and control points. -/
example (full : SensorModel ℚ Unit) : ∃ lstsq : List (Row ℚ) → Projective ℚ, (∀ rows, IsLstsq rows (lstsq rows)) ∧
    (∃ m, chipped lstsq (corners 3 4 10 20) (corners 0 0 10 20) full = .ok m ∧
      m.imageToWorld (1, 2) none none = full.imageToWorld (4, 6) none none) ∧
    (∃ m, chipped lstsq (corners 3 4 10 20) (corners 0 0 5 5) full = .ok m ∧
      m.imageToWorld (1, 2) none none = full.imageToWorld (5, 12) none none) ∧
    (∃ m m', chipped lstsq (corners 3 4 10 20) (corners 0 0 10 20) full = .ok m ∧ chipped lstsq (corners 1 1 2 2) (corners 0 0 2 2) m = .ok m' ∧
      m'.imageToWorld (1, 1) none none = full.imageToWorld (5, 6) none none) := by
  obtain ⟨f, hf, -⟩ := lstsq_function (K := ℚ)
  refine ⟨f, hf, ?_, ?_, ?_⟩
  · obtain ⟨m, h1, h2, -⟩ := crop_model_is_shifted_model f hf full 3 4 10 20 (by norm_num) (by norm_num)
    exact ⟨m, h1, by rw [h2]; norm_num⟩
  · obtain ⟨m, h1, h2, -⟩ := chipped_model_is_full_model f hf full 3 4 10 20 0 0 5 5 (by norm_num) (by norm_num) (by norm_num) (by norm_num)
    exact ⟨m, h1, by rw [h2]; norm_num⟩
  · obtain ⟨m, m', h1, h2, h3, -⟩ := crop_of_crop f hf full 3 4 10 20 1 1 2 2 (by norm_num) (by norm_num) (by norm_num) (by norm_num)
    exact ⟨m, m', h1, h2, by rw [h3]; norm_num⟩

/-- Four control points on a map: the model exists, puts them on their pixels, and its transform is invertible. -/
example : ∃ (lstsq : List (Row ℚ) → Projective ℚ) (m : SensorModel ℚ Unit), (∀ rows, IsLstsq rows (lstsq rows)) ∧
    projective lstsq [⟨3, 4, 7⟩, ⟨13, 4, 7⟩, ⟨13, 24, 7⟩, ⟨3, 24, 7⟩] [(0, 0), (10, 0), (10, 20), (0, 20)] = .ok m ∧
    (estimate lstsq Verif.Props.Transforms.cropCorners).det ≠ 0 ∧
    m.worldToImage ⟨13, 24, 7⟩ = .ok (10, 20) ∧ m.imageToWorld (10, 20) none none = .ok ⟨13, 24, 0⟩ := by
  obtain ⟨f, hf, -⟩ := lstsq_function (K := ℚ)
  have hgp : GeneralPosition ([⟨3, 4, 7⟩, ⟨13, 4, 7⟩, ⟨13, 24, 7⟩, ⟨3, 24, 7⟩].map (fun g : Geo ℚ => (g.longitude, g.latitude))) :=
    ⟨(3, 4), by decide, (13, 4), by decide, (13, 24), by decide, (3, 24), by decide, by norm_num [area], by norm_num [area],
      by norm_num [area], by norm_num [area]⟩
  have hdet : (estimate f Verif.Props.Transforms.cropCorners).det ≠ 0 := by
    rw [Verif.Props.Transforms.estimate_recovers f ⟨-3, 1, 0, -4, 0, 1, 0, 0⟩ (by norm_num [Projective.det]) Verif.Props.Transforms.cropCorners (hf _) (by decide +kernel) hgp]
    norm_num [Projective.det]
  refine ⟨f, _, hf, rfl, hdet, ?_⟩
  have h := projective_model_through_gcps (O := Unit) f hf [⟨3, 4, 7⟩, ⟨13, 4, 7⟩, ⟨13, 24, 7⟩, ⟨3, 24, 7⟩] [(0, 0), (10, 0), (10, 20), (0, 20)] _ rfl
    ⟨-3, 1, 0, -4, 0, 1, 0, 0⟩ (by norm_num [Projective.det]) (by decide +kernel) hgp 2 (by decide) (by decide)
  exact ⟨h, (projective_model (O := Unit) f [⟨3, 4, 7⟩, ⟨13, 4, 7⟩, ⟨13, 24, 7⟩, ⟨3, 24, 7⟩] [(0, 0), (10, 0), (10, 20), (0, 20)] _ rfl hdet).2.2.1 _ _ h none⟩

/-! ### C28 -/

/-- **C28**: the constructor raises `ValueError` exactly for a singular geo transform. -/
theorem affine_singular_iff (an : Angles K) (g0 g1 g2 g3 g4 g5 : K) (rest : List K) (crs : Option (Crs K)) :
    (gdalAffine (O := O) an (g0 :: g1 :: g2 :: g3 :: g4 :: g5 :: rest) crs = .error .valueError ↔ g1 * g5 - g2 * g4 = 0) ∧
    (g1 * g5 - g2 * g4 ≠ 0 → ∃ m, gdalAffine (O := O) an (g0 :: g1 :: g2 :: g3 :: g4 :: g5 :: rest) crs = .ok m) := by
  unfold gdalAffine affineMatrix Affine.inv
  simp only
  by_cases h : g1 * g5 - g2 * g4 = 0
  · simp [h]
  · simp [h]

/-- **C28**: where a pixel is.  Pixel `(c, r)` is at `x = g0 + c·g1 + r·g2`, `y = g3 + c·g4 + r·g5` (GDAL's
definition of the geo transform); without a CRS these are degrees, with a CRS its transform gives them.  The
answer has longitude first and height zero, unless there is an elevation model. -/
theorem affine_position (an : Angles K) (g0 g1 g2 g3 g4 g5 : K) (rest : List K) (crs : Option (Crs K)) (m : SensorModel K O)
    (hm : gdalAffine an (g0 :: g1 :: g2 :: g3 :: g4 :: g5 :: rest) crs = .ok m) (c r : K) (e : Option (Elev K)) (o : Option O) :
    (crs = none → m.imageToWorld (c, r) e o =
      withElevation e ⟨an.rad (g0 + c * g1 + r * g2), an.rad (g3 + c * g4 + r * g5), 0⟩) ∧
    (∀ t lon lat z, crs = some t → t.fwd (g0 + c * g1 + r * g2, g3 + c * g4 + r * g5, 1) = .ok (lon, lat, z) →
      m.imageToWorld (c, r) e o = withElevation e ⟨an.rad lon, an.rad lat, 0⟩) ∧
    (∀ t f, crs = some t → t.fwd (g0 + c * g1 + r * g2, g3 + c * g4 + r * g5, 1) = .error f →
      m.imageToWorld (c, r) e o = .error f) := by
  unfold gdalAffine affineMatrix at hm
  simp only at hm
  set a : Affine K := ⟨g1, g2, g0, g4, g5, g3⟩ with ha
  have e1 : g1 * c + g2 * r + g0 * 1 = g0 + c * g1 + r * g2 := by ring
  have e2 : g4 * c + g5 * r + g3 * 1 = g3 + c * g4 + r * g5 := by ring
  rcases hi : a.inv with er | i
  · rw [hi] at hm
    cases er <;> simp at hm
  · rw [hi] at hm
    simp only [Except.ok.injEq] at hm
    subst hm
    refine ⟨?_, ?_, ?_⟩
    · rintro rfl
      simp only [bind, Except.bind, Affine.apply, ha, e1, e2]
    · rintro t lon lat z rfl ht
      simp only [bind, Except.bind, Affine.apply, ha, e1, e2, ht]
    · rintro t f rfl ht
      simp only [bind, Except.bind, Affine.apply, ha, e1, e2, ht]

/-- A map with cells of 2 by 3 whose projection fails west of 0. -/
example (m : SensorModel ℚ O)
    (hm : gdalAffine ⟨fun x => 2 * x, fun x => x / 2⟩ [100, 2, 0, 50, 0, -3]
      (some ⟨fun p => if p.1 < 0 then .error .notFinite else .ok (p.1 + 1, p.2.1, p.2.2), fun p => .ok p⟩) = .ok m) (o : Option O) :
    m.imageToWorld (3, 4) none o = withElevation none ⟨53 + 1 / 2, 19, 0⟩ ∧ m.imageToWorld (-60, 4) none o = .error .notFinite := by
  constructor
  · rw [(affine_position (K := ℚ) _ 100 2 0 50 0 (-3) [] _ m hm 3 4 none o).2.1 _ 107 38 1 rfl (by norm_num)]; norm_num
  · exact (affine_position (K := ℚ) _ 100 2 0 50 0 (-3) [] _ m hm (-60) 4 none o).2.2 _ _ rfl (by norm_num)

/-- A CRS transform whose directions undo each other on points of height 1 and keep that
height; `keeps` says so for one point of each side. -/
structure GoodCrs (c : Crs K) : Prop where
  fwd : ∀ x y a b z, c.fwd (x, y, 1) = .ok (a, b, z) → z = 1 ∧ c.inv (a, b, 1) = .ok (x, y, 1)
  inv : ∀ a b x y z, c.inv (a, b, 1) = .ok (x, y, z) → z = 1 ∧ c.fwd (x, y, 1) = .ok (a, b, 1)

theorem affine_inv_apply {m i : Affine K} (h : m.inv = .ok i) (x y : K) :
    i.apply (m.apply x y 1).1 (m.apply x y 1).2 1 = (x, y) ∧ m.apply (i.apply x y 1).1 (i.apply x y 1).2 1 = (x, y) := by
  unfold Affine.inv at h
  simp only at h
  split_ifs at h with hd
  simp only [Except.ok.injEq] at h
  subst h
  unfold Affine.apply
  generalize hdef : m.m00 * m.m11 - m.m01 * m.m10 = d at hd
  simp only [Prod.mk.injEq]
  refine ⟨⟨?_, ?_⟩, ⟨?_, ?_⟩⟩ <;> field_simp <;> rw [← hdef] <;> ring

/-- **C28**: the two directions undo each other, with or without a CRS transform. -/
theorem affine_round_trip (an : Angles K) (h1 : ∀ x, an.deg (an.rad x) = x) (h2 : ∀ x, an.rad (an.deg x) = x)
    (geo : List K) (crs : Option (Crs K)) (hcrs : ∀ c, crs = some c → GoodCrs c) (m : SensorModel K O)
    (hm : gdalAffine an geo crs = .ok m) :
    (∀ p o g, m.imageToWorld p none o = .ok g → g.elevation = 0 ∧ m.worldToImage g = .ok p) ∧
    (∀ g p, m.worldToImage g = .ok p → ∀ o, m.imageToWorld p none o = .ok { g with elevation := 0 }) ∧
    (∀ p e o, m.imageToWorld p (some e) o = (m.imageToWorld p none o).bind e) := by
  unfold gdalAffine at hm
  cases hmat : affineMatrix geo with
  | error e => rw [hmat] at hm; cases hm
  | ok mi =>
    obtain ⟨a, i⟩ := mi
    rw [hmat] at hm
    simp only [Except.ok.injEq] at hm
    have hinv : a.inv = .ok i := by
      unfold affineMatrix at hmat
      split at hmat
      · simp only at hmat
        split at hmat
        · cases hmat
        · cases hmat
        · rename_i hi
          simp only [Except.ok.injEq, Prod.mk.injEq] at hmat
          obtain ⟨rfl, rfl⟩ := hmat
          exact hi
      · cases hmat
    have r1 := fun x y => (affine_inv_apply hinv x y).1
    have r2 := fun x y => (affine_inv_apply hinv x y).2
    subst hm
    cases crs with
    | none =>
      refine ⟨?_, ?_, ?_⟩
      · intro p o g hg
        simp only [withElevation, bind, Except.bind, Except.ok.injEq] at hg
        subst hg
        refine ⟨rfl, ?_⟩
        simp only [bind, Except.bind, h1, pure, Except.pure]
        rw [r1 p.1 p.2]
      · intro g p hp o
        simp only [bind, Except.bind, pure, Except.pure, Except.ok.injEq] at hp
        subst hp
        simp only [withElevation, bind, Except.bind]
        rw [r2]
        simp only [h2]
      · intro p e o
        rfl
    | some c =>
      have hc := hcrs c rfl
      refine ⟨?_, ?_, ?_⟩
      · intro p o g hg
        simp only [bind, Except.bind] at hg
        rcases hf : c.fwd ((a.apply p.1 p.2 1).1, (a.apply p.1 p.2 1).2, 1) with f | ⟨lon, lat, z⟩
        · rw [hf] at hg; cases hg
        · rw [hf] at hg
          simp only [withElevation, Except.ok.injEq] at hg
          subst hg
          obtain ⟨-, hi⟩ := hc.fwd _ _ _ _ _ hf
          refine ⟨rfl, ?_⟩
          simp only [bind, Except.bind, h1, hi, pure, Except.pure]
          rw [r1 p.1 p.2]
      · intro g p hp o
        simp only [bind, Except.bind] at hp
        rcases hf : c.inv (an.deg g.longitude, an.deg g.latitude, 1) with f | ⟨x, y, z⟩
        · rw [hf] at hp; cases hp
        · rw [hf] at hp
          simp only [pure, Except.pure, Except.ok.injEq] at hp
          obtain ⟨hz, hi⟩ := hc.inv _ _ _ _ _ hf
          subst hz
          subst hp
          simp only [bind, Except.bind]
          rw [r2]
          simp only [hi, withElevation, h2]
      · intro p e o
        simp only [bind, Except.bind]
        cases c.fwd ((a.apply p.1 p.2 1).1, (a.apply p.1 p.2 1).2, 1) <;> rfl

/-- **C28** (limit): the height is used as the homogeneous coordinate, so with a CRS transform
whose inverse turns height 1 into height `z` the pixel is off by `z - 1` times the image of
the CRS origin. -/
theorem affine_height_offset (an : Angles K) (geo : List K) (c : Crs K) (m : SensorModel K O)
    (hm : gdalAffine an geo (some c) = .ok m) (a i : Affine K) (hai : affineMatrix geo = .ok (a, i))
    (g : Geo K) (x y z : K) (hc : c.inv (an.deg g.longitude, an.deg g.latitude, 1) = .ok (x, y, z)) :
    m.worldToImage g = .ok ((i.apply x y 1).1 + (z - 1) * (i.apply 0 0 1).1, (i.apply x y 1).2 + (z - 1) * (i.apply 0 0 1).2) := by
  unfold gdalAffine at hm
  rw [hai] at hm
  simp only [Except.ok.injEq] at hm
  subst hm
  simp only [bind, Except.bind, hc, pure, Except.pure, Except.ok.injEq, Affine.apply, Prod.mk.injEq]
  constructor <;> ring

end

example : ∃ m, gdalAffine (O := Unit) (K := ℚ) ⟨id, id⟩ [100, 2, 0, 50, 0, -2] none = .ok m ∧
    m.imageToWorld (3, 4) none none = .ok ⟨106, 42, 0⟩ ∧ m.worldToImage ⟨106, 42, 9⟩ = .ok (3, 4) :=
  ⟨match gdalAffine (O := Unit) (K := ℚ) ⟨id, id⟩ [100, 2, 0, 50, 0, -2] none with
    | .ok m => m
    | .error _ => ⟨fun _ _ _ => .error .notFinite, fun _ => .error .notFinite⟩, by
    obtain ⟨m, hm⟩ := (affine_singular_iff (K := ℚ) (O := Unit) ⟨id, id⟩ 100 2 0 50 0 (-2) [] none).2 (by norm_num)
    rw [hm], by decide +kernel, by decide +kernel⟩

example : GoodCrs (K := ℚ) ⟨fun p => .ok (p.1 + 1, p.2.1, p.2.2), fun p => .ok (p.1 - 1, p.2.1, p.2.2)⟩ := by
  constructor
  · intro x y a b z h
    simp only [Except.ok.injEq, Prod.mk.injEq] at h
    obtain ⟨rfl, rfl, rfl⟩ := h
    exact ⟨rfl, by simp⟩
  · intro a b x y z h
    simp only [Except.ok.injEq, Prod.mk.injEq] at h
    obtain ⟨rfl, rfl, rfl⟩ := h
    exact ⟨rfl, by simp⟩

/-! ### C34 -/

section
variable {K : Type}

theorem put_getElem (h : Heap K) (r i : Nat) (key : String) (v : OptVal K) :
    (h.put r key v)[i]? = if r = i then (h[i]?).map (fun d => fun k => if k = key then some v else d k) else h[i]? := by
  unfold Heap.put
  rw [List.getElem?_modify]
  split_ifs <;> simp

/-- **C34**: `world_to_image` is that of the precision model. -/
theorem composite_world_to_image (r : K) (approximate precision : HeapModel K) (g : Geo K) :
    (composite r approximate precision).worldToImage g = precision.worldToImage g := rfl

/-- **C34**: when the approximate model answers `g`, the answer is the one of the precision model,
called with a new options object.  That object holds the approximate longitude and latitude
as initial guess, the fixed search distance, and otherwise what the caller's options hold;
all options objects that existed before (the caller's one in particular) are as the
approximate model left them. -/
theorem composite_image_to_world (r : K) (approximate precision : HeapModel K) (p : K × K) (e : Option (Elev K))
    (options : Option Nat) (h h1 : Heap K) (g : Geo K)
    (ha : approximate.imageToWorld p e options h = (.ok g, h1)) (hvalid : ∀ o, options = some o → o < h1.length) :
    ∃ ref h2, (composite r approximate precision).imageToWorld p e options h = precision.imageToWorld p e (some ref) h2 ∧
      (∀ i, i < h1.length → h2[i]? = h1[i]?) ∧ h1.length ≤ ref ∧
      ∃ d, h2[ref]? = some d ∧ d "initial_guess" = some (.pair g.longitude g.latitude) ∧
        d "initial_search_distance" = some (.num r) ∧
        ∀ key, key ≠ "initial_guess" → key ≠ "initial_search_distance" →
          d key = options.elim none (fun o => (h1[o]?).bind (fun d => d key)) := by
  have hcopy : ∃ d0 : Dict K, (∀ key, d0 key = options.elim none (fun o => (h1[o]?).bind (fun d => d key))) ∧
      updatedOptions r g options h1 = some (h1.length,
      ((h1 ++ [d0]).put h1.length "initial_guess" (.pair g.longitude g.latitude)).put h1.length "initial_search_distance" (.num r)) := by
    clear ha
    cases options with
    | none => exact ⟨fun _ => none, fun _ => rfl, rfl⟩
    | some o =>
      have := hvalid o rfl
      refine ⟨h1[o], by simp [this], ?_⟩
      unfold updatedOptions
      simp [this]
  obtain ⟨d0, hd0k, hup⟩ := hcopy
  refine ⟨h1.length, ((h1 ++ [d0]).put h1.length "initial_guess" (.pair g.longitude g.latitude)).put h1.length
    "initial_search_distance" (.num r), ?_, ?_, le_refl _, ?_⟩
  · simp only [composite, ha, hup]
  · intro i hi
    rw [put_getElem, put_getElem, if_neg (by omega), if_neg (by omega), List.getElem?_append_left hi]
  · refine ⟨fun k => if k = "initial_search_distance" then some (.num r) else
      if k = "initial_guess" then some (.pair g.longitude g.latitude) else d0 k, ?_, ?_, ?_, ?_⟩
    · rw [put_getElem, put_getElem, if_pos rfl, if_pos rfl]
      simp
    · simp
    · simp
    · intro key k1 k2
      simp only [if_neg k1, if_neg k2]
      exact hd0k key

/-- With the options of the caller in place 0 of the heap; the first model answers with the pixel. -/
example (precision : HeapModel ℚ) : ∃ ref h2, (composite 5 ⟨fun p _ _ h => (.ok ⟨p.1, p.2, 0⟩, h), fun _ => .error .notFinite⟩ precision).imageToWorld
      (1, 2) none (some 0) [fun k => if k = "max_iterations" then some (.num 3) else none] = precision.imageToWorld (1, 2) none (some ref) h2 ∧
    ∃ d, h2[ref]? = some d ∧ d "initial_guess" = some (.pair 1 2) ∧ d "max_iterations" = some (.num 3) := by
  obtain ⟨ref, h2, h, -, -, d, hd, hg, -, hk⟩ := composite_image_to_world (5 : ℚ)
    ⟨fun p _ _ h => (.ok ⟨p.1, p.2, 0⟩, h), fun _ => .error .notFinite⟩ precision (1, 2) none (some 0)
    [fun k => if k = "max_iterations" then some (.num 3) else none] _ ⟨1, 2, 0⟩ rfl (by simp)
  refine ⟨ref, h2, h, d, hd, hg, ?_⟩
  rw [hk _ (by decide) (by decide)]
  rfl

/-- **C34**: when the approximate model raises, the composite model raises the same. -/
theorem composite_approximate_raises (r : K) (approximate precision : HeapModel K) (p : K × K) (e : Option (Elev K))
    (options : Option Nat) (h h1 : Heap K) (f : Fail)
    (ha : approximate.imageToWorld p e options h = (.error f, h1)) :
    (composite r approximate precision).imageToWorld p e options h = (.error f, h1) := by
  simp only [composite, ha]

/-- A model that answers with the pixel and its options' initial guess. -/
example : ∃ a b : HeapModel ℚ, ∃ g, a.imageToWorld (1, 2) none (some 0) [fun _ => none] = (.ok g, [fun _ => none]) ∧
    (b.worldToImage g).isOk :=
  ⟨⟨fun p _ _ h => (.ok ⟨p.1, p.2, 0⟩, h), fun _ => .error .notFinite⟩, ⟨fun p _ _ h => (.ok ⟨p.1, p.2, 7⟩, h), fun g => .ok (g.longitude, g.latitude)⟩,
    ⟨1, 2, 0⟩, rfl, rfl⟩

end

end Verif.Props.Sensors
