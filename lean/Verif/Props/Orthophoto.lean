import Verif.Model.Orthophoto
import Verif.Props.TileFactory
import Verif.Props.Coordinates
import Verif.Props.Tre
import Mathlib.Tactic.FinCases

/-!
# Theorems about orthophoto tiles from end to end
-/

namespace Verif.Props.Orthophoto

open Verif.Orthophoto Verif.TileFactory Verif.GdalUtils Verif.Updaters
open Verif.Props.Tre (bind_ok pure_ok mapM_ok)
open Verif.Props.TileFactory

/-! ## The corners of a NITF tile (C95) -/

/-- The corners of a window, clockwise from the upper left. -/
def corner (w : Window) : Fin 4 → ℚ × ℚ
  | 0 => (w.x, w.y)
  | 1 => ((w.x + w.w : Int), w.y)
  | 2 => ((w.x + w.w : Int), (w.y + w.h : Int))
  | 3 => (w.x, (w.y + w.h : Int))

/-- **C95**: the corner field of a tile has 60 characters; its four groups of fifteen have the form ddmmssXdddmmssY and denote, to a second,
the ground locations of the corners of the window, clockwise from the upper left. -/
theorem igeolo_denotes_corners (A : Verif.Coordinates.Arith) (toWorld : ℚ × ℚ → Except PyErr (ℚ × ℚ × ℚ)) (w : Window) (s : List Char)
    (h : createNewIgeolo A toWorld w = .ok s)
    (hglobe : ∀ k g, toWorld (corner w k) = .ok g → Verif.Props.Coordinates.OnGlobe A ⟨g.1, g.2.1, g.2.2⟩) :
    s.length = 60 ∧ ∀ k : Fin 4, ∃ g, toWorld (corner w k) = .ok g ∧
      Verif.Spec.Coordinates.DmsShape ((s.drop (15 * k.val)).take 15) ∧
      |(Verif.Spec.Coordinates.readDms ((s.drop (15 * k.val)).take 15)).1 - A.deg g.2.1| ≤ 1 / 3600 + 6 / 10000000 ∧
      |(Verif.Spec.Coordinates.readDms ((s.drop (15 * k.val)).take 15)).2 - A.deg g.1| ≤ 1 / 3600 + 6 / 10000000 := by
  unfold createNewIgeolo at h
  rw [bind_ok] at h
  obtain ⟨cs, hcs, hs⟩ := h
  rw [pure_ok] at hs
  rw [mapM_ok] at hcs
  have hw : igeoloCorners w = [corner w 0, corner w 1, corner w 2, corner w 3] := by
    unfold igeoloCorners corner
    push_cast
    rfl
  rw [hw] at hcs
  have key : ∀ k d, (do let g ← toWorld (corner w k); pure (Verif.Coordinates.toDmsString A ⟨g.1, g.2.1, g.2.2⟩) : Except PyErr (List Char)) = .ok d →
      ∃ g, toWorld (corner w k) = .ok g ∧ Verif.Spec.Coordinates.DmsShape d ∧ d.length = 15 ∧
      |(Verif.Spec.Coordinates.readDms d).1 - A.deg g.2.1| ≤ 1 / 3600 + 6 / 10000000 ∧
      |(Verif.Spec.Coordinates.readDms d).2 - A.deg g.1| ≤ 1 / 3600 + 6 / 10000000 := by
    intro k d hd
    rw [bind_ok] at hd
    obtain ⟨g, hg, hd⟩ := hd
    rw [pure_ok] at hd
    subst hd
    have ho := hglobe k g hg
    have h1 := Verif.Props.Coordinates.dms_string_shape A _ ho
    have h2 := Verif.Props.Coordinates.dms_string_denotes_coordinate A _ ho
    exact ⟨g, hg, h1.1, h1.2, h2.1, h2.2⟩
  cases hcs with
  | cons h0 t0 =>
    cases t0 with
    | cons h1 t1 =>
      cases t1 with
      | cons h2 t2 =>
        cases t2 with
        | cons h3 t3 =>
          cases t3
          rename_i d0 d1 d2 d3
          obtain ⟨g0, hg0, hs0, l0, r0⟩ := key 0 _ h0
          obtain ⟨g1, hg1, hs1, l1, r1⟩ := key 1 _ h1
          obtain ⟨g2, hg2, hs2, l2, r2⟩ := key 2 _ h2
          obtain ⟨g3, hg3, hs3, l3, r3⟩ := key 3 _ h3
          have hs' : s = d0 ++ (d1 ++ (d2 ++ d3)) := by
            rw [← hs]; simp
          refine ⟨by rw [hs']; simp [l0, l1, l2, l3], ?_⟩
          have e0 : (s.drop (15 * (0 : Fin 4).val)).take 15 = d0 := by
            rw [hs']; exact List.take_left' l0
          have e1 : (s.drop (15 * (1 : Fin 4).val)).take 15 = d1 := by
            rw [hs']
            show ((d0 ++ (d1 ++ (d2 ++ d3))).drop 15).take 15 = d1
            rw [List.drop_left' l0]; exact List.take_left' l1
          have e2 : (s.drop (15 * (2 : Fin 4).val)).take 15 = d2 := by
            rw [hs']
            show ((d0 ++ (d1 ++ (d2 ++ d3))).drop (15 + 15)).take 15 = d2
            rw [← List.drop_drop, List.drop_left' l0, List.drop_left' l1]; exact List.take_left' l2
          have e3 : (s.drop (15 * (3 : Fin 4).val)).take 15 = d3 := by
            rw [hs']
            show ((d0 ++ (d1 ++ (d2 ++ d3))).drop (15 + 15 + 15)).take 15 = d3
            rw [← List.drop_drop, ← List.drop_drop, List.drop_left' l0, List.drop_left' l1, List.drop_left' l2, ← l3, List.take_length]
          intro k
          fin_cases k
          · exact ⟨g0, hg0, by rw [show (⟨0, by omega⟩ : Fin 4) = 0 from rfl]; rw [e0]; exact ⟨hs0, r0⟩⟩
          · exact ⟨g1, hg1, by rw [show (⟨1, by omega⟩ : Fin 4) = 1 from rfl]; rw [e1]; exact ⟨hs1, r1⟩⟩
          · exact ⟨g2, hg2, by rw [show (⟨2, by omega⟩ : Fin 4) = 2 from rfl]; rw [e2]; exact ⟨hs2, r2⟩⟩
          · exact ⟨g3, hg3, by rw [show (⟨3, by omega⟩ : Fin 4) = 3 from rfl]; rw [e3]; exact ⟨hs3, r3⟩⟩

/-- **C95**: an error of the sensor model at any corner is passed on; otherwise there is a corner field. -/
theorem igeolo_error_iff (A : Verif.Coordinates.Arith) (toWorld : ℚ × ℚ → Except PyErr (ℚ × ℚ × ℚ)) (w : Window) :
    (∃ s, createNewIgeolo A toWorld w = .ok s) ↔ ∀ k, ∃ g, toWorld (corner w k) = .ok g := by
  have hw : igeoloCorners w = [corner w 0, corner w 1, corner w 2, corner w 3] := by
    unfold igeoloCorners corner
    push_cast
    rfl
  unfold createNewIgeolo
  rw [hw]
  simp only [List.mapM_cons, List.mapM_nil]
  constructor
  · rintro ⟨s, hs⟩
    simp only [bind_ok, pure_ok] at hs
    obtain ⟨_, ⟨_, ⟨g0, h0, _⟩, _, ⟨_, ⟨g1, h1, _⟩, _, ⟨_, ⟨g2, h2, _⟩, _, ⟨_, ⟨g3, h3, _⟩, _⟩, _⟩, _⟩, _⟩, _⟩ := hs
    intro k
    fin_cases k
    · exact ⟨g0, h0⟩
    · exact ⟨g1, h1⟩
    · exact ⟨g2, h2⟩
    · exact ⟨g3, h3⟩
  · intro h
    obtain ⟨g0, h0⟩ := h 0
    obtain ⟨g1, h1⟩ := h 1
    obtain ⟨g2, h2⟩ := h 2
    obtain ⟨g3, h3⟩ := h 3
    rw [h0, h1, h2, h3]
    exact ⟨_, rfl⟩

/-- Premises: a sensor model that gives degrees of a tenth of the pixel position. -/
example : (createNewIgeolo (Verif.Coordinates.ieee (fun _ => [])) (fun p => .ok (Verif.Float64.radians (Verif.Float64.rne64 (p.1 / 8)), Verif.Float64.radians (Verif.Float64.rne64 (p.2 / 8)), 0)) ⟨100, 200, 64, 32⟩).toOption =
    some "250000N0123000E250000N0203000E290000N0203000E290000N0123000E".toList := by
  decide +kernel

/-! ## Display (C96) -/

/-- The adjustment of a band: a stretch between limits taken from the statistics of that band, or else from the values `ps` that were read. -/
def Adjusted (adj : Adjust) (R : Raster) (band : Nat) (ps : List ℚ) (f : ℚ → Int) : Prop :=
  ∃ lo hi, IsLimit (R.gmin band) ps (· ≤ ·) lo ∧ IsLimit (R.gmax band) ps (· ≥ ·) hi ∧
    ((adj = .minmax ∧ ∀ p, f p = ⌊min (max ((p - lo) * (255 / max hi 1)) 0) 255⌋) ∨
     (adj = .dra ∧ ∃ (n : Int) (d : Verif.DRA.DRAParameters ℚ), 256 ≤ n ∧
        Verif.DRA.fromCounts (R.hist band n lo hi) (some lo) (some hi) (2 / 100) (97 / 100) (2 / 10) (4 / 10) = .ok d ∧
        ∀ p, f p = ⌊min (max (255 * (p - d.suggestedMin) / max (d.suggestedMax - d.suggestedMin) 1) 0) 255⌋))

theorem adjuster_spec (adj : Adjust) (hadj : adj = .minmax ∨ adj = .dra) (R : Raster) (band : Nat) (ps : List ℚ) (f : ℚ → Int)
    (h : adjuster adj R band ps = .ok f) : Adjusted adj R band ps f := by
  unfold adjuster at h
  rw [bind_ok] at h
  obtain ⟨l, hl, h⟩ := h
  obtain ⟨h1, h2⟩ := limits_spec _ _ _ _ hl
  refine ⟨l.1, l.2, h1, h2, ?_⟩
  rcases hadj with rfl | rfl
  · left
    simp only [pure_ok] at h
    subst h
    exact ⟨rfl, fun p => rfl⟩
  · right
    simp only [bind_ok, pure_ok] at h
    obtain ⟨d, hd, h⟩ := h
    subst h
    exact ⟨rfl, _, d, le_max_left _ _, hd, fun p => rfl⟩

/-- The steps of `TileFactory` for one band are these functions applied to the values. -/
theorem adjuster_is_normalize (R : Raster) (band : Nat) (ps : List ℚ) (out : List Int) :
    (normalizeMinmax (R.gmin band) (R.gmax band) ps = .ok out ↔ ∃ f, adjuster .minmax R band ps = .ok f ∧ out = ps.map f) ∧
    (normalizeDra (R.gmin band) (R.gmax band) (R.hist band) ps = .ok out ↔ ∃ f, adjuster .dra R band ps = .ok f ∧ out = ps.map f) := by
  unfold normalizeMinmax normalizeDra adjuster
  simp only [bind_ok, pure_ok]
  constructor
  · constructor
    · rintro ⟨l, hl, h⟩; exact ⟨_, ⟨l, hl, rfl⟩, h.symm⟩
    · rintro ⟨f, ⟨l, hl, h⟩, h'⟩; exact ⟨l, hl, by rw [h', ← h]⟩
  · constructor
    · rintro ⟨l, hl, d, hd, h⟩; exact ⟨_, ⟨l, hl, d, hd, rfl⟩, h.symm⟩
    · rintro ⟨f, ⟨l, hl, d, hd, h⟩, h'⟩; exact ⟨l, hl, d, hd, by rw [h', ← h]⟩

theorem adjustBand_spec (adj : Adjust) (hadj : adj = .minmax ∨ adj = .dra) (R : Raster) (w h band : Nat) (c c' : Channel)
    (hc : adjustBand adj R w h band c = .ok c') :
    ∃ f, Adjusted adj R band (values w h c) f ∧ c' = fun row col => f (c row col) := by
  unfold adjustBand at hc
  rw [bind_ok] at hc
  obtain ⟨f, hf, hc⟩ := hc
  rw [pure_ok] at hc
  exact ⟨f, adjuster_spec adj hadj R band _ f hf, hc.symm⟩

/-- **C96**: which channels are shown.  Without adjustment all bands, reduced to their low byte.  With adjustment: the band of a grey image, the combination of the two bands
of a complex image, and the first three bands of all others; every band is adjusted with its own statistics. -/
theorem displayed_channels (adj : Adjust) (R : Raster) (sar : Channel → Channel → Except PyErr Channel) (w h : Nat) (cs out : List Channel)
    (hd : display adj R sar w h cs = .ok out) :
    (adj ≠ .minmax → adj ≠ .dra → out = cs.map (fun c row col => c row col % 256)) ∧
    (adj = .minmax ∨ adj = .dra →
      (∀ c, cs = [c] → ∃ f, Adjusted adj R 1 (values w h c) f ∧ out = [fun row col => f (c row col)]) ∧
      (∀ a b, cs = [a, b] → ∃ s, sar a b = .ok s ∧ out = [s]) ∧
      (∀ a b c rest, cs = a :: b :: c :: rest → ∃ f g k, Adjusted adj R 1 (values w h a) f ∧ Adjusted adj R 2 (values w h b) g ∧ Adjusted adj R 3 (values w h c) k ∧
        out = [fun row col => f (a row col), fun row col => g (b row col), fun row col => k (c row col)])) := by
  unfold display at hd
  constructor
  · intro h1 h2
    rw [if_pos ⟨h2, h1⟩] at hd
    injection hd with hd
    exact hd.symm
  · intro hadj
    rw [if_neg (by rcases hadj with rfl | rfl <;> simp)] at hd
    refine ⟨?_, ?_, ?_⟩
    · rintro c rfl
      simp only [bind_ok, pure_ok] at hd
      obtain ⟨c', hc, rfl⟩ := hd
      obtain ⟨f, hf, rfl⟩ := adjustBand_spec adj hadj R w h 1 c c' hc
      exact ⟨f, hf, rfl⟩
    · rintro a b rfl
      simp only [bind_ok, pure_ok] at hd
      obtain ⟨s, hs, rfl⟩ := hd
      exact ⟨s, hs, rfl⟩
    · rintro a b c rest rfl
      simp only [bind_ok, pure_ok] at hd
      obtain ⟨a', ha, b', hb, c', hc, rfl⟩ := hd
      obtain ⟨f, hf, rfl⟩ := adjustBand_spec adj hadj R w h 1 a a' ha
      obtain ⟨g, hg, rfl⟩ := adjustBand_spec adj hadj R w h 2 b b' hb
      obtain ⟨k, hk, rfl⟩ := adjustBand_spec adj hadj R w h 3 c c' hc
      exact ⟨f, g, k, hf, hg, hk, rfl⟩

/-! ## The file (C97) -/

/-- **C97** (in part): a grey pixel is written as that grey, opaque unless it is 0; a colour pixel keeps its green and its opacity.  Missing: red and blue, see
`red_and_blue_exchanged`. -/
theorem written_pixel_partial (g a b c : Int) :
    encodePixel (withAlpha [g]) = .ok ⟨g, g, g, if g = 0 then 0 else 255⟩ ∧
    ∃ p, encodePixel (withAlpha [a, b, c]) = .ok p ∧ p.green = b ∧ p.alpha = if a = 0 ∨ b = 0 ∨ c = 0 then 0 else 255 := by
  have h1 : encodePixel (withAlpha [g]) = .ok ⟨g, g, g, alpha [g]⟩ := rfl
  have h2 : encodePixel (withAlpha [a, b, c]) = .ok ⟨c, b, a, alpha [a, b, c]⟩ := rfl
  rw [h1, h2]
  refine ⟨?_, _, rfl, rfl, ?_⟩
  · unfold alpha
    by_cases h : g = 0 <;> simp [h]
  · show alpha [a, b, c] = _
    unfold alpha
    by_cases ha : a = 0
    · simp [ha]
    · by_cases hb : b = 0
      · simp [hb]
      · by_cases hc : c = 0 <;> simp [ha, hb, hc]

/-- **C97** is false: the first band of a colour image is written as blue and the third as red. -/
theorem red_and_blue_exchanged (a b c : Int) : ∃ p, encodePixel (withAlpha [a, b, c]) = .ok p ∧ p.red = c ∧ p.blue = a := ⟨_, rfl, rfl, rfl⟩

/-- **C97** is false: of an unadjusted image of two bands the opacity becomes the red of an opaque pixel. -/
theorem two_bands_opacity_becomes_red (a b : Int) : ∃ p, encodePixel (withAlpha [a, b]) = .ok p ∧ p.alpha = 255 ∧ p.red = (if a = 0 ∨ b = 0 then 0 else 255) := by
  refine ⟨_, rfl, rfl, ?_⟩
  show alpha [a, b] = _
  unfold alpha
  by_cases ha : a = 0
  · simp [ha]
  · by_cases hb : b = 0 <;> simp [ha, hb]

theorem mapM_exists {α β : Type} (f : α → Except PyErr β) (l : List α) (r : List β) (h : l.mapM f = .ok r) (a : α) (ha : a ∈ l) : ∃ b, f a = .ok b := by
  rw [mapM_ok] at h
  induction h with
  | nil => simp at ha
  | cons h1 _ ih =>
    rcases List.mem_cons.1 ha with rfl | ha
    · exact ⟨_, h1⟩
    · exact ih ha

theorem encode_many (cs : List Int) (h : 4 ≤ cs.length) : encodePixel (withAlpha cs) = .error .runtimeError := by
  match cs, h with
  | a :: b :: c :: d :: rest, _ =>
    show encodePixel (a :: b :: c :: d :: (rest ++ [alpha (a :: b :: c :: d :: rest)])) = _
    cases rest <;> rfl

theorem remapArray_ok (z : Fin 3 → Fin 3 → ℚ) (w h : Nat) (rows : List (List ℚ)) (hr : remapArray z w h = .ok rows) :
    2 ≤ w ∧ 2 ≤ h ∧ rows.length = w ∧ ∀ row ∈ rows, row.length = h := by
  unfold remapArray at hr
  by_cases hc : w ≤ 1 ∨ h ≤ 1
  · rw [if_pos hc] at hr; exact absurd hr (by simp)
  · rw [if_neg hc] at hr
    injection hr with hr
    push Not at hc
    refine ⟨by omega, by omega, by rw [← hr]; simp, ?_⟩
    intro row hrow
    rw [← hr] at hrow
    obtain ⟨a, _, rfl⟩ := List.mem_map.1 hrow
    simp

theorem create_ok (R : Raster) (S : Sensor) (adj : Adjust) (sar : Channel → Channel → Except PyErr Channel) (sample : Nat → Nat → Channel → ℚ → ℚ → Int)
    (minLon minLat maxLon maxLat : ℚ) (tw th : Nat) (rows : List (List Rgba))
    (h : createOrthophotoTile R S adj sar sample minLon minLat maxLon maxLat tw th = .ok (some rows)) :
    ∃ g zs b full r o, S.toWorld ((R.height : ℚ) / 2, (R.width : ℚ) / 2) = .ok g ∧ projectGrid S g.2.2 minLon minLat maxLon maxLat = .ok zs ∧
      sourceBox (zs.map Prod.fst) (zs.map Prod.snd) = some b ∧ readWindow b R.width R.height tw R.overviews = .ok (some (full, r, o)) ∧
      render R adj sar sample zs tw th full r o = .ok rows := by
  unfold createOrthophotoTile at h
  rw [bind_ok] at h
  obtain ⟨g, hg, h⟩ := h
  rcases hz : projectGrid S g.2.2 minLon minLat maxLon maxLat with e | zs
  · rw [hz] at h; simp [pure, Except.pure] at h
  · rw [hz] at h
    simp only at h
    rcases hb : sourceBox (zs.map Prod.fst) (zs.map Prod.snd) with _ | b
    · rw [hb] at h; simp [pure, Except.pure] at h
    · rw [hb] at h
      simp only [bind_ok] at h
      obtain ⟨v, hv, h⟩ := h
      rcases v with _ | ⟨full, r, o⟩
      · simp [pure, Except.pure] at h
      · simp only [bind_ok, pure_ok] at h
        obtain ⟨rows', hr, h⟩ := h
        injection h with h
        subst h
        exact ⟨g, zs, b, full, r, o, hg, hz, hb, hv, hr⟩

theorem render_ok (R : Raster) (adj : Adjust) (sar : Channel → Channel → Except PyErr Channel) (sample : Nat → Nat → Channel → ℚ → ℚ → Int)
    (zs : List (ℚ × ℚ)) (tw th : Nat) (full : Box) (r : Nat) (o : Box) (rows : List (List Rgba)) (h : render R adj sar sample zs tw th full r o = .ok rows) :
    o.x0 < o.x1 ∧ o.y0 < o.y1 ∧ ∃ cs map1 map2, display adj R sar (o.x1 - o.x0).toNat (o.y1 - o.y0).toNat ((List.range R.bands).map (fun k => readBand R r o (k + 1))) = .ok cs ∧
      remapArray (asArray (zs.map (fun z => toRead full.x0 r z.1))) tw th = .ok map1 ∧
      remapArray (asArray (zs.map (fun z => toRead full.y0 r z.2))) tw th = .ok map2 ∧
      (map1.zip map2).mapM (fun rows => (rows.1.zip rows.2).mapM (outputPixel sample (o.x1 - o.x0).toNat (o.y1 - o.y0).toNat cs)) = .ok rows := by
  unfold render at h
  by_cases hc : o.x1 ≤ o.x0 ∨ o.y1 ≤ o.y0
  · rw [if_pos hc] at h; exact absurd h (by simp)
  · rw [if_neg hc] at h
    push Not at hc
    split at h
    · exact absurd h (by simp)
    simp only [bind_ok] at h
    obtain ⟨cs, hcs, m1, h1, m2, h2, h⟩ := h
    exact ⟨hc.1, hc.2, cs, m1, m2, hcs, h1, h2, h⟩

/-- The array of a tile is within the limit of `cv2.remap`. -/
theorem render_limit (R : Raster) (adj : Adjust) (sar : Channel → Channel → Except PyErr Channel) (sample : Nat → Nat → Channel → ℚ → ℚ → Int)
    (zs : List (ℚ × ℚ)) (tw th : Nat) (full : Box) (r : Nat) (o : Box) (rows : List (List Rgba)) (h : render R adj sar sample zs tw th full r o = .ok rows) :
    o.x1 - o.x0 + 4 < 32767 ∧ o.y1 - o.y0 + 4 < 32767 := by
  unfold render at h
  by_cases hc : o.x1 ≤ o.x0 ∨ o.y1 ≤ o.y0
  · rw [if_pos hc] at h; exact absurd h (by simp)
  · rw [if_neg hc] at h
    split at h
    · exact absurd h (by simp)
    · next hl =>
      push Not at hl
      unfold remapLimit at hl
      exact ⟨hl.1, hl.2.1⟩

/-- **C97** is false: no tile at all can be made of an unadjusted image with four bands or more. -/
theorem many_bands_unadjusted_no_tile (R : Raster) (S : Sensor) (adj : Adjust) (h1 : adj ≠ .minmax) (h2 : adj ≠ .dra) (hb : 4 ≤ R.bands)
    (sar : Channel → Channel → Except PyErr Channel) (sample : Nat → Nat → Channel → ℚ → ℚ → Int) (minLon minLat maxLon maxLat : ℚ) (tw th : Nat) (rows : List (List Rgba)) :
    createOrthophotoTile R S adj sar sample minLon minLat maxLon maxLat tw th ≠ .ok (some rows) := by
  intro h
  obtain ⟨g, zs, b, full, r, o, _, _, _, _, hr⟩ := create_ok R S adj sar sample minLon minLat maxLon maxLat tw th rows h
  obtain ⟨_, _, cs, m1, m2, hcs, hm1, hm2, hrows⟩ := render_ok R adj sar sample zs tw th full r o rows hr
  obtain ⟨ht, hu, hl1, hr1⟩ := remapArray_ok _ _ _ _ hm1
  obtain ⟨_, _, hl2, hr2⟩ := remapArray_ok _ _ _ _ hm2
  have hcs' := (displayed_channels adj R sar _ _ _ cs hcs).1 h1 h2
  match m1, m2, hl1, hl2, hr1, hr2, hrows with
  | [], _, hl1, _, _, _, _ => simp at hl1; omega
  | _ :: _, [], _, hl2, _, _, _ => simp at hl2; omega
  | row1 :: m1, row2 :: m2, _, _, hr1, hr2, hrows =>
    obtain ⟨out, hout⟩ := mapM_exists _ _ _ hrows (row1, row2) (by simp)
    have e1 := hr1 row1 (by simp)
    have e2 := hr2 row2 (by simp)
    match row1, row2, e1, e2, hout with
    | [], _, e1, _, _ => simp at e1; omega
    | _ :: _, [], _, e2, _ => simp at e2; omega
    | x :: row1, y :: row2, _, _, hout =>
      obtain ⟨p, hp⟩ := mapM_exists _ _ _ hout (x, y) (by simp)
      unfold outputPixel at hp
      rw [encode_many _ (by rw [hcs']; simp; omega)] at hp
      exact absurd hp (by simp)

example : (4 : Nat) ≤ 8 ∧ Adjust.none ≠ .minmax ∧ Adjust.none ≠ .dra := by decide

/-! ## The elevation (C98) -/

/-- The tile with a given elevation. -/
theorem create_uses_only_centre (R : Raster) (S S' : Sensor) (hS : S.toImage = S'.toImage)
    (hc : S.toWorld ((R.height : ℚ) / 2, (R.width : ℚ) / 2) = S'.toWorld ((R.height : ℚ) / 2, (R.width : ℚ) / 2)) (adj : Adjust)
    (sar : Channel → Channel → Except PyErr Channel) (sample : Nat → Nat → Channel → ℚ → ℚ → Int) (minLon minLat maxLon maxLat : ℚ) (tw th : Nat) :
    createOrthophotoTile R S adj sar sample minLon minLat maxLon maxLat tw th = createOrthophotoTile R S' adj sar sample minLon minLat maxLon maxLat tw th := by
  unfold createOrthophotoTile projectGrid project
  rw [hc, hS]

/-- **C98** (in part): the tile of a square image is made with the elevation of the centre of the image: it depends on image-to-world only at that centre, and
it is the tile that the projection at this elevation alone determines.  Missing: images that are not square, see `elevation_not_of_centre`. -/
theorem centre_elevation_partial (R : Raster) (S : Sensor) (hsq : R.width = R.height) (lon lat e : ℚ) (hc : S.toWorld ((R.width : ℚ) / 2, (R.height : ℚ) / 2) = .ok (lon, lat, e))
    (S' : Sensor) (hS' : ∀ p, ∃ lon' lat', S'.toWorld p = .ok (lon', lat', e)) (himg : ∀ lon lat, S'.toImage (lon, lat, e) = S.toImage (lon, lat, e)) (adj : Adjust)
    (sar : Channel → Channel → Except PyErr Channel) (sample : Nat → Nat → Channel → ℚ → ℚ → Int) (minLon minLat maxLon maxLat : ℚ) (tw th : Nat) :
    createOrthophotoTile R S adj sar sample minLon minLat maxLon maxLat tw th = createOrthophotoTile R S' adj sar sample minLon minLat maxLon maxLat tw th := by
  rw [hsq] at hc
  obtain ⟨lon', lat', h'⟩ := hS' ((R.height : ℚ) / 2, (R.width : ℚ) / 2)
  unfold createOrthophotoTile projectGrid project
  rw [h', hsq, hc]
  simp only [bind, Except.bind, himg]

/-- A 4 × 2 image whose pixels are their column plus ten times their row plus one. -/
def small : Raster := ⟨4, 2, 1, 0, fun _ _ x y => x + 10 * y + 1, fun _ => some 0, fun _ => some 255, fun _ _ _ _ => []⟩

/-- `cv2.remap` at whole positions. -/
def nearest (_ _ : Nat) (c : Channel) (x y : ℚ) : Int := c ⌊y⌋ ⌊x⌋

/-- A sensor model whose ground rises with the column, and whose projection moves with the elevation. -/
def rising : Sensor := ⟨fun p => .ok (p.1, -p.2, p.1), fun g => .ok (g.1 + g.2.2 - 2, -g.2.1)⟩

/-- The same at the constant elevation of the centre of `small`. -/
def level : Sensor := ⟨fun p => .ok (p.1, -p.2, 2), fun g => .ok (g.1 + g.2.2 - 2, -g.2.1)⟩

/-- **C98** is false: an image of 4 × 2 pixels has its centre at (2, 1), where the elevation is 2; the tile differs from the one made with elevation 2. -/
theorem elevation_not_of_centre :
    rising.toImage = level.toImage ∧ rising.toWorld ((small.width : ℚ) / 2, (small.height : ℚ) / 2) = .ok (2, -1, 2) ∧
    (∀ p, ∃ lon lat, level.toWorld p = .ok (lon, lat, 2)) ∧
    (createOrthophotoTile small rising .minmax (fun a _ => .ok a) nearest 1 (-2) 3 0 2 2).toOption.map (·.map (·.map (·.map Rgba.red))) = some (some [[1, 2], [11, 12]]) ∧
    (createOrthophotoTile small level .minmax (fun a _ => .ok a) nearest 1 (-2) 3 0 2 2).toOption.map (·.map (·.map (·.map Rgba.red))) = some (some [[2, 3], [12, 13]]) := by
  refine ⟨rfl, ?_, fun p => ⟨_, _, rfl⟩, ?_, ?_⟩
  · show Except.ok _ = Except.ok _
    norm_num [small]
  · decide +kernel
  · decide +kernel

/-- For a square image both agree, by `centre_elevation_partial`. -/
example (adj : Adjust) (minLon minLat maxLon maxLat : ℚ) (tw th : Nat) :
    createOrthophotoTile { small with height := 4 } rising adj (fun a _ => .ok a) nearest minLon minLat maxLon maxLat tw th =
    createOrthophotoTile { small with height := 4 } level adj (fun a _ => .ok a) nearest minLon minLat maxLon maxLat tw th :=
  centre_elevation_partial { small with height := 4 } rising rfl 2 (-2) 2 (by show Except.ok _ = Except.ok _; norm_num [small]) level (fun p => ⟨_, _, rfl⟩)
    (fun _ _ => rfl) _ _ _ _ _ _ _ _ _

/-! ## Errors (C99) -/

/-- **C99** (in part): when the sensor model knows the centre of the image but cannot project a point of the grid, there is no tile.  Missing: errors at the centre, see `centre_error_raised`. -/
theorem projection_failure_no_tile_partial (R : Raster) (S : Sensor) (adj : Adjust) (sar : Channel → Channel → Except PyErr Channel)
    (sample : Nat → Nat → Channel → ℚ → ℚ → Int) (minLon minLat maxLon maxLat : ℚ) (tw th : Nat) (g : ℚ × ℚ × ℚ)
    (hc : S.toWorld ((R.height : ℚ) / 2, (R.width : ℚ) / 2) = .ok g) (i j : Fin 3) (e : PyErr)
    (hf : S.toImage (minLon + (maxLon - minLon) * j.val / 2, maxLat + (minLat - maxLat) * i.val / 2, g.2.2) = .error e) :
    createOrthophotoTile R S adj sar sample minLon minLat maxLon maxLat tw th = .ok none := by
  unfold createOrthophotoTile
  rw [hc]
  simp only [bind, Except.bind]
  rcases hz : projectGrid S g.2.2 minLon minLat maxLon maxLat with e' | zs
  · rfl
  · exfalso
    unfold projectGrid at hz
    obtain ⟨z, hz⟩ := mapM_exists _ _ _ hz (i, j) (by fin_cases i <;> fin_cases j <;> simp [gridIndices])
    unfold project linspace3 at hz
    simp only at hz
    rw [hf] at hz
    exact absurd hz (by simp)

/-- **C99** is false: an error at the centre is not reported as "no tile" but raised. -/
theorem centre_error_raised (R : Raster) (S : Sensor) (adj : Adjust) (sar : Channel → Channel → Except PyErr Channel)
    (sample : Nat → Nat → Channel → ℚ → ℚ → Int) (minLon minLat maxLon maxLat : ℚ) (tw th : Nat) (e : PyErr)
    (hc : S.toWorld ((R.height : ℚ) / 2, (R.width : ℚ) / 2) = .error e) :
    createOrthophotoTile R S adj sar sample minLon minLat maxLon maxLat tw th = .error e := by
  unfold createOrthophotoTile
  rw [hc]
  rfl

/-- Premises: a sensor model that projects only the eastern hemisphere. -/
example : ∃ S : Sensor, (∃ g, S.toWorld ((small.height : ℚ) / 2, (small.width : ℚ) / 2) = .ok g) ∧ ∃ e, S.toImage (-1, 0, 0) = .error e :=
  ⟨⟨fun p => .ok (p.1, p.2, 0), fun g => if g.1 < 0 then .error .valueError else .ok (g.1, g.2.1)⟩, ⟨_, rfl⟩, ⟨.valueError, by decide +kernel⟩⟩

/-! ## What a tile shows (C100) -/

theorem mapM_getElem? {α β : Type} (f : α → Except PyErr β) (l : List α) (r : List β) (h : l.mapM f = .ok r) :
    r.length = l.length ∧ ∀ (i : Nat) (a : α), l[i]? = some a → ∃ b, r[i]? = some b ∧ f a = .ok b := by
  rw [mapM_ok] at h
  induction h with
  | nil => simp
  | cons h1 _ ih =>
    refine ⟨by simp [ih.1], ?_⟩
    intro i a ha
    cases i with
    | zero =>
      simp only [List.getElem?_cons_zero, Option.some.injEq] at ha
      subst ha
      exact ⟨_, rfl, h1⟩
    | succ i =>
      simp only [List.getElem?_cons_succ] at ha ⊢
      exact ih.2 i a ha

theorem mapM_of_ok {α β : Type} (f : α → Except PyErr β) (g : α → β) (l : List α) (h : ∀ a ∈ l, f a = .ok (g a)) : l.mapM f = .ok (l.map g) := by
  induction l with
  | nil => rfl
  | cons a l ih =>
    rw [List.mapM_cons, h a (by simp), ih (fun b hb => h b (by simp [hb]))]
    rfl

theorem grid_of_affine (px py : ℚ → ℚ → ℚ) (minLon minLat maxLon maxLat : ℚ) (F : ℚ × ℚ → ℚ) :
    asArray ((gridIndices.map (fun ij => (px (linspace3 minLon maxLon ij.2) (linspace3 maxLat minLat ij.1), py (linspace3 minLon maxLon ij.2) (linspace3 maxLat minLat ij.1)))).map F) =
    grid (fun lon lat => F (px lon lat, py lon lat)) minLon minLat maxLon maxLat := by
  funext i j
  fin_cases i <;> fin_cases j <;> rfl

theorem toRead_affine (start : Int) (r : Nat) (c0 c1 c2 lon lat : ℚ) :
    toRead start r (c0 + c1 * lon + c2 * lat) = ((c0 - start) / 2 ^ r + 2) + (c1 / 2 ^ r) * lon + (c2 / 2 ^ r) * lat := by
  unfold toRead
  ring

theorem bordered_inside (w h : Nat) (c : Channel) (row col : Int) (hr : 0 ≤ row ∧ row < h) (hc : 0 ≤ col ∧ col < w) :
    bordered w h c (row + 2) (col + 2) = c row col := by
  unfold bordered
  have e1 : max 0 (min (row + 2 - 2) ((h : Int) - 1)) = row := by omega
  have e2 : max 0 (min (col + 2 - 2) ((w : Int) - 1)) = col := by omega
  rw [e1, e2]

/-- `cv2.remap` at a whole position inside the array gives the pixel there.  (`Props.Remap` shows it of a model of `cv2.remap`.)  Only arrays that are small enough for `cv2.remap` matter. -/
def Samples (sample : Nat → Nat → Channel → ℚ → ℚ → Int) : Prop :=
  ∀ (w h : Nat) (c : Channel) (x y : Int), w < 32767 → h < 32767 → 0 ≤ x → x < w → 0 ≤ y → y < h → sample w h c x y = c y x

/-- Everything about the pixels of a square tile, for the channels `cs` that are displayed. -/
theorem tile_pixels (R : Raster) (S : Sensor) (adj : Adjust) (sar : Channel → Channel → Except PyErr Channel) (sample : Nat → Nat → Channel → ℚ → ℚ → Int) (hsample : Samples sample)
    (minLon minLat maxLon maxLat : ℚ) (n : Nat) (g : ℚ × ℚ × ℚ) (hg : S.toWorld ((R.height : ℚ) / 2, (R.width : ℚ) / 2) = .ok g)
    (a0 a1 a2 b0 b1 b2 : ℚ) (haff : ∀ lon lat, S.toImage (lon, lat, g.2.2) = .ok (a0 + a1 * lon + a2 * lat, b0 + b1 * lon + b2 * lat))
    (rows : List (List Rgba)) (h : createOrthophotoTile R S adj sar sample minLon minLat maxLon maxLat n n = .ok (some rows)) :
    rows.length = n ∧ (∀ row ∈ rows, row.length = n) ∧
    ∃ (zs : List (ℚ × ℚ)) (b full o : Box) (r : Nat) (cs : List Channel), zs = gridIndices.map (fun ij => (a0 + a1 * linspace3 minLon maxLon ij.2 + a2 * linspace3 maxLat minLat ij.1, b0 + b1 * linspace3 minLon maxLon ij.2 + b2 * linspace3 maxLat minLat ij.1)) ∧
      sourceBox (zs.map Prod.fst) (zs.map Prod.snd) = some b ∧
      readWindow b R.width R.height n R.overviews = .ok (some (full, r, o)) ∧ o.x0 < o.x1 ∧ o.y0 < o.y1 ∧
      display adj R sar (o.x1 - o.x0).toNat (o.y1 - o.y0).toNat ((List.range R.bands).map (fun k => readBand R r o (k + 1))) = .ok cs ∧
      ∀ (i j : Nat) (X Y : Int), i < n → j < n → (2 ^ r : Int) ∣ full.x0 → (2 ^ r : Int) ∣ full.y0 →
        a0 + a1 * along minLon maxLon n j + a2 * along maxLat minLat n i = 2 ^ r * X → b0 + b1 * along minLon maxLon n j + b2 * along maxLat minLat n i = 2 ^ r * Y →
        o.x0 ≤ X → X < o.x1 → o.y0 ≤ Y → Y < o.y1 →
        ∃ row p, rows[i]? = some row ∧ row[j]? = some p ∧ encodePixel (withAlpha (cs.map (fun c => c (Y - o.y0) (X - o.x0)))) = .ok p := by
  obtain ⟨g', zs, b, full, r, o, hg', hz, hb, hw, hr⟩ := create_ok R S adj sar sample minLon minLat maxLon maxLat n n rows h
  have : g' = g := by rw [hg] at hg'; injection hg' with e; exact e.symm
  subst this
  have hzs : zs = gridIndices.map (fun ij => (a0 + a1 * linspace3 minLon maxLon ij.2 + a2 * linspace3 maxLat minLat ij.1, b0 + b1 * linspace3 minLon maxLon ij.2 + b2 * linspace3 maxLat minLat ij.1)) := by
    unfold projectGrid project at hz
    rw [mapM_of_ok _ (fun ij => (a0 + a1 * linspace3 minLon maxLon ij.2 + a2 * linspace3 maxLat minLat ij.1, b0 + b1 * linspace3 minLon maxLon ij.2 + b2 * linspace3 maxLat minLat ij.1)) gridIndices (fun ij _ => haff _ _)] at hz
    injection hz with hz
    exact hz.symm
  obtain ⟨hox, hoy, cs, m1, m2, hcs, hm1, hm2, hrows⟩ := render_ok R adj sar sample zs n n full r o rows hr
  obtain ⟨hn, _, hl1, hr1⟩ := remapArray_ok _ _ _ _ hm1
  obtain ⟨_, _, hl2, hr2⟩ := remapArray_ok _ _ _ _ hm2
  obtain ⟨hlen, hget⟩ := mapM_getElem? _ _ _ hrows
  have hl : rows.length = n := by rw [hlen, List.length_zip, hl1, hl2]; simp
  refine ⟨hl, ?_, zs, b, full, o, r, cs, hzs, hb, hw, hox, hoy, hcs, ?_⟩
  · intro row hrow
    obtain ⟨i, hi, rfl⟩ := List.mem_iff_getElem.1 hrow
    have hi1 : i < m1.length := by omega
    have hi2 : i < m2.length := by omega
    obtain ⟨row', hrow', hf⟩ := hget i (m1[i], m2[i]) (by rw [List.getElem?_eq_getElem (by simp; omega)]; simp)
    rw [List.getElem?_eq_getElem hi] at hrow'
    injection hrow' with hrow'
    rw [hrow', (mapM_getElem? _ _ _ hf).1, List.length_zip, hr1 _ (List.getElem_mem hi1), hr2 _ (List.getElem_mem hi2)]
    simp
  · intro i j X Y hi hj hdx hdy hX hY hx0 hx1 hy0 hy1
    rw [hzs] at hm1 hm2
    rw [grid_of_affine (fun lon lat => a0 + a1 * lon + a2 * lat) (fun lon lat => b0 + b1 * lon + b2 * lat) minLon minLat maxLon maxLat] at hm1 hm2
    simp only [toRead_affine] at hm1 hm2
    obtain ⟨rows1, e1, _, _, s1⟩ := square_tile_partial n n hn hn (fun lon lat => ((a0 - full.x0) / 2 ^ r + 2) + (a1 / 2 ^ r) * lon + (a2 / 2 ^ r) * lat) _ _ _ (fun lon lat => rfl) minLon minLat maxLon maxLat
    rw [e1] at hm1
    injection hm1 with hm1
    subst hm1
    obtain ⟨rows2, e2, _, _, s2⟩ := square_tile_partial n n hn hn (fun lon lat => ((b0 - full.y0) / 2 ^ r + 2) + (b1 / 2 ^ r) * lon + (b2 / 2 ^ r) * lat) _ _ _ (fun lon lat => rfl) minLon minLat maxLon maxLat
    rw [e2] at hm2
    injection hm2 with hm2
    subst hm2
    obtain ⟨row1, hrow1, hv1⟩ := s1 i j hi hj
    obtain ⟨row2, hrow2, hv2⟩ := s2 i j hi hj
    simp only [← toRead_affine] at hv1 hv2
    obtain ⟨_, _, hfull, ho⟩ := readWindow_ok _ _ _ _ _ _ _ _ hw
    have hpos : (2 ^ r : ℚ) ≠ 0 := by positivity
    have f0 : 0 ≤ full.x0 ∧ 0 ≤ full.y0 := by
      rw [hfull]; exact ⟨le_max_right _ _, le_max_right _ _⟩
    have ex : o.x0 = full.x0.tdiv (2 ^ r) := by rw [ho]; rfl
    have ey : o.y0 = full.y0.tdiv (2 ^ r) := by rw [ho]; rfl
    have px : toRead full.x0 r (a0 + a1 * along minLon maxLon n j + a2 * along maxLat minLat n i) = ((X - o.x0 + 2 : Int) : ℚ) := by
      rw [(sampling_position_partial full.x0 f0.1 r _).2 hdx, hX, mul_div_cancel_left₀ _ hpos, ← ex]
      push_cast; ring
    have py : toRead full.y0 r (b0 + b1 * along minLon maxLon n j + b2 * along maxLat minLat n i) = ((Y - o.y0 + 2 : Int) : ℚ) := by
      rw [(sampling_position_partial full.y0 f0.2 r _).2 hdy, hY, mul_div_cancel_left₀ _ hpos, ← ey]
      push_cast; ring
    rw [px] at hv1
    rw [py] at hv2
    obtain ⟨row, hrow, hf⟩ := hget i (row1, row2) (by rw [List.getElem?_zip_eq_some]; exact ⟨hrow1, hrow2⟩)
    obtain ⟨p, hp, hpix⟩ := (mapM_getElem? _ _ _ hf).2 j (((X - o.x0 + 2 : Int) : ℚ), ((Y - o.y0 + 2 : Int) : ℚ)) (by rw [List.getElem?_zip_eq_some]; exact ⟨hv1, hv2⟩)
    refine ⟨row, p, hrow, hp, ?_⟩
    rw [← hpix]
    unfold outputPixel
    congr 2
    apply List.map_congr_left
    intro c _
    have hlim := render_limit R adj sar sample zs n n full r o rows hr
    rw [hsample _ _ _ _ _ (by omega) (by omega) (by omega) (by push_cast; omega) (by omega) (by push_cast; omega)]
    rw [bordered_inside _ _ _ _ _ (by omega) (by omega)]

theorem along_share (a b : ℚ) (n k : Nat) (hn : 2 ≤ n) (hk : k < n) : ∃ t : ℚ, 0 ≤ t ∧ t ≤ 1 ∧ along a b n k = (1 - t) * a + t * b := by
  have h1 : (0 : ℚ) < (n : ℚ) - 1 := by
    have : (2 : ℚ) ≤ n := by exact_mod_cast hn
    linarith
  refine ⟨(k : ℚ) / ((n : ℚ) - 1), by positivity, ?_, ?_⟩
  · rw [div_le_one h1]
    have : (k : ℚ) + 1 ≤ n := by exact_mod_cast hk
    linarith
  · unfold along; ring

/-- Positions of a tile lie between those of the corners. -/
theorem between_corners (c0 c1 c2 minLon minLat maxLon maxLat lo hi : ℚ) (n i j : Nat) (hn : 2 ≤ n) (hi' : i < n) (hj : j < n)
    (h : ∀ p q : Fin 3, lo ≤ c0 + c1 * linspace3 minLon maxLon q + c2 * linspace3 maxLat minLat p ∧ c0 + c1 * linspace3 minLon maxLon q + c2 * linspace3 maxLat minLat p ≤ hi) :
    lo ≤ c0 + c1 * along minLon maxLon n j + c2 * along maxLat minLat n i ∧ c0 + c1 * along minLon maxLon n j + c2 * along maxLat minLat n i ≤ hi := by
  obtain ⟨s, hs0, hs1, hs⟩ := along_share minLon maxLon n j hn hj
  obtain ⟨t, ht0, ht1, ht⟩ := along_share maxLat minLat n i hn hi'
  obtain ⟨x0, -, x2⟩ := linspace3_values minLon maxLon
  obtain ⟨y0, -, y2⟩ := linspace3_values maxLat minLat
  have h00 := h 0 0
  have h02 := h 0 2
  have h20 := h 2 0
  have h22 := h 2 2
  rw [x0, y0] at h00
  rw [x2, y0] at h02
  rw [x0, y2] at h20
  rw [x2, y2] at h22
  rw [hs, ht]
  have e : c0 + c1 * ((1 - s) * minLon + s * maxLon) + c2 * ((1 - t) * maxLat + t * minLat) =
      (1 - s) * (1 - t) * (c0 + c1 * minLon + c2 * maxLat) + s * (1 - t) * (c0 + c1 * maxLon + c2 * maxLat) +
      (1 - s) * t * (c0 + c1 * minLon + c2 * minLat) + s * t * (c0 + c1 * maxLon + c2 * minLat) := by ring
  have e1 : ∀ m : ℚ, m = (1 - s) * (1 - t) * m + s * (1 - t) * m + (1 - s) * t * m + s * t * m := by intro m; ring
  have p00 : 0 ≤ (1 - s) * (1 - t) := mul_nonneg (by linarith) (by linarith)
  have p02 : 0 ≤ s * (1 - t) := mul_nonneg hs0 (by linarith)
  have p20 : 0 ≤ (1 - s) * t := mul_nonneg (by linarith) ht0
  have p22 : 0 ≤ s * t := mul_nonneg hs0 ht0
  rw [e]
  constructor
  · rw [e1 lo]
    exact add_le_add (add_le_add (add_le_add (mul_le_mul_of_nonneg_left h00.1 p00) (mul_le_mul_of_nonneg_left h02.1 p02)) (mul_le_mul_of_nonneg_left h20.1 p20)) (mul_le_mul_of_nonneg_left h22.1 p22)
  · rw [e1 hi]
    exact add_le_add (add_le_add (add_le_add (mul_le_mul_of_nonneg_left h00.2 p00) (mul_le_mul_of_nonneg_left h02.2 p02)) (mul_le_mul_of_nonneg_left h20.2 p20)) (mul_le_mul_of_nonneg_left h22.2 p22)

theorem mem_gridIndices (i j : Fin 3) : (i, j) ∈ gridIndices := by
  fin_cases i <;> fin_cases j <;> simp [gridIndices]

/-- The values of a band that were read are those of the window. -/
theorem mem_values (R : Raster) (r : Nat) (o : Box) (band : Nat) (hx : o.x0 < o.x1) (hy : o.y0 < o.y1) (p : ℚ) :
    p ∈ values (o.x1 - o.x0).toNat (o.y1 - o.y0).toNat (readBand R r o band) ↔
    ∃ X Y : Int, o.x0 ≤ X ∧ X < o.x1 ∧ o.y0 ≤ Y ∧ Y < o.y1 ∧ p = R.pixel band r X Y := by
  unfold values readBand
  simp only [List.mem_flatMap, List.mem_map, List.mem_range]
  constructor
  · rintro ⟨i, hi, j, hj, rfl⟩
    exact ⟨o.x0 + j, o.y0 + i, by omega, by omega, by omega, by omega, rfl⟩
  · rintro ⟨X, Y, h1, h2, h3, h4, rfl⟩
    refine ⟨(Y - o.y0).toNat, by omega, (X - o.x0).toNat, by omega, ?_⟩
    have e1 : o.x0 + ((X - o.x0).toNat : Int) = X := by omega
    have e2 : o.y0 + ((Y - o.y0).toNat : Int) = Y := by omega
    rw [e1, e2]

/-- A square tile shows the image: `pixelAt i j` is the pixel in row `i` and column `j`.  There is a resolution level and a window of the image, which
contains the positions (`px i j`, `py i j`) of all tile pixels as far as they are in the image, and every tile pixel whose position is a whole pixel of the level
inside the window satisfies `Shown` with the position. -/
structure ShowsImage (R : Raster) (px py : Nat → Nat → ℚ) (n : Nat) (rows : List (List Rgba))
    (Shown : (r : Nat) → (X0 Y0 X1 Y1 : Int) → (Rgba → Int → Int → Prop) → Prop) : Prop where
  shape : rows.length = n ∧ ∀ row ∈ rows, row.length = n
  content : ∃ (r : Nat) (X0 Y0 X1 Y1 : Int) (T : Rgba → Int → Int → Prop), r ≤ R.overviews ∧ Shown r (X0 / 2 ^ r) (Y0 / 2 ^ r) (X1 / 2 ^ r) (Y1 / 2 ^ r) T ∧
    (0 ≤ X0 ∧ X1 ≤ R.width ∧ 0 ≤ Y0 ∧ Y1 ≤ R.height) ∧
    (∀ i j, i < n → j < n → (0 ≤ px i j → (X0 : ℚ) ≤ px i j) ∧ (px i j ≤ R.width → px i j ≤ X1) ∧ (0 ≤ py i j → (Y0 : ℚ) ≤ py i j) ∧ (py i j ≤ R.height → py i j ≤ Y1)) ∧
    ∀ (i j : Nat) (X Y : Int), i < n → j < n → (2 ^ r : Int) ∣ X0 → (2 ^ r : Int) ∣ Y0 → px i j = 2 ^ r * X → py i j = 2 ^ r * Y →
      X0 ≤ 2 ^ r * X → 2 ^ r * (X + 1) ≤ X1 → Y0 ≤ 2 ^ r * Y → 2 ^ r * (Y + 1) ≤ Y1 → ∃ row p, rows[i]? = some row ∧ row[j]? = some p ∧ T p X Y

theorem shows_image (R : Raster) (S : Sensor) (adj : Adjust) (sar : Channel → Channel → Except PyErr Channel) (sample : Nat → Nat → Channel → ℚ → ℚ → Int) (hsample : Samples sample)
    (minLon minLat maxLon maxLat : ℚ) (n : Nat) (g : ℚ × ℚ × ℚ) (hg : S.toWorld ((R.height : ℚ) / 2, (R.width : ℚ) / 2) = .ok g)
    (a0 a1 a2 b0 b1 b2 : ℚ) (haff : ∀ lon lat, S.toImage (lon, lat, g.2.2) = .ok (a0 + a1 * lon + a2 * lat, b0 + b1 * lon + b2 * lat))
    (rows : List (List Rgba)) (h : createOrthophotoTile R S adj sar sample minLon minLat maxLon maxLat n n = .ok (some rows))
    (Shown : (r : Nat) → (X0 Y0 X1 Y1 : Int) → (Rgba → Int → Int → Prop) → Prop)
    (hshown : ∀ r (o : Box) cs, o.x0 < o.x1 → o.y0 < o.y1 → display adj R sar (o.x1 - o.x0).toNat (o.y1 - o.y0).toNat ((List.range R.bands).map (fun k => readBand R r o (k + 1))) = .ok cs →
      Shown r o.x0 o.y0 o.x1 o.y1 (fun p X Y => encodePixel (withAlpha (cs.map (fun c => c (Y - o.y0) (X - o.x0)))) = .ok p)) :
    ShowsImage R (fun i j => a0 + a1 * along minLon maxLon n j + a2 * along maxLat minLat n i) (fun i j => b0 + b1 * along minLon maxLon n j + b2 * along maxLat minLat n i) n rows Shown := by
  obtain ⟨hl, hl', zs, b, full, o, r, cs, hzs, hb, hw, hox, hoy, hcs, hpix⟩ := tile_pixels R S adj sar sample hsample minLon minLat maxLon maxLat n g hg a0 a1 a2 b0 b1 b2 haff rows h
  have hn : 2 ≤ n := by
    obtain ⟨_, zs, b, full, r, o, _, _, _, _, hr⟩ := create_ok R S adj sar sample minLon minLat maxLon maxLat n n rows h
    obtain ⟨_, _, cs, m1, m2, hcs, hm1, hm2, hrows⟩ := render_ok R adj sar sample zs n n full r o rows hr
    exact (remapArray_ok _ _ _ _ hm1).1
  refine ⟨⟨hl, hl'⟩, ?_⟩
  obtain ⟨_, ⟨l, _, hrl⟩, hfull, ho⟩ := readWindow_ok _ _ _ _ _ _ _ _ hw
  have hbox := (source_box_tight (zs.map Prod.fst) (zs.map Prod.snd)).2 b hb
  have fx0 : full.x0 = max b.x0 0 := by rw [hfull]; rfl
  have fy0 : full.y0 = max b.y0 0 := by rw [hfull]; rfl
  have fx1 : full.x1 = min b.x1 R.width := by rw [hfull]; rfl
  have fy1 : full.y1 = min b.y1 R.height := by rw [hfull]; rfl
  have hpow : (0 : Int) < 2 ^ r := by positivity
  have d0 : o.x0 = full.x0.tdiv (2 ^ r) ∧ o.y0 = full.y0.tdiv (2 ^ r) ∧ o.x1 = full.x1.tdiv (2 ^ r) ∧ o.y1 = full.y1.tdiv (2 ^ r) := by
    rw [ho]; exact ⟨rfl, rfl, rfl, rfl⟩
  have nx0 : 0 ≤ full.x0 := by rw [fx0]; exact le_max_right _ _
  have ny0 : 0 ≤ full.y0 := by rw [fy0]; exact le_max_right _ _
  have nx1 : 0 ≤ full.x1 := by
    by_contra hneg
    have h1 : full.x1.tdiv (2 ^ r) ≤ 0 := by
      rw [show full.x1 = -(-full.x1) by ring, Int.neg_tdiv]
      have := Int.tdiv_nonneg (a := -full.x1) (b := 2 ^ r) (by omega) hpow.le
      omega
    have h2 : 0 ≤ full.x0.tdiv (2 ^ r) := Int.tdiv_nonneg nx0 hpow.le
    have := d0.1; have := d0.2.2.1; omega
  have ny1 : 0 ≤ full.y1 := by
    by_contra hneg
    have h1 : full.y1.tdiv (2 ^ r) ≤ 0 := by
      rw [show full.y1 = -(-full.y1) by ring, Int.neg_tdiv]
      have := Int.tdiv_nonneg (a := -full.y1) (b := 2 ^ r) (by omega) hpow.le
      omega
    have h2 : 0 ≤ full.y0.tdiv (2 ^ r) := Int.tdiv_nonneg ny0 hpow.le
    have := d0.2.1; have := d0.2.2.2; omega
  have ex0 : o.x0 = full.x0 / 2 ^ r := by rw [d0.1, Int.tdiv_eq_ediv_of_nonneg nx0]
  have ey0 : o.y0 = full.y0 / 2 ^ r := by rw [d0.2.1, Int.tdiv_eq_ediv_of_nonneg ny0]
  have ex1 : o.x1 = full.x1 / 2 ^ r := by rw [d0.2.2.1, Int.tdiv_eq_ediv_of_nonneg nx1]
  have ey1 : o.y1 = full.y1 / 2 ^ r := by rw [d0.2.2.2, Int.tdiv_eq_ediv_of_nonneg ny1]
  refine ⟨r, full.x0, full.y0, full.x1, full.y1, (fun p X Y => encodePixel (withAlpha (cs.map (fun c => c (Y - o.y0) (X - o.x0)))) = .ok p), by rw [hrl]; exact min_le_right _ _, ?_, ⟨nx0, by rw [fx1]; exact min_le_right _ _, ny0, by rw [fy1]; exact min_le_right _ _⟩, ?_, ?_⟩
  · have := hshown r o cs hox hoy hcs
    rw [← ex0, ← ey0, ← ex1, ← ey1]
    exact this
  · intro i j hi hj
    have gx := between_corners a0 a1 a2 minLon minLat maxLon maxLat b.x0 b.x1 n i j hn hi hj (by
      intro p q
      exact hbox.1 _ (by rw [hzs, List.map_map]; exact List.mem_map.2 ⟨(p, q), mem_gridIndices p q, rfl⟩))
    have gy := between_corners b0 b1 b2 minLon minLat maxLon maxLat b.y0 b.y1 n i j hn hi hj (by
      intro p q
      exact hbox.2.1 _ (by rw [hzs, List.map_map]; exact List.mem_map.2 ⟨(p, q), mem_gridIndices p q, rfl⟩))
    rw [fx0, fx1, fy0, fy1]
    push_cast
    exact ⟨fun h0 => max_le gx.1 h0, fun h1 => le_min gx.2 h1, fun h0 => max_le gy.1 h0, fun h1 => le_min gy.2 h1⟩
  · intro i j X Y hi hj hdx hdy hX hY hx0 hx1 hy0 hy1
    refine hpix i j X Y hi hj hdx hdy hX hY ?_ ?_ ?_ ?_
    · rw [ex0]; exact Int.ediv_le_of_le_mul hpow (by linarith)
    · rw [ex1]; have := Int.le_ediv_of_mul_le (a := X + 1) (b := full.x1) (c := 2 ^ r) hpow (by linarith); omega
    · rw [ey0]; exact Int.ediv_le_of_le_mul hpow (by linarith)
    · rw [ey1]; have := Int.le_ediv_of_mul_le (a := Y + 1) (b := full.y1) (c := 2 ^ r) hpow (by linarith); omega

/-- The values of a band in a window of a level. -/
def WindowValues (R : Raster) (band r : Nat) (X0 Y0 X1 Y1 : Int) (ps : List ℚ) : Prop :=
  ∀ p, p ∈ ps ↔ ∃ X Y : Int, X0 ≤ X ∧ X < X1 ∧ Y0 ≤ Y ∧ Y < Y1 ∧ p = R.pixel band r X Y

/-- **C100** (in part): a square tile of a grey image, with a sensor model that is affine at the elevation used, shows the right places: a tile pixel whose position in the image is a whole pixel of
the level is the adjusted value of this pixel.  The adjustment is one function of the pixel value for the whole tile.  Missing: other positions (`cv2.remap` interpolates), tiles
that are not square (C46), windows that do not start on the grid of the level (C82). -/
theorem grey_tile_shows_image_partial (R : Raster) (hb : R.bands = 1) (S : Sensor) (adj : Adjust) (hadj : adj = .minmax ∨ adj = .dra) (sar : Channel → Channel → Except PyErr Channel)
    (sample : Nat → Nat → Channel → ℚ → ℚ → Int) (hsample : Samples sample)
    (minLon minLat maxLon maxLat : ℚ) (n : Nat) (g : ℚ × ℚ × ℚ) (hg : S.toWorld ((R.height : ℚ) / 2, (R.width : ℚ) / 2) = .ok g)
    (a0 a1 a2 b0 b1 b2 : ℚ) (haff : ∀ lon lat, S.toImage (lon, lat, g.2.2) = .ok (a0 + a1 * lon + a2 * lat, b0 + b1 * lon + b2 * lat))
    (rows : List (List Rgba)) (h : createOrthophotoTile R S adj sar sample minLon minLat maxLon maxLat n n = .ok (some rows)) :
    ShowsImage R (fun i j => a0 + a1 * along minLon maxLon n j + a2 * along maxLat minLat n i) (fun i j => b0 + b1 * along minLon maxLon n j + b2 * along maxLat minLat n i) n rows
      (fun r X0 Y0 X1 Y1 T => ∃ ps f, WindowValues R 1 r X0 Y0 X1 Y1 ps ∧ Adjusted adj R 1 ps f ∧
        ∀ p X Y, T p X Y → p = ⟨f (R.pixel 1 r X Y), f (R.pixel 1 r X Y), f (R.pixel 1 r X Y), if f (R.pixel 1 r X Y) = 0 then 0 else 255⟩) := by
  refine shows_image R S adj sar sample hsample minLon minLat maxLon maxLat n g hg a0 a1 a2 b0 b1 b2 haff rows h _ ?_
  intro r o cs hx hy hcs
  rw [hb] at hcs
  obtain ⟨f, hf, hcs'⟩ := ((displayed_channels adj R sar _ _ _ cs hcs).2 hadj).1 (readBand R r o 1) rfl
  refine ⟨_, f, mem_values R r o 1 hx hy, hf, ?_⟩
  intro p X Y hT
  rw [hcs'] at hT
  simp only [List.map_cons, List.map_nil] at hT
  rw [(written_pixel_partial _ 0 0 0).1] at hT
  injection hT with hT
  rw [← hT]
  unfold readBand
  rw [show o.x0 + (X - o.x0) = X by ring, show o.y0 + (Y - o.y0) = Y by ring]

/-- **C100** (in part): the same for images of three bands or more; of the first three bands each is adjusted with its own limits.  Missing besides: the bands come out as blue, green and red (C97). -/
theorem colour_tile_shows_image_partial (R : Raster) (hb : 3 ≤ R.bands) (S : Sensor) (adj : Adjust) (hadj : adj = .minmax ∨ adj = .dra) (sar : Channel → Channel → Except PyErr Channel)
    (sample : Nat → Nat → Channel → ℚ → ℚ → Int) (hsample : Samples sample)
    (minLon minLat maxLon maxLat : ℚ) (n : Nat) (g : ℚ × ℚ × ℚ) (hg : S.toWorld ((R.height : ℚ) / 2, (R.width : ℚ) / 2) = .ok g)
    (a0 a1 a2 b0 b1 b2 : ℚ) (haff : ∀ lon lat, S.toImage (lon, lat, g.2.2) = .ok (a0 + a1 * lon + a2 * lat, b0 + b1 * lon + b2 * lat))
    (rows : List (List Rgba)) (h : createOrthophotoTile R S adj sar sample minLon minLat maxLon maxLat n n = .ok (some rows)) :
    ShowsImage R (fun i j => a0 + a1 * along minLon maxLon n j + a2 * along maxLat minLat n i) (fun i j => b0 + b1 * along minLon maxLon n j + b2 * along maxLat minLat n i) n rows
      (fun r X0 Y0 X1 Y1 T => ∃ ps1 ps2 ps3 f1 f2 f3, WindowValues R 1 r X0 Y0 X1 Y1 ps1 ∧ WindowValues R 2 r X0 Y0 X1 Y1 ps2 ∧ WindowValues R 3 r X0 Y0 X1 Y1 ps3 ∧
        Adjusted adj R 1 ps1 f1 ∧ Adjusted adj R 2 ps2 f2 ∧ Adjusted adj R 3 ps3 f3 ∧
        ∀ p X Y, T p X Y → p.blue = f1 (R.pixel 1 r X Y) ∧ p.green = f2 (R.pixel 2 r X Y) ∧ p.red = f3 (R.pixel 3 r X Y) ∧
          p.alpha = if f1 (R.pixel 1 r X Y) = 0 ∨ f2 (R.pixel 2 r X Y) = 0 ∨ f3 (R.pixel 3 r X Y) = 0 then 0 else 255) := by
  refine shows_image R S adj sar sample hsample minLon minLat maxLon maxLat n g hg a0 a1 a2 b0 b1 b2 haff rows h _ ?_
  intro r o cs hx hy hcs
  obtain ⟨m, hm⟩ : ∃ m, R.bands = 3 + m := ⟨R.bands - 3, by omega⟩
  have hl : (List.range R.bands).map (fun k => readBand R r o (k + 1)) =
      readBand R r o 1 :: readBand R r o 2 :: readBand R r o 3 :: (List.range m).map (fun k => readBand R r o (3 + k + 1)) := by
    rw [hm, List.range_add, List.map_append, List.map_map]
    rfl
  obtain ⟨f1, f2, f3, h1, h2, h3, hcs'⟩ := ((displayed_channels adj R sar _ _ _ cs hcs).2 hadj).2.2 _ _ _ _ hl
  refine ⟨_, _, _, f1, f2, f3, mem_values R r o 1 hx hy, mem_values R r o 2 hx hy, mem_values R r o 3 hx hy, h1, h2, h3, ?_⟩
  intro p X Y hT
  rw [hcs'] at hT
  simp only [List.map_cons, List.map_nil, readBand] at hT
  rw [show o.x0 + (X - o.x0) = X by ring, show o.y0 + (Y - o.y0) = Y by ring] at hT
  obtain ⟨q, hq, hg', ha⟩ := (written_pixel_partial 0 (f1 (R.pixel 1 r X Y)) (f2 (R.pixel 2 r X Y)) (f3 (R.pixel 3 r X Y))).2
  obtain ⟨q', hq', hr', hb'⟩ := red_and_blue_exchanged (f1 (R.pixel 1 r X Y)) (f2 (R.pixel 2 r X Y)) (f3 (R.pixel 3 r X Y))
  rw [hq] at hq' hT
  injection hq' with hq'
  injection hT with hT
  subst hT
  subst hq'
  exact ⟨hb', hg', hr', ha⟩

theorem mapM_all {α β : Type} (f : α → Except PyErr β) (l : List α) (h : ∀ a ∈ l, ∃ b, f a = .ok b) : ∃ r, l.mapM f = .ok r := by
  induction l with
  | nil => exact ⟨[], rfl⟩
  | cons a l ih =>
    obtain ⟨b, hb⟩ := h a (by simp)
    obtain ⟨r, hr⟩ := ih (fun x hx => h x (by simp [hx]))
    exact ⟨b :: r, by rw [List.mapM_cons, hb, hr]; rfl⟩

theorem adjustBand_minmax_ok (R : Raster) (w h band : Nat) (hw : 0 < w) (hh : 0 < h) (c : Channel) : ∃ c', adjustBand .minmax R w h band c = .ok c' := by
  have hv : values w h c ≠ [] := by
    intro he
    have : ((c 0 0 : Int) : ℚ) ∈ values w h c := by
      unfold values
      exact List.mem_flatMap.2 ⟨0, by simpa using hh, List.mem_map.2 ⟨0, by simpa using hw, rfl⟩⟩
    rw [he] at this
    simp at this
  unfold adjustBand adjuster limits
  obtain ⟨p, ps, hp⟩ := List.exists_cons_of_ne_nil hv
  rw [hp]
  cases R.gmin band <;> cases R.gmax band <;> exact ⟨_, rfl⟩

/-- **C100**: with MINMAX there is a tile, whatever the pixels, when all grid points can be projected, the window is not empty and not larger than `cv2.remap` takes, and both sides of the tile have two pixels or more; the image is grey or has three bands or more. -/
theorem minmax_tile_produced (R : Raster) (hbands : R.bands = 1 ∨ 3 ≤ R.bands) (S : Sensor) (sar : Channel → Channel → Except PyErr Channel)
    (sample : Nat → Nat → Channel → ℚ → ℚ → Int) (minLon minLat maxLon maxLat : ℚ) (tw th : Nat) (hw : 2 ≤ tw) (hh : 2 ≤ th) (g : ℚ × ℚ × ℚ)
    (hg : S.toWorld ((R.height : ℚ) / 2, (R.width : ℚ) / 2) = .ok g) (zs : List (ℚ × ℚ))
    (hz : List.Forall₂ (fun ij z => S.toImage (minLon + (maxLon - minLon) * ((ij : Nat × Nat).2 : ℚ) / 2, maxLat + (minLat - maxLat) * (ij.1 : ℚ) / 2, g.2.2) = .ok z)
      [(0, 0), (0, 1), (0, 2), (1, 0), (1, 1), (1, 2), (2, 0), (2, 1), (2, 2)] zs)
    (b full o : Box) (r : Nat) (hb : sourceBox (zs.map Prod.fst) (zs.map Prod.snd) = some b) (hr : readWindow b R.width R.height tw R.overviews = .ok (some (full, r, o)))
    (ho : o.x0 < o.x1 ∧ o.y0 < o.y1) (hbig : o.x1 - o.x0 < 32763 ∧ o.y1 - o.y0 < 32763 ∧ tw < 32767 ∧ th < 32767) :
    ∃ rows, createOrthophotoTile R S .minmax sar sample minLon minLat maxLon maxLat tw th = .ok (some rows) := by
  have hz' : projectGrid S g.2.2 minLon minLat maxLon maxLat = .ok zs := by
    unfold projectGrid project
    rw [mapM_ok]
    have e : [(0, 0), (0, 1), (0, 2), (1, 0), (1, 1), (1, 2), (2, 0), (2, 1), (2, 2)] = gridIndices.map (fun ij => (ij.1.val, ij.2.val)) := rfl
    rw [e, List.forall₂_map_left_iff] at hz
    exact hz
  have hrender : ∃ rows, render R .minmax sar sample zs tw th full r o = .ok rows := by
    have hwpos : 0 < (o.x1 - o.x0).toNat := by omega
    have hhpos : 0 < (o.y1 - o.y0).toNat := by omega
    have hdisp : ∃ cs, display .minmax R sar (o.x1 - o.x0).toNat (o.y1 - o.y0).toNat ((List.range R.bands).map (fun k => readBand R r o (k + 1))) = .ok cs ∧ (cs.length = 1 ∨ cs.length = 3) := by
      rcases hbands with h1 | h3
      · rw [h1]
        obtain ⟨c, hc⟩ := adjustBand_minmax_ok R _ _ 1 hwpos hhpos (readBand R r o 1)
        refine ⟨[c], ?_, Or.inl rfl⟩
        show (do pure [← adjustBand .minmax R _ _ 1 (readBand R r o 1)] : Except PyErr (List Channel)) = _
        rw [hc]
        rfl
      · obtain ⟨m, hm⟩ : ∃ m, R.bands = 3 + m := ⟨R.bands - 3, by omega⟩
        have hl : (List.range R.bands).map (fun k => readBand R r o (k + 1)) =
            readBand R r o 1 :: readBand R r o 2 :: readBand R r o 3 :: (List.range m).map (fun k => readBand R r o (3 + k + 1)) := by
          rw [hm, List.range_add, List.map_append, List.map_map]
          rfl
        obtain ⟨c1, hc1⟩ := adjustBand_minmax_ok R _ _ 1 hwpos hhpos (readBand R r o 1)
        obtain ⟨c2, hc2⟩ := adjustBand_minmax_ok R _ _ 2 hwpos hhpos (readBand R r o 2)
        obtain ⟨c3, hc3⟩ := adjustBand_minmax_ok R _ _ 3 hwpos hhpos (readBand R r o 3)
        refine ⟨[c1, c2, c3], ?_, Or.inr rfl⟩
        rw [hl]
        show (do
          let a' ← adjustBand .minmax R _ _ 1 (readBand R r o 1)
          let b' ← adjustBand .minmax R _ _ 2 (readBand R r o 2)
          let c' ← adjustBand .minmax R _ _ 3 (readBand R r o 3)
          pure [a', b', c'] : Except PyErr (List Channel)) = _
        rw [hc1, hc2, hc3]
        rfl
    obtain ⟨cs, hcs, hlen⟩ := hdisp
    have hremap : ∀ z, ∃ m, remapArray z tw th = .ok m := by
      intro z
      unfold remapArray
      rw [if_neg (by omega)]
      exact ⟨_, rfl⟩
    obtain ⟨m1, hm1⟩ := hremap (asArray (zs.map (fun z => toRead full.x0 r z.1)))
    obtain ⟨m2, hm2⟩ := hremap (asArray (zs.map (fun z => toRead full.y0 r z.2)))
    have hpixel : ∀ p, ∃ q, outputPixel sample (o.x1 - o.x0).toNat (o.y1 - o.y0).toNat cs p = .ok q := by
      intro p
      unfold outputPixel
      rcases hlen with h1 | h3
      · match cs, h1 with
        | [c], _ => exact ⟨_, rfl⟩
      · match cs, h3 with
        | [c, d, e], _ => exact ⟨_, rfl⟩
    obtain ⟨rows, hrows⟩ := mapM_all (fun rows : List ℚ × List ℚ => (rows.1.zip rows.2).mapM (outputPixel sample (o.x1 - o.x0).toNat (o.y1 - o.y0).toNat cs)) (m1.zip m2)
      (fun a _ => mapM_all _ _ (fun p _ => hpixel p))
    refine ⟨rows, ?_⟩
    unfold render
    rw [if_neg (by omega), if_neg (by unfold remapLimit; omega)]
    simp only [hcs, hm1, hm2, bind, Except.bind]
    exact hrows
  obtain ⟨rows, hrows⟩ := hrender
  refine ⟨rows, ?_⟩
  unfold createOrthophotoTile
  rw [hg]
  simp only [bind, Except.bind, hz', hb, hr, hrows, pure, Except.pure]

/-- Premises: the tile of the example below. -/
example : sourceBox [2, 8, 14, 2, 8, 14, 2, 8, 14] [2, 2, 2, 8, 8, 8, 14, 14, 14] = some ⟨2, 2, 14, 14⟩ ∧
    readWindow ⟨2, 2, 14, 14⟩ 16 16 4 1 = .ok (some (⟨2, 2, 14, 14⟩, 1, ⟨1, 1, 7, 7⟩)) := by decide +kernel

/-- Premises: a 16 × 16 image with one overview, an affine sensor model, a tile of 4 × 4 pixels made of the overview. -/
def grey16 : Raster := ⟨16, 16, 1, 1, fun _ r x y => 2 ^ r * (x + 10 * y) + 1, fun _ => some 0, fun _ => some 255, fun _ _ _ _ => []⟩

example : Samples nearest := by
  intro w h c x y _ _ _ _ _ _
  unfold nearest
  rw [Int.floor_intCast, Int.floor_intCast]

example : (createOrthophotoTile grey16 ⟨fun p => .ok (p.1, -p.2, 7), fun g => .ok (g.1, -g.2.1)⟩ .minmax (fun a _ => .ok a) nearest 2 (-14) 14 (-2) 4 4).toOption.map (·.map (·.map (·.map Rgba.red))) =
    some (some [[23, 27, 31, 33], [63, 67, 71, 73], [103, 107, 111, 113], [123, 127, 131, 133]]) := by
  decide +kernel

/-! ## Pixel centres (C107) -/

/-- `cv2.remap` with `INTER_LINEAR` in exact arithmetic: whole positions are the centres of pixels. -/
def bilinear (_ _ : Nat) (c : Channel) (x y : ℚ) : Int :=
  let u := x - ⌊x⌋
  let v := y - ⌊y⌋
  ⌊(1 - v) * ((1 - u) * c ⌊y⌋ ⌊x⌋ + u * c ⌊y⌋ (⌊x⌋ + 1)) + v * ((1 - u) * c (⌊y⌋ + 1) ⌊x⌋ + u * c (⌊y⌋ + 1) (⌊x⌋ + 1)) + 1 / 2⌋

theorem bilinear_samples : Samples bilinear := by
  intro w h c x y _ _ _ _ _ _
  simp only [bilinear, Int.floor_intCast, sub_self, sub_zero, one_mul, zero_mul, add_zero]
  rw [Int.floor_intCast_add]
  norm_num

/-- Columns of 100 and 200 in turn. -/
def striped : Raster := ⟨8, 8, 1, 0, fun _ _ x _ => if x % 2 = 0 then 100 else 200, fun _ => some 0, fun _ => some 255, fun _ _ _ _ => []⟩

/-- The image lies on the ground pixel by pixel. -/
def flat : Sensor := ⟨fun p => .ok (p.1, -p.2, 0), fun g => .ok (g.1, -g.2.1)⟩

/-- **C107** is false: image coordinates have the centre of the pixel in column 2 at 2.5, but a tile shows there the mean of the columns 2 and 3; the value of the pixel itself is shown
half a pixel to the left. -/
theorem pixel_centre_shows_neighbours :
    (createOrthophotoTile striped flat .minmax (fun a _ => .ok a) bilinear (5 / 2) (-9 / 2) (9 / 2) (-5 / 2) 3 3).toOption.map (·.map (·.map (·.map Rgba.red))) =
      some (some (List.replicate 3 [150, 150, 100])) := by
  decide +kernel

end Verif.Props.Orthophoto
