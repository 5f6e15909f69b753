import Verif.Spec.Rpc
import Mathlib.Tactic.FieldSimp
import Mathlib.Tactic.LinearCombination
import Mathlib.Tactic.NormNum
import Mathlib.Tactic.Positivity

/-!
# Properties C29, C30 and C69: RPC models, the ground point search and its simplex
-/

namespace Verif.Props.Rpc

open Verif.Sensors Verif.Rpc Verif.Spec.Rpc
open Verif.Dem (Geo)

/-! ## C69 -/

/-- **C69**: the simplex has three corners, its centre is the given point, and all sides have the
given length; the first corner is straight above the centre and the other two are level. -/
theorem triangle_is_equilateral (c : ℝ × ℝ) (size : ℝ) :
    ∃ a b d, equilateralTriangle c size = [a, b, d] ∧
      (a.1 + b.1 + d.1) / 3 = c.1 ∧ (a.2 + b.2 + d.2) / 3 = c.2 ∧
      misfit a b = |size| ∧ misfit b d = |size| ∧ misfit d a = |size| ∧ a.1 = c.1 ∧ b.2 = d.2 := by
  have h3 : Real.sqrt 3 * Real.sqrt 3 = 3 := Real.mul_self_sqrt (by norm_num)
  refine ⟨_, _, _, rfl, ?_, ?_, ?_, ?_, ?_, ?_, ?_⟩
  · simp only; ring
  · simp only; ring
  · unfold misfit
    rw [← Real.sqrt_sq_eq_abs]
    congr 1
    linear_combination (size ^ 2 / 4) * h3
  · unfold misfit
    rw [← Real.sqrt_sq_eq_abs]
    congr 1
    simp only
    ring
  · unfold misfit
    rw [← Real.sqrt_sq_eq_abs]
    congr 1
    linear_combination (size ^ 2 / 4) * h3
  · simp
  · rfl

/-! ## C29 -/

theorem rpcPolynomial_eq {K : Type} [Field K] (c : List K) (hc : 20 ≤ c.length) (l p h : K) :
    rpcPolynomial c l p h = .ok (cubic c l p h) := by
  match c with
  | c0 :: c1 :: c2 :: c3 :: c4 :: c5 :: c6 :: c7 :: c8 :: c9 :: c10 :: c11 :: c12 :: c13 :: c14 :: c15 :: c16 :: c17 ::
      c18 :: c19 :: rest =>
    unfold rpcPolynomial cubic rpc00b
    simp only [List.zip_cons_cons, List.zip_nil_right, List.map_cons, List.map_nil, List.sum_cons, List.sum_nil]
    congr 1
    ring
  | [] | [_] | [_, _] | [_, _, _] | [_, _, _, _] | [_, _, _, _, _] | [_, _, _, _, _, _] | [_, _, _, _, _, _, _]
  | [_, _, _, _, _, _, _, _] | [_, _, _, _, _, _, _, _, _] | [_, _, _, _, _, _, _, _, _, _]
  | [_, _, _, _, _, _, _, _, _, _, _] | [_, _, _, _, _, _, _, _, _, _, _, _] | [_, _, _, _, _, _, _, _, _, _, _, _, _]
  | [_, _, _, _, _, _, _, _, _, _, _, _, _, _] | [_, _, _, _, _, _, _, _, _, _, _, _, _, _, _]
  | [_, _, _, _, _, _, _, _, _, _, _, _, _, _, _, _] | [_, _, _, _, _, _, _, _, _, _, _, _, _, _, _, _, _]
  | [_, _, _, _, _, _, _, _, _, _, _, _, _, _, _, _, _, _] | [_, _, _, _, _, _, _, _, _, _, _, _, _, _, _, _, _, _, _] =>
    simp at hc

/-- **C29**: with twenty coefficients in each polynomial, non-zero scales and denominators that do
not vanish, the projection is offset plus scale times the ratio of the RPC00B cubics of the
normalised longitude and latitude in degrees and the height. -/
theorem rpc_world_to_image (r : RpcModel) (g : Geo ℝ) (h1 : r.lineNum.length = 20) (h2 : r.lineDen.length = 20)
    (h3 : r.sampNum.length = 20) (h4 : r.sampDen.length = 20) (hlon : r.longScale ≠ 0) (hlat : r.latScale ≠ 0)
    (hh : r.heightScale ≠ 0) (L P H : ℝ)
    (hL : L * r.longScale + r.longOff = 180 / Real.pi * g.longitude)
    (hP : P * r.latScale + r.latOff = 180 / Real.pi * g.latitude)
    (hH : H * r.heightScale + r.heightOff = g.elevation)
    (hd : cubic r.lineDen L P H ≠ 0) (hd' : cubic r.sampDen L P H ≠ 0) :
    r.worldToImage g = .ok (r.sampOff + r.sampScale * (cubic r.sampNum L P H / cubic r.sampDen L P H),
      r.lineOff + r.lineScale * (cubic r.lineNum L P H / cubic r.lineDen L P H)) := by
  have eL : (degrees g.longitude - r.longOff) / r.longScale = L := by
    rw [div_eq_iff hlon]
    unfold degrees
    linear_combination -hL
  have eP : (degrees g.latitude - r.latOff) / r.latScale = P := by
    rw [div_eq_iff hlat]
    unfold degrees
    linear_combination -hP
  have eH : (g.elevation - r.heightOff) / r.heightScale = H := by
    rw [div_eq_iff hh]
    linear_combination -hH
  unfold RpcModel.worldToImage pyDiv npDiv
  rw [if_neg hlon, if_neg hlat, if_neg hh, eL, eP, eH]
  simp only [bind, Except.bind, rpcPolynomial_eq _ h1.ge, rpcPolynomial_eq _ h2.ge, rpcPolynomial_eq _ h3.ge,
    rpcPolynomial_eq _ h4.ge, raise, if_neg hd, if_neg hd']
  congr 2 <;> ring

/-- A model with different coefficients in each polynomial, and a coordinate, that meet the
hypotheses. -/
noncomputable def sampleRpc : RpcModel :=
  { lineOff := 1000, sampOff := 2000, latOff := 0, longOff := 0, heightOff := 100, lineScale := 500, sampScale := 400,
    latScale := 2, longScale := 4, heightScale := 50,
    lineNum := [0, 0, 1, 0, 0, 0, 0, 0, 0, 0, 0, 0, 3, 0, 0, 0, 0, 0, 0, 0],
    lineDen := [1, 0, 0, 0, 0, 0, 0, 0, 0, 0, 0, 0, 0, 0, 0, 0, 0, 0, 0, 2],
    sampNum := [0, 1, 0, 0, 0, 5, 0, 0, 0, 0, 0, 0, 0, 0, 0, 0, 0, 0, 0, 0],
    sampDen := [1, 0, 0, 1, 0, 0, 0, 0, 0, 0, 0, 0, 0, 0, 0, 0, 0, 0, 0, 0] }

example : sampleRpc.worldToImage ⟨Real.pi / 90, Real.pi / 180, 150⟩ = .ok (2600, 1000 + 500 * (7 / 24)) := by
  have h := rpc_world_to_image sampleRpc ⟨Real.pi / 90, Real.pi / 180, 150⟩ rfl rfl rfl rfl
    (by norm_num [sampleRpc]) (by norm_num [sampleRpc]) (by norm_num [sampleRpc]) (1 / 2) (1 / 2) 1
    (by simp only [sampleRpc]; have := Real.pi_ne_zero; field_simp; norm_num)
    (by simp only [sampleRpc]; have := Real.pi_ne_zero; field_simp; norm_num)
    (by norm_num [sampleRpc])
    (by norm_num [sampleRpc, cubic, rpc00b]) (by norm_num [sampleRpc, cubic, rpc00b])
  rw [h]
  simp only [sampleRpc, cubic, rpc00b, List.zip_cons_cons, List.zip_nil_right, List.map_cons, List.map_nil, List.sum_cons,
    List.sum_nil]
  norm_num

theorem rpcPolynomial_short {l : List ℝ} (hl : l.length < 20) (x y h : ℝ) : rpcPolynomial l x y h = .error .indexError := by
  unfold rpcPolynomial
  split
  · rename_i heq
    simp only [List.length_cons] at hl
    omega
  · rfl

/-- **C29**: a polynomial with fewer than twenty coefficients makes `world_to_image` raise
`IndexError` (for scales that are not zero; for the line polynomials when the sample quotient
exists), and whichever polynomial it is, no coordinate is ever computed from it. -/
theorem rpc_short_polynomial (r : RpcModel) (g : Geo ℝ) (hlon : r.longScale ≠ 0) (hlat : r.latScale ≠ 0)
    (hh : r.heightScale ≠ 0) :
    (r.sampNum.length < 20 → r.worldToImage g = .error (.raised .indexError)) ∧
    (r.sampNum.length < 20 ∨ r.sampDen.length < 20 ∨ r.lineNum.length < 20 ∨ r.lineDen.length < 20 →
      r.worldToImage g = .error (.raised .indexError) ∨ r.worldToImage g = .error .notFinite) := by
  have raises : ∀ f (l : List ℝ) (x y h : ℝ), raise (rpcPolynomial l x y h) = .error f → f = .raised .indexError := by
    intro f l x y h hf
    unfold rpcPolynomial at hf
    split at hf
    · simp [raise] at hf
    · simp only [raise, Except.error.injEq] at hf
      exact hf.symm
  refine ⟨fun h1 => ?_, fun h1 => ?_⟩
  · unfold RpcModel.worldToImage pyDiv npDiv
    rw [if_neg hlon, if_neg hlat, if_neg hh]
    simp only [bind, Except.bind, rpcPolynomial_short h1, raise]
  · rcases hw : r.worldToImage g with f | q
    · unfold RpcModel.worldToImage pyDiv at hw
      rw [if_neg hlon, if_neg hlat] at hw
      simp only [bind, Except.bind] at hw
      have key : ∀ a b f, npDiv a b = .error f → f = .notFinite := by
        intro a b f hf
        unfold npDiv at hf
        split_ifs at hf
        simpa using hf.symm
      repeat' split at hw
      all_goals first
        | (rename_i hx; simp only [Except.error.injEq] at hw; subst hw
           first
             | (left; rw [raises _ _ _ _ _ hx])
             | (right; rw [key _ _ _ hx]))
        | simp at hw
    · exfalso
      unfold RpcModel.worldToImage pyDiv npDiv at hw
      rw [if_neg hlon, if_neg hlat, if_neg hh] at hw
      rcases h1 with h1 | h1 | h1 | h1 <;>
        simp only [bind, Except.bind, rpcPolynomial_short h1, raise] at hw <;>
        repeat' split at hw
      all_goals simp at hw

example : ({ sampleRpc with sampNum := [1, 2] } : RpcModel).worldToImage ⟨0, 0, 0⟩ = .error (.raised .indexError) :=
  (rpc_short_polynomial _ _ (by norm_num [sampleRpc]) (by norm_num [sampleRpc]) (by norm_num [sampleRpc])).1 (by simp)

/-- **C29**: a longitude or latitude scale of zero makes `world_to_image` raise `ZeroDivisionError` for every coordinate; with a height scale of zero, or where a
denominator vanishes, no finite coordinate is returned. -/
theorem rpc_zero_scale (r : RpcModel) (g : Geo ℝ) :
    (r.longScale = 0 ∨ r.latScale = 0 → r.worldToImage g = .error (.raised .zeroDivisionError)) ∧
    (r.longScale ≠ 0 → r.latScale ≠ 0 → r.heightScale = 0 → r.worldToImage g = .error .notFinite) ∧
    (r.longScale ≠ 0 → r.latScale ≠ 0 → r.heightScale ≠ 0 → r.lineNum.length = 20 → r.lineDen.length = 20 → r.sampNum.length = 20 → r.sampDen.length = 20 →
      ∀ L P H, L * r.longScale + r.longOff = 180 / Real.pi * g.longitude → P * r.latScale + r.latOff = 180 / Real.pi * g.latitude →
        H * r.heightScale + r.heightOff = g.elevation → cubic r.lineDen L P H = 0 ∨ cubic r.sampDen L P H = 0 → r.worldToImage g = .error .notFinite) := by
  refine ⟨fun h => ?_, fun h1 h2 h3 => ?_, fun hlon hlat hh h1 h2 h3 h4 L P H hL hP hH hd => ?_⟩
  · unfold RpcModel.worldToImage pyDiv
    by_cases h1 : r.longScale = 0
    · simp only [if_pos h1, bind, Except.bind]
    · rw [if_neg h1]
      have h2 := h.resolve_left h1
      simp only [if_pos h2, bind, Except.bind]
  · unfold RpcModel.worldToImage pyDiv npDiv
    rw [if_neg h1, if_neg h2]
    simp only [if_pos h3, bind, Except.bind]
  · have eL : (degrees g.longitude - r.longOff) / r.longScale = L := by
      rw [div_eq_iff hlon]
      unfold degrees
      linear_combination -hL
    have eP : (degrees g.latitude - r.latOff) / r.latScale = P := by
      rw [div_eq_iff hlat]
      unfold degrees
      linear_combination -hP
    have eH : (g.elevation - r.heightOff) / r.heightScale = H := by
      rw [div_eq_iff hh]
      linear_combination -hH
    unfold RpcModel.worldToImage pyDiv npDiv
    rw [if_neg hlon, if_neg hlat, if_neg hh, eL, eP, eH]
    simp only [bind, Except.bind, rpcPolynomial_eq _ h1.ge, rpcPolynomial_eq _ h2.ge, rpcPolynomial_eq _ h3.ge,
      rpcPolynomial_eq _ h4.ge, raise]
    by_cases hs : cubic r.sampDen L P H = 0
    · simp only [if_pos hs]
    · simp only [if_neg hs, if_pos (hd.resolve_right hs)]

example : ({ sampleRpc with latScale := 0 } : RpcModel).worldToImage ⟨0, 0, 0⟩ = .error (.raised .zeroDivisionError) :=
  (rpc_zero_scale _ _).1 (.inr rfl)

/-- The denominator of the sample vanishes at height 50. -/
example : sampleRpc.worldToImage ⟨0, 0, 50⟩ = .error .notFinite :=
  (rpc_zero_scale sampleRpc ⟨0, 0, 50⟩).2.2 (by norm_num [sampleRpc]) (by norm_num [sampleRpc]) (by norm_num [sampleRpc]) rfl rfl rfl rfl 0 0 (-1)
    (by norm_num [sampleRpc]) (by norm_num [sampleRpc]) (by norm_num [sampleRpc]) (.inr (by norm_num [sampleRpc, cubic, rpc00b]))

/-! ## C30 -/

theorem onSurface_eq (z : ℝ) (e : Option (Elev ℝ)) (p : ℝ × ℝ) : onSurface (constantElevation z) e p = ground z e p.1 p.2 := by
  unfold onSurface constantElevation ground withElevation
  cases e <;> rfl

/-- What the search returns and which points it projects. -/
theorem search_spec (w : Geo ℝ → Except Fail (ℝ × ℝ)) (z : ℝ) (e : Option (Elev ℝ)) (target : ℝ × ℝ) (s : Search) :
    (∀ g ∈ (s.run (objective w (constantElevation z) e target)).1, ∃ lon lat, ground z e lon lat = .ok g) ∧
    (∀ x, (s.run (objective w (constantElevation z) e target)).2 = .ok x → Finds (IsMisfit w z e target) s x) ∧
    (∀ f, (s.run (objective w (constantElevation z) e target)).2 = .error f → f ≠ .notFinite) := by
  induction s with
  | done p =>
    refine ⟨by simp [Search.run], ?_, ?_⟩
    · intro x hx
      simp only [Search.run, Except.ok.injEq] at hx
      rw [← hx]
      exact .done p
    · intro f hf
      simp [Search.run] at hf
  | ask p next ih =>
    unfold Search.run
    have key : ∀ l v, objective w (constantElevation z) e target p = (l, v) →
        (∀ g ∈ l, ∃ lon lat, ground z e lon lat = .ok g) ∧
        (v = .error .notFinite → IsMisfit w z e target p none) ∧
        (∀ a, v = .ok a → IsMisfit w z e target p (some a)) := by
      intro l v hv
      unfold objective at hv
      rw [onSurface_eq] at hv
      cases hg : ground z e p.1 p.2 with
      | error f =>
        rw [hg] at hv
        simp only [Prod.mk.injEq] at hv
        obtain ⟨rfl, rfl⟩ := hv
        refine ⟨by simp, ?_, by simp⟩
        intro hf
        left
        rw [hg]
        simpa using hf
      | ok g =>
        rw [hg] at hv
        simp only [Prod.mk.injEq] at hv
        obtain ⟨rfl, rfl⟩ := hv
        refine ⟨?_, ?_, ?_⟩
        · intro g' hg'
          simp only [List.mem_singleton] at hg'
          exact ⟨_, _, hg' ▸ hg⟩
        · intro hf
          right
          refine ⟨g, hg, ?_⟩
          cases hw : w g with
          | error f => rw [hw] at hf; simpa [Except.map] using hf
          | ok q => rw [hw] at hf; simp [Except.map] at hf
        · intro a ha
          cases hw : w g with
          | error f => rw [hw] at ha; simp [Except.map] at ha
          | ok q =>
            rw [hw] at ha
            simp only [Except.map, Except.ok.injEq] at ha
            exact ⟨g, q, hg, hw, ha.symm⟩
    rcases hobj : objective w (constantElevation z) e target p with ⟨l, v⟩
    obtain ⟨k1, k2, k3⟩ := key _ _ hobj
    match v with
    | .error (.raised x) =>
      refine ⟨k1, by simp, ?_⟩
      intro f hf
      simp only [Except.error.injEq] at hf
      simp [← hf]
    | .error .notFinite =>
      obtain ⟨i1, i2, i3⟩ := ih none
      refine ⟨?_, ?_, i3⟩
      · intro g hg
        rcases List.mem_append.1 hg with hg | hg
        · exact k1 g hg
        · exact i1 g hg
      · intro x hx
        exact .ask _ _ _ _ (k2 rfl) (i2 x hx)
    | .ok a =>
      obtain ⟨i1, i2, i3⟩ := ih (some a)
      refine ⟨?_, ?_, i3⟩
      · intro g hg
        rcases List.mem_append.1 hg with hg | hg
        · exact k1 g hg
        · exact i1 g hg
      · intro x hx
        exact .ask _ _ _ _ (k3 a rfl) (i2 x hx)

/-- The search started by `image_to_world`. -/
theorem searchImageToWorld_spec (minimise : Minimiser) (bounds : Option ((ℝ × ℝ) × ℝ × ℝ))
    (w : Geo ℝ → Except Fail (ℝ × ℝ)) (z : ℝ) (start0 : ℝ × ℝ) (size0 : ℝ) (p : ℝ × ℝ) (e : Option (Elev ℝ))
    (o : Option (Dict ℝ)) :
    (∀ g ∈ (searchImageToWorld minimise bounds w (constantElevation z) start0 size0 p e o).1,
      ∃ lon lat, ground z e lon lat = .ok g) ∧
    ∀ g, (searchImageToWorld minimise bounds w (constantElevation z) start0 size0 p e o).2 = .ok g →
      ∃ start size lon lat,
        ((o.bind (· "initial_guess")) = some (.pair start.1 start.2) ∨
          (o.bind (· "initial_guess")) = none ∧ start = start0) ∧
        ((o.bind (· "initial_search_distance")) = some (.num size) ∨
          (o.bind (· "initial_search_distance")) = none ∧ size = size0) ∧
        Finds (IsMisfit w z e p) (minimise start bounds (equilateralTriangle start size)) (lon, lat) ∧
        ground z e lon lat = .ok g := by
  unfold searchImageToWorld
  have hm : ∀ k : String, hint o k = o.bind (· k) := by
    intro k
    cases o <;> rfl
  have hs : ∀ start, startFrom o start0 = .ok start →
      ((o.bind (· "initial_guess")) = some (.pair start.1 start.2) ∨
        (o.bind (· "initial_guess")) = none ∧ start = start0) := by
    intro start h
    unfold startFrom at h
    rw [hm] at h
    split at h
    · rename_i h'
      right
      simp only [Except.ok.injEq] at h
      exact ⟨h', h.symm⟩
    · rename_i h'
      left
      simp only [Except.ok.injEq] at h
      rw [h', ← h]
    · simp at h
  have hd : ∀ size, distanceFrom o size0 = .ok size →
      ((o.bind (· "initial_search_distance")) = some (.num size) ∨
        (o.bind (· "initial_search_distance")) = none ∧ size = size0) := by
    intro size h
    unfold distanceFrom at h
    rw [hm] at h
    split at h
    · rename_i h'
      right
      simp only [Except.ok.injEq] at h
      exact ⟨h', h.symm⟩
    · rename_i h'
      left
      simp only [Except.ok.injEq] at h
      rw [h', ← h]
    · simp at h
  split
  · exact ⟨by simp, by simp⟩
  · exact ⟨by simp, by simp⟩
  · rename_i start size h1 h2
    obtain ⟨i1, i2, -⟩ := search_spec w z e p (minimise start bounds (equilateralTriangle start size))
    split
    · rename_i l f heq
      rw [heq] at i1
      exact ⟨i1, by simp⟩
    · rename_i l x heq
      rw [heq] at i1 i2
      refine ⟨i1, ?_⟩
      intro g hg
      rw [onSurface_eq] at hg
      exact ⟨start, size, x.1, x.2, hs _ h1, hd _ h2, i2 x rfl, hg⟩

/-- **C30** for RPC models: the returned point is the ground point at the longitude and latitude
that the minimiser found; the minimiser starts at the hint, or at the centre of the model, with an
equilateral triangle of the hinted size, or half a degree, and is told the distance in the image
for ground points on the elevation surface; no other point is ever projected. -/
theorem rpc_image_to_world (minimise : Minimiser) (r : RpcModel) (p : ℝ × ℝ) (e : Option (Elev ℝ)) (o : Option (Dict ℝ)) :
    (∀ g ∈ (r.locate minimise p e o).1, ∃ lon lat, ground r.heightOff e lon lat = .ok g) ∧
    ∀ g, (r.model minimise).imageToWorld p e o = .ok g →
      ∃ start size lon lat,
        ((o.bind (· "initial_guess")) = some (.pair start.1 start.2) ∨
          (o.bind (· "initial_guess")) = none ∧ start = (r.longOff * (Real.pi / 180), r.latOff * (Real.pi / 180))) ∧
        ((o.bind (· "initial_search_distance")) = some (.num size) ∨
          (o.bind (· "initial_search_distance")) = none ∧ size = Real.pi / 360) ∧
        Finds (IsMisfit (r.model minimise).worldToImage r.heightOff e p)
          (minimise start none (equilateralTriangle start size)) (lon, lat) ∧
        ground r.heightOff e lon lat = .ok g := by
  have h := searchImageToWorld_spec minimise none r.worldToImage r.heightOff (radians r.longOff, radians r.latOff)
    (radians 0.5) p e o
  have e1 : (radians r.longOff, radians r.latOff) = (r.longOff * (Real.pi / 180), r.latOff * (Real.pi / 180)) := by
    unfold radians
    congr 1 <;> ring
  have e2 : radians 0.5 = Real.pi / 360 := by
    unfold radians
    ring
  refine ⟨h.1, ?_⟩
  intro g hg
  rw [← e1, ← e2]
  exact h.2 g hg

/-- **C30**: the point that comes back without an elevation model has the default height; with an
elevation model that has no data there it also has the default height. -/
theorem ground_default (z : ℝ) (e : Option (Elev ℝ)) (lon lat : ℝ)
    (he : ∀ f, e = some f → f ⟨lon, lat, z⟩ = .ok ⟨lon, lat, z⟩) : ground z e lon lat = .ok ⟨lon, lat, z⟩ := by
  cases e with
  | none => rfl
  | some f => exact he f rfl

/-- **C30**: the answers that the minimiser gets tell exactly how far the projection of the result
is from the pixel: if the misfit at the result is at most `ε`, projecting the result gives the
pixel back up to `ε`. -/
theorem search_round_trip (m : Geo ℝ → Except Fail (ℝ × ℝ)) (z : ℝ) (e : Option (Elev ℝ)) (p : ℝ × ℝ) (lon lat v ε : ℝ)
    (g : Geo ℝ) (hv : IsMisfit m z e p (lon, lat) (some v)) (hle : v ≤ ε) (hg : ground z e lon lat = .ok g) :
    ∃ x, m g = .ok x ∧ |x.1 - p.1| ≤ ε ∧ |x.2 - p.2| ≤ ε := by
  obtain ⟨g', x, h1, h2, h3⟩ := hv
  rw [hg] at h1
  simp only [Except.ok.injEq] at h1
  subst h1
  refine ⟨x, h2, ?_, ?_⟩
  · refine le_trans (Real.abs_le_sqrt ?_) (h3 ▸ hle)
    nlinarith [sq_nonneg (p.2 - x.2)]
  · refine le_trans (Real.abs_le_sqrt ?_) (h3 ▸ hle)
    nlinarith [sq_nonneg (p.1 - x.1)]

/-- A minimiser that asks once at its start and is satisfied. -/
def oneStep : Minimiser := fun start _ _ => .ask start (fun _ => .done start)

example : (sampleRpc.model oneStep).imageToWorld (10, 20) (some (constantElevation 7)) none = .ok ⟨0, 0, 7⟩ := by
  have h1 : startFrom none (radians sampleRpc.longOff, radians sampleRpc.latOff) = .ok (0, 0) := by
    simp [startFrom, hint, radians, sampleRpc]
  have h := rpc_world_to_image sampleRpc ⟨0, 0, 7⟩ rfl rfl rfl rfl
    (by norm_num [sampleRpc]) (by norm_num [sampleRpc]) (by norm_num [sampleRpc]) 0 0 (-93 / 50)
    (by simp [sampleRpc]) (by simp [sampleRpc]) (by norm_num [sampleRpc])
    (by norm_num [sampleRpc, cubic, rpc00b]) (by norm_num [sampleRpc, cubic, rpc00b])
  show (RpcModel.locate oneStep sampleRpc (10, 20) (some (constantElevation 7)) none).2 = _
  unfold RpcModel.locate searchImageToWorld
  rw [h1]
  simp only [distanceFrom, hint, oneStep, Search.run, objective, onSurface, constantElevation, withElevation, bind, Except.bind, h,
    Except.map]

end Verif.Props.Rpc
