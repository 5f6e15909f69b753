import Verif.Props.NelderMead
import Verif.Model.Loading

/-!
# Locations from the composite models of images (C144)

Images with an approximate model (corner points, affine) and a precise one (RPC, RSM) get a composite model.
-/

namespace Verif.Props.Composite

open Verif.Rpc Verif.Rsm Verif.Sensors Verif.Spec.Rpc Verif.Spec.Rsm Verif.Spec.Nearby Verif.Loading Verif.Props.NelderMead Verif.Props.Nearby Verif.Props.NearbyRsm Verif.NelderMead Verif.Props.RsmModel
open Verif.Dem (Geo)

/-- 0.005 degrees in radians. -/
noncomputable def reach : ℝ := 5 / 1000 * (Real.pi / 180)

theorem reach_eq : radians 0.005 = reach := by
  unfold radians reach
  ring

theorem reach_pos : 0 < reach := by
  have := Real.pi_pos
  unfold reach
  positivity

theorem guess_start (ga : Geo ℝ) (o : Option (Dict ℝ)) : guessFrom ga o "initial_guess" = some (.pair ga.longitude ga.latitude) := by
  simp [guessFrom]

theorem guess_size (ga : Geo ℝ) (o : Option (Dict ℝ)) : guessFrom ga o "initial_search_distance" = some (.num reach) := by
  simp [guessFrom, reach_eq]

theorem composite_ok {a m : Model} {p : ℝ × ℝ} {e : Option (Elev ℝ)} {o : Option (Dict ℝ)} {g : Geo ℝ} (h : (compositeModel a m).imageToWorld p e o = .ok g) :
    ∃ ga, a.imageToWorld p e o = .ok ga ∧ m.imageToWorld p e (some (guessFrom ga o)) = .ok g := by
  simp only [compositeModel, bind, Except.bind] at h
  rcases ha : a.imageToWorld p e o with e' | ga
  · rw [ha] at h; cases h
  · rw [ha] at h; exact ⟨ga, rfl, h⟩

theorem misfit_add (p x y : ℝ × ℝ) : misfit p y ≤ misfit p x + misfit x y := by
  have := abs_le.1 (misfit_triangle p y x)
  have e : misfit y x = misfit x y := by unfold misfit; congr 1; ring
  rw [e] at this
  linarith [this.2]

/-- The corners of the triangle are at most 0.003 degrees from the guess. -/
theorem corner_near (start q : ℝ × ℝ) (hq : q ∈ triangle start reach) : (q.1 - start.1) ^ 2 + (q.2 - start.2) ^ 2 ≤ (3 / 1000 * (Real.pi / 180)) ^ 2 := by
  have s := Real.sq_sqrt (show (0 : ℝ) ≤ 3 by norm_num)
  simp only [triangle, List.mem_cons, List.not_mem_nil, or_false] at hq
  unfold reach at hq
  have hp : 0 ≤ (Real.pi / 180) ^ 2 := sq_nonneg _
  rcases hq with rfl | rfl | rfl
  · calc _ = (5 / 1000) ^ 2 * Real.sqrt 3 ^ 2 / 9 * (Real.pi / 180) ^ 2 := by ring
      _ ≤ _ := by rw [s]; nlinarith
  · calc _ = ((5 / 1000) ^ 2 / 4 + (5 / 1000) ^ 2 * Real.sqrt 3 ^ 2 / 36) * (Real.pi / 180) ^ 2 := by ring
      _ ≤ _ := by rw [s]; nlinarith
  · calc _ = ((5 / 1000) ^ 2 / 4 + (5 / 1000) ^ 2 * Real.sqrt 3 ^ 2 / 36) * (Real.pi / 180) ^ 2 := by ring
      _ ≤ _ := by rw [s]; nlinarith

/-- **C144** for RPC models: `ga` is the place that the approximate model gives.  The place that the composite model returns has a pixel, and it misses the given one by no more than the place above `ga` on the elevation
surface does, plus what the projection changes within 0.003 degrees of `ga`. -/
theorem composite_rpc_miss (a : Model) (minimise : Minimiser) (hmin : NoWorse minimise) (r : RpcModel) (p : ℝ × ℝ) (e : Option (Elev ℝ)) (o : Option (Dict ℝ)) (ga g : Geo ℝ)
    (ha : a.imageToWorld p e o = .ok ga) (hg : (compositeModel a (r.model minimise)).imageToWorld p e o = .ok g) (above : Geo ℝ) (pa : ℝ × ℝ) (habove : ground r.heightOff e ga.longitude ga.latitude = .ok above)
    (hpa : r.worldToImage above = .ok pa) (change : ℝ)
    (hchange : ∀ q : ℝ × ℝ, (q.1 - ga.longitude) ^ 2 + (q.2 - ga.latitude) ^ 2 ≤ (3 / 1000 * (Real.pi / 180)) ^ 2 →
      ∃ gq pq, ground r.heightOff e q.1 q.2 = .ok gq ∧ r.worldToImage gq = .ok pq ∧ misfit pa pq ≤ change) :
    ∃ x, (compositeModel a (r.model minimise)).worldToImage g = .ok x ∧ misfit p x ≤ misfit p pa + change := by
  obtain ⟨ga', ha', hg'⟩ := composite_ok hg
  rw [ha] at ha'
  injection ha' with ha'
  subst ha'
  obtain ⟨start, size, h1, h2, h3⟩ := rpc_no_worse_than_corners minimise hmin r p e _ g hg'
  have e1 : start = (ga.longitude, ga.latitude) := by
    rcases h1 with h1 | h1
    · simp only [Option.bind_some, guess_start, Option.some.injEq, OptVal.pair.injEq] at h1
      exact Prod.ext h1.1.symm h1.2.symm
    · simp [guess_start] at h1
  have e2 : size = reach := by
    rcases h2 with h2 | h2
    · simp only [Option.bind_some, guess_size, Option.some.injEq, OptVal.num.injEq] at h2
      exact h2.symm
    · simp [guess_size] at h2
  subst e1 e2
  have hq : (ga.longitude, ga.latitude + reach * Real.sqrt 3 / 3) ∈ triangle (ga.longitude, ga.latitude) reach := by simp [triangle]
  obtain ⟨gq, pq, k1, k2, k3⟩ := hchange _ (corner_near _ _ hq)
  obtain ⟨x, hx, hle⟩ := h3 _ hq gq pq k1 k2
  exact ⟨x, hx, by have := misfit_add p pa pq; linarith⟩

/-- **C144** for RSM models: the same, when the places within 0.003 degrees of `ga` are in the box around the ground domain. -/
theorem composite_rsm_miss (a : Model) (earth : Earth) (minimise : Minimiser) (hmin : NoWorse minimise) (form : Form) (vs : List Vec) (origin : Option Vec)
    (units : Option Mat) (ref : Option Vec) (m : PolyModel) (hd : groundDomain earth form vs origin units ref = .ok m.domain) (p : ℝ × ℝ) (e : Option (Elev ℝ)) (o : Option (Dict ℝ)) (ga g : Geo ℝ)
    (ha : a.imageToWorld p e o = .ok ga) (hg : (compositeModel a (m.model earth minimise)).imageToWorld p e o = .ok g) (pa : ℝ × ℝ) (above : Geo ℝ)
    (habove : ground m.domain.defaultHeight e ga.longitude ga.latitude = .ok above) (hpa : m.worldToImage earth above = .ok pa) (change : ℝ)
    (hchange : ∀ q : ℝ × ℝ, (q.1 - ga.longitude) ^ 2 + (q.2 - ga.latitude) ^ 2 ≤ (3 / 1000 * (Real.pi / 180)) ^ 2 →
      Within m.domain.bbox q ∧ ∃ gq pq, ground m.domain.defaultHeight e q.1 q.2 = .ok gq ∧ m.worldToImage earth gq = .ok pq ∧ misfit pa pq ≤ change) :
    ∃ x, (compositeModel a (m.model earth minimise)).worldToImage g = .ok x ∧ misfit p x ≤ misfit p pa + change := by
  obtain ⟨ga', ha', hg'⟩ := composite_ok hg
  rw [ha] at ha'
  injection ha' with ha'
  subst ha'
  obtain ⟨start, size, v1, v4, _, _, h1, h2, h3⟩ := rsm_no_worse_than_corners earth minimise hmin form vs origin units ref m hd p e _ g hg'
  have e1 : start = (ga.longitude, ga.latitude) := by
    rcases h1 with h1 | h1
    · simp only [Option.bind_some, guess_start, Option.some.injEq, OptVal.pair.injEq] at h1
      exact Prod.ext h1.1.symm h1.2.symm
    · simp [guess_start] at h1
  have e2 : size = reach := by
    rcases h2 with h2 | h2
    · simp only [Option.bind_some, guess_size, Option.some.injEq, OptVal.num.injEq] at h2
      exact h2.symm
    · simp [guess_size] at h2
  subst e1 e2
  have hq : (ga.longitude, ga.latitude + reach * Real.sqrt 3 / 3) ∈ triangle (ga.longitude, ga.latitude) reach := by simp [triangle]
  obtain ⟨hw, gq, pq, k1, k2, k3⟩ := hchange _ (corner_near _ _ hq)
  obtain ⟨x, hx, hle⟩ := h3 _ hq hw gq pq k1 k2
  exact ⟨x, hx, by have := misfit_add p pa pq; linarith⟩

/-- **C144**, the place: for an RSM model that is nearly affine over its ground domain, the composite model returns a place near one that is projected to the pixel exactly.  The distance is proportional to the miss of the
approximate model's place, plus the change of the projection within 0.003 degrees. -/
theorem composite_rsm_place (a : Model) (earth : Earth) (minimise : Minimiser) (hmin : NoWorse minimise) (hstay : StaysInside minimise) (form : Form) (vs : List Vec) (origin : Option Vec)
    (units : Option Mat) (ref : Option Vec) (m : PolyModel) (hd : groundDomain earth form vs origin units ref = .ok m.domain) (b s steep q most gain : ℝ)
    (N : RsmNearlyAffine m b s steep q most gain) (hdomain : ∀ v ∈ m.domain.vertices, |v.longitude - m.xOff| ≤ b * |m.xScale| ∧ |v.latitude - m.yOff| ≤ b * |m.yScale|)
    (e : Option (Elev ℝ)) (height : ℝ → ℝ → ℝ) (S : RsmSurface m e b s height) (p : ℝ × ℝ) (hp : RsmReached m b q gain (height 0 0) p) (o : Option (Dict ℝ)) (ga g : Geo ℝ)
    (ha : a.imageToWorld p e o = .ok ga) (hg : (compositeModel a (m.model earth minimise)).imageToWorld p e o = .ok g) (pa : ℝ × ℝ) (above : Geo ℝ)
    (habove : ground m.domain.defaultHeight e ga.longitude ga.latitude = .ok above) (hpa : m.worldToImage earth above = .ok pa) (change : ℝ)
    (hchange : ∀ q : ℝ × ℝ, (q.1 - ga.longitude) ^ 2 + (q.2 - ga.latitude) ^ 2 ≤ (3 / 1000 * (Real.pi / 180)) ^ 2 →
      Within m.domain.bbox q ∧ ∃ gq pq, ground m.domain.defaultHeight e q.1 q.2 = .ok gq ∧ m.worldToImage earth gq = .ok pq ∧ misfit pa pq ≤ change)
    (ε : ℝ) (hε1 : misfit p pa + change ≤ ε * |m.colScale|) (hε2 : misfit p pa + change ≤ ε * |m.rowScale|) :
    ∃ g0, m.worldToImage earth g0 = .ok p ∧ ground m.domain.defaultHeight e g0.longitude g0.latitude = .ok g0 ∧
      gain * |g.longitude - g0.longitude| ≤ most * ε * |m.xScale| ∧ gain * |g.latitude - g0.latitude| ≤ most * ε * |m.yScale| := by
  obtain ⟨ga', ha', hg'⟩ := composite_ok hg
  rw [ha] at ha'
  injection ha' with ha'
  subst ha'
  have hq : (ga.longitude, ga.latitude + reach * Real.sqrt 3 / 3) ∈ triangle (ga.longitude, ga.latitude) reach := by simp [triangle]
  obtain ⟨hw, gq, pq, k1, k2, k3⟩ := hchange _ (corner_near _ _ hq)
  have := misfit_add p pa pq
  exact rsm_good_guess_good_place earth minimise hmin hstay form vs origin units ref m hd b s steep q most gain N hdomain e height S p hp _ _ reach (guess_start ga o) (guess_size ga o) _ hq hw gq pq
    k1 k2 ε (by linarith) (by linarith) g hg'

/-! ## A case -/

/-- A model that gives the same place for every pixel. -/
noncomputable def fixed (lon lat : ℝ) : Model := ⟨fun _ _ _ => .ok ⟨lon, lat, 0⟩, fun _ => .ok (0, 0)⟩

theorem plain_change (ga q : ℝ × ℝ) (h : (q.1 - ga.1) ^ 2 + (q.2 - ga.2) ^ 2 ≤ (3 / 1000 * (Real.pi / 180)) ^ 2) : misfit (plainPixel ga) (plainPixel q) ≤ 30 := by
  unfold misfit plainPixel
  apply Real.sqrt_le_iff.mpr
  refine ⟨by norm_num, ?_⟩
  have hπ := Real.pi_pos
  have e : (10000 * (180 / Real.pi * ga.1) - 10000 * (180 / Real.pi * q.1)) ^ 2 + (10000 * (180 / Real.pi * ga.2) - 10000 * (180 / Real.pi * q.2)) ^ 2 =
      10000 ^ 2 * (180 / Real.pi) ^ 2 * ((q.1 - ga.1) ^ 2 + (q.2 - ga.2) ^ 2) := by ring
  simp only
  rw [e]
  calc _ ≤ 10000 ^ 2 * (180 / Real.pi) ^ 2 * (3 / 1000 * (Real.pi / 180)) ^ 2 := mul_le_mul_of_nonneg_left h (by positivity)
    _ = 30 ^ 2 := by field_simp; norm_num

/-- The premises of `composite_rpc_miss` hold for `NelderMead.plain` with 10000 pixels to the degree, an approximate model that says (0, 0) and the pixel (50, -20): the result misses it by at most 90 pixels. -/
example (inf : Bool) : ∃ g x, (compositeModel (fixed 0 0) (plain.model (nelderMead inf))).imageToWorld (50, -20) none none = .ok g ∧
    (compositeModel (fixed 0 0) (plain.model (nelderMead inf))).worldToImage g = .ok x ∧ misfit (50, -20) x ≤ 90 := by
  have ok : ∃ g, (plain.model (nelderMead inf)).imageToWorld (50, -20) none (some (guessFrom ⟨0, 0, 0⟩ none)) = .ok g := by
    have pr : ∀ q : ℝ × ℝ, ∃ v, (objective plain.worldToImage (constantElevation plain.heightOff) none (50, -20) q).2 = .ok v := by
      intro q
      refine ⟨misfit (50, -20) (plainPixel q), ?_⟩
      simp only [objective, onSurface, constantElevation, withElevation, bind, Except.bind, plain_projects, Except.map, misfit]
    obtain ⟨x, hx⟩ := run_ok pr (nelderMead inf (0, 0) none (equilateralTriangle (0, 0) reach))
    refine ⟨⟨x.1, x.2, 100⟩, ?_⟩
    show (RpcModel.locate (nelderMead inf) plain (50, -20) none (some (guessFrom ⟨0, 0, 0⟩ none))).2 = _
    have e : ∀ y : List (Geo ℝ) × Except Fail (ℝ × ℝ), y.2 = .ok x → y = (y.1, .ok x) := by intro y h; rw [← h]
    simp only [RpcModel.locate, searchImageToWorld, startFrom, distanceFrom, hint, guess_start, guess_size]
    rw [e _ hx]
    rfl
  obtain ⟨g, hg⟩ := ok
  obtain ⟨x, h1, h2⟩ := composite_rpc_miss (fixed 0 0) (nelderMead inf) (nelder_mead_no_worse inf) plain (50, -20) none none ⟨0, 0, 0⟩ g rfl hg ⟨0, 0, 100⟩ (plainPixel (0, 0)) rfl (plain_projects (0, 0) 100) 30
    (fun q hq => ⟨_, _, rfl, plain_projects q 100, plain_change (0, 0) q hq⟩)
  refine ⟨g, x, hg, h1, h2.trans ?_⟩
  have : misfit (50, -20) (plainPixel (0, 0)) ≤ 60 := by
    unfold misfit plainPixel
    apply Real.sqrt_le_iff.mpr
    norm_num
  linarith

end Verif.Props.Composite
