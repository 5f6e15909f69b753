import Verif.Lemmas.NelderMead
import Verif.Props.Nearby
import Verif.Props.NearbyRsm

/-!
# Theorems about the Nelder-Mead search and the searches of `image_to_world`
-/

namespace Verif.Props.NelderMead

open Verif.Rpc Verif.NelderMead Verif.Spec.Rpc Verif.Spec.Rsm Verif.Spec.Nearby Verif.Lemmas.NelderMead Verif.Sensors Verif.Rsm
open Verif.Props.Rpc Verif.Props.RsmModel Verif.Props.Nearby Verif.Props.NearbyRsm
open Verif.Dem (Geo)

/-! ## What is assumed of minimisers elsewhere holds for SciPy's -/

/-- **C142**: the search asks for at most 400 values. -/
theorem nelder_mead_at_most_400 (inf : Bool) (start : ℝ × ℝ) (bounds : Option ((ℝ × ℝ) × ℝ × ℝ)) (simplex : List (ℝ × ℝ)) :
    AtMost 400 (nelderMead inf start bounds simplex) := by
  unfold nelderMead
  split
  · exact .ask _ _ _ fun _ => .ask _ _ _ fun _ => .ask _ _ _ fun _ => atMost_loop _ _ _ _ _ _ _
  · exact .done _ _
  · exact .done _ _

theorem within_kept {bounds : Option ((ℝ × ℝ) × ℝ × ℝ)} {q : ℝ × ℝ} (h : Within bounds q) : clipTo bounds (reflectAt bounds q) = q := by
  cases bounds with
  | none => rfl
  | some b =>
    obtain ⟨h1, h2, h3, h4⟩ := h b rfl
    simp only [clipTo, reflectAt, if_neg (not_lt.mpr h2), if_neg (not_lt.mpr h4), max_eq_left h1, max_eq_left h3, min_eq_left h2, min_eq_left h4]

/-- **C141**: the search returns a place that is no worse than any corner of the initial triangle. -/
theorem nelder_mead_no_worse (inf : Bool) : NoWorse (nelderMead inf) := by
  intro answer start bounds p1 p2 p3 p h
  simp only [nelderMead] at h
  obtain _ | ⟨_, _, f1, _, a1, h⟩ := h
  obtain _ | ⟨_, _, f2, _, a2, h⟩ := h
  obtain _ | ⟨_, _, f3, _, a3, h⟩ := h
  obtain ⟨k1, k2, _, _⟩ := sort_spec ⟨⟨clipTo bounds (reflectAt bounds p1), f1⟩, ⟨clipTo bounds (reflectAt bounds p2), f2⟩, ⟨clipTo bounds (reflectAt bounds p3), f3⟩⟩
  obtain ⟨v, hv, hb⟩ := loop_no_worse _ _ _ _ _ _ _ _ k1 (by
    intro v hv
    rcases (k2 v).mp hv with rfl | rfl | rfl
    · exact a1
    · exact a2
    · exact a3) h
  refine ⟨v, hv, ?_⟩
  intro q hq hw
  simp only [List.mem_cons, List.not_mem_nil, or_false] at hq
  rcases hq with rfl | rfl | rfl
  · refine ⟨f1, ?_, before_iff.mp (before_trans hb (sorted_first k1 ((k2 _).mpr (.inl rfl))))⟩
    rwa [within_kept hw] at a1
  · refine ⟨f2, ?_, before_iff.mp (before_trans hb (sorted_first k1 ((k2 _).mpr (.inr (.inl rfl)))))⟩
    rwa [within_kept hw] at a2
  · refine ⟨f3, ?_, before_iff.mp (before_trans hb (sorted_first k1 ((k2 _).mpr (.inr (.inr rfl)))))⟩
    rwa [within_kept hw] at a3

/-- **C77**: it is a simplex search in the sense of `hint_west_of_domain_sticks_to_edge`. -/
theorem nelder_mead_simplex_search (inf : Bool) : SimplexSearch (nelderMead inf) := by
  intro start b simplex p hne h
  simp only [nelderMead] at h
  split at h
  · rename_i p1 p2 p3
    obtain _ | ⟨_, _, f1, _, _, h⟩ := h
    obtain _ | ⟨_, _, f2, _, _, h⟩ := h
    obtain _ | ⟨_, _, f3, _, _, h⟩ := h
    have k := (sort_spec ⟨⟨clipTo (some b) (reflectAt (some b) p1), f1⟩, ⟨clipTo (some b) (reflectAt (some b) p2), f2⟩, ⟨clipTo (some b) (reflectAt (some b) p3), f3⟩⟩).2.1
    obtain ⟨t, h1, h2⟩ := loop_reach b inf _ _ ([p1, p2, p3].map (fun q => clip b (mirror b q))) _ _ _ _ (by
      refine .step _ _ _ (.refl _) fun q hq => .inl ?_
      have each : ∀ v, Of v ⟨⟨clipTo (some b) (reflectAt (some b) p1), f1⟩, ⟨clipTo (some b) (reflectAt (some b) p2), f2⟩, ⟨clipTo (some b) (reflectAt (some b) p3), f3⟩⟩ →
          v.x ∈ [p1, p2, p3].map (fun q => clip b (mirror b q)) := by
        rintro v (rfl | rfl | rfl)
        · exact List.mem_map.mpr ⟨p1, by simp, rfl⟩
        · exact List.mem_map.mpr ⟨p2, by simp, rfl⟩
        · exact List.mem_map.mpr ⟨p3, by simp, rfl⟩
      simp only [corners, List.mem_cons, List.not_mem_nil, or_false] at hq
      rcases hq with rfl | rfl | rfl
      · exact each _ ((k _).mp (.inl rfl))
      · exact each _ ((k _).mp (.inr (.inl rfl)))
      · exact each _ ((k _).mp (.inr (.inr rfl)))) h
    exact ⟨t, .inr h1, h2⟩
  · cases h
    exact ⟨_, .inl (.refl _), List.mem_map.mpr ⟨_, by simp, rfl⟩⟩
  · exact absurd rfl hne

theorem reach_inside {b : (ℝ × ℝ) × ℝ × ℝ} (h1 : b.1.1 ≤ b.2.1) (h2 : b.1.2 ≤ b.2.2) {s t : List (ℝ × ℝ)} (h : SimplexReach b s t)
    (hs : ∀ q ∈ s, ∃ r, q = clip b r) : ∀ q ∈ t, ∃ r, q = clip b r := by
  induction h with
  | refl => exact hs
  | step t u _ hu ih =>
    intro q hq
    rcases hu q hq with h | ⟨r, _, h⟩
    · exact ih q h
    · exact ⟨r, h⟩

/-- **C76**: it returns points inside its bounds, as `rsm_result_in_domain_partial` assumes. -/
theorem nelder_mead_stays_inside (inf : Bool) : StaysInside (nelderMead inf) := by
  intro start b simplex p h1 h2 h
  suffices ∃ r, p = clip b r by
    obtain ⟨r, rfl⟩ := this
    exact clip_mem b h1 h2 r
  by_cases hne : simplex = []
  · subst hne
    cases h
    exact ⟨start, rfl⟩
  · obtain ⟨t, ht, hp⟩ := nelder_mead_simplex_search inf start b simplex p hne h
    rcases ht with ht | ht
    · refine reach_inside h1 h2 ht ?_ p hp
      intro q hq
      obtain ⟨r, _, rfl⟩ := List.mem_map.mp hq
      exact ⟨r, rfl⟩
    · refine reach_inside h1 h2 ht ?_ p hp
      intro q hq
      obtain ⟨r, _, rfl⟩ := List.mem_map.mp hq
      exact ⟨_, rfl⟩

/-! ## C142 -/

theorem run_length {n : Nat} {s : Search} (h : AtMost n s) (f : ℝ × ℝ → List (Geo ℝ) × Except Fail ℝ) (hf : ∀ q, (f q).1.length ≤ 1) :
    (s.run f).1.length ≤ n := by
  induction h with
  | done => simp [Search.run]
  | ask n q next _ ih =>
    have := hf q
    unfold Search.run
    split
    · rename_i l e he; rw [he] at this; simp only at this ⊢; omega
    · rename_i l he; rw [he] at this; simp only [List.length_append] at this ⊢; have := ih none; omega
    · rename_i l v he; rw [he] at this; simp only [List.length_append] at this ⊢; have := ih (some v); omega

theorem search_length {n : Nat} {minimise : Minimiser} (h : ∀ start bounds simplex, AtMost n (minimise start bounds simplex)) (bounds : Option ((ℝ × ℝ) × ℝ × ℝ))
    (w : Geo ℝ → Except Fail (ℝ × ℝ)) (dflt : Elev ℝ) (start0 : ℝ × ℝ) (size0 : ℝ) (p : ℝ × ℝ) (e : Option (Elev ℝ)) (o : Option (Dict ℝ)) :
    (searchImageToWorld minimise bounds w dflt start0 size0 p e o).1.length ≤ n := by
  have one : ∀ q, (objective w dflt e p q).1.length ≤ 1 := by
    intro q
    unfold objective
    split <;> simp
  unfold searchImageToWorld
  split
  · simp
  · simp
  · rename_i start size _ _
    have := run_length (h start bounds (equilateralTriangle start size)) _ one
    split
    · rename_i he; rw [he] at this; exact this
    · rename_i he; rw [he] at this; exact this

/-- **C142**: with SciPy's search `image_to_world` of an RPC model projects at most 400 places, whatever the model, the pixel, the elevation model and the hints. -/
theorem rpc_bounded_work (inf : Bool) (r : RpcModel) (p : ℝ × ℝ) (e : Option (Elev ℝ)) (o : Option (Dict ℝ)) :
    (r.locate (nelderMead inf) p e o).1.length ≤ 400 :=
  search_length (nelder_mead_at_most_400 inf) _ _ _ _ _ _ _ _

/-- **C142** for RSM. -/
theorem rsm_bounded_work (inf : Bool) (earth : Earth) (m : PolyModel) (p : ℝ × ℝ) (e : Option (Elev ℝ)) (o : Option (Dict ℝ)) :
    (m.locate earth (nelderMead inf) p e o).1.length ≤ 400 := by
  unfold PolyModel.locate
  split
  · exact search_length (nelder_mead_at_most_400 inf) _ _ _ _ _ _ _ _
  · simp

/-! ## C141 -/

/-- The three corners of the triangle where the search starts. -/
noncomputable def triangle (start : ℝ × ℝ) (size : ℝ) : List (ℝ × ℝ) :=
  [(start.1, start.2 + size * Real.sqrt 3 / 3), (start.1 - size / 2, start.2 - size * Real.sqrt 3 / 6), (start.1 + size / 2, start.2 - size * Real.sqrt 3 / 6)]

theorem triangle_eq (start : ℝ × ℝ) (size : ℝ) : equilateralTriangle start size = triangle start size := by
  simp only [equilateralTriangle, triangle, List.map_cons, List.map_nil, List.cons.injEq, Prod.mk.injEq, and_true]
  refine ⟨by ring, ⟨by ring, by ring⟩, ?_⟩
  constructor <;> first | trivial | ring

theorem no_worse_core {minimise : Minimiser} (hmin : NoWorse minimise) {w : Geo ℝ → Except Fail (ℝ × ℝ)} {z : ℝ} {e : Option (Elev ℝ)} {p start x : ℝ × ℝ}
    {size : ℝ} {bounds : Option ((ℝ × ℝ) × ℝ × ℝ)} {g : Geo ℝ} (hf : Finds (IsMisfit w z e p) (minimise start bounds (equilateralTriangle start size)) x)
    (hg : ground z e x.1 x.2 = .ok g) (q : ℝ × ℝ) (hq : q ∈ triangle start size) (hb : Within bounds q) (gq : Geo ℝ) (y : ℝ × ℝ)
    (h1 : ground z e q.1 q.2 = .ok gq) (h2 : w gq = .ok y) : ∃ t, w g = .ok t ∧ misfit p t ≤ misfit p y := by
  rw [triangle_eq] at hf
  obtain ⟨v, hv, hall⟩ := hmin _ _ _ _ _ _ _ hf
  obtain ⟨u, hu, hle⟩ := hall q hq hb
  cases u with
  | none =>
    rcases hu with h | ⟨g', h, h'⟩
    · rw [h1] at h; cases h
    · rw [h1] at h; cases h; rw [h2] at h'; cases h'
  | some u =>
    obtain ⟨g', y', k1, k2, k3⟩ := hu
    rw [h1] at k1; cases k1
    rw [h2] at k2; cases k2
    obtain ⟨s, rfl, hs⟩ := hle u rfl
    obtain ⟨g', t, l1, l2, l3⟩ := hv
    rw [hg] at l1; cases l1
    exact ⟨t, l2, by rw [← l3, ← k3]; exact hs⟩

/-- **C141**: the place that `image_to_world` of an RPC model returns has a pixel, and it misses the given one by no more than the pixel of any corner of the triangle around the first guess. -/
theorem rpc_no_worse_than_corners (minimise : Minimiser) (hmin : NoWorse minimise) (r : RpcModel) (p : ℝ × ℝ) (e : Option (Elev ℝ)) (o : Option (Dict ℝ))
    (g : Geo ℝ) (hg : (r.model minimise).imageToWorld p e o = .ok g) :
    ∃ start size,
      ((o.bind (· "initial_guess")) = some (.pair start.1 start.2) ∨
        (o.bind (· "initial_guess")) = none ∧ start = (r.longOff * (Real.pi / 180), r.latOff * (Real.pi / 180))) ∧
      ((o.bind (· "initial_search_distance")) = some (.num size) ∨ (o.bind (· "initial_search_distance")) = none ∧ size = Real.pi / 360) ∧
      ∀ q ∈ triangle start size, ∀ gq y, ground r.heightOff e q.1 q.2 = .ok gq → (r.model minimise).worldToImage gq = .ok y →
        ∃ x, (r.model minimise).worldToImage g = .ok x ∧ misfit p x ≤ misfit p y := by
  obtain ⟨start, size, lon, lat, h1, h2, hf, hgr⟩ := (rpc_image_to_world minimise r p e o).2 g hg
  refine ⟨start, size, h1, h2, ?_⟩
  intro q hq gq y hgq hy
  exact no_worse_core hmin hf hgr q hq (by intro b hb; cases hb) gq y hgq hy

/-- **C141** for RSM: no worse than any corner of the triangle that is inside the box around the domain. -/
theorem rsm_no_worse_than_corners (earth : Earth) (minimise : Minimiser) (hmin : NoWorse minimise) (form : Form) (vs : List Vec) (origin : Option Vec)
    (units : Option Mat) (ref : Option Vec) (m : PolyModel) (hd : groundDomain earth form vs origin units ref = .ok m.domain) (p : ℝ × ℝ)
    (e : Option (Elev ℝ)) (o : Option (Dict ℝ)) (g : Geo ℝ) (hg : (m.model earth minimise).imageToWorld p e o = .ok g) :
    ∃ start size v1 v4, m.domain.vertices[0]? = some v1 ∧ m.domain.vertices[3]? = some v4 ∧
      ((o.bind (· "initial_guess")) = some (.pair start.1 start.2) ∨ (o.bind (· "initial_guess")) = none ∧
        start = ((v1.longitude + v4.longitude) / 2, (v1.latitude + v4.latitude) / 2)) ∧
      ((o.bind (· "initial_search_distance")) = some (.num size) ∨ (o.bind (· "initial_search_distance")) = none ∧
        size = misfit (v1.longitude, v1.latitude) (v4.longitude, v4.latitude)) ∧
      ∀ q ∈ triangle start size, Within m.domain.bbox q → ∀ gq y, ground m.domain.defaultHeight e q.1 q.2 = .ok gq →
        (m.model earth minimise).worldToImage gq = .ok y → ∃ x, (m.model earth minimise).worldToImage g = .ok x ∧ misfit p x ≤ misfit p y := by
  obtain ⟨start, size, lon, lat, v1, v4, box, k1, k2, hbox, h1, h2, hf, hgr⟩ :=
    (rsm_image_to_world earth minimise form vs origin units ref m hd p e o).2 g hg
  refine ⟨start, size, v1, v4, k1, k2, h1, h2, ?_⟩
  intro q hq hb gq y hgq hy
  rw [hbox] at hb
  exact no_worse_core hmin hf hgr q hq hb gq y hgq hy

theorem misfit_parts (p x : ℝ × ℝ) : |x.1 - p.1| ≤ misfit p x ∧ |x.2 - p.2| ≤ misfit p x := by
  unfold misfit
  constructor
  · rw [abs_sub_comm, ← Real.sqrt_sq_eq_abs]
    exact Real.sqrt_le_sqrt (by nlinarith [sq_nonneg (p.2 - x.2)])
  · rw [abs_sub_comm, ← Real.sqrt_sq_eq_abs]
    exact Real.sqrt_le_sqrt (by nlinarith [sq_nonneg (p.1 - x.1)])

/-- **C141**: a hint for the place with a corner whose pixel is within `ε` times the scales of the given one gives a place (if it is in the box) within `most ε / gain` normalised units of the true place. -/
theorem rpc_good_guess_good_place_partial (minimise : Minimiser) (hmin : NoWorse minimise) (r : RpcModel) (b s steep q most gain : ℝ)
    (N : NearlyAffine r b s steep q most gain) (e : Option (Elev ℝ)) (height : ℝ → ℝ → ℝ) (S : Surface r e b s height) (x : ℝ × ℝ)
    (hx : Reached r b q gain (height 0 0) x) (d : Dict ℝ) (start : ℝ × ℝ) (size : ℝ) (hint1 : d "initial_guess" = some (.pair start.1 start.2))
    (hint2 : d "initial_search_distance" = some (.num size)) (c : ℝ × ℝ) (hc : c ∈ triangle start size) (gc : Geo ℝ) (xc : ℝ × ℝ)
    (hgc : ground r.heightOff e c.1 c.2 = .ok gc) (hxc : (r.model minimise).worldToImage gc = .ok xc) (ε : ℝ)
    (hε1 : misfit x xc ≤ ε * |r.sampScale|) (hε2 : misfit x xc ≤ ε * |r.lineScale|) (l p z : ℝ)
    (hfound : (r.model minimise).imageToWorld x e (some d) = .ok ⟨lonOf r l, latOf r p, z⟩) (hl : |l| ≤ b) (hp : |p| ≤ b) :
    ∃ l0 p0 g0, |l0| ≤ b ∧ |p0| ≤ b ∧ ground r.heightOff e (lonOf r l0) (latOf r p0) = .ok g0 ∧ r.worldToImage g0 = .ok x ∧
      gain * |l - l0| ≤ most * ε ∧ gain * |p - p0| ≤ most * ε := by
  obtain ⟨start', size', h1, h2, h3⟩ := rpc_no_worse_than_corners minimise hmin r x e (some d) _ hfound
  have e1 : start' = start := by
    rcases h1 with h1 | h1
    · simp only [Option.bind_some, hint1, Option.some.injEq, OptVal.pair.injEq] at h1
      exact Prod.ext h1.1.symm h1.2.symm
    · simp [hint1] at h1
  have e2 : size' = size := by
    rcases h2 with h2 | h2
    · simp only [Option.bind_some, hint2, Option.some.injEq, OptVal.num.injEq] at h2
      exact h2.symm
    · simp [hint2] at h2
  subst e1 e2
  obtain ⟨y, hy, hle⟩ := h3 c hc gc xc hgc hxc
  obtain ⟨m1, m2⟩ := misfit_parts x y
  exact rpc_search_accuracy minimise r b s steep q most gain N e height S x hx (some d) l p z hfound hl hp y hy ε (by linarith) (by linarith)

/-- **C141** for RSM. -/
theorem rsm_good_guess_good_place_partial (earth : Earth) (minimise : Minimiser) (hmin : NoWorse minimise) (form : Form) (vs : List Vec) (origin : Option Vec)
    (units : Option Mat) (ref : Option Vec) (m : PolyModel) (hd : groundDomain earth form vs origin units ref = .ok m.domain) (b s steep q most gain : ℝ)
    (N : RsmNearlyAffine m b s steep q most gain) (e : Option (Elev ℝ)) (height : ℝ → ℝ → ℝ) (S : RsmSurface m e b s height) (p : ℝ × ℝ)
    (hp : RsmReached m b q gain (height 0 0) p) (d : Dict ℝ) (start : ℝ × ℝ) (size : ℝ) (hint1 : d "initial_guess" = some (.pair start.1 start.2))
    (hint2 : d "initial_search_distance" = some (.num size)) (c : ℝ × ℝ) (hc : c ∈ triangle start size) (hin : Within m.domain.bbox c) (gc : Geo ℝ) (pc : ℝ × ℝ)
    (hgc : ground m.domain.defaultHeight e c.1 c.2 = .ok gc) (hpc : (m.model earth minimise).worldToImage gc = .ok pc) (ε : ℝ)
    (hε1 : misfit p pc ≤ ε * |m.colScale|) (hε2 : misfit p pc ≤ ε * |m.rowScale|) (x y z : ℝ)
    (hfound : (m.model earth minimise).imageToWorld p e (some d) = .ok ⟨rsmLon m x, rsmLat m y, z⟩) (hx : |x| ≤ b) (hy : |y| ≤ b) :
    ∃ x0 y0 g0, |x0| ≤ b ∧ |y0| ≤ b ∧ ground m.domain.defaultHeight e (rsmLon m x0) (rsmLat m y0) = .ok g0 ∧ m.worldToImage earth g0 = .ok p ∧
      gain * |x - x0| ≤ most * ε ∧ gain * |y - y0| ≤ most * ε := by
  obtain ⟨start', size', v1, v4, _, _, h1, h2, h3⟩ := rsm_no_worse_than_corners earth minimise hmin form vs origin units ref m hd p e (some d) _ hfound
  have e1 : start' = start := by
    rcases h1 with h1 | h1
    · simp only [Option.bind_some, hint1, Option.some.injEq, OptVal.pair.injEq] at h1
      exact Prod.ext h1.1.symm h1.2.symm
    · simp [hint1] at h1
  have e2 : size' = size := by
    rcases h2 with h2 | h2
    · simp only [Option.bind_some, hint2, Option.some.injEq, OptVal.num.injEq] at h2
      exact h2.symm
    · simp [hint2] at h2
  subst e1 e2
  obtain ⟨t, ht, hle⟩ := h3 c hc hin gc pc hgc hpc
  obtain ⟨m1, m2⟩ := misfit_parts p t
  exact rsm_search_accuracy earth minimise form vs origin units ref m hd b s steep q most gain N e height S p hp (some d) x y z hfound hx hy t ht ε (by linarith) (by linarith)

/-- **C141** for RSM models without the assumption on the result: when the ground domain lies in the box of the normalised coordinates, every result does (C76), so every result is near a place that is projected to the
pixel exactly. -/
theorem rsm_good_guess_good_place (earth : Earth) (minimise : Minimiser) (hmin : NoWorse minimise) (hstay : StaysInside minimise) (form : Form) (vs : List Vec) (origin : Option Vec)
    (units : Option Mat) (ref : Option Vec) (m : PolyModel) (hd : groundDomain earth form vs origin units ref = .ok m.domain) (b s steep q most gain : ℝ)
    (N : RsmNearlyAffine m b s steep q most gain) (hdomain : ∀ v ∈ m.domain.vertices, |v.longitude - m.xOff| ≤ b * |m.xScale| ∧ |v.latitude - m.yOff| ≤ b * |m.yScale|)
    (e : Option (Elev ℝ)) (height : ℝ → ℝ → ℝ) (S : RsmSurface m e b s height) (p : ℝ × ℝ)
    (hp : RsmReached m b q gain (height 0 0) p) (d : Dict ℝ) (start : ℝ × ℝ) (size : ℝ) (hint1 : d "initial_guess" = some (.pair start.1 start.2))
    (hint2 : d "initial_search_distance" = some (.num size)) (c : ℝ × ℝ) (hc : c ∈ triangle start size) (hin : Within m.domain.bbox c) (gc : Geo ℝ) (pc : ℝ × ℝ)
    (hgc : ground m.domain.defaultHeight e c.1 c.2 = .ok gc) (hpc : (m.model earth minimise).worldToImage gc = .ok pc) (ε : ℝ)
    (hε1 : misfit p pc ≤ ε * |m.colScale|) (hε2 : misfit p pc ≤ ε * |m.rowScale|) (g : Geo ℝ) (hfound : (m.model earth minimise).imageToWorld p e (some d) = .ok g) :
    ∃ g0, m.worldToImage earth g0 = .ok p ∧ ground m.domain.defaultHeight e g0.longitude g0.latitude = .ok g0 ∧
      gain * |g.longitude - g0.longitude| ≤ most * ε * |m.xScale| ∧ gain * |g.latitude - g0.latitude| ≤ most * ε * |m.yScale| := by
  obtain ⟨⟨v1, m1, l1⟩, ⟨v2, m2, l2⟩, ⟨v3, m3, l3⟩, ⟨v4, m4, l4⟩⟩ := rsm_result_in_domain_partial earth minimise hstay form vs origin units ref m hd p e
    (fun f g g' h h' => S.keeps f h g g' h') (some d) g hfound
  obtain ⟨sx, sy, -, -, -⟩ := N.scales
  have between : ∀ u w t off scale : ℝ, u ≤ t → t ≤ w → |u - off| ≤ b * |scale| → |w - off| ≤ b * |scale| → scale ≠ 0 → |(t - off) / scale| ≤ b := by
    intro u w t off scale h1 h2 h3 h4 h5
    rw [abs_div, div_le_iff₀ (abs_pos.mpr h5)]
    rw [abs_le] at h3 h4 ⊢
    constructor <;> linarith
  have bx := between _ _ _ _ _ l1 l2 (hdomain v1 m1).1 (hdomain v2 m2).1 sx
  have by' := between _ _ _ _ _ l3 l4 (hdomain v3 m3).2 (hdomain v4 m4).2 sy
  have ex : rsmLon m ((g.longitude - m.xOff) / m.xScale) = g.longitude := by unfold rsmLon; field_simp; ring
  have ey : rsmLat m ((g.latitude - m.yOff) / m.yScale) = g.latitude := by unfold rsmLat; field_simp; ring
  obtain ⟨x0, y0, g0, hx0, hy0, hg0, hp0, k1, k2⟩ := rsm_good_guess_good_place_partial earth minimise hmin form vs origin units ref m hd b s steep q most gain N e height S p hp d start size
    hint1 hint2 c hc hin gc pc hgc hpc ε hε1 hε2 _ _ g.elevation (by rw [ex, ey]; exact hfound) bx by'
  have hg0' := S.ground x0 y0 hx0 hy0
  rw [hg0] at hg0'
  injection hg0' with hg0'
  have ax : g0.longitude = rsmLon m x0 := by rw [hg0']
  have ay : g0.latitude = rsmLat m y0 := by rw [hg0']
  refine ⟨g0, hp0, by rw [ax, ay]; exact hg0, ?_, ?_⟩
  · have e : g.longitude - g0.longitude = ((g.longitude - m.xOff) / m.xScale - x0) * m.xScale := by
      rw [ax]; unfold rsmLon; field_simp; ring
    rw [e, abs_mul, ← mul_assoc]
    exact mul_le_mul_of_nonneg_right k1 (abs_nonneg _)
  · have e : g.latitude - g0.latitude = ((g.latitude - m.yOff) / m.yScale - y0) * m.yScale := by
      rw [ay]; unfold rsmLat; field_simp; ring
    rw [e, abs_mul, ← mul_assoc]
    exact mul_le_mul_of_nonneg_right k2 (abs_nonneg _)

/-- The ground domain of `NearbyRsm.oblique` lies in the box, and the corners of a triangle around a hint can lie in the domain. -/
example : groundDomain flatEarth .geodetic easternVertices none none (some ![3.3, 0.1, 7]) = .ok oblique.domain ∧
    (∀ v ∈ oblique.domain.vertices, |v.longitude - oblique.xOff| ≤ 1 * |oblique.xScale| ∧
      |v.latitude - oblique.yOff| ≤ 1 * |oblique.yScale|) ∧
    Within oblique.domain.bbox (3.31, 0.13) := by
  refine ⟨easternDomain_ok .geodetic (by simp), ?_, ?_⟩
  · show ∀ v ∈ easternVertices.map geoOf, _
    intro v hv
    simp only [easternVertices, List.map_cons, List.map_nil, geoOf, List.mem_cons, List.not_mem_nil, or_false, Matrix.cons_val_zero,
      Matrix.cons_val_one, Matrix.cons_val] at hv
    rcases hv with rfl | rfl | rfl | rfl | rfl | rfl | rfl | rfl <;> norm_num [oblique, abs_of_pos, abs_of_neg]
  · show Within ((easternVertices.map geoOf).foldl grow none) _
    intro b h
    simp only [easternVertices, List.map_cons, List.map_nil, geoOf, List.foldl_cons, List.foldl_nil, grow, Matrix.cons_val_zero,
      Matrix.cons_val_one, Matrix.cons_val, Option.some.injEq] at h
    rw [← h]
    norm_num

/-! ## C141, where it fails: a small search distance -/

theorem misfit_triangle (p x y : ℝ × ℝ) : |misfit p x - misfit p y| ≤ misfit x y := by
  have key : ∀ p x y : ℝ × ℝ, misfit p x ≤ misfit p y + misfit x y := by
    intro p x y
    unfold misfit
    set B := (p.1 - y.1) ^ 2 + (p.2 - y.2) ^ 2 with hB
    set C := (x.1 - y.1) ^ 2 + (x.2 - y.2) ^ 2 with hC
    have hB0 : 0 ≤ B := by positivity
    have hC0 : 0 ≤ C := by positivity
    have sB := Real.sq_sqrt hB0
    have sC := Real.sq_sqrt hC0
    have nB := Real.sqrt_nonneg B
    have nC := Real.sqrt_nonneg C
    apply Real.sqrt_le_iff.mpr
    refine ⟨by linarith, ?_⟩
    have cs : -((p.1 - y.1) * (x.1 - y.1) + (p.2 - y.2) * (x.2 - y.2)) ≤ Real.sqrt B * Real.sqrt C := by
      rw [← Real.sqrt_mul hB0]
      apply Real.le_sqrt_of_sq_le
      rw [hB, hC]
      nlinarith [sq_nonneg ((p.1 - y.1) * (x.2 - y.2) - (p.2 - y.2) * (x.1 - y.1))]
    nlinarith
  have sym : misfit x y = misfit y x := by
    unfold misfit
    congr 1
    ring
  rw [abs_le]
  constructor
  · have := key p y x
    rw [← sym] at this
    linarith
  · have := key p x y
    linarith

theorem loop_converged (inf : Bool) (clip : ℝ × ℝ → ℝ × ℝ) (xatol fatol : ℝ) (m : Nat) (s : Simplex) (n : Nat) (h : Converged xatol fatol s) :
    loop inf clip xatol fatol m s n = .done s.a.x := by
  cases m with
  | zero => rfl
  | succ m => unfold loop; rw [if_pos (.inr h)]

/-- **C141** fails for a small search distance: when the triangle around the first guess is at most a millionth of a degree wide and the pixels of its corners are within half a pixel,
the result is one of the three corners, whatever the pixel. -/
theorem small_search_distance_ignores_pixel (inf : Bool) (r : RpcModel) (p : ℝ × ℝ) (e : Option (Elev ℝ)) (d : Dict ℝ) (start : ℝ × ℝ) (size : ℝ)
    (hint1 : d "initial_guess" = some (.pair start.1 start.2)) (hint2 : d "initial_search_distance" = some (.num size)) (h0 : 0 ≤ size)
    (hsize : size ≤ 1 / 1000000 * (Real.pi / 180)) (pixel : ℝ × ℝ → ℝ × ℝ)
    (hpix : ∀ q ∈ triangle start size, ∃ gq, ground r.heightOff e q.1 q.2 = .ok gq ∧ r.worldToImage gq = .ok (pixel q))
    (hclose : ∀ q ∈ triangle start size, ∀ q' ∈ triangle start size, misfit (pixel q) (pixel q') ≤ 1 / 2)
    (g : Geo ℝ) (hg : (r.model (nelderMead inf)).imageToWorld p e (some d) = .ok g) :
    ∃ q ∈ triangle start size, ground r.heightOff e q.1 q.2 = .ok g := by
  obtain ⟨start', size', lon, lat, h1, h2, hf, hgr⟩ := (rpc_image_to_world (nelderMead inf) r p e (some d)).2 g hg
  have e1 : start' = start := by
    rcases h1 with h1 | h1
    · simp only [Option.bind_some, hint1, Option.some.injEq, OptVal.pair.injEq] at h1
      exact Prod.ext h1.1.symm h1.2.symm
    · simp [hint1] at h1
  have e2 : size' = size := by
    rcases h2 with h2 | h2
    · simp only [Option.bind_some, hint2, Option.some.injEq, OptVal.num.injEq] at h2
      exact h2.symm
    · simp [hint2] at h2
  subst e1 e2
  refine ⟨(lon, lat), ?_, hgr⟩
  rw [triangle_eq] at hf
  have value : ∀ q ∈ triangle start' size', ∀ v, IsMisfit (r.model (nelderMead inf)).worldToImage r.heightOff e p q v → v = some (misfit p (pixel q)) := by
    intro q hq v hv
    obtain ⟨gq, k1, k2⟩ := hpix q hq
    have k2' : (r.model (nelderMead inf)).worldToImage gq = .ok (pixel q) := k2
    cases v with
    | none =>
      rcases hv with h | ⟨g', h, h'⟩
      · rw [k1] at h; cases h
      · rw [k1] at h; cases h; rw [k2'] at h'; cases h'
    | some v =>
      obtain ⟨g', y', l1, l2, l3⟩ := hv
      rw [k1] at l1; cases l1
      rw [k2'] at l2; cases l2
      rw [l3]
  unfold triangle at hf
  simp only [nelderMead] at hf
  obtain _ | ⟨_, _, f1, _, a1, hf⟩ := hf
  obtain _ | ⟨_, _, f2, _, a2, hf⟩ := hf
  obtain _ | ⟨_, _, f3, _, a3, hf⟩ := hf
  simp only [clipTo, reflectAt] at a1 a2 a3 hf
  have b1 := value _ (by simp [triangle]) _ a1
  have b2 := value _ (by simp [triangle]) _ a2
  have b3 := value _ (by simp [triangle]) _ a3
  set s : Simplex := ⟨⟨(start'.1, start'.2 + size' * Real.sqrt 3 / 3), f1⟩, ⟨(start'.1 - size' / 2, start'.2 - size' * Real.sqrt 3 / 6), f2⟩,
    ⟨(start'.1 + size' / 2, start'.2 - size' * Real.sqrt 3 / 6), f3⟩⟩ with hs
  have each : ∀ v, Of v s → v.x ∈ triangle start' size' ∧ v.f = some (misfit p (pixel v.x)) := by
    rintro v (rfl | rfl | rfl)
    · exact ⟨by simp [triangle, hs], b1⟩
    · exact ⟨by simp [triangle, hs], b2⟩
    · exact ⟨by simp [triangle, hs], b3⟩
  have k := (sort_spec s).2.1
  have s3 : Real.sqrt 3 ≤ 2 := by
    rw [show (2 : ℝ) = Real.sqrt 4 by rw [show (4 : ℝ) = 2 ^ 2 by norm_num]; exact (Real.sqrt_sq (by norm_num)).symm]
    exact Real.sqrt_le_sqrt (by norm_num)
  have s0 := Real.sqrt_nonneg 3
  have near : ∀ q ∈ triangle start' size', ∀ q' ∈ triangle start' size', |q.1 - q'.1| ≤ size' ∧ |q.2 - q'.2| ≤ size' := by
    have t0 : 0 ≤ size' * Real.sqrt 3 := mul_nonneg h0 s0
    have t1 : size' * Real.sqrt 3 ≤ size' * 2 := mul_le_mul_of_nonneg_left s3 h0
    intro q hq q' hq'
    simp only [triangle, List.mem_cons, List.not_mem_nil, or_false] at hq hq'
    rcases hq with rfl | rfl | rfl <;> rcases hq' with rfl | rfl | rfl <;> simp only [abs_le] <;> refine ⟨⟨?_, ?_⟩, ?_, ?_⟩ <;> linarith
  have tol : size' ≤ radians 0.000001 := by
    refine le_trans hsize (le_of_eq ?_)
    unfold radians
    ring
  have first := each _ ((k _).mp (.inl rfl))
  have conv : Converged (radians 0.000001) 0.5 (sort s) := by
    refine ⟨?_, _, first.2, ?_⟩
    · intro v hv
      have hv' : Of v (sort s) := by
        simp only [List.mem_cons, List.not_mem_nil, or_false] at hv
        exact .inr hv
      have := near _ (each v ((k v).mp hv')).1 _ first.1
      exact ⟨le_trans this.1 tol, le_trans this.2 tol⟩
    · intro v hv
      have hv' : Of v (sort s) := by
        simp only [List.mem_cons, List.not_mem_nil, or_false] at hv
        exact .inr hv
      have := each v ((k v).mp hv')
      refine ⟨_, this.2, le_trans (misfit_triangle _ _ _) ?_⟩
      have := hclose _ first.1 _ this.1
      norm_num at this ⊢
      exact this
  rw [loop_converged _ _ _ _ _ _ _ conv] at hf
  have done : ∀ {A : ℝ × ℝ → Option ℝ → Prop} {x y : ℝ × ℝ}, Finds A (.done y) x → x = y := by
    intro A x y h
    cases h
    rfl
  rw [done hf]
  exact first.1

/-- **C141**: so a perfect first guess is given up for a corner of the triangle around it. -/
theorem perfect_guess_is_lost (inf : Bool) (r : RpcModel) (d : Dict ℝ) (start : ℝ × ℝ) (size : ℝ)
    (hint1 : d "initial_guess" = some (.pair start.1 start.2)) (hint2 : d "initial_search_distance" = some (.num size)) (h0 : 0 < size)
    (hsize : size ≤ 1 / 1000000 * (Real.pi / 180)) (pixel : ℝ × ℝ → ℝ × ℝ)
    (hpix : ∀ q, q = start ∨ q ∈ triangle start size → r.worldToImage ⟨q.1, q.2, r.heightOff⟩ = .ok (pixel q))
    (hclose : ∀ q ∈ triangle start size, ∀ q' ∈ triangle start size, misfit (pixel q) (pixel q') ≤ 1 / 2)
    (g : Geo ℝ) (hg : (r.model (nelderMead inf)).imageToWorld (pixel start) none (some d) = .ok g) : g.latitude ≠ start.2 := by
  obtain ⟨q, hq, hgq⟩ := small_search_distance_ignores_pixel inf r (pixel start) none d start size hint1 hint2 h0.le hsize pixel
    (fun q hq => ⟨_, rfl, hpix q (.inr hq)⟩) hclose g hg
  cases hgq
  have s3 : 0 < Real.sqrt 3 := Real.sqrt_pos.mpr (by norm_num)
  have : 0 < size * Real.sqrt 3 := mul_pos h0 s3
  simp only [triangle, List.mem_cons, List.not_mem_nil, or_false] at hq
  rcases hq with rfl | rfl | rfl <;> simp only [ne_eq] <;> intro h <;> linarith

/-! ## A camera that meets the hypotheses -/

/-- A camera with 10000 pixels per degree. -/
noncomputable def plain : RpcModel where
  lineOff := 0
  sampOff := 0
  latOff := 0
  longOff := 0
  heightOff := 100
  lineScale := 10000
  sampScale := 10000
  latScale := 1
  longScale := 1
  heightScale := 500
  lineNum := [0, 0, 1, 0, 0, 0, 0, 0, 0, 0, 0, 0, 0, 0, 0, 0, 0, 0, 0, 0]
  lineDen := [1, 0, 0, 0, 0, 0, 0, 0, 0, 0, 0, 0, 0, 0, 0, 0, 0, 0, 0, 0]
  sampNum := [0, 1, 0, 0, 0, 0, 0, 0, 0, 0, 0, 0, 0, 0, 0, 0, 0, 0, 0, 0]
  sampDen := [1, 0, 0, 0, 0, 0, 0, 0, 0, 0, 0, 0, 0, 0, 0, 0, 0, 0, 0, 0]

noncomputable def plainPixel (q : ℝ × ℝ) : ℝ × ℝ := (10000 * (180 / Real.pi * q.1), 10000 * (180 / Real.pi * q.2))

theorem plain_projects (q : ℝ × ℝ) (z : ℝ) : plain.worldToImage ⟨q.1, q.2, z⟩ = .ok (plainPixel q) := by
  have pi0 : Real.pi ≠ 0 := Real.pi_ne_zero
  have one : ∀ l p h : ℝ, cubic plain.sampDen l p h = 1 := by intro l p h; simp [cubic, plain, rpc00b]
  have one' : ∀ l p h : ℝ, cubic plain.lineDen l p h = 1 := by intro l p h; simp [cubic, plain, rpc00b]
  have := rpc_world_to_image plain ⟨q.1, q.2, z⟩ rfl rfl rfl rfl (by norm_num [plain]) (by norm_num [plain]) (by norm_num [plain]) (180 / Real.pi * q.1)
    (180 / Real.pi * q.2) ((z - 100) / 500) (by simp only [plain]; field_simp; ring) (by simp only [plain]; field_simp; ring) (by simp only [plain]; ring)
    (by rw [one']; norm_num) (by rw [one]; norm_num)
  rw [this, one, one']
  simp [cubic, plain, rpc00b, plainPixel]

/-- A first guess a millionth of a degree wide. -/
noncomputable def tinyHint : Dict ℝ := fun k =>
  if k = "initial_guess" then some (.pair 0 0) else if k = "initial_search_distance" then some (.num (1 / 1000000 * (Real.pi / 180))) else none

theorem run_ok {f : ℝ × ℝ → List (Geo ℝ) × Except Fail ℝ} (hf : ∀ q, ∃ v, (f q).2 = .ok v) (s : Search) : ∃ x, (s.run f).2 = .ok x := by
  induction s with
  | done p => exact ⟨p, rfl⟩
  | ask q next ih =>
    obtain ⟨v, hv⟩ := hf q
    obtain ⟨x, hx⟩ := ih (some v)
    refine ⟨x, ?_⟩
    have : f q = ((f q).1, .ok v) := by rw [← hv]
    unfold Search.run
    rw [this]
    exact hx

theorem plain_finds (minimise : Minimiser) (p : ℝ × ℝ) : ∃ x : ℝ × ℝ, (plain.model minimise).imageToWorld p none (some tinyHint) = .ok ⟨x.1, x.2, 100⟩ := by
  have pr : ∀ q : ℝ × ℝ, ∃ v, (objective plain.worldToImage (constantElevation plain.heightOff) none p q).2 = .ok v := by
    intro q
    refine ⟨misfit p (plainPixel q), ?_⟩
    simp only [objective, onSurface, constantElevation, withElevation, bind, Except.bind, plain_projects, Except.map, misfit]
  obtain ⟨x, hx⟩ := run_ok pr (minimise (0, 0) none (equilateralTriangle (0, 0) (1 / 1000000 * (Real.pi / 180))))
  refine ⟨x, ?_⟩
  show (RpcModel.locate minimise plain p none (some tinyHint)).2 = _
  have e : ∀ y : List (Geo ℝ) × Except Fail (ℝ × ℝ), y.2 = .ok x → y = (y.1, .ok x) := by intro y h; rw [← h]
  simp only [RpcModel.locate, searchImageToWorld, startFrom, distanceFrom, hint, tinyHint, if_true, if_neg (show ¬ "initial_search_distance" = "initial_guess" by decide)]
  rw [e _ hx]
  rfl

theorem tiny_small (q : ℝ × ℝ) (hq : q ∈ triangle (0, 0) (1 / 1000000 * (Real.pi / 180))) :
    |180 / Real.pi * q.1| ≤ 1 / 1000000 ∧ |180 / Real.pi * q.2| ≤ 1 / 1000000 := by
  have pos : 0 < Real.pi := Real.pi_pos
  have s3 : Real.sqrt 3 ≤ 2 := by
    rw [show (2 : ℝ) = Real.sqrt 4 by rw [show (4 : ℝ) = 2 ^ 2 by norm_num]; exact (Real.sqrt_sq (by norm_num)).symm]
    exact Real.sqrt_le_sqrt (by norm_num)
  have s0 := Real.sqrt_nonneg 3
  simp only [triangle, List.mem_cons, List.not_mem_nil, or_false] at hq
  rcases hq with rfl | rfl | rfl <;> simp only <;> constructor <;> rw [abs_le] <;> constructor <;> field_simp <;> nlinarith

theorem tiny_close (q : ℝ × ℝ) (hq : q ∈ triangle (0, 0) (1 / 1000000 * (Real.pi / 180))) (q' : ℝ × ℝ)
    (hq' : q' ∈ triangle (0, 0) (1 / 1000000 * (Real.pi / 180))) : misfit (plainPixel q) (plainPixel q') ≤ 1 / 2 := by
  have a := tiny_small q hq
  have b := tiny_small q' hq'
  rw [abs_le, abs_le] at a b
  unfold misfit plainPixel
  simp only
  apply Real.sqrt_le_iff.mpr
  refine ⟨by norm_num, ?_⟩
  have sq : ∀ u v : ℝ, -(1 / 1000000) ≤ u → u ≤ 1 / 1000000 → -(1 / 1000000) ≤ v → v ≤ 1 / 1000000 → (10000 * u - 10000 * v) ^ 2 ≤ 1 / 2500 := by
    intro u v h1 h2 h3 h4
    have : |10000 * u - 10000 * v| ≤ 1 / 50 := by rw [abs_le]; constructor <;> linarith
    calc (10000 * u - 10000 * v) ^ 2 = |10000 * u - 10000 * v| ^ 2 := (sq_abs _).symm
      _ ≤ (1 / 50) ^ 2 := by gcongr
      _ = 1 / 2500 := by norm_num
  have t1 := sq _ _ a.1.1 a.1.2 b.1.1 b.1.2
  have t2 := sq _ _ a.2.1 a.2.2 b.2.1 b.2.2
  norm_num
  linarith

/-- However far away the pixel is, the result stays at the first guess. -/
theorem plain_stays (inf : Bool) (p : ℝ × ℝ) : ∃ q ∈ triangle (0, 0) (1 / 1000000 * (Real.pi / 180)),
    (plain.model (nelderMead inf)).imageToWorld p none (some tinyHint) = .ok ⟨q.1, q.2, 100⟩ := by
  obtain ⟨x, hx⟩ := plain_finds (nelderMead inf) p
  have pos : 0 < Real.pi := Real.pi_pos
  obtain ⟨q, hq, h⟩ := small_search_distance_ignores_pixel inf plain p none tinyHint (0, 0) (1 / 1000000 * (Real.pi / 180)) (by simp [tinyHint]) (by simp [tinyHint])
    (by positivity) le_rfl plainPixel (fun q _ => ⟨_, rfl, plain_projects q _⟩) tiny_close _ hx
  refine ⟨q, hq, ?_⟩
  rw [hx, ← h]
  rfl

/-- A perfect first guess for the pixel (0, 0). -/
example (inf : Bool) : ∃ g, (plain.model (nelderMead inf)).imageToWorld (plainPixel (0, 0)) none (some tinyHint) = .ok g ∧ g.latitude ≠ 0 := by
  obtain ⟨q, _, h⟩ := plain_stays inf (plainPixel (0, 0))
  have pos : 0 < Real.pi := Real.pi_pos
  exact ⟨_, h, perfect_guess_is_lost inf plain tinyHint (0, 0) (1 / 1000000 * (Real.pi / 180)) (by simp [tinyHint]) (by simp [tinyHint]) (by positivity) le_rfl plainPixel
    (fun q _ => plain_projects q _) tiny_close _ h⟩

theorem plain_nearly_affine : NearlyAffine plain 1 0 1 1 1 1 := by
  have bend : ∀ num : List ℝ, num.length = 20 → variation (bent num) 1 0 = 0 → (∀ l p h, |l| ≤ 1 → |p| ≤ 1 → |h| ≤ 1 → |cubic num l p h| ≤ 1) →
      Bends num plain.sampDen 1 0 1 1 1 1 := by
    intro num hn hv hb
    have one : ∀ l p h : ℝ, cubic plain.sampDen l p h = 1 := by intro l p h; simp [cubic, plain, rpc00b]
    refine ⟨⟨hn, rfl⟩, ?_, ?_, ?_, ?_⟩
    · intro l p h _ _ _; rw [one]; norm_num
    · intro l p h _ _ _; rw [one]; norm_num
    · intro l p h h1 h2 h3; rw [one, div_one]; exact hb l p h h1 h2 h3
    · rw [hv]
      have : variation plain.sampDen 1 0 = 0 := by simp [variation, plain, rpc00b]
      rw [this]; norm_num
  refine ⟨by norm_num [plain], by norm_num, bend _ rfl ?_ ?_, bend _ rfl ?_ ?_, ?_⟩
  · simp [variation, bent, plain, rpc00b]
  · intro l p h hl hp hh
    have : cubic plain.sampNum l p h = l := by simp [cubic, plain, rpc00b]
    rw [this]; exact hl
  · simp [variation, bent, plain, rpc00b]
  · intro l p h hl hp hh
    have : cubic plain.lineNum l p h = p := by simp [cubic, plain, rpc00b]
    rw [this]; exact hp
  · intro l p
    have e1 : straight plain.sampNum l p = l := by simp [straight, plain]
    have e2 : straight plain.lineNum l p = p := by simp [straight, plain]
    rw [e1, e2, one_mul]

theorem plain_surface : Surface plain none 1 0 (fun _ _ => 0) := by
  refine ⟨by simp, ?_, by simp, by simp⟩
  intro l p _ _
  simp only [ground, Except.ok.injEq, Geo.mk.injEq, true_and]
  ring

/-- The hypotheses of `rpc_good_guess_good_place_partial` for the pixel (50, -20): the hint is wrong by 0.005 degrees, its corners have pixels within 1/100 of the scale, so the result is within 1/100 degree. -/
example (inf : Bool) : ∃ l p l0 p0 z g0, (plain.model (nelderMead inf)).imageToWorld (50, -20) none (some tinyHint) = .ok ⟨lonOf plain l, latOf plain p, z⟩ ∧
    ground plain.heightOff none (lonOf plain l0) (latOf plain p0) = .ok g0 ∧ plain.worldToImage g0 = .ok (50, -20) ∧ |l - l0| ≤ 1 / 100 ∧ |p - p0| ≤ 1 / 100 := by
  obtain ⟨q, hq, h⟩ := plain_stays inf (50, -20)
  have pi0 : Real.pi ≠ 0 := Real.pi_ne_zero
  have pos : 0 < Real.pi := Real.pi_pos
  have sm := tiny_small q hq
  have e1 : lonOf plain (180 / Real.pi * q.1) = q.1 := by simp only [lonOf, plain]; field_simp; ring
  have e2 : latOf plain (180 / Real.pi * q.2) = q.2 := by simp only [latOf, plain]; field_simp; ring
  rw [← e1, ← e2] at h
  obtain ⟨l0, p0, g0, _, _, k1, k2, k3, k4⟩ := rpc_good_guess_good_place_partial (nelderMead inf) (nelder_mead_no_worse inf) plain 1 0 1 1 1 1 plain_nearly_affine none
    (fun _ _ => 0) plain_surface (50, -20)
    (by refine ⟨?_, ?_, ?_, ?_⟩ <;> norm_num [sampOf, lineOf, plain, cubic, rpc00b, abs_div, abs_of_pos, abs_of_neg])
    tinyHint (0, 0) (1 / 1000000 * (Real.pi / 180)) (by simp [tinyHint]) (by simp [tinyHint]) q hq ⟨q.1, q.2, 100⟩ (plainPixel q) rfl (plain_projects q _) (1 / 100)
    (by
      have a := sm
      rw [abs_le, abs_le] at a
      unfold misfit plainPixel
      apply Real.sqrt_le_iff.mpr
      norm_num [plain]
      nlinarith) (by
      have a := sm
      rw [abs_le, abs_le] at a
      unfold misfit plainPixel
      apply Real.sqrt_le_iff.mpr
      norm_num [plain]
      nlinarith) _ _ _ h (by linarith [sm.1]) (by linarith [sm.2])
  exact ⟨_, _, l0, p0, _, g0, h, k1, k2, by linarith, by linarith⟩

/-- The search in the domain of `Props.RsmModel` for the pixel (3301, 152) with the hint (3.3, 0.15): the upper corner of the triangle is 4 pixels off, so is the result at most. -/
example (inf : Bool) (d : Dict ℝ) (hint1 : d "initial_guess" = some (.pair 3.3 0.15)) (hint2 : d "initial_search_distance" = some (.num 0.01)) :
    ∃ g x, ((easternModel .geodetic).model flatEarth (nelderMead inf)).imageToWorld (3301, 152) none (some d) = .ok g ∧
      (easternModel .geodetic).worldToImage flatEarth g = .ok x ∧ misfit (3301, 152) x ≤ 4 := by
  have pr : ∀ g : Geo ℝ, (easternModel .geodetic).worldToImage flatEarth g = .ok (1000 * g.longitude, 1000 * g.latitude) := fun g =>
    easternModel_projects .geodetic g ![g.longitude, g.latitude, g.elevation] rfl
  have h0 : (easternModel .geodetic).domain.vertices[0]? = some ⟨3.2, 0.1, 0⟩ := rfl
  have h3 : (easternModel .geodetic).domain.vertices[3]? = some ⟨3.4, 0.2, 0⟩ := rfl
  have hb : (easternModel .geodetic).domain.bbox = some ((3.2, 0.1), 3.4, 0.2) := by
    show (easternVertices.map geoOf).foldl grow none = _
    simp only [easternVertices, List.map_cons, List.map_nil, geoOf, List.foldl_cons, List.foldl_nil, grow, Matrix.cons_val_zero,
      Matrix.cons_val_one, Matrix.cons_val]
    norm_num
  have ok : ∃ g, ((easternModel .geodetic).model flatEarth (nelderMead inf)).imageToWorld (3301, 152) none (some d) = .ok g := by
    have fin : ∀ q : ℝ × ℝ, ∃ v, (objective ((easternModel .geodetic).worldToImage flatEarth) (constantElevation (easternModel .geodetic).domain.defaultHeight) none
        (3301, 152) q).2 = .ok v := by
      intro q
      refine ⟨misfit (3301, 152) (1000 * q.1, 1000 * q.2), ?_⟩
      simp only [objective, onSurface, constantElevation, withElevation, bind, Except.bind, pr, Except.map, misfit]
    obtain ⟨x, hx⟩ := run_ok fin (nelderMead inf (3.3, 0.15) (easternModel .geodetic).domain.bbox (equilateralTriangle (3.3, 0.15) 0.01))
    refine ⟨⟨x.1, x.2, 7⟩, ?_⟩
    show (PolyModel.locate flatEarth (nelderMead inf) (easternModel .geodetic) _ _ _).2 = _
    unfold PolyModel.locate
    rw [h0, h3]
    have e : ∀ y : List (Geo ℝ) × Except Fail (ℝ × ℝ), y.2 = .ok x → y = (y.1, .ok x) := by intro y h; rw [← h]
    simp only [searchImageToWorld, startFrom, hint, distanceFrom, hint1, hint2]
    rw [e _ hx]
    rfl
  obtain ⟨g, hg⟩ := ok
  obtain ⟨start, size, v1, v4, _, _, k1, k2, k3⟩ := rsm_no_worse_than_corners flatEarth (nelderMead inf) (nelder_mead_no_worse inf) .geodetic easternVertices none none _
    (easternModel .geodetic) (easternDomain_ok .geodetic (by simp)) (3301, 152) none (some d) g hg
  have e1 : start = (3.3, 0.15) := by
    rcases k1 with k1 | k1
    · simp only [Option.bind_some, hint1, Option.some.injEq, OptVal.pair.injEq] at k1
      exact Prod.ext k1.1.symm k1.2.symm
    · simp [hint1] at k1
  have e2 : size = 0.01 := by
    rcases k2 with k2 | k2
    · simp only [Option.bind_some, hint2, Option.some.injEq, OptVal.num.injEq] at k2
      exact k2.symm
    · simp [hint2] at k2
  subst e1 e2
  have s3 : Real.sqrt 3 ≤ 2 := by
    rw [show (2 : ℝ) = Real.sqrt 4 by rw [show (4 : ℝ) = 2 ^ 2 by norm_num]; exact (Real.sqrt_sq (by norm_num)).symm]
    exact Real.sqrt_le_sqrt (by norm_num)
  have s0 := Real.sqrt_nonneg 3
  have ss := Real.sq_sqrt (show (0 : ℝ) ≤ 3 by norm_num)
  obtain ⟨x, hx, hle⟩ := k3 (3.3, 0.15 + 0.01 * Real.sqrt 3 / 3) (by simp [triangle]) (by
    intro b h
    rw [hb] at h
    cases h
    norm_num
    constructor <;> linarith) _ _ rfl (pr _)
  refine ⟨g, x, hg, hx, le_trans hle ?_⟩
  unfold misfit
  apply Real.sqrt_le_iff.mpr
  norm_num
  nlinarith

end Verif.Props.NelderMead
