import Verif.Props.Sicd
import Verif.Model.SicdBuilder
import Mathlib.Analysis.SpecialFunctions.Trigonometric.Deriv
import Mathlib.Analysis.SpecialFunctions.Sqrt
import Mathlib.Algebra.Order.Floor.Ring

/-! # Properties of the projections to constant height and to terrain, and of the range rate -/

namespace Verif.Props.SicdSurface

open Verif.Sicd Verif.Sicd.V3 Verif.Spec.Sicd Verif.Props.Sicd

/-! ## Constant height -/

theorem haeLoop_spec (G : Geo) (hae dhMax : ℝ) (k : Contour) : ∀ (left n : Nat) (pl : Plane) (st : HaeState),
    haeLoop G hae dhMax k left n pl = .ok (some st) →
    n ≤ st.n ∧ st.n ≤ n + left ∧ (st.n = n + left ∨ st.dh ≤ dhMax) ∧ st.dh = (G.toLle st.p).h - hae ∧ ∃ pl' : Plane, pl'.toGround k = .ok (some st.p) := by
  intro left
  induction left with
  | zero =>
    intro n pl st h
    rw [haeLoop] at h
    simp only [bind, Except.bind, pure, Except.pure] at h
    rcases hp : pl.toGround k with e | o
    · rw [hp] at h; cases h
    · rw [hp] at h
      rcases o with _ | p
      · cases h
      · simp only [Except.ok.injEq, Option.some.injEq] at h
        subst h
        exact ⟨le_refl _, le_refl _, .inl rfl, rfl, pl, hp⟩
  | succ left ih =>
    intro n pl st h
    rw [haeLoop] at h
    simp only [bind, Except.bind, pure, Except.pure] at h
    rcases hp : pl.toGround k with e | o
    · rw [hp] at h; cases h
    · rw [hp] at h
      rcases o with _ | p
      · cases h
      · simp only at h
        by_cases hc : (G.toLle p).h - hae ≤ dhMax
        · rw [if_pos hc] at h
          simp only [Except.ok.injEq, Option.some.injEq] at h
          subst h
          exact ⟨le_refl _, by simp, .inr hc, rfl, pl, hp⟩
        · rw [if_neg hc] at h
          obtain ⟨h1, h2, h3, h4⟩ := ih _ _ _ h
          exact ⟨by omega, by omega, h3.imp_left (by omega), h4⟩

/-- **C57** The result of the constant height projection has exactly the requested height, after at least one and at most the configured number of ground plane
projections; the conversions need to undo each other only in that height. -/
theorem hae_height_exact (G : Geo) (scp : V3) (right : Bool) (hae dhMax : ℝ) (nlim : Nat) (k : Contour) (p : V3) (n : Nat)
    (hG : ∀ q, (G.toLle (G.toEcf { G.toLle q with h := hae })).h = hae)
    (h : haeToGround G scp right hae dhMax nlim k = .ok (some (p, n))) : (G.toLle p).h = hae ∧ 1 ≤ n ∧ n ≤ max 1 nlim := by
  simp only [haeToGround, bind, Except.bind, pure, Except.pure] at h
  rcases hl : haeLoop G hae dhMax k (nlim - 1) 1 (Plane.new G (add scp (smul (hae - (G.toLle scp).h) (upAt (G.toLle scp).lon (G.toLle scp).lat)))
      (.given (upAt (G.toLle scp).lon (G.toLle scp).lat))) with e | o
  · rw [hl] at h; cases h
  · rw [hl] at h
    rcases o with _ | st
    · cases h
    · simp only [Except.ok.injEq, Option.some.injEq, Prod.mk.injEq] at h
      obtain ⟨rfl, rfl⟩ := h
      obtain ⟨h1, h2, _⟩ := haeLoop_spec _ _ _ _ _ _ _ _ hl
      exact ⟨hG _, h1, by omega⟩

/-- **C57** When the last ground plane point has the requested height already, it is the result; so it has the range rate of the contour. -/
theorem hae_on_surface_kept (G : Geo) (scp : V3) (right : Bool) (hae dhMax : ℝ) (nlim : Nat) (k : Contour) (q : V3) (hG : G.toEcf (G.toLle q) = q)
    (hd : 0 ≤ dhMax) (hq : (G.toLle q).h = hae)
    (h1 : (Plane.new G (add scp (smul (hae - (G.toLle scp).h) (upAt (G.toLle scp).lon (G.toLle scp).lat)))
      (.given (upAt (G.toLle scp).lon (G.toLle scp).lat))).toGround k = .ok (some q)) :
    haeToGround G scp right hae dhMax nlim k = .ok (some (q, 1)) := by
  have hl : ∀ left, haeLoop G hae dhMax k left 1 (Plane.new G (add scp (smul (hae - (G.toLle scp).h) (upAt (G.toLle scp).lon (G.toLle scp).lat)))
      (.given (upAt (G.toLle scp).lon (G.toLle scp).lat))) = .ok (some ⟨q, upAt (G.toLle q).lon (G.toLle q).lat, 0, 1⟩) := by
    intro left
    cases left with
    | zero => rw [haeLoop]; simp only [h1, bind, Except.bind, pure, Except.pure, hq, sub_self]
    | succ left =>
      rw [haeLoop]; simp only [h1, bind, Except.bind, pure, Except.pure, hq, sub_self]
      rw [if_pos hd]
  have hz : ∀ a b : V3, V3.sub a (smul 0 b) = a := fun a b => by ext <;> simp [V3.sub, smul]
  simp only [haeToGround, hl, bind, Except.bind, pure, Except.pure, zero_div, hz, Except.ok.injEq, Option.some.injEq, Prod.mk.injEq, and_true]
  have : (⟨(G.toLle q).lon, (G.toLle q).lat, hae⟩ : Lle) = G.toLle q := by rw [← hq]
  rw [this, hG]

/-- A world whose geodetic coordinates are y, z and x, seen where its up direction is x: the point 4 to the side of a platform 3 up, at a range of 5. -/
example : let G : Geo := ⟨fun p => ⟨p.z, p.y - 4, p.x⟩, fun l => ⟨l.h, l.lat + 4, l.lon⟩⟩
    haeToGround G ⟨0, 4, 0⟩ true 0 1 3 ⟨5, 0, ⟨3, 0, 0⟩, ⟨0, 0, 1⟩⟩ = .ok (some (⟨0, 4, 0⟩, 1)) ∧ (G.toLle ⟨0, 4, 0⟩).h = 0 := by
  intro G
  have hu : unit ⟨1, 0, 0⟩ = ⟨1, 0, 0⟩ := by simp [unit, V3.norm, smul, dot]
  have h : haeToGround G ⟨0, 4, 0⟩ true 0 1 3 ⟨5, 0, ⟨3, 0, 0⟩, ⟨0, 0, 1⟩⟩ = .ok (some (⟨0, 4, 0⟩, 1)) := by
    apply hae_on_surface_kept
    · simp [G]
    · norm_num
    · rfl
    · simp only [Plane.new, upAt, G, sub_self, Real.cos_zero, Real.sin_zero, mul_one, mul_zero, hu]
      apply ground_point_found
      · norm_num
      · right; left; norm_num
      · right; right; norm_num [V3.sub]
      · norm_num [OnPlane, along, add, smul]
      · constructor <;> norm_num [sqDist, along]
      · right; norm_num [side, add, smul]
  exact ⟨h, (hae_height_exact G _ _ _ _ _ _ _ _ (by intro q; simp [G]) h).1⟩

/-- A flat world whose up direction is x: longitude and latitude 0 everywhere, the rest of the position is kept in them only for the origin's line; good enough to
meet the hypotheses. -/
example : ∃ (G : Geo) (q : V3) (k : Contour), (Plane.new G (add ⟨0, 4, 0⟩ (smul (0 - (G.toLle ⟨0, 4, 0⟩).h) (upAt (G.toLle ⟨0, 4, 0⟩).lon (G.toLle ⟨0, 4, 0⟩).lat)))
      (.given (upAt (G.toLle ⟨0, 4, 0⟩).lon (G.toLle ⟨0, 4, 0⟩).lat))).toGround k = .ok (some q) ∧ (G.toLle q).h = 0 := by
  refine ⟨⟨fun p => ⟨0, 0, p.x⟩, fun l => ⟨l.h, 4, 0⟩⟩, ⟨0, 4, 0⟩, ⟨5, 0, ⟨3, 0, 0⟩, ⟨0, 0, 1⟩⟩, ?_, rfl⟩
  have hu : unit ⟨1, 0, 0⟩ = ⟨1, 0, 0⟩ := by simp [unit, V3.norm, smul, dot]
  simp only [Plane.new, upAt, Real.cos_zero, Real.sin_zero, mul_one, mul_zero, hu]
  apply ground_point_found
  · norm_num
  · right; left; norm_num
  · right; right; norm_num [V3.sub]
  · norm_num [OnPlane, along, add, smul]
  · constructor <;> norm_num [sqDist, along]
  · right; norm_num [side, add, smul]

/-! ## The contour -/

theorem circle_frame {k : Contour} (h : Independent k.P k.V) :
    dot (smul (1 / norm k.V) k.V) (smul (1 / norm k.V) k.V) = 1 ∧ dot (circleOf k).ey (circleOf k).ey = 1 ∧ dot (circleOf k).ex (circleOf k).ex = 1
      ∧ dot (circleOf k).ey (smul (1 / norm k.V) k.V) = 0 ∧ dot (circleOf k).ex (smul (1 / norm k.V) k.V) = 0 ∧ dot (circleOf k).ex (circleOf k).ey = 0 := by
  have hV := ne_zero_of_independent h
  have h' := (independent_iff _ _).1 h
  have hP : dot k.P k.P ≠ 0 := by
    intro e
    rw [dot_self_eq_zero] at e
    rw [e] at h'
    simp [dot, cross] at h'
  have hv := norm_pos hV
  have hp := norm_pos hP
  have huv : dot (smul (1 / norm k.V) k.V) (smul (1 / norm k.V) k.V) = 1 := dot_unit hV
  have hc : cross (unit k.P) (smul (1 / norm k.V) k.V) = smul (1 / norm k.P * (1 / norm k.V)) (cross k.P k.V) := by
    ext <;> simp only [cross, unit, smul] <;> ring
  have hne : dot (cross (unit k.P) (smul (1 / norm k.V) k.V)) (cross (unit k.P) (smul (1 / norm k.V) k.V)) ≠ 0 := by
    rw [hc, dot_smul_left, dot_smul_right]
    have : 1 / norm k.P * (1 / norm k.V) ≠ 0 := by positivity
    exact mul_ne_zero this (mul_ne_zero this h')
  have hy : dot (circleOf k).ey (circleOf k).ey = 1 := dot_unit hne
  have hyv : dot (circleOf k).ey (smul (1 / norm k.V) k.V) = 0 := by
    simp only [circleOf]
    rw [unit, dot_smul_left, dot_cross_right, mul_zero]
  have hx : (circleOf k).ex = cross (circleOf k).ey (smul (1 / norm k.V) k.V) := rfl
  refine ⟨huv, hy, ?_, hyv, ?_, ?_⟩
  · rw [hx, dot_cross_self, hy, huv, hyv]; ring
  · rw [hx, dot_cross_right]
  · rw [hx, dot_cross_left]

/-- **C58** Every point computed on the circle, sampled or interpolated, is seen at the range and range rate of the contour. -/
theorem contour_point_seen (k : Contour) (look c : ℝ) (h : Independent k.P k.V) (hr : k.rdot ^ 2 ≤ dot k.V k.V) (hl : look = 1 ∨ look = -1) (hc : c ^ 2 ≤ 1) :
    Seen k.P k.V k.r k.rdot ((circleOf k).point look c) := by
  obtain ⟨h1, h2, h3, h4, h5, h6⟩ := circle_frame h
  have hV := ne_zero_of_independent h
  have hv := norm_pos hV
  have hvv := norm_mul_self k.V
  have hcd : 0 ≤ 1 - -1 * k.rdot / norm k.V * (-1 * k.rdot / norm k.V) := by
    have : -1 * k.rdot / norm k.V * (-1 * k.rdot / norm k.V) = k.rdot ^ 2 / dot k.V k.V := by
      rw [← hvv]; field_simp
    rw [this, sub_nonneg, div_le_one (by rw [← hvv]; positivity)]
    exact hr
  have hs := Real.mul_self_sqrt hcd
  have hcs : √(1 - c * c) * √(1 - c * c) = 1 - c * c := Real.mul_self_sqrt (by nlinarith)
  have hl2 : look * look = 1 := by rcases hl with rfl | rfl <;> norm_num
  have hVu : k.V = smul (norm k.V) (smul (1 / norm k.V) k.V) := unit_smul hV
  have hd : sub k.P ((circleOf k).point look c) = smul (-1) (add (smul (k.r * (-1 * k.rdot / norm k.V)) (smul (1 / norm k.V) k.V))
      (smul (circleOf k).radius (add (smul c (circleOf k).ex) (smul (look * √(1 - c * c)) (circleOf k).ey)))) := by
    have : (circleOf k).ctr = add k.P (smul (k.r * (-1 * k.rdot / norm k.V)) (smul (1 / norm k.V) k.V)) := rfl
    simp only [Circle.point, this]
    ext <;> simp only [sub, add, smul] <;> ring
  have hrad : (circleOf k).radius = k.r * √(1 - -1 * k.rdot / norm k.V * (-1 * k.rdot / norm k.V)) := rfl
  constructor
  · rw [sqDist_eq, hd]
    generalize smul (1 / norm k.V) k.V = uv at *
    have h7 := dot_comm (circleOf k).ey (circleOf k).ex
    have h8 := dot_comm uv (circleOf k).ex
    have h9 := dot_comm uv (circleOf k).ey
    rw [h6] at h7
    rw [h5] at h8
    rw [h4] at h9
    rw [hrad]
    generalize √(1 - -1 * k.rdot / norm k.V * (-1 * k.rdot / norm k.V)) = sd at *
    generalize -1 * k.rdot / norm k.V = cd at *
    generalize √(1 - c * c) = s at *
    simp only [dot_smul_left, dot_smul_right, dot_add_left, dot_add_right, h1, h2, h3, h4, h5, h6, h7, h8, h9, mul_zero, mul_one, add_zero, zero_add]
    linear_combination (k.r ^ 2 * (c * c + look * look * (s * s))) * hs + k.r ^ 2 * (1 - cd * cd) * (look * look) * hcs
      + k.r ^ 2 * (1 - cd * cd) * (1 - c * c) * hl2
  · rw [along_eq, hd]
    have e1 : dot k.V (circleOf k).ex = 0 := by
      rw [hVu, dot_smul_left, dot_comm, h5, mul_zero]
    have e2 : dot k.V (circleOf k).ey = 0 := by
      rw [hVu, dot_smul_left, dot_comm, h4, mul_zero]
    simp only [dot_smul_right, dot_add_right, e1, e2, mul_zero, add_zero]
    rw [← hvv]
    field_simp

example : Independent (⟨0, 0, 9⟩ : V3) ⟨2, 0, 0⟩ ∧ (1 : ℝ) ^ 2 ≤ dot ⟨2, 0, 0⟩ ⟨2, 0, 0⟩ := by
  constructor
  · right; left; norm_num
  · norm_num [dot]

/-! ## Terrain -/

/-- The two heights are on opposite sides of the terrain, beyond the tolerance. -/
def Opposite (lim a b : ℝ) : Prop := (lim < a ∧ b ≤ -lim) ∨ (a ≤ -lim ∧ lim < b)

theorem indicator_opposite {lim a b : ℝ} (hl : 0 < lim) (ha : a ≠ lim) (hb : b ≠ lim) : indicator lim a * indicator lim b = -1 ↔ Opposite lim a b := by
  have key : ∀ x : ℝ, x ≠ lim → (indicator lim x = 0 ∧ -lim < x ∧ x < lim) ∨ (indicator lim x = 1 ∧ lim < x) ∨ (indicator lim x = -1 ∧ x ≤ -lim) := by
    intro x hx
    unfold indicator
    by_cases h1 : |x| < lim
    · rw [if_pos h1]; exact .inl ⟨rfl, abs_lt.1 h1⟩
    · rw [if_neg h1]
      by_cases h2 : lim < x
      · rw [if_pos h2]; exact .inr (.inl ⟨rfl, h2⟩)
      · rw [if_neg h2]
        refine .inr (.inr ⟨rfl, ?_⟩)
        by_contra h3
        exact h1 (abs_lt.2 ⟨by linarith, lt_of_le_of_ne (not_lt.1 h2) hx⟩)
  unfold Opposite
  rcases key a ha with ⟨h1, h1', h1''⟩ | ⟨h1, h1'⟩ | ⟨h1, h1'⟩ <;> rcases key b hb with ⟨h2, h2', h2''⟩ | ⟨h2, h2'⟩ | ⟨h2, h2'⟩ <;> rw [h1, h2] <;> norm_num
  all_goals first
    | exact ⟨by intro h; linarith, by intro h; linarith⟩
    | exact .inl ⟨by linarith, by linarith⟩
    | exact .inr ⟨by linarith, by linarith⟩
    | (constructor <;> intro h <;> linarith)

/-- What the scan reports between or at the samples of a list whose first sample has index `n`. -/
def Reports (lim : ℝ) (n : Nat) (ds : List ℝ) (u : ℝ) : Prop :=
  ∃ (m : Nat) (a b : ℝ), ds[m]? = some a ∧ ds[m + 1]? = some b ∧ Opposite lim a b ∧ u = (n + m : ℕ) + a / (a - b)

theorem scan_spec (lim : ℝ) (hl : 0 < lim) : ∀ (ds : List ℝ) (d0 : ℝ) (n : Nat) (u : ℝ), d0 ≠ lim → (∀ d ∈ ds, d ≠ lim) →
    (u ∈ scan lim (n + 1) (some (indicator lim d0, d0)) ds ↔
      (∃ (m : Nat) (d : ℝ), ds[m]? = some d ∧ |d| < lim ∧ u = (n + 1 + m : ℕ)) ∨ Reports lim n (d0 :: ds) u) := by
  intro ds
  induction ds with
  | nil =>
    intro d0 n u _ _
    simp [scan, Reports]
  | cons d ds ih =>
    intro d0 n u h0 hds
    have hd : d ≠ lim := hds d (by simp)
    simp only [scan, List.mem_append]
    rw [ih d (n + 1) u hd (fun q hq => hds q (by simp [hq]))]
    have hopp := indicator_opposite hl h0 hd
    constructor
    · rintro ((h | h) | ⟨m, q, h1, h2, h3⟩ | ⟨m, a, b, h1, h2, h3, h4⟩)
      · by_cases hc : |d| < lim
        · rw [if_pos hc] at h
          refine .inl ⟨0, d, rfl, hc, ?_⟩
          simpa using h
        · rw [if_neg hc] at h; cases h
      · by_cases hc : indicator lim d0 * indicator lim d = -1
        · rw [if_pos hc, List.mem_singleton] at h
          refine .inr ⟨0, d0, d, rfl, rfl, hopp.1 hc, ?_⟩
          rw [h]; push_cast; ring
        · rw [if_neg hc] at h; cases h
      · exact .inl ⟨m + 1, q, h1, h2, by rw [h3]; push_cast; ring⟩
      · exact .inr ⟨m + 1, a, b, h1, h2, h3, by rw [h4]; push_cast; ring⟩
    · rintro (⟨m, q, h1, h2, h3⟩ | ⟨m, a, b, h1, h2, h3, h4⟩)
      · cases m with
        | zero =>
          simp only [List.getElem?_cons_zero, Option.some.injEq] at h1
          subst h1
          left; left
          rw [if_pos h2]; simpa using h3
        | succ m => exact .inr (.inl ⟨m, q, h1, h2, by rw [h3]; push_cast; ring⟩)
      · cases m with
        | zero =>
          simp only [List.getElem?_cons_zero, Option.some.injEq, List.getElem?_cons_succ] at h1 h2
          subst h1 h2
          left; right
          rw [if_pos (hopp.2 h3), List.mem_singleton, h4]; push_cast; ring
        | succ m => exact .inr (.inr ⟨m, a, b, h1, h2, h3, by rw [h4]; push_cast; ring⟩)

/-- Between the two samples, where the straight line between the heights is 0. -/
theorem opposite_between {lim a b : ℝ} (hl : 0 < lim) (h : Opposite lim a b) : 0 < a / (a - b) ∧ a / (a - b) < 1 ∧ a + a / (a - b) * (b - a) = 0 := by
  rcases h with ⟨h1, h2⟩ | ⟨h1, h2⟩
  · have : 0 < a - b := by linarith
    refine ⟨div_pos (by linarith) this, (div_lt_one this).2 (by linarith), ?_⟩
    field_simp; ring
  · have : a - b < 0 := by linarith
    refine ⟨div_pos_of_neg_of_neg (by linarith) this, ?_, ?_⟩
    · rw [div_lt_one_of_neg this]; linarith
    · have := this.ne
      field_simp; ring

/-- **C58** The positions reported are exactly the samples within the tolerance of the terrain and, for every two neighboring samples on opposite sides of the
terrain, the position strictly between them where the interpolated height is 0 - when no sample is exactly the tolerance above the terrain.

Missing for the full claim: a sample exactly at the tolerance (`tolerance_taken_for_below`), samples without terrain (C87). -/
theorem scan_reports_partial (lim : ℝ) (hl : 0 < lim) (ds : List ℝ) (hds : ∀ d ∈ ds, d ≠ lim) (u : ℝ) :
    u ∈ scan lim 0 none ds ↔
      (∃ (m : Nat) (d : ℝ), ds[m]? = some d ∧ |d| < lim ∧ u = m)
      ∨ ∃ (m : Nat) (a b : ℝ), ds[m]? = some a ∧ ds[m + 1]? = some b ∧ Opposite lim a b ∧ (m : ℝ) < u ∧ u < m + 1 ∧ a + (u - m) * (b - a) = 0 := by
  cases ds with
  | nil => simp [scan]
  | cons d ds =>
    simp only [scan, List.append_nil, List.mem_append]
    rw [scan_spec lim hl ds d 0 u (hds d (by simp)) (fun q hq => hds q (by simp [hq]))]
    constructor
    · rintro (h | ⟨m, q, h1, h2, h3⟩ | ⟨m, a, b, h1, h2, h3, h4⟩)
      · by_cases hc : |d| < lim
        · rw [if_pos hc] at h
          exact .inl ⟨0, d, rfl, hc, by simpa using h⟩
        · rw [if_neg hc] at h; cases h
      · exact .inl ⟨m + 1, q, h1, h2, by rw [h3]; push_cast; ring⟩
      · obtain ⟨h5, h6, h7⟩ := opposite_between hl h3
        have hu : u = m + a / (a - b) := by rw [h4]; push_cast; ring
        refine .inr ⟨m, a, b, h1, h2, h3, by linarith, by linarith, ?_⟩
        rw [show u - (m : ℝ) = a / (a - b) by linarith]; exact h7
    · rintro (⟨m, q, h1, h2, h3⟩ | ⟨m, a, b, h1, h2, h3, h4, h5, h6⟩)
      · cases m with
        | zero =>
          simp only [List.getElem?_cons_zero, Option.some.injEq] at h1
          subst h1
          left; rw [if_pos h2]; simpa using h3
        | succ m => exact .inr (.inl ⟨m, q, h1, h2, by rw [h3]; push_cast; ring⟩)
      · refine .inr (.inr ⟨m, a, b, h1, h2, h3, ?_⟩)
        have hne : b - a ≠ 0 := by rcases h3 with h3 | h3 <;> intro e <;> linarith
        have hne' : a - b ≠ 0 := by intro e; apply hne; linarith
        have : u - m = a / (a - b) := by
          rw [eq_div_iff hne']; linarith
        push_cast
        linarith

example : (3 / 2 : ℝ) ∈ scan (1 / 1000) 0 none [-2, -1, 1, 3] := by
  rw [scan_reports_partial _ (by norm_num) _ (by norm_num)]
  exact .inr ⟨1, -1, 1, rfl, rfl, .inr ⟨by norm_num, by norm_num⟩, by norm_num, by norm_num, by norm_num⟩

/-- The positions are in increasing order. -/
theorem scan_sorted_aux (lim : ℝ) (hl : 0 < lim) : ∀ (ds : List ℝ) (d0 : ℝ) (n : Nat), d0 ≠ lim → (∀ d ∈ ds, d ≠ lim) →
    (scan lim (n + 1) (some (indicator lim d0, d0)) ds).Pairwise (· < ·) ∧ ∀ u ∈ scan lim (n + 1) (some (indicator lim d0, d0)) ds, (n : ℝ) < u := by
  intro ds
  induction ds with
  | nil => intro d0 n _ _; simp [scan]
  | cons d ds ih =>
    intro d0 n h0 hds
    have hd : d ≠ lim := hds d (by simp)
    obtain ⟨ih1, ih2⟩ := ih d (n + 1) hd (fun q hq => hds q (by simp [hq]))
    have hopp := indicator_opposite hl h0 hd
    simp only [scan]
    by_cases hc : |d| < lim
    · have hi : indicator lim d = 0 := by simp [indicator, hc]
      have hnc : ¬ indicator lim d0 * indicator lim d = -1 := by rw [hi]; simp
      rw [if_pos hc, if_neg hnc]
      simp only [List.append_nil, List.cons_append, List.nil_append, List.pairwise_cons, List.mem_cons]
      refine ⟨⟨fun u hu => ?_, ih1⟩, ?_⟩
      · exact ih2 u hu
      · rintro u (rfl | hu)
        · push_cast; linarith
        · have := ih2 u hu; push_cast at this; linarith
    · rw [if_neg hc]
      by_cases hx : indicator lim d0 * indicator lim d = -1
      · rw [if_pos hx]
        obtain ⟨h5, h6, _⟩ := opposite_between hl (hopp.1 hx)
        simp only [List.cons_append, List.nil_append, List.pairwise_cons, List.mem_cons]
        refine ⟨⟨fun u hu => ?_, ih1⟩, ?_⟩
        · have := ih2 u hu; push_cast at this ⊢; linarith
        · rintro u (rfl | hu)
          · push_cast; linarith
          · have := ih2 u hu; push_cast at this; linarith
      · rw [if_neg hx]
        simp only [List.nil_append]
        exact ⟨ih1, fun u hu => by have := ih2 u hu; push_cast at this; linarith⟩

/-- **C58** The positions are reported in strictly increasing order, that is from the lowest sample up. -/
theorem scan_sorted (lim : ℝ) (hl : 0 < lim) (ds : List ℝ) (hds : ∀ d ∈ ds, d ≠ lim) : (scan lim 0 none ds).Pairwise (· < ·) := by
  cases ds with
  | nil => simp [scan]
  | cons d ds =>
    obtain ⟨h1, h2⟩ := scan_sorted_aux lim hl ds d 0 (hds d (by simp)) (fun q hq => hds q (by simp [hq]))
    simp only [scan, List.append_nil]
    by_cases hc : |d| < lim
    · rw [if_pos hc]
      simp only [List.cons_append, List.nil_append, List.pairwise_cons]
      exact ⟨fun u hu => h2 u hu, h1⟩
    · rw [if_neg hc]; exact h1

example : (scan (1 / 1000) 0 none [-2, -1, 1, 3]).Pairwise (· < ·) := scan_sorted _ (by norm_num) _ (by norm_num)

/-- **C58** negation: samples that are all above the terrain, one of them exactly by the tolerance, give a position - beyond the last sample. -/
theorem tolerance_taken_for_below : ∃ ds : List ℝ, (∀ d ∈ ds, 1 / 1000 ≤ d) ∧ ds.length = 2 ∧ scan (1 / 1000) 0 none ds = [2] := by
  refine ⟨[2 / 1000, 1 / 1000], by norm_num, rfl, ?_⟩
  have h1 : indicator (1 / 1000) (2 / 1000) = 1 := by
    unfold indicator
    rw [if_neg (by rw [abs_of_pos] <;> norm_num), if_pos (by norm_num)]
  have h2 : indicator (1 / 1000) (1 / 1000) = -1 := by
    unfold indicator
    rw [if_neg (by rw [abs_of_pos] <;> norm_num), if_neg (by norm_num)]
  simp only [scan, h1, h2]
  rw [if_neg (by rw [abs_of_pos] <;> norm_num), if_neg (by rw [abs_of_pos] <;> norm_num)]
  norm_num

/-- **C58** The sampled cosines start at the lower end, go down in equal steps, and end just beyond the upper end. -/
theorem samples_span (cosA cosB step : ℝ) (hs : step < 0) (h : cosA ≤ cosB) :
    2 ≤ samples cosA cosB step ∧ cosB + ((samples cosA cosB step - 1 : Int) : ℝ) * step < cosA
      ∧ cosA ≤ cosB + ((samples cosA cosB step - 2 : Int) : ℝ) * step := by
  unfold samples
  have h0 : 0 ≤ (cosA - cosB) / step := div_nonneg_of_nonpos (by linarith) hs.le
  have h1 := Int.floor_nonneg.2 h0
  have h2 := Int.lt_floor_add_one ((cosA - cosB) / step)
  have h3 := Int.floor_le ((cosA - cosB) / step)
  have e : (cosA - cosB) / step * step = cosA - cosB := div_mul_cancel₀ _ hs.ne
  refine ⟨by omega, ?_, ?_⟩
  · push_cast
    nlinarith
  · push_cast
    nlinarith

example : samples (1 / 2) 1 (-1 / 4) = 4 := by
  have : ((1 / 2 - 1) / (-1 / 4) : ℝ) = (2 : ℤ) := by norm_num
  unfold samples
  rw [this, Int.floor_intCast]
  rfl

/-- **C58** Every point returned is seen at the range and range rate of the contour, when the sampled cosines are cosines. -/
theorem dem_points_seen (k : Contour) (look cosA cosB step lim : ℝ) (height : V3 → ℝ) (p : V3) (h : Independent k.P k.V) (hr : k.rdot ^ 2 ≤ dot k.V k.V)
    (hl : look = 1 ∨ look = -1) (hlim : 0 < lim) (hs : step < 0) (hA : cosA ≤ cosB) (hB : cosB ≤ 1)
    (hend : -1 ≤ cosB + ((samples cosA cosB step - 1 : Int) : ℝ) * step)
    (hne : ∀ n : Nat, (n : Int) < samples cosA cosB step → height ((circleOf k).point look (cosB + n * step)) ≠ lim)
    (hp : p ∈ demPoints (circleOf k) look cosA cosB step lim height) : Seen k.P k.V k.r k.rdot p := by
  simp only [demPoints, List.mem_map] at hp
  obtain ⟨u, hu, rfl⟩ := hp
  obtain ⟨h2, _, _⟩ := samples_span cosA cosB step hs hA
  generalize hN : samples cosA cosB step = N at *
  have hlen : ∀ (m : Nat) (d : ℝ), ((List.map height ((List.range N.toNat).map (fun n : Nat => (circleOf k).point look (cosB + n * step)))))[m]? = some d
      → (m : Int) < N := by
    intro m d hm
    have := (List.getElem?_eq_some_iff.1 hm).1
    simp at this
    omega
  rw [scan_reports_partial lim hlim] at hu
  · have hu2 : 0 ≤ u ∧ u ≤ ((N - 1 : Int) : ℝ) := by
      rcases hu with ⟨m, d, h1, _, rfl⟩ | ⟨m, a, b, h1, h3, _, h4, h5, _⟩
      · have := hlen m d h1
        refine ⟨by positivity, ?_⟩
        have : (m : Int) ≤ N - 1 := by omega
        exact_mod_cast this
      · have := hlen (m + 1) b h3
        refine ⟨le_trans (by positivity) h4.le, ?_⟩
        have : ((m + 1 : Nat) : Int) ≤ N - 1 := by omega
        have h6 : (((m + 1 : Nat) : Int) : ℝ) ≤ ((N - 1 : Int) : ℝ) := by exact_mod_cast this
        push_cast at h6 ⊢
        linarith
    apply contour_point_seen k look _ h hr hl
    have h7 : cosB + u * step ≤ 1 := by nlinarith [hu2.1]
    have h8 : -1 ≤ cosB + u * step := by nlinarith [hu2.2]
    nlinarith
  · intro d hd
    simp only [List.mem_map, List.mem_range] at hd
    obtain ⟨_, ⟨n, hn, rfl⟩, rfl⟩ := hd
    exact hne n (by omega)

/-- **C87** negated: a sample of the contour over a place without terrain is returned as an intersection with the terrain. -/
theorem uncovered_sample_returned (G : Geo) (terrain : ℝ → ℝ → Option ℝ) (C : Circle) (look cosA cosB step lim : ℝ) (hlim : 0 < lim) (n : Nat)
    (hn : (n : Int) < samples cosA cosB step)
    (ht : terrain (G.toLle (C.point look (cosB + n * step))).lon (G.toLle (C.point look (cosB + n * step))).lat = none) :
    C.point look (cosB + n * step) ∈ demPoints C look cosA cosB step lim (heightAbove G terrain) := by
  have hz : heightAbove G terrain (C.point look (cosB + n * step)) = 0 := by simp [heightAbove, ht]
  have key : ∀ (ds : List ℝ) (m : Nat) (k : Nat) (prev : Option (Int × ℝ)), ds[m]? = some 0 → ((k + m : ℕ) : ℝ) ∈ scan lim k prev ds := by
    intro ds
    induction ds with
    | nil => intro m k prev h; simp at h
    | cons d ds ih =>
      intro m k prev h
      simp only [scan, List.mem_append]
      cases m with
      | zero =>
        simp only [List.getElem?_cons_zero, Option.some.injEq] at h
        subst h
        left; left
        rw [if_pos (by simpa using hlim)]; simp
      | succ m =>
        right
        have := ih m (k + 1) (some (indicator lim d, d)) h
        rwa [show k + 1 + m = k + (m + 1) by omega] at this
  simp only [demPoints, List.mem_map]
  refine ⟨(n : ℝ), ?_, rfl⟩
  have := key (((List.range (samples cosA cosB step).toNat).map (fun n : Nat => C.point look (cosB + n * step))).map (heightAbove G terrain)) n 0 none ?_
  · simpa using this
  · have hn' : n < (samples cosA cosB step).toNat := by omega
    simp [hn', hz]

example (G : Geo) (C : Circle) : C.point 1 (1 + (0 : ℕ) * (-1 / 4)) ∈ demPoints C 1 (1 / 2) 1 (-1 / 4) (1 / 1000) (heightAbove G (fun _ _ => none)) := by
  apply uncovered_sample_returned
  · norm_num
  · exact lt_of_lt_of_le (by norm_num) (samples_span (1 / 2) 1 (-1 / 4) (by norm_num) (by norm_num)).1
  · rfl

/-- **C87**, the part that holds: where the elevation model has data all along the sampled contour and heights vary continuously along it, each point returned is within
one sample of a point of the contour at which the terrain is (up to the tolerance).  Missing: contours with gaps in the data (`uncovered_sample_returned`). -/
theorem covered_points_meet_terrain_partial (G : Geo) (terrain : ℝ → ℝ → Option ℝ) (C : Circle) (look cosA cosB step lim : ℝ) (hlim : 0 < lim) (hs : step < 0)
    (hA : cosA ≤ cosB) (t : ℝ → ℝ)
    (hcov : ∀ c ≤ cosB, cosB + ((samples cosA cosB step - 1 : Int) : ℝ) * step ≤ c →
      terrain (G.toLle (C.point look c)).lon (G.toLle (C.point look c)).lat = some (t c))
    (hcont : ContinuousOn (fun c => (G.toLle (C.point look c)).h - t c) (Set.Icc (cosB + ((samples cosA cosB step - 1 : Int) : ℝ) * step) cosB))
    (hne : ∀ n : Nat, (n : Int) < samples cosA cosB step → (G.toLle (C.point look (cosB + n * step))).h - t (cosB + n * step) ≠ lim)
    (p : V3) (hp : p ∈ demPoints C look cosA cosB step lim (heightAbove G terrain)) :
    ∃ c c', p = C.point look c ∧ |c - c'| ≤ |step| ∧ cosB + ((samples cosA cosB step - 1 : Int) : ℝ) * step ≤ c' ∧ c' ≤ cosB ∧
      |(G.toLle (C.point look c')).h - t c'| < lim := by
  simp only [demPoints, List.mem_map] at hp
  obtain ⟨u, hu, rfl⟩ := hp
  obtain ⟨h2, _, _⟩ := samples_span cosA cosB step hs hA
  generalize hN : samples cosA cosB step = N at *
  have hin : ∀ n : Nat, (n : Int) < N → cosB + ((N - 1 : Int) : ℝ) * step ≤ cosB + n * step ∧ cosB + n * step ≤ cosB := by
    intro n hn
    have h1 : (n : ℝ) ≤ ((N - 1 : Int) : ℝ) := by
      have : (n : Int) ≤ N - 1 := by omega
      exact_mod_cast this
    have h0 : (0 : ℝ) ≤ n := by positivity
    constructor <;> nlinarith
  have hval : ∀ n : Nat, (n : Int) < N → heightAbove G terrain (C.point look (cosB + n * step)) = (G.toLle (C.point look (cosB + n * step))).h - t (cosB + n * step) := by
    intro n hn
    simp only [heightAbove, hcov _ (hin n hn).2 (hin n hn).1, Option.getD_some]
  have hget : ∀ (m : Nat) (d : ℝ), ((List.map (heightAbove G terrain) ((List.range N.toNat).map (fun n : Nat => C.point look (cosB + n * step)))))[m]? = some d
      → (m : Int) < N ∧ d = (G.toLle (C.point look (cosB + m * step))).h - t (cosB + m * step) := by
    intro m d hm
    have hlt := (List.getElem?_eq_some_iff.1 hm).1
    simp only [List.length_map, List.length_range] at hlt
    have hlt' : (m : Int) < N := by omega
    refine ⟨hlt', ?_⟩
    simp only [List.getElem?_map, List.getElem?_range hlt, Option.map_some, Option.some.injEq] at hm
    rw [← hm, hval m hlt']
  rw [scan_reports_partial lim hlim] at hu
  · rcases hu with ⟨m, d, h1, h3, rfl⟩ | ⟨m, a, b, h1, h3, h4, h5, h6, _⟩
    · obtain ⟨hm, rfl⟩ := hget m d h1
      exact ⟨_, _, rfl, by simp, (hin m hm).1, (hin m hm).2, h3⟩
    · obtain ⟨hm, rfl⟩ := hget m a h1
      obtain ⟨hm', rfl⟩ := hget (m + 1) b h3
      set f : ℝ → ℝ := fun c => (G.toLle (C.point look c)).h - t c with hf
      have hle : cosB + ((m + 1 : Nat) : ℝ) * step ≤ cosB + m * step := by push_cast; nlinarith
      have hsub : Set.Icc (cosB + ((m + 1 : Nat) : ℝ) * step) (cosB + m * step) ⊆ Set.Icc (cosB + ((N - 1 : Int) : ℝ) * step) cosB :=
        Set.Icc_subset_Icc (hin _ hm').1 (hin _ hm).2
      have hc := hcont.mono hsub
      have hz : ∃ c ∈ Set.Icc (cosB + ((m + 1 : Nat) : ℝ) * step) (cosB + m * step), f c = 0 := by
        rcases h4 with ⟨q1, q2⟩ | ⟨q1, q2⟩
        · exact intermediate_value_Icc hle hc ⟨by simp only [hf]; linarith, by simp only [hf]; linarith⟩
        · exact intermediate_value_Icc' hle hc ⟨by simp only [hf]; linarith, by simp only [hf]; linarith⟩
      obtain ⟨c, hcm, hc0⟩ := hz
      refine ⟨_, c, rfl, ?_, (hsub hcm).1, (hsub hcm).2, ?_⟩
      · rw [abs_of_neg hs, abs_le]
        have := hcm.1
        have := hcm.2
        push_cast at *
        constructor <;> nlinarith
      · have : (G.toLle (C.point look c)).h - t c = 0 := hc0
        rw [this]; simpa using hlim
  · intro d hd
    simp only [List.mem_map, List.mem_range] at hd
    obtain ⟨_, ⟨n, hn, rfl⟩, rfl⟩ := hd
    rw [hval n (by omega)]
    exact hne n (by omega)

/-- Flat terrain of height 0 and a contour that comes down through it: the premises are met, and a point is returned. -/
example : let G : Geo := ⟨fun p => ⟨p.y, p.z, p.x - 7 / 8⟩, fun l => ⟨l.h + 7 / 8, l.lon, l.lat⟩⟩
    let C : Circle := ⟨⟨0, 0, 0⟩, 1, ⟨1, 0, 0⟩, ⟨0, 1, 0⟩⟩
    (∀ c, ContinuousOn (fun c => (G.toLle (C.point 1 c)).h - 0) (Set.Icc c 1)) ∧
    (∀ n : Nat, (G.toLle (C.point 1 (1 + n * (-1 / 4)))).h - 0 ≠ (1 / 1000 : ℝ)) ∧
    C.point 1 (1 + 1 / 2 * (-1 / 4)) ∈ demPoints C 1 (1 / 2) 1 (-1 / 4) (1 / 1000) (heightAbove G (fun _ _ => some 0)) := by
  intro G C
  have hG : ∀ c : ℝ, (G.toLle ((⟨⟨0, 0, 0⟩, 1, ⟨1, 0, 0⟩, ⟨0, 1, 0⟩⟩ : Circle).point 1 c)).h = c - 7 / 8 := by
    intro c; simp [G, Circle.point, add, smul]
  refine ⟨fun c => ?_, fun n => ?_, ?_⟩
  · simp only [C, hG]; fun_prop
  · simp only [C, hG]
    intro h
    have h2 : ((250 * n : ℕ) : ℝ) = 124 := by push_cast; linarith
    have h3 : 250 * n = 124 := by exact_mod_cast h2
    omega
  · simp only [demPoints, List.mem_map]
    have hs : samples (1 / 2) 1 (-1 / 4) = 4 := by
      have : ((1 / 2 - 1) / (-1 / 4) : ℝ) = (2 : ℤ) := by norm_num
      unfold samples
      rw [this, Int.floor_intCast]
      rfl
    refine ⟨1 / 2, ?_, rfl⟩
    rw [hs]
    have hr : List.range (Int.toNat 4) = [0, 1, 2, 3] := rfl
    simp only [hr, List.map_cons, List.map_nil, heightAbove, Option.getD_some, C, hG]
    rw [scan_reports_partial _ (by norm_num) _ (by norm_num)]
    exact .inr ⟨0, _, _, rfl, rfl, .inl ⟨by norm_num, by norm_num⟩, by norm_num, by norm_num, by norm_num⟩

/-! ## Range rate -/

theorem polyderFrom_succ (t : ℝ) : ∀ (c : List ℝ) (n : Nat), polyval (polyderFrom (n + 1) c) t = polyval (polyderFrom n c) t + polyval c t := by
  intro c
  induction c with
  | nil => intro n; simp [polyderFrom, polyval]
  | cons a c ih => intro n; simp only [polyderFrom, polyval, ih (n + 1)]; push_cast; ring

theorem polyder_cons (t a : ℝ) (c : List ℝ) : polyval (polyder (a :: c)) t = polyval c t + t * polyval (polyder c) t := by
  simp only [polyder]
  rw [polyderFrom_succ]
  cases c with
  | nil => simp [polyderFrom, polyval, polyder]
  | cons b c => simp only [polyderFrom, polyval, polyder]; push_cast; ring

theorem hasDerivAt_polyval (c : List ℝ) (t : ℝ) : HasDerivAt (polyval c) (polyval (polyder c) t) t := by
  induction c with
  | nil => simpa [polyval, polyder] using hasDerivAt_const t (0 : ℝ)
  | cons a c ih =>
    rw [polyder_cons]
    have h := ((hasDerivAt_id t).mul ih).const_add a
    simp only [id, one_mul] at h
    exact h

/-- The distance between the platform and a fixed point changes at the projection of the velocity on the line of sight. -/
theorem hasDerivAt_range (p : PolyXYZ) (q : V3) (t : ℝ) (h : dot (sub (p.at t) q) (sub (p.at t) q) ≠ 0) :
    HasDerivAt (fun t => norm (sub (p.at t) q)) (dot (p.deriv.at t) (sub (p.at t) q) / norm (sub (p.at t) q)) t := by
  have hx := (hasDerivAt_polyval p.px t).sub_const q.x
  have hy := (hasDerivAt_polyval p.py t).sub_const q.y
  have hz := (hasDerivAt_polyval p.pz t).sub_const q.z
  have hs := ((hx.mul hx).add (hy.mul hy)).add (hz.mul hz)
  have := hs.sqrt h
  have e : dot (p.deriv.at t) (sub (p.at t) q) / norm (sub (p.at t) q)
      = (polyval (polyder p.px) t * (polyval p.px t - q.x) + (polyval p.px t - q.x) * polyval (polyder p.px) t
          + (polyval (polyder p.py) t * (polyval p.py t - q.y) + (polyval p.py t - q.y) * polyval (polyder p.py) t)
          + (polyval (polyder p.pz) t * (polyval p.pz t - q.z) + (polyval p.pz t - q.z) * polyval (polyder p.pz) t))
        / (2 * √((polyval p.px t - q.x) * (polyval p.px t - q.x) + (polyval p.py t - q.y) * (polyval p.py t - q.y)
          + (polyval p.pz t - q.z) * (polyval p.pz t - q.z))) := by
    have hn := (norm_pos h).ne'
    show _ / norm (sub (p.at t) q) = _ / (2 * norm (sub (p.at t) q))
    field_simp
    simp only [dot, PolyXYZ.deriv, PolyXYZ.at, sub]
    ring
  rw [e]
  exact this

/-- **C88** The range rate of polar format, plane and zero Doppler grids is the time derivative of the range of the same pixel; the platform velocity is the time
derivative of the platform position. -/
theorem range_rate_is_derivative (s : Coa) (xy : ℝ × ℝ) (t : ℝ)
    (h : match s.grid with
      | .pfa scp _ _ => s.arp.at t ≠ scp
      | .plane scp u v => s.arp.at t ≠ add scp (add (smul xy.1 u) (smul xy.2 v))
      | .inca _ _ _ => 0 < (s.specific xy t (s.arp.at t) (s.arp.deriv.at t)).1
      | .rgazcomp _ _ => False) :
    HasDerivAt (fun t => (s.specific xy t (s.arp.at t) (s.arp.deriv.at t)).1) (s.specific xy t (s.arp.at t) (s.arp.deriv.at t)).2 t
      ∧ HasDerivAt (fun t => (s.arp.at t).x) (s.arp.deriv.at t).x t ∧ HasDerivAt (fun t => (s.arp.at t).y) (s.arp.deriv.at t).y t
      ∧ HasDerivAt (fun t => (s.arp.at t).z) (s.arp.deriv.at t).z t := by
  refine ⟨?_, hasDerivAt_polyval _ _, hasDerivAt_polyval _ _, hasDerivAt_polyval _ _⟩
  have hne : ∀ q, s.arp.at t ≠ q → dot (sub (s.arp.at t) q) (sub (s.arp.at t) q) ≠ 0 := by
    intro q hq e
    rw [dot_self_eq_zero] at e
    apply hq
    simp only [sub, V3.mk.injEq] at e
    ext <;> linarith [e.1, e.2.1, e.2.2]
  simp only [Coa.specific] at h ⊢
  rcases hg : s.grid with ⟨scp, ang, sf⟩ | ⟨scp, az⟩ | ⟨rca, tca, dr⟩ | ⟨scp, u, v⟩ <;> rw [hg] at h <;> simp only at h ⊢
  · have h1 := hasDerivAt_range s.arp scp t (hne _ h)
    have hth := hasDerivAt_polyval ang t
    have hk := (hasDerivAt_polyval sf (polyval ang t)).comp t hth
    have hka := ((hth.cos).const_mul xy.1).add ((hth.sin).const_mul xy.2)
    refine (h1.add (hk.mul hka)).congr_deriv ?_
    simp only [Function.comp, Pi.add_apply]
    ring
  · have h0 := Real.sqrt_pos.1 h
    generalize polyval tca xy.2 = c at *
    generalize hw : polyval2d dr xy.1 xy.2 * norm (s.arp.deriv.at c) ^ 2 = w at *
    have hdt : HasDerivAt (fun x : ℝ => x - c) 1 t := (hasDerivAt_id t).sub_const c
    have hsq : HasDerivAt (fun x : ℝ => (x - c) ^ 2) (2 * (t - c)) t := by
      have e : (fun x : ℝ => (x - c) ^ 2) = (fun x => x - c) * (fun x => x - c) := by
        funext x; simp only [Pi.mul_apply]; ring
      rw [e]
      exact (hdt.mul hdt).congr_deriv (by ring)
    refine (((hsq.const_mul w).const_add ((rca + xy.1) ^ 2)).sqrt h0.ne').congr_deriv ?_
    rw [← hw]
    rw [← hw] at h h0
    have hr := h.ne'
    field_simp
  · exact hasDerivAt_range s.arp _ t (hne _ h)

/-- A polar format grid and a zero Doppler grid. -/
example : let s : Coa := ⟨[[2]], ⟨[0, 1], [0], [3]⟩, .pfa ⟨0, 4, 0⟩ [0, 1] [1, 2], ⟨0, 0, 0⟩, ⟨0, 0, 0⟩, 0⟩
    HasDerivAt (fun t => (s.specific (1, 2) t (s.arp.at t) (s.arp.deriv.at t)).1) (s.specific (1, 2) 2 (s.arp.at 2) (s.arp.deriv.at 2)).2 2 := by
  intro s
  refine (range_rate_is_derivative s (1, 2) 2 ?_).1
  simp [s, PolyXYZ.at, polyval]

end Verif.Props.SicdSurface
