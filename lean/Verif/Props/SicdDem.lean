import Verif.Model.SicdDem
import Verif.Props.SicdSurface
import Verif.Props.DemFiles

/-!
# Image to world with an elevation model
-/

namespace Verif.Props.SicdDem

open Verif.Sicd Verif.Sicd.V3 Verif.Spec.Sicd Verif.Props.Sicd Verif.Props.SicdSurface

/-! ## What the function computes -/

/-- The situation in which points are computed. -/
structure Sampled (G : Geo) (scp : V3) (right : Bool) (dem : DemModel) (maxAdjacent : ℝ) (k : Contour) (s : DemSummary) (cosA cosB step : ℝ) : Prop where
  summary : dem.summary (G.toLle scp) = some s
  a : ∃ a m, haeToGround G scp right s.highest 1 3 k = .ok (some (a, m)) ∧ cosA = (circleOf k).cosine a
  b : ∃ b m, haeToGround G scp right s.lowest 1 3 k = .ok (some (b, m)) ∧ cosB = (circleOf k).cosine b
  step_eq : step = demStep maxAdjacent s.postSpacing (circleOf k).radius cosB
  rate : k.rdot ^ 2 ≤ dot k.V k.V
  indep : Independent k.P k.V
  radius : (circleOf k).radius ≠ 0
  cos_le : |cosB| ≤ 1
  step_ne : step ≠ 0

theorem demToGround_ok {G : Geo} {scp : V3} {right : Bool} {dem : DemModel} {maxAdjacent lim : ℝ} {k : Contour} {ps : List V3}
    (h : demToGround G scp right dem maxAdjacent lim k = .ok ps) :
    ∃ s cosA cosB step, Sampled G scp right dem maxAdjacent k s cosA cosB step ∧
      ps = demPoints (circleOf k) (if right then -1 else 1) cosA cosB step lim (heightAbove G dem.terrain) := by
  unfold demToGround at h
  cases hs : dem.summary (G.toLle scp) with
  | none => rw [hs] at h; simp at h
  | some s =>
    rw [hs] at h
    simp only [bind, Except.bind] at h
    cases ha : haeToGround G scp right s.highest 1 3 k with
    | error e => rw [ha] at h; simp at h
    | ok a =>
      cases hb : haeToGround G scp right s.lowest 1 3 k with
      | error e => rw [ha, hb] at h; simp at h
      | ok b =>
        rw [ha, hb] at h
        rcases a with _ | ⟨a, ma⟩
        · simp at h
        · rcases b with _ | ⟨b, mb⟩
          · simp at h
          · simp only at h
            by_cases hc : dot k.V k.V < k.rdot * k.rdot ∨ dot (cross k.P k.V) (cross k.P k.V) = 0 ∨ (circleOf k).radius = 0 ∨ 1 < |(circleOf k).cosine b|
            · rw [if_pos hc] at h; simp at h
            · rw [if_neg hc] at h
              push Not at hc
              by_cases h0 : demStep maxAdjacent s.postSpacing (circleOf k).radius ((circleOf k).cosine b) = 0
              · rw [if_pos h0] at h; simp at h
              · rw [if_neg h0, Except.ok.injEq] at h
                exact ⟨s, _, _, _, ⟨hs, ⟨a, ma, ha, rfl⟩, ⟨b, mb, hb, rfl⟩, rfl, by rw [pow_two]; exact hc.1, (independent_iff _ _).2 hc.2.1, hc.2.2.1, hc.2.2.2, h0⟩, h.symm⟩

/-! ## A point is found -/

theorem indicator_zero {lim d : ℝ} : indicator lim d = 0 ↔ |d| < lim := by
  unfold indicator
  by_cases h : |d| < lim
  · simp [h]
  · rw [if_neg h]
    refine iff_of_false ?_ h
    split_ifs <;> norm_num

theorem indicator_cases (lim d : ℝ) : indicator lim d = 0 ∨ indicator lim d = 1 ∨ indicator lim d = -1 := by
  unfold indicator
  split_ifs <;> simp

theorem indicator_le {lim d : ℝ} (h : d ≤ lim) : indicator lim d ≤ 0 := by
  unfold indicator
  by_cases h1 : |d| < lim
  · rw [if_pos h1]
  · rw [if_neg h1, if_neg (by linarith)]; norm_num

theorem indicator_ge {lim d : ℝ} (h : -lim < d) (hne : d ≠ lim) : 0 ≤ indicator lim d := by
  unfold indicator
  by_cases h1 : |d| < lim
  · rw [if_pos h1]
  · rw [if_neg h1, if_pos]
    · norm_num
    · by_contra h2
      exact h1 (abs_lt.2 ⟨h, lt_of_le_of_ne (by linarith) hne⟩)

theorem scan_below {lim : ℝ} : ∀ (ds : List ℝ) (d0 : ℝ) (n : Nat), indicator lim d0 = -1 → 0 ≤ indicator lim ((d0 :: ds).getLast (by simp)) →
    scan lim n (some (indicator lim d0, d0)) ds ≠ [] := by
  intro ds
  induction ds with
  | nil => intro d0 n h0 h1; simp [h0] at h1
  | cons d ds ih =>
    intro d0 n h0 h1 h
    simp only [scan, List.append_eq_nil_iff] at h
    obtain ⟨⟨ha, hb⟩, hc⟩ := h
    rcases indicator_cases lim d with hd | hd | hd
    · rw [indicator_zero] at hd
      rw [if_pos hd] at ha; simp at ha
    · rw [h0, hd] at hb; simp at hb
    · refine ih d (n + 1) hd ?_ hc
      rwa [List.getLast_cons (by simp)] at h1

/-- The scan reports a position when it begins below and ends above the terrain. -/
theorem scan_found {lim : ℝ} (ds : List ℝ) (hne : ds ≠ []) (h0 : indicator lim (ds.head hne) ≤ 0) (h1 : 0 ≤ indicator lim (ds.getLast hne)) : scan lim 0 none ds ≠ [] := by
  cases ds with
  | nil => exact absurd rfl hne
  | cons d ds =>
    intro h
    simp only [scan, List.append_eq_nil_iff] at h
    obtain ⟨⟨ha, -⟩, hc⟩ := h
    rcases indicator_cases lim d with hd | hd | hd
    · rw [indicator_zero] at hd
      rw [if_pos hd] at ha; simp at ha
    · simp [hd] at h0
    · exact scan_below ds d 1 hd h1 hc

/-! ## The order of the points -/

theorem scan_sorted {lim : ℝ} (hl : 0 < lim) : ∀ (ds : List ℝ) (n : Nat) (prev : Option (Int × ℝ)), (∀ d ∈ ds, d ≠ lim) →
    (prev = none ∨ ∃ d, d ≠ lim ∧ prev = some (indicator lim d, d)) →
    (scan lim n prev ds).Pairwise (· < ·) ∧ ∀ u ∈ scan lim n prev ds, (n : ℝ) - 1 < u ∧ u ≤ n + ds.length - 1 := by
  intro ds
  induction ds with
  | nil => intro n prev _ _; simp [scan]
  | cons d ds ih =>
    intro n prev hds hprev
    have hd : d ≠ lim := hds d (by simp)
    obtain ⟨ih1, ih2⟩ := ih (n + 1) (some (indicator lim d, d)) (fun q hq => hds q (by simp [hq])) (.inr ⟨d, hd, rfl⟩)
    have hrest : ∀ u ∈ scan lim (n + 1) (some (indicator lim d, d)) ds, (n : ℝ) < u ∧ u ≤ n + (d :: ds).length - 1 := by
      intro u hu
      have := ih2 u hu
      push_cast at this
      simp only [List.length_cons]
      push_cast
      constructor <;> linarith [this.1, this.2]
    have hlen : (0 : ℝ) ≤ ds.length := by positivity
    have key : ∃ l : List ℝ, scan lim n prev (d :: ds) = l ++ scan lim (n + 1) (some (indicator lim d, d)) ds ∧ (l = [] ∨ ∃ u, l = [u] ∧ (n : ℝ) - 1 < u ∧ u ≤ n) := by
      simp only [scan]
      by_cases h0 : |d| < lim
      · rw [if_pos h0]
        refine ⟨_, rfl, .inr ⟨n, ?_, by linarith, le_refl _⟩⟩
        rcases hprev with rfl | ⟨d0, -, rfl⟩
        · rfl
        · have : indicator lim d = 0 := indicator_zero.2 h0
          simp [this]
      · rw [if_neg h0]
        refine ⟨_, rfl, ?_⟩
        rcases hprev with rfl | ⟨d0, hd0, rfl⟩
        · left; rfl
        · simp only [List.nil_append]
          by_cases hc : indicator lim d0 * indicator lim d = -1
          · rw [if_pos hc]
            obtain ⟨b1, b2, -⟩ := opposite_between hl ((indicator_opposite hl hd0 hd).1 hc)
            exact .inr ⟨_, rfl, by linarith, by linarith⟩
          · rw [if_neg hc]; left; rfl
    obtain ⟨l, hl', hcase⟩ := key
    rw [hl']
    rcases hcase with rfl | ⟨u, rfl, h1, h2⟩
    · simp only [List.nil_append]
      exact ⟨ih1, fun u hu => ⟨by linarith [(hrest u hu).1], (hrest u hu).2⟩⟩
    · simp only [List.singleton_append, List.pairwise_cons]
      refine ⟨⟨fun v hv => by linarith [(hrest v hv).1], ih1⟩, ?_⟩
      intro v hv
      rcases List.mem_cons.1 hv with rfl | hv
      · simp only [List.length_cons]
        push_cast
        exact ⟨h1, by linarith⟩
      · exact ⟨by linarith [(hrest v hv).1], (hrest v hv).2⟩

/-- The squared distance of a point of the contour from the center of the Earth falls with the cosine of the contour angle. -/
theorem point_dist {k : Contour} (h : Independent k.P k.V) (hr : 0 < (circleOf k).radius) {look : ℝ} (hl : look = 1 ∨ look = -1) :
    ∃ A B : ℝ, 0 < B ∧ ∀ c, c ^ 2 ≤ 1 → sqDist ⟨0, 0, 0⟩ ((circleOf k).point look c) = A - B * c := by
  obtain ⟨h1, h2, h3, h4, h5, h6⟩ := circle_frame h
  have hV := ne_zero_of_independent h
  have h' := (independent_iff _ _).1 h
  have hP : dot k.P k.P ≠ 0 := by
    intro e
    rw [dot_self_eq_zero] at e
    rw [e] at h'
    simp [dot, cross] at h'
  have hp := norm_pos hP
  have hv := norm_pos hV
  have hcne : dot (cross (unit k.P) (smul (1 / norm k.V) k.V)) (cross (unit k.P) (smul (1 / norm k.V) k.V)) ≠ 0 := by
    have hc : cross (unit k.P) (smul (1 / norm k.V) k.V) = smul (1 / norm k.P * (1 / norm k.V)) (cross k.P k.V) := by
      ext <;> simp only [cross, unit, smul] <;> ring
    rw [hc, dot_smul_left, dot_smul_right]
    have : 1 / norm k.P * (1 / norm k.V) ≠ 0 := by positivity
    exact mul_ne_zero this (mul_ne_zero this h')
  have hn := norm_pos hcne
  have hey : (circleOf k).ey = smul (1 / norm (cross (unit k.P) (smul (1 / norm k.V) k.V))) (cross (unit k.P) (smul (1 / norm k.V) k.V)) := rfl
  have hex : (circleOf k).ex = cross (circleOf k).ey (smul (1 / norm k.V) k.V) := rfl
  have hctr : ∃ q, (circleOf k).ctr = add k.P (smul q (smul (1 / norm k.V) k.V)) := ⟨_, rfl⟩
  obtain ⟨q, hq⟩ := hctr
  have hPu : k.P = smul (norm k.P) (unit k.P) := unit_smul hP
  have e1 : dot k.P (circleOf k).ey = 0 := by
    rw [hey, dot_smul_right, hPu, dot_smul_left, ← hPu, dot_comm, dot_cross_left]; ring
  have e2 : dot k.P (circleOf k).ex = -(norm k.P * norm (cross (unit k.P) (smul (1 / norm k.V) k.V))) := by
    have t : dot k.P (circleOf k).ex = -dot (circleOf k).ey (cross k.P (smul (1 / norm k.V) k.V)) := by
      rw [hex]; simp only [dot, cross]; ring
    have t2 : cross k.P (smul (1 / norm k.V) k.V) = smul (norm k.P) (cross (unit k.P) (smul (1 / norm k.V) k.V)) := by
      conv_lhs => rw [hPu]
      ext <;> simp only [cross, smul] <;> ring
    rw [t, t2, dot_smul_right, hey, dot_smul_left, ← norm_mul_self]
    field_simp
  have c1 : dot (circleOf k).ctr (circleOf k).ey = 0 := by
    rw [hq, dot_add_left, dot_smul_left, e1, dot_comm _ (circleOf k).ey, h4]; ring
  have c2 : dot (circleOf k).ctr (circleOf k).ex = -(norm k.P * norm (cross (unit k.P) (smul (1 / norm k.V) k.V))) := by
    rw [hq, dot_add_left, dot_smul_left, e2, dot_comm _ (circleOf k).ex, h5]; ring
  have hl2 : look * look = 1 := by rcases hl with rfl | rfl <;> norm_num
  refine ⟨dot (circleOf k).ctr (circleOf k).ctr + (circleOf k).radius ^ 2, 2 * (circleOf k).radius * (norm k.P * norm (cross (unit k.P) (smul (1 / norm k.V) k.V))), by positivity, ?_⟩
  intro c hc
  have hcs : √(1 - c * c) * √(1 - c * c) = 1 - c * c := Real.mul_self_sqrt (by nlinarith)
  have e0 : sqDist ⟨0, 0, 0⟩ ((circleOf k).point look c) = dot ((circleOf k).point look c) ((circleOf k).point look c) := by simp only [sqDist, dot]; ring
  rw [e0, Circle.point]
  generalize norm (cross (unit k.P) (smul (1 / norm k.V) k.V)) = w at *
  have h7 := dot_comm (circleOf k).ey (circleOf k).ex
  have c3 := dot_comm (circleOf k).ey (circleOf k).ctr
  have c4 := dot_comm (circleOf k).ex (circleOf k).ctr
  rw [h6] at h7
  rw [c1] at c3
  rw [c2] at c4
  generalize √(1 - c * c) = s at *
  simp only [dot_smul_left, dot_smul_right, dot_add_left, dot_add_right, h2, h3, h6, h7, c1, c2, c3, c4]
  linear_combination ((circleOf k).radius ^ 2 * (s * s)) * hl2 + (circleOf k).radius ^ 2 * hcs

/-! ## The distance between samples -/

theorem chord {c c' cB sB s s' : ℝ} (hs : s * s = 1 - c * c) (hs' : s' * s' = 1 - c' * c') (hB : sB * sB = 1 - cB * cB) (h0 : 0 ≤ s) (h0' : 0 ≤ s') (hsB : 0 < sB) (hcB : 0 ≤ cB)
    (h1 : c * c ≤ cB * cB) (h1' : c' * c' ≤ cB * cB) :
    ((c - c') ^ 2 + (s - s') ^ 2) * sB ^ 2 ≤ (c - c') ^ 2 ∧ |s - s'| * sB ≤ |c - c'| * cB := by
  have ls : sB ≤ s := by nlinarith
  have ls' : sB ≤ s' := by nlinarith
  have lc : |c| ≤ cB := abs_le_of_sq_le_sq (by nlinarith) hcB
  have lc' : |c'| ≤ cB := abs_le_of_sq_le_sq (by nlinarith) hcB
  have hprod : (s - s') * (s + s') = -((c - c') * (c + c')) := by linarith
  constructor
  · have hX : ((c - c') ^ 2 + (s - s') ^ 2) * (s + s') ^ 2 = (c - c') ^ 2 * ((s + s') ^ 2 + (c + c') ^ 2) := by
      have : (s - s') ^ 2 * (s + s') ^ 2 = (c - c') ^ 2 * (c + c') ^ 2 := by
        rw [← mul_pow, hprod]; ring
      linarith
    have h4 : (s + s') ^ 2 + (c + c') ^ 2 ≤ 4 := by nlinarith [sq_nonneg (c - c'), sq_nonneg (s - s')]
    have h5 : 4 * sB ^ 2 ≤ (s + s') ^ 2 := by nlinarith
    have h6 : 0 ≤ (c - c') ^ 2 + (s - s') ^ 2 := by positivity
    have h7 := mul_le_mul_of_nonneg_left h5 h6
    have h8 := mul_le_mul_of_nonneg_left h4 (sq_nonneg (c - c'))
    nlinarith
  · have hp : |s - s'| * (s + s') = |c - c'| * |c + c'| := by
      rw [← abs_of_nonneg (add_nonneg h0 h0'), ← abs_mul, hprod, abs_neg, abs_mul]
    have h5 : |c + c'| ≤ 2 * cB := (abs_add_le _ _).trans (by linarith)
    have h6 := mul_le_mul_of_nonneg_left h5 (abs_nonneg (c - c'))
    have h7 := mul_le_mul_of_nonneg_left (show 2 * sB ≤ s + s' by linarith) (abs_nonneg (s - s'))
    linarith

theorem step_bounds {maxAdjacent postSpacing radius cosB step : ℝ} (hm : 0 < maxAdjacent) (hp : 0 < postSpacing) (hr : 0 < radius) (hc : 0 < cosB) (h1 : cosB ≤ 1)
    (h : step = demStep maxAdjacent postSpacing radius cosB) (hne : step ≠ 0) :
    step < 0 ∧ 0 < √(1 - cosB * cosB) ∧ |step| * radius ≤ maxAdjacent * √(1 - cosB * cosB) ∧ |step| * radius * cosB ≤ 1 / 2 * postSpacing * √(1 - cosB * cosB) := by
  have hs0 := Real.sqrt_nonneg (1 - cosB * cosB)
  have e : step = -1 * min (maxAdjacent * √(1 - cosB * cosB) / radius) (1 / 2 * postSpacing * (√(1 - cosB * cosB) / cosB) / radius) := by
    rw [h, demStep, if_neg hc.ne', stepOf, abs_of_nonneg hs0]
  have hspos : 0 < √(1 - cosB * cosB) := by
    refine lt_of_le_of_ne hs0 fun e0 => hne ?_
    rw [e, ← e0]; simp
  have a1 : 0 < maxAdjacent * √(1 - cosB * cosB) / radius := by positivity
  have a2 : 0 < 1 / 2 * postSpacing * (√(1 - cosB * cosB) / cosB) / radius := by positivity
  have hmin := lt_min a1 a2
  have hneg : step < 0 := by rw [e]; linarith
  refine ⟨hneg, hspos, ?_, ?_⟩
  · rw [abs_of_neg hneg, e]
    have := min_le_left (maxAdjacent * √(1 - cosB * cosB) / radius) (1 / 2 * postSpacing * (√(1 - cosB * cosB) / cosB) / radius)
    rw [le_div_iff₀ hr] at this
    linarith
  · rw [abs_of_neg hneg, e]
    have := min_le_right (maxAdjacent * √(1 - cosB * cosB) / radius) (1 / 2 * postSpacing * (√(1 - cosB * cosB) / cosB) / radius)
    rw [le_div_iff₀ hr] at this
    have h9 := mul_le_mul_of_nonneg_right this hc.le
    rw [mul_assoc (1 / 2 * postSpacing), div_mul_cancel₀ _ hc.ne'] at h9
    linarith

/-- A unit vector across the platform's position and velocity is, up to sign, the second direction of the contour. -/
theorem across {k : Contour} {e : V3} (hP : Perp e k.P) (hV : Perp e k.V) : dot e (circleOf k).ex = 0 := by
  rw [perp_iff] at hP hV
  have key : ∀ (x y w : ℝ) (a b : V3), dot e (cross (smul x (cross (smul w a) (smul y b))) (smul y b))
      = x * w * y * y * (dot a b * dot e b - dot b b * dot e a) := by
    intro x y w a b; simp only [dot, cross, smul]; ring
  have : (circleOf k).ex = cross (smul (1 / norm (cross (smul (1 / norm k.P) k.P) (smul (1 / norm k.V) k.V))) (cross (smul (1 / norm k.P) k.P) (smul (1 / norm k.V) k.V)))
      (smul (1 / norm k.V) k.V) := rfl
  rw [this, key, hP, hV]; ring

theorem point_step {k : Contour} (h : Independent k.P k.V) (hr : 0 < (circleOf k).radius) {look : ℝ} (hl : look = 1 ∨ look = -1) {maxAdjacent postSpacing cosB step c : ℝ}
    (hm : 0 < maxAdjacent) (hp : 0 < postSpacing) (hc : 0 < cosB) (h1 : cosB ≤ 1) (hst : step = demStep maxAdjacent postSpacing (circleOf k).radius cosB) (hne : step ≠ 0)
    (hc1 : |c| ≤ cosB) (hc2 : |c + step| ≤ cosB) :
    sqDist ((circleOf k).point look c) ((circleOf k).point look (c + step)) ≤ maxAdjacent ^ 2
      ∧ ∀ e, Spec.Sicd.IsUnit e → Perp e k.P → Perp e k.V → |along e ((circleOf k).point look c) ((circleOf k).point look (c + step))| ≤ postSpacing / 2 := by
  obtain ⟨hneg, hspos, b1, b2⟩ := step_bounds hm hp hr hc h1 hst hne
  obtain ⟨-, g2, g3, -, -, g6⟩ := circle_frame h
  have g7 := dot_comm (circleOf k).ey (circleOf k).ex
  rw [g6] at g7
  have hl2 : look * look = 1 := by rcases hl with rfl | rfl <;> norm_num
  have q1 : c * c ≤ cosB * cosB := by have := abs_le.1 hc1; nlinarith
  have q2 : (c + step) * (c + step) ≤ cosB * cosB := by have := abs_le.1 hc2; nlinarith
  have hcc : cosB * cosB ≤ 1 := by nlinarith
  have r1 := Real.mul_self_sqrt (show 0 ≤ 1 - c * c by linarith)
  have r2 := Real.mul_self_sqrt (show 0 ≤ 1 - (c + step) * (c + step) by linarith)
  have r3 := Real.mul_self_sqrt (show 0 ≤ 1 - cosB * cosB by linarith)
  obtain ⟨k1, k2⟩ := chord r1 r2 r3 (Real.sqrt_nonneg _) (Real.sqrt_nonneg _) hspos hc.le q1 q2
  have hd : sub ((circleOf k).point look c) ((circleOf k).point look (c + step)) = smul (circleOf k).radius (add (smul (c - (c + step)) (circleOf k).ex)
      (smul (look * (√(1 - c * c) - √(1 - (c + step) * (c + step)))) (circleOf k).ey)) := by
    ext <;> simp only [Circle.point, sub, add, smul] <;> ring
  have hcs : |c - (c + step)| = |step| := by rw [show c - (c + step) = -step by ring, abs_neg]
  rw [hcs] at k2
  have hcs2 : (c - (c + step)) ^ 2 = |step| ^ 2 := by rw [sq_abs]; ring
  rw [hcs2] at k1
  generalize √(1 - c * c) = s at *
  generalize √(1 - (c + step) * (c + step)) = s' at *
  generalize √(1 - cosB * cosB) = sB at *
  refine ⟨?_, fun e he hP hV => ?_⟩
  · rw [sqDist_eq, hd]
    have hX : dot (smul (circleOf k).radius (add (smul (c - (c + step)) (circleOf k).ex) (smul (look * (s - s')) (circleOf k).ey)))
        (smul (circleOf k).radius (add (smul (c - (c + step)) (circleOf k).ex) (smul (look * (s - s')) (circleOf k).ey)))
        = (circleOf k).radius ^ 2 * (|step| ^ 2 + (s - s') ^ 2) := by
      simp only [dot_smul_left, dot_smul_right, dot_add_left, dot_add_right, g2, g3, g6, g7]
      rw [← hcs2]
      linear_combination ((circleOf k).radius ^ 2 * (s - s') ^ 2) * hl2
    rw [hX]
    have hsq : (|step| * (circleOf k).radius) ^ 2 ≤ (maxAdjacent * sB) ^ 2 := by
      apply pow_le_pow_left₀ (by positivity) b1
    have : ((circleOf k).radius ^ 2 * (|step| ^ 2 + (s - s') ^ 2)) * sB ^ 2 ≤ maxAdjacent ^ 2 * sB ^ 2 := by
      have := mul_le_mul_of_nonneg_left k1 (sq_nonneg (circleOf k).radius)
      nlinarith
    exact le_of_mul_le_mul_right this (by positivity)
  · have h0 := across hP hV
    rw [along_eq, hd, dot_smul_right, dot_add_right, dot_smul_right, h0, mul_zero, zero_add, dot_smul_right]
    have hu : |dot e (circleOf k).ey| ≤ 1 := by
      rw [isUnit_iff] at he
      have := dot_cross_self e (circleOf k).ey
      have h9 := dot_self_nonneg (cross e (circleOf k).ey)
      rw [this, he, g2] at h9
      exact abs_le_one_iff_mul_self_le_one.2 (by linarith)
    have hlook : |look| = 1 := by rcases hl with rfl | rfl <;> norm_num
    rw [abs_mul, abs_mul, abs_mul, abs_of_pos hr, hlook, one_mul]
    have h3 : (circleOf k).radius * |s - s'| ≤ postSpacing / 2 := by
      have h4 := mul_le_mul_of_nonneg_left k2 hr.le
      have h5 : ((circleOf k).radius * |s - s'|) * sB ≤ (postSpacing / 2) * sB := by linarith
      exact le_of_mul_le_mul_right h5 hspos
    calc (circleOf k).radius * (|s - s'| * |dot e (circleOf k).ey|) = ((circleOf k).radius * |s - s'|) * |dot e (circleOf k).ey| := by ring
      _ ≤ (postSpacing / 2) * 1 := mul_le_mul h3 hu (abs_nonneg _) (by positivity)
      _ = postSpacing / 2 := mul_one _

/-! ## The projection as a whole -/

/-- **C124** The projection to terrain.  The contour goes through a list of points (`pts`) of its range and range rate, each farther from the center of the Earth than the one before; neighbors are at most `maxAdjacent` apart, and at most half a post along
the horizontal direction across the track.  The points returned have the same range and range rate and are ordered in the same way; each is one of the list within the tolerance of the terrain, or without terrain (C87), or lies between two
neighbors of which one is above and one below the terrain.  At least one point is returned if the terrain, where there is any, lies between the lowest and the highest elevation of the summary
and the first point of the list is not above the lowest (by more than the tolerance) and the last is above the highest.

The premises inside: the contour angle starts below the horizontal plane of the platform, ends as far above it at most, and goes upwards; `hne` leaves out samples exactly at the tolerance above the terrain (C58). -/
theorem dem_projection (G : Geo) (scp : V3) (right : Bool) (dem : DemModel) (maxAdjacent lim : ℝ) (k : Contour) (ps : List V3) (hlim : 0 < lim) (hm : 0 < maxAdjacent) (hr : 0 < k.r)
    (h : demToGround G scp right dem maxAdjacent lim k = .ok ps) :
    ∃ s cosA cosB step, Sampled G scp right dem maxAdjacent k s cosA cosB step ∧
      (0 < s.postSpacing → 0 < cosB → cosA ≤ cosB → -cosB ≤ cosB + ((samples cosA cosB step - 1 : Int) : ℝ) * step →
        ∃ pts : List V3, pts = (List.range (samples cosA cosB step).toNat).map (fun n : Nat => (circleOf k).point (if right then -1 else 1) (cosB + n * step)) ∧ 2 ≤ pts.length ∧ (∀ p ∈ pts, Seen k.P k.V k.r k.rdot p)
          ∧ (∀ n p q, pts[n]? = some p → pts[n + 1]? = some q → sqDist ⟨0, 0, 0⟩ p < sqDist ⟨0, 0, 0⟩ q ∧ sqDist p q ≤ maxAdjacent ^ 2
              ∧ ∀ e, Spec.Sicd.IsUnit e → Perp e k.P → Perp e k.V → |along e p q| ≤ s.postSpacing / 2)
          ∧ ((∀ p ∈ pts, ∀ z, dem.terrain (G.toLle p).lon (G.toLle p).lat = some z → (G.toLle p).h - z ≠ lim) →
              ps.Pairwise (fun p q => sqDist ⟨0, 0, 0⟩ p < sqDist ⟨0, 0, 0⟩ q) ∧ ∀ p ∈ ps, Seen k.P k.V k.r k.rdot p ∧
                ((p ∈ pts ∧ ∀ z, dem.terrain (G.toLle p).lon (G.toLle p).lat = some z → |(G.toLle p).h - z| < lim)
                  ∨ ∃ (n : Nat) (a b : V3) (za zb : ℝ), pts[n]? = some a ∧ pts[n + 1]? = some b ∧ sqDist ⟨0, 0, 0⟩ a < sqDist ⟨0, 0, 0⟩ p ∧ sqDist ⟨0, 0, 0⟩ p < sqDist ⟨0, 0, 0⟩ b
                      ∧ dem.terrain (G.toLle a).lon (G.toLle a).lat = some za ∧ dem.terrain (G.toLle b).lon (G.toLle b).lat = some zb
                      ∧ ((G.toLle a).h - za) * ((G.toLle b).h - zb) < 0))
          ∧ ((∀ lon lat z, dem.terrain lon lat = some z → s.lowest ≤ z ∧ z ≤ s.highest) → (∀ p, pts.head? = some p → (G.toLle p).h ≤ s.lowest + lim) →
              (∀ p, pts.getLast? = some p → s.highest + lim < (G.toLle p).h) → ps ≠ [])) := by
  obtain ⟨s, cosA, cosB, step, hS, rfl⟩ := demToGround_ok h
  refine ⟨s, cosA, cosB, step, hS, fun hsp hcB hA hend => ?_⟩
  clear h
  have hlook : (if right then (-1 : ℝ) else 1) = 1 ∨ (if right then (-1 : ℝ) else 1) = -1 := by cases right <;> simp
  have hB1 := abs_le.1 hS.cos_le
  have hrad : 0 < (circleOf k).radius := lt_of_le_of_ne (mul_nonneg hr.le (Real.sqrt_nonneg _)) (Ne.symm hS.radius)
  obtain ⟨hstep, hsB, -, -⟩ := step_bounds hm hsp hrad hcB hB1.2 hS.step_eq hS.step_ne
  obtain ⟨A, B, hB, hd⟩ := point_dist hS.indep hrad hlook
  obtain ⟨hN2, -, -⟩ := samples_span cosA cosB step hstep hA
  generalize (if right = true then (-1 : ℝ) else 1) = look at *
  obtain ⟨N, hN⟩ : ∃ N : Nat, samples cosA cosB step = ((N + 1 : Nat) : Int) := ⟨(samples cosA cosB step - 1).toNat, by omega⟩
  have hcast : (((samples cosA cosB step - 1 : Int)) : ℝ) = (N : ℝ) := by rw [hN]; push_cast; ring
  have hend' := hend
  rw [hcast] at hend
  have hN1 : 1 ≤ N := by omega
  have htoNat : (samples cosA cosB step).toNat = N + 1 := by omega
  -- cosines at positions between the ends
  have hcos : ∀ u : ℝ, 0 ≤ u → u ≤ N → |cosB + u * step| ≤ cosB := by
    intro u h0 h1
    rw [abs_le]
    constructor <;> nlinarith
  have hcos1 : ∀ u : ℝ, 0 ≤ u → u ≤ N → (cosB + u * step) ^ 2 ≤ 1 := by
    intro u h0 h1
    have := abs_le.1 (hcos u h0 h1)
    nlinarith
  have hseen : ∀ u : ℝ, 0 ≤ u → u ≤ N → Seen k.P k.V k.r k.rdot ((circleOf k).point look (cosB + u * step)) :=
    fun u h0 h1 => contour_point_seen k look _ hS.indep hS.rate hlook (hcos1 u h0 h1)
  have hmem : ∀ p, p ∈ (List.range (N + 1)).map (fun n : Nat => (circleOf k).point look (cosB + n * step)) ↔ ∃ n : Nat, n ≤ N ∧ (circleOf k).point look (cosB + n * step) = p := by
    intro p
    simp only [List.mem_map, List.mem_range, Nat.lt_succ_iff]
  have hget : ∀ (n : Nat) p, ((List.range (N + 1)).map (fun n : Nat => (circleOf k).point look (cosB + n * step)))[n]? = some p →
      n ≤ N ∧ (circleOf k).point look (cosB + n * step) = p := by
    intro n p hp
    have hlt := (List.getElem?_eq_some_iff.1 hp).1
    simp only [List.length_map, List.length_range] at hlt
    simp only [List.getElem?_map, List.getElem?_range hlt, Option.map_some, Option.some.injEq] at hp
    exact ⟨by omega, hp⟩
  refine ⟨(List.range (N + 1)).map (fun n : Nat => (circleOf k).point look (cosB + n * step)), by rw [htoNat], by simp; omega, ?_, ?_, ?_, ?_⟩
  · intro p hp
    obtain ⟨n, hn, rfl⟩ := (hmem p).1 hp
    exact hseen n (by positivity) (by exact_mod_cast hn)
  · intro n p q hp hq
    obtain ⟨hn, rfl⟩ := hget n p hp
    obtain ⟨hn1, rfl⟩ := hget (n + 1) q hq
    have c1 := hcos n (by positivity) (by exact_mod_cast hn)
    have c2 := hcos (n + 1 : Nat) (by positivity) (by exact_mod_cast hn1)
    have d1 := hd _ (hcos1 n (by positivity) (by exact_mod_cast hn))
    have d2 := hd _ (hcos1 (n + 1 : Nat) (by positivity) (by exact_mod_cast hn1))
    have e1 : cosB + ((n + 1 : Nat) : ℝ) * step = cosB + n * step + step := by push_cast; ring
    rw [e1] at c2 d2 ⊢
    have := point_step hS.indep hrad hlook hm hsp hcB hB1.2 hS.step_eq hS.step_ne c1 c2
    refine ⟨?_, this.1, this.2⟩
    rw [d1, d2]
    nlinarith
  · intro hne
    have hne' : ∀ n : Nat, (n : Int) < samples cosA cosB step → heightAbove G dem.terrain ((circleOf k).point look (cosB + n * step)) ≠ lim := by
      intro n hn
      have hp := (hmem _).2 ⟨n, by omega, rfl⟩
      simp only [heightAbove]
      cases ht : dem.terrain (G.toLle ((circleOf k).point look (cosB + n * step))).lon (G.toLle ((circleOf k).point look (cosB + n * step))).lat with
      | none => simp only [Option.getD_none, sub_self]; exact hlim.ne
      | some z => exact hne _ hp z ht
    have hval : ∀ p z, dem.terrain (G.toLle p).lon (G.toLle p).lat = some z → heightAbove G dem.terrain p = (G.toLle p).h - z := by
      intro p z hz
      simp only [heightAbove, hz, Option.getD_some]
    have hcov : ∀ p, heightAbove G dem.terrain p ≠ 0 → ∃ z, dem.terrain (G.toLle p).lon (G.toLle p).lat = some z := by
      intro p hp
      cases hz : dem.terrain (G.toLle p).lon (G.toLle p).lat with
      | none => exact absurd (by simp only [heightAbove, hz, Option.getD_none, sub_self]) hp
      | some z => exact ⟨z, rfl⟩
    have hds : ∀ d ∈ (((List.range (N + 1)).map (fun n : Nat => (circleOf k).point look (cosB + n * step))).map (heightAbove G dem.terrain)), d ≠ lim := by
      intro d hd'
      simp only [List.mem_map, List.mem_range] at hd'
      obtain ⟨_, ⟨n, hn, rfl⟩, rfl⟩ := hd'
      exact hne' n (by omega)
    have hsort := scan_sorted hlim _ 0 none hds (.inl rfl)
    simp only [List.length_map, List.length_range] at hsort
    simp only [demPoints, htoNat]
    rw [List.pairwise_map]
    have hin : ∀ w, w ∈ scan lim 0 none (((List.range (N + 1)).map (fun n : Nat => (circleOf k).point look (cosB + n * step))).map (heightAbove G dem.terrain)) →
        (cosB + w * step) ^ 2 ≤ 1 := by
      intro w hw
      have h1 := (hsort.2 w hw).2
      push_cast at h1
      have h0 : 0 ≤ w := by
        rcases (scan_reports_partial lim hlim _ hds w).1 hw with ⟨m, d, -, -, rfl⟩ | ⟨m, a, b, -, -, -, h4, -⟩
        · positivity
        · have : (0 : ℝ) ≤ m := by positivity
          linarith
      exact hcos1 w h0 (by linarith)
    refine ⟨List.Pairwise.imp_of_mem ?_ hsort.1, fun p hp => ?_⟩
    · intro u v hu hv huv
      rw [hd _ (hin u hu), hd _ (hin v hv)]
      nlinarith [mul_lt_mul_of_neg_right huv hstep]
    · obtain ⟨w, hw, rfl⟩ := List.mem_map.1 hp
      have hw1 := hin w hw
      refine ⟨contour_point_seen k look _ hS.indep hS.rate hlook hw1, ?_⟩
      rcases (scan_reports_partial lim hlim _ hds w).1 hw with ⟨m, d, h1, h2, rfl⟩ | ⟨m, a, b, h1, h2, h3, h4, h5, -⟩
      · left
        simp only [List.getElem?_map, Option.map_eq_some_iff] at h1
        obtain ⟨p, ⟨i, hi, rfl⟩, rfl⟩ := h1
        rw [List.getElem?_eq_some_iff] at hi
        obtain ⟨hlt, rfl⟩ := hi
        simp only [List.length_range] at hlt
        simp only [List.getElem_range] at h2
        exact ⟨(hmem _).2 ⟨m, by omega, rfl⟩, fun z hz => by rw [hval _ _ hz] at h2; exact h2⟩
      · right
        rw [List.getElem?_map, Option.map_eq_some_iff] at h1 h2
        obtain ⟨p, hp1, rfl⟩ := h1
        obtain ⟨q, hq1, rfl⟩ := h2
        obtain ⟨hm1, rfl⟩ := hget _ _ hp1
        obtain ⟨hm2, rfl⟩ := hget _ _ hq1
        have hopp : heightAbove G dem.terrain ((circleOf k).point look (cosB + m * step)) * heightAbove G dem.terrain ((circleOf k).point look (cosB + (m + 1 : Nat) * step)) < 0 := by
          rcases h3 with ⟨u1, u2⟩ | ⟨u1, u2⟩ <;> nlinarith
        obtain ⟨za, hza⟩ := hcov _ (left_ne_zero_of_mul hopp.ne)
        obtain ⟨zb, hzb⟩ := hcov _ (right_ne_zero_of_mul hopp.ne)
        rw [hval _ _ hza, hval _ _ hzb] at hopp
        refine ⟨m, _, _, za, zb, hp1, hq1, ?_, ?_, hza, hzb, hopp⟩
        · rw [hd _ (hcos1 m (by positivity) (by exact_mod_cast hm1)), hd _ hw1]
          nlinarith [mul_lt_mul_of_neg_right h4 hstep]
        · rw [hd _ (hcos1 (m + 1 : Nat) (by positivity) (by exact_mod_cast hm2)), hd _ hw1]
          push_cast
          nlinarith [mul_lt_mul_of_neg_right h5 hstep]
  · intro hter hlow hhigh he
    simp only [demPoints, List.map_eq_nil_iff, htoNat] at he
    have hlow' := hlow ((circleOf k).point look cosB) (by simp [List.range_succ_eq_map])
    have hhigh' := hhigh ((circleOf k).point look (cosB + N * step)) (by simp [List.range_succ])
    have hne : (List.map (heightAbove G dem.terrain) (List.map (fun n : Nat => (circleOf k).point look (cosB + n * step)) (List.range (N + 1)))) ≠ [] := by simp
    refine scan_found _ hne ?_ ?_ he
    · apply indicator_le
      simp only [List.head_map, List.head_range, Nat.cast_zero, zero_mul, add_zero, heightAbove]
      cases ht : dem.terrain (G.toLle ((circleOf k).point look cosB)).lon (G.toLle ((circleOf k).point look cosB)).lat with
      | none => simp; exact hlim.le
      | some z => simp only [Option.getD_some]; linarith [(hter _ _ _ ht).1]
    · simp only [List.getLast_map, List.getLast_range, Nat.add_sub_cancel, heightAbove]
      cases ht : dem.terrain (G.toLle ((circleOf k).point look (cosB + N * step))).lon (G.toLle ((circleOf k).point look (cosB + N * step))).lat with
      | none => simp only [Option.getD_none, sub_self]; exact indicator_ge (by linarith) hlim.ne
      | some z =>
        simp only [Option.getD_some]
        have := (hter _ _ _ ht).2
        exact indicator_ge (by linarith) (by intro e; linarith)

/-! ## An example: the platform at (7, 0, 0) above a plain, the contour a circle of radius 5 across the track -/

/-- Height above the plane x = 1; the way back picks the point of the contour. -/
noncomputable def flatGeo : Geo := ⟨fun p => ⟨0, 0, p.x - 1⟩, fun l => ⟨1 + l.h, if l.h = 2 then 3 else 4, 0⟩⟩

noncomputable def flatContour : Contour := ⟨5, 0, ⟨7, 0, 0⟩, ⟨0, 0, 1⟩⟩

/-- Terrain of height 5/2 where the summary has 2 to 3. -/
noncomputable def flatDem : DemModel := ⟨fun _ => some ⟨2, 3, 8 / 3⟩, fun _ _ => some (5 / 2)⟩

theorem flat_circle : circleOf flatContour = ⟨⟨7, 0, 0⟩, 5, ⟨-1, 0, 0⟩, ⟨0, -1, 0⟩⟩ := by
  have h1 : V3.norm ⟨0, 0, 1⟩ = 1 := norm_eq_of zero_le_one (by norm_num [dot])
  have h2 : V3.norm ⟨7, 0, 0⟩ = 7 := norm_eq_of (by norm_num) (by norm_num [dot])
  have h3 : V3.norm ⟨0, -1, 0⟩ = 1 := norm_eq_of zero_le_one (by norm_num [dot])
  have e : cross (unit ⟨7, 0, 0⟩) (smul (1 / 1) ⟨0, 0, 1⟩) = ⟨0, -1, 0⟩ := by
    simp only [unit, h2, smul, cross]; norm_num
  simp only [circleOf, flatContour, h1, e]
  simp only [unit, h3, smul, cross, add]
  norm_num

theorem flat_hae_side (right : Bool) (h y : ℝ) (hh : (h = 2 ∧ y = 3) ∨ (h = 3 ∧ y = 4)) :
    haeToGround flatGeo ⟨3, 1, 0⟩ right h 1 3 flatContour = .ok (some (⟨1 + h, y, 0⟩, 1)) := by
  have hu : unit ⟨1, 0, 0⟩ = ⟨1, 0, 0⟩ := unit_of_unit (by norm_num [dot])
  have hg : (⟨⟨1 + h, 1, 0⟩, ⟨1, 0, 0⟩⟩ : Plane).toGround flatContour = .ok (some ⟨1 + h, y, 0⟩) := by
    apply ground_point_found
    · norm_num [flatContour]
    · right; left; norm_num [flatContour]
    · right; right
      rcases hh with ⟨rfl, rfl⟩ | ⟨rfl, rfl⟩ <;> norm_num [V3.sub, flatContour]
    · norm_num [OnPlane, along]
    · rcases hh with ⟨rfl, rfl⟩ | ⟨rfl, rfl⟩ <;> constructor <;> norm_num [sqDist, along, flatContour]
    · right
      rcases hh with ⟨rfl, rfl⟩ | ⟨rfl, rfl⟩ <;> norm_num [side, flatContour]
  have e : add ⟨3, 1, 0⟩ (smul (h - (3 - 1)) ⟨1, 0, 0⟩) = (⟨1 + h, 1, 0⟩ : V3) := by
    ext <;> simp only [add, smul] <;> ring
  simp only [haeToGround, flatGeo, upAt, Plane.new, Real.cos_zero, Real.sin_zero, mul_one, mul_zero, hu, e]
  rw [haeLoop]
  simp only [hg, bind, Except.bind, pure, Except.pure]
  have hle : 1 + h - 1 - h ≤ 1 := by linarith
  simp only [if_pos hle]
  rcases hh with ⟨rfl, rfl⟩ | ⟨rfl, rfl⟩ <;> norm_num

theorem flat_hae (h y : ℝ) (hh : (h = 2 ∧ y = 3) ∨ (h = 3 ∧ y = 4)) :
    haeToGround flatGeo ⟨3, 1, 0⟩ true h 1 3 flatContour = .ok (some (⟨1 + h, y, 0⟩, 1)) := flat_hae_side true h y hh

theorem flat_project : ∃ ps, demToGround flatGeo ⟨3, 1, 0⟩ true flatDem 10 (1 / 1000) flatContour = .ok ps := by
  have hs : √(9 / 25 : ℝ) = 3 / 5 := by rw [show (9 / 25 : ℝ) = (3 / 5) ^ 2 by norm_num]; exact Real.sqrt_sq (by norm_num)
  have e2 := flat_hae 3 4 (.inr ⟨rfl, rfl⟩)
  have e3 := flat_hae 2 3 (.inl ⟨rfl, rfl⟩)
  simp only [demToGround, flatDem, e2, e3, bind, Except.bind, flat_circle]
  rw [if_neg (by norm_num [flatContour, dot, cross, Circle.cosine, V3.sub, abs_of_pos]), if_neg]
  · exact ⟨_, rfl⟩
  · norm_num [demStep, Circle.cosine, dot, V3.sub, stepOf, hs]

/-- The premises of `dem_projection` are met by this contour and terrain, and a point is found. -/
theorem flat_found : ∃ ps, demToGround flatGeo ⟨3, 1, 0⟩ true flatDem 10 (1 / 1000) flatContour = .ok ps ∧ ps ≠ [] ∧ ∀ p ∈ ps, Seen ⟨7, 0, 0⟩ ⟨0, 0, 1⟩ 5 0 p := by
  have hs : √(9 / 25 : ℝ) = 3 / 5 := by rw [show (9 / 25 : ℝ) = (3 / 5) ^ 2 by norm_num]; exact Real.sqrt_sq (by norm_num)
  obtain ⟨ps, h⟩ := flat_project
  obtain ⟨s, cosA, cosB, step, hS, H⟩ := dem_projection flatGeo ⟨3, 1, 0⟩ true flatDem 10 (1 / 1000) flatContour ps (by norm_num) (by norm_num) (by norm_num [flatContour]) h
  have hsum : s = ⟨2, 3, 8 / 3⟩ := by simpa [flatDem] using hS.summary.symm
  subst hsum
  obtain ⟨a, m, ha, rfl⟩ := hS.a
  obtain ⟨b, m', hb, rfl⟩ := hS.b
  rw [flat_hae 3 4 (.inr ⟨rfl, rfl⟩)] at ha
  rw [flat_hae 2 3 (.inl ⟨rfl, rfl⟩)] at hb
  simp only [Except.ok.injEq, Option.some.injEq, Prod.mk.injEq] at ha hb
  obtain ⟨rfl, -⟩ := ha
  obtain ⟨rfl, -⟩ := hb
  have cA : (circleOf flatContour).cosine ⟨1 + 3, 4, 0⟩ = 3 / 5 := by rw [flat_circle]; norm_num [Circle.cosine, dot, V3.sub]
  have cB : (circleOf flatContour).cosine ⟨1 + 2, 3, 0⟩ = 4 / 5 := by rw [flat_circle]; norm_num [Circle.cosine, dot, V3.sub]
  have hstep : step = -(1 / 5) := by
    rw [hS.step_eq, cB, flat_circle]
    norm_num [demStep, stepOf, hs]
  have hN : samples (3 / 5) (4 / 5) (-(1 / 5)) = 3 := by
    norm_num [samples]
  rw [cA, cB, hstep, hN] at H
  obtain ⟨pts, hpts, -, -, -, h4, h5⟩ := H (by norm_num) (by norm_num) (by norm_num) (by norm_num)
  have hx : ∀ c, ((circleOf flatContour).point (-1) c).x = 7 - 5 * c := by
    intro c; rw [flat_circle]; simp only [Circle.point, add, smul]; ring
  have h3 : List.range 3 = [0, 1, 2] := by decide
  simp only [if_true, show (3 : Int).toNat = 3 from rfl, h3, List.map_cons, List.map_nil] at hpts
  refine ⟨ps, h, h5 ?_ ?_ ?_, fun p hp => ((h4 ?_).2 p hp).1⟩
  · intro lon lat z hz
    simp only [flatDem, Option.some.injEq] at hz
    constructor <;> norm_num [← hz]
  · intro p hp
    rw [hpts] at hp
    simp only [List.head?_cons, Option.some.injEq] at hp
    rw [← hp]
    simp only [flatGeo, hx]; norm_num
  · intro p hp
    rw [hpts] at hp
    simp only [List.getLast?_cons_cons, List.getLast?_singleton, Option.some.injEq] at hp
    rw [← hp]
    simp only [flatGeo, hx]; norm_num
  · intro p hp z hz
    rw [hpts] at hp
    simp only [flatDem, Option.some.injEq] at hz
    simp only [List.mem_cons, List.not_mem_nil, or_false] at hp
    rw [← hz]
    rcases hp with rfl | rfl | rfl <;> (simp only [flatGeo, hx]; norm_num)

/-! ## What image_to_world does with it -/

/-- **C125** What `image_to_world` answers with an elevation model is the point of the projection nearest to the center of the Earth; it is seen at the range and range rate of the pixel.

Missing for the full claim: pixels whose contour is not sampled where it meets the terrain (`terrain_above_summary_not_found`), scenes without a tile (`no_tile_no_location`). -/
theorem dem_location_partial (M : Model) (G : Geo) (right : Bool) (dem : DemModel) (rc : ℝ × ℝ) (l : Lle) (k : Contour)
    (hk : k = M.coa.contour (M.conv.toGrid (rc.1 + M.conv.firstRow, rc.2 + M.conv.firstCol))) (hr : 0 < k.r) (h : M.toWorldDem G right dem rc = .ok l) :
    ∃ ps p, demToGround G M.conv.scp right dem 10 (1 / 1000) k = .ok ps ∧ p ∈ ps ∧ l = G.toLle p ∧
      ∃ s cosA cosB step, Sampled G M.conv.scp right dem 10 k s cosA cosB step ∧
        (0 < s.postSpacing → 0 < cosB → cosA ≤ cosB → -cosB ≤ cosB + ((samples cosA cosB step - 1 : Int) : ℝ) * step →
          (∀ p z, dem.terrain (G.toLle p).lon (G.toLle p).lat = some z → (G.toLle p).h - z ≠ 1 / 1000) →
          Seen k.P k.V k.r k.rdot p ∧ ∀ q ∈ ps, sqDist ⟨0, 0, 0⟩ p ≤ sqDist ⟨0, 0, 0⟩ q) := by
  unfold Model.toWorldDem at h
  rw [← hk] at h
  cases hps : demToGround G M.conv.scp right dem 10 (1 / 1000) k with
  | error e => rw [hps] at h; simp [bind, Except.bind] at h
  | ok ps =>
    rw [hps] at h
    simp only [bind, Except.bind] at h
    cases ps with
    | nil => simp at h
    | cons p ps =>
      simp only [Except.ok.injEq] at h
      refine ⟨_, p, rfl, by simp, h.symm, ?_⟩
      obtain ⟨s, cosA, cosB, step, hS, H⟩ := dem_projection G M.conv.scp right dem 10 (1 / 1000) k (p :: ps) (by norm_num) (by norm_num) hr hps
      refine ⟨s, cosA, cosB, step, hS, fun a1 a2 a3 a4 hne => ?_⟩
      obtain ⟨pts, -, -, -, -, h4, -⟩ := H a1 a2 a3 a4
      obtain ⟨h5, h6⟩ := h4 (fun p _ z hz => hne p z hz)
      refine ⟨(h6 p (by simp)).1, fun q hq => ?_⟩
      rcases List.mem_cons.1 hq with rfl | hq
      · exact le_refl _
      · exact ((List.pairwise_cons.1 h5).1 q hq).le

/-- An image in the plane x = 3, taken from (7, 0, 0). -/
noncomputable def flatModel : Model where
  conv := { scpRow := 0, scpCol := 0, rowSS := 1, colSS := 1, scp := ⟨3, 1, 0⟩, uRow := ⟨0, 1, 0⟩, uCol := ⟨0, 0, 1⟩, firstRow := 0, firstCol := 0 }
  coa := ⟨[[0]], ⟨[7], [0], [0, 1]⟩, .plane ⟨3, 1, 0⟩ ⟨0, 1, 0⟩ ⟨0, 0, 1⟩, ⟨0, 0, 0⟩, ⟨0, 0, 0⟩, 0⟩
  spn := ⟨0, 0, 1⟩
  plane := ⟨⟨3, 1, 0⟩, ⟨1, 0, 0⟩⟩

theorem flat_contour : flatModel.coa.contour (flatModel.conv.toGrid (2, 0)) = flatContour := by
  have h5 : V3.norm ⟨4, -3, 0⟩ = 5 := norm_eq_of (by norm_num) (by norm_num [dot])
  simp only [Coa.contour, flatModel, flatContour, Coa.timeAt, Coa.specific, Converter.toGrid]
  norm_num [polyval2d, polyval, polyder, polyderFrom, PolyXYZ.at, PolyXYZ.deriv, V3.sub, V3.add, V3.smul, h5, dot]

/-- The premises of `dem_location_partial` are met by the pixel (2, 0) of that image over the terrain of `flatDem`. -/
example : ∃ l k, k = flatModel.coa.contour (flatModel.conv.toGrid (2 + flatModel.conv.firstRow, 0 + flatModel.conv.firstCol)) ∧ 0 < k.r ∧ flatModel.toWorldDem flatGeo true flatDem (2, 0) = .ok l := by
  have e : flatModel.coa.contour (flatModel.conv.toGrid (2 + flatModel.conv.firstRow, 0 + flatModel.conv.firstCol)) = flatContour := by
    rw [← flat_contour]; simp [flatModel]
  obtain ⟨ps, h, hne, -⟩ := flat_found
  cases ps with
  | nil => exact absurd rfl hne
  | cons p ps =>
    refine ⟨flatGeo.toLle p, flatContour, e.symm, by norm_num [flatContour], ?_⟩
    unfold Model.toWorldDem
    rw [e]
    have hs : flatModel.conv.scp = ⟨3, 1, 0⟩ := rfl
    simp only [hs, h, bind, Except.bind]

/-- **C125** The full claim is false: where the directory of elevation files has no usable file for the scene center, every pixel of the image raises an AttributeError, although without an elevation model a plane is used. -/
theorem no_tile_no_location (lib : DemFiles.Lib) (tileId : Dem.Geo ℝ → Option (List Char)) (open' : List Char → Option DemFiles.Raster) (dir p : List Char) (cap : Int) (before : List (Dem.Query ℝ))
    (M : Model) (G : Geo) (right : Bool) (dem : DemModel) (rc : ℝ × ℝ) (c : Dem.Geo ℝ) (hc : c = ⟨(G.toLle M.conv.scp).lon, (G.toLle M.conv.scp).lat, (G.toLle M.conv.scp).h⟩)
    (hdem : ∀ o, ((DemFiles.terrain lib tileId open' dir).query ((DemFiles.terrain lib tileId open' dir).queries ⟨cap, []⟩ before).2.1 (.describeRegion c)).1 = .ok (.summary o) →
      dem.summary (G.toLle M.conv.scp) = o.map (fun s => ⟨s.minElevation, s.maxElevation, s.postSpacing⟩))
    (hp : tileId c = some p) (h : ∀ ds, open' (GdalUtils.tileLocation dir p) = some ds → ds.geo = none) :
    M.toWorldDem G right dem rc = .error .attributeError := by
  have h1 := hdem none (DemFiles.unusable_file_ignored lib tileId open' dir p cap before c hp h).2
  simp only [Option.map_none] at h1
  simp only [Model.toWorldDem, demToGround, h1, bind, Except.bind]

/-- The premises are met: no file can be opened. -/
example (M : Model) (G : Geo) : ∃ (tileId : Dem.Geo ℝ → Option (List Char)) (open' : List Char → Option DemFiles.Raster) (p : List Char) (dem : DemModel),
    tileId ⟨(G.toLle M.conv.scp).lon, (G.toLle M.conv.scp).lat, (G.toLle M.conv.scp).h⟩ = some p ∧ (∀ ds, open' (GdalUtils.tileLocation [] p) = some ds → ds.geo = none)
      ∧ dem.summary (G.toLle M.conv.scp) = none :=
  ⟨fun _ => some ['a'], fun _ => none, ['a'], ⟨fun _ => none, fun _ _ => none⟩, rfl, by simp, rfl⟩

/-- Terrain of height 6 where the summary has 2 to 3 (a neighboring tile, or statistics of a part of the posts). -/
noncomputable def hillDem : DemModel := ⟨fun _ => some ⟨2, 3, 8 / 3⟩, fun _ _ => some 6⟩

/-- **C125** Terrain higher than the summary of the tile of the scene center is not found: no point is returned, `image_to_world` then raises an IndexError, although the contour meets the terrain. -/
theorem terrain_above_summary_not_found : ∃ (G : Geo) (scp : V3) (dem : DemModel) (k : Contour),
    demToGround G scp true dem 10 (1 / 1000) k = .ok []
      ∧ (∃ p z, Seen k.P k.V k.r k.rdot p ∧ dem.terrain (G.toLle p).lon (G.toLle p).lat = some z ∧ (G.toLle p).h = z)
      ∧ ∀ (M : Model) (rc : ℝ × ℝ), M.conv.scp = scp → M.coa.contour (M.conv.toGrid (rc.1 + M.conv.firstRow, rc.2 + M.conv.firstCol)) = k → M.toWorldDem G true dem rc = .error .indexError := by
  have key : demToGround flatGeo ⟨3, 1, 0⟩ true hillDem 10 (1 / 1000) flatContour = .ok [] := by
    have hs : √(9 / 25 : ℝ) = 3 / 5 := by rw [show (9 / 25 : ℝ) = (3 / 5) ^ 2 by norm_num]; exact Real.sqrt_sq (by norm_num)
    have e2 := flat_hae 3 4 (.inr ⟨rfl, rfl⟩)
    have e3 := flat_hae 2 3 (.inl ⟨rfl, rfl⟩)
    simp only [demToGround, hillDem, e2, e3, bind, Except.bind]
    have cA : (circleOf flatContour).cosine ⟨1 + 3, 4, 0⟩ = 3 / 5 := by rw [flat_circle]; norm_num [Circle.cosine, dot, V3.sub]
    have cB : (circleOf flatContour).cosine ⟨1 + 2, 3, 0⟩ = 4 / 5 := by rw [flat_circle]; norm_num [Circle.cosine, dot, V3.sub]
    have hst : demStep 10 (8 / 3) (circleOf flatContour).radius (4 / 5) = -(1 / 5) := by
      rw [flat_circle]; norm_num [demStep, stepOf, hs]
    have hN : samples (3 / 5) (4 / 5) (-(1 / 5)) = 3 := by norm_num [samples]
    have hx : ∀ c, ((circleOf flatContour).point (-1) c).x = 7 - 5 * c := by
      intro c; rw [flat_circle]; simp only [Circle.point, add, smul]; ring
    have h3 : List.range 3 = [0, 1, 2] := by decide
    rw [cA, cB, hst, if_neg (by rw [flat_circle]; norm_num [flatContour, dot, cross, abs_of_pos]), if_neg (by norm_num)]
    simp only [Except.ok.injEq, demPoints, hN, show (3 : Int).toNat = 3 from rfl, h3, if_true, List.map_cons, List.map_nil, heightAbove, flatGeo, hx, Option.getD_some, List.map_eq_nil_iff]
    norm_num [scan, indicator, abs_of_neg]
  refine ⟨flatGeo, ⟨3, 1, 0⟩, hillDem, flatContour, key, ⟨⟨7, 5, 0⟩, 6, ?_, rfl, ?_⟩, fun M rc h1 h2 => ?_⟩
  · constructor <;> norm_num [sqDist, along, flatContour]
  · norm_num [flatGeo]
  · simp only [Model.toWorldDem, h1, h2, key, bind, Except.bind]

end Verif.Props.SicdDem
