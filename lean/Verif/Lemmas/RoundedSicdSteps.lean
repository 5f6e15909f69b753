import Verif.Lemmas.RoundedSicd

/-!
# Rounding errors of the steps of the R/Rdot ground plane projection
-/

namespace Verif.Lemmas.RoundedSicd

open Verif.Sicd
open Verif.Sicd.V3 Verif.RoundedSicd Verif.Spec.Rounded Verif.Spec.RoundedSicd

variable {rnd : ℝ → ℝ} {dot3 : V3 → V3 → ℝ}

theorem dot_moved {a a' b b' : V3} {α β A B : ℝ} (ha : norm (sub a a') ≤ α) (hb : norm (sub b b') ≤ β) (hA : norm a' ≤ A) (hB : norm b ≤ B) :
    |dot a b - dot a' b'| ≤ α * B + A * β := by
  have e : dot a b - dot a' b' = dot (sub a a') b + dot a' (sub b b') := by
    rw [dot_sub_left, dot_sub_right]; ring
  rw [e]
  refine le_trans (abs_add_le _ _) (add_le_add ?_ ?_)
  · exact le_trans (abs_dot_le _ _) (mul_le_mul ha hB (norm_nonneg _) (le_trans (norm_nonneg _) ha))
  · exact le_trans (abs_dot_le _ _) (mul_le_mul hA hb (norm_nonneg _) (le_trans (norm_nonneg _) hA))

theorem norm_unit {u : V3} (h : 1 / 2 ≤ norm u) : norm (unit u) = 1 := by
  have hu : dot u u ≠ 0 := by rw [← norm_mul_self]; nlinarith
  exact norm_eq_of (by norm_num) (by rw [dot_unit hu]; norm_num)

/-- Step 1. -/
theorem unit_err (hr : Rounds rnd) (hd : Dot3Rounds dot3) {u : V3} (h1 : 1 / 2 ≤ norm u) (h2 : norm u ≤ 2) :
    norm (sub (unitD rnd dot3 u) (unit u)) ≤ 7 * eps := by
  have ep := eps_pos
  have es := eps_small
  have hq := dot3_near hd (le_refl (norm u)) (le_refl (norm u)) (by nlinarith [(by norm_num : (1:ℝ) / 2 ^ 90 ≤ 1 / 4)])
    (by nlinarith [(by norm_num : (4:ℝ) ≤ 2 ^ 200)])
  rw [← norm_mul_self] at hq
  generalize hN : norm u = N at *
  have N0 : 0 < N := by linarith
  have NN : 4.001 * eps * (N * N) ≤ 0.00001 * (N * N) := mul_le_mul_of_nonneg_right (by linarith) (by positivity)
  have NN0 : 0 < N * N := by positivity
  have hq' := abs_le.mp hq
  have q0 : 0 ≤ dot3 u u := by linarith [hq'.1]
  have q1 : dot3 u u ≤ (1.001 * N) ^ 2 := by nlinarith [hq'.2]
  obtain ⟨hs, -⟩ := sqrt_near hr q0 q1 (by linarith [(by norm_num : (1:ℝ) / 2 ^ 100 ≤ 1 / 4)]) (by linarith [(by norm_num : (4:ℝ) ≤ 2 ^ 250)])
  have hsq : |√(dot3 u u) - N| ≤ 4.001 * eps * N := by
    have e : (√(dot3 u u) - N) * (√(dot3 u u) + N) = dot3 u u - N * N := by
      have := Real.mul_self_sqrt q0
      linear_combination this
    have s0 := Real.sqrt_nonneg (dot3 u u)
    have : |√(dot3 u u) - N| * (√(dot3 u u) + N) = |dot3 u u - N * N| := by
      rw [← e, abs_mul, abs_of_nonneg (by linarith : 0 ≤ √(dot3 u u) + N)]
    have h3 : |√(dot3 u u) - N| * N ≤ 4.001 * eps * N * N := by
      nlinarith [mul_nonneg (abs_nonneg (√(dot3 u u) - N)) s0]
    exact le_of_mul_le_mul_right h3 N0
  have hn : |normD rnd dot3 u - N| ≤ 5.01 * eps * N := by
    have e : normD rnd dot3 u - N = (rnd √(dot3 u u) - √(dot3 u u)) + (√(dot3 u u) - N) := by unfold normD; ring
    rw [e]
    have := abs_add_le (rnd √(dot3 u u) - √(dot3 u u)) (√(dot3 u u) - N)
    have : 0 < eps * N := by positivity
    linarith
  generalize hn' : normD rnd dot3 u = n at *
  have n0 : 0.999 * N ≤ n := by
    have : 5.01 * eps * N ≤ 0.001 * N := mul_le_mul_of_nonneg_right (by linarith) N0.le
    linarith [(abs_le.mp hn).1]
  have np : 0 < n := by linarith
  have e1 : over u n = smul (1 / n) u := by ext <;> simp only [over, smul] <;> ring
  have s1 : norm (over u n) ≤ 1.002 := by
    rw [e1, norm_smul, hN, abs_of_pos (by positivity), one_div, inv_mul_le_iff₀ np]
    linarith
  have s2 : norm (sub (over u n) (unit u)) ≤ 5.02 * eps := by
    have e2 : sub (over u n) (unit u) = smul ((N - n) / (n * N)) u := by
      rw [e1]
      have : (N - n) / (n * N) = 1 / n - 1 / N := by field_simp
      rw [this]
      ext <;> simp only [sub, smul, unit, hN] <;> ring
    rw [e2, norm_smul, hN, abs_div, abs_of_pos (by positivity : 0 < n * N), div_mul_eq_mul_div, mul_div_mul_right _ _ N0.ne', div_le_iff₀ np, abs_sub_comm]
    nlinarith
  have s3 := vnear hr s1 (by norm_num) (by norm_num)
  have := tri (unitD rnd dot3 u) (over u n) (unit u)
  unfold unitD at *
  rw [hn'] at *
  linarith

/-- Step 2, the distance from the plane. -/
theorem arpZ_err (hr : Rounds rnd) (hd : Dot3Rounds dot3) {P ref e w : V3} {D : ℝ} (he : norm (sub e w) ≤ 7 * eps) (hw : norm w = 1)
    (h1 : 1 ≤ D) (h2 : D ≤ 2 ^ 30) (hP : norm (sub P ref) ≤ D) : |arpZ rnd dot3 P ref e - dot (sub P ref) w| ≤ 13 * eps * D := by
  have ep := eps_pos
  have es := eps_small
  have eD : 0 < eps * D := by positivity
  have ne : norm e ≤ 1.0001 := by have := norm_near e w; linarith
  have d1 := vnear hr hP (by linarith [(by norm_num : (1:ℝ) / 2 ^ 90 ≤ 1)]) (by linarith [(by norm_num : (2:ℝ) ^ 30 ≤ 2 ^ 250)])
  have nd : norm (rv rnd (sub P ref)) ≤ 1.0001 * D := by
    have := norm_near (rv rnd (sub P ref)) (sub P ref)
    have : 1.001 * eps * D ≤ 0.0001 * D := mul_le_mul_of_nonneg_right (by linarith) (by linarith)
    linarith
  have k1 := dot3_near hd nd ne (by linarith [(by norm_num : (1:ℝ) / 2 ^ 90 ≤ 1)])
    (by linarith [(by norm_num : 1.0001 * (2:ℝ) ^ 30 * 1.0001 ≤ 2 ^ 200)])
  have k2 := dot_moved d1 he hP ne
  have e1 : arpZ rnd dot3 P ref e - dot (sub P ref) w =
      (dot3 (rv rnd (sub P ref)) e - dot (rv rnd (sub P ref)) e) + (dot (rv rnd (sub P ref)) e - dot (sub P ref) w) := by unfold arpZ; ring
  rw [e1]
  refine le_trans (abs_add_le _ _) ?_
  linarith

/-- Step 2, the nadir. -/
theorem nadir_err (hr : Rounds rnd) {P e w : V3} {D z : ℝ} (he : norm (sub e w) ≤ 7 * eps) (hw : norm w = 1)
    (h1 : 1 ≤ D) (h2 : D ≤ 2 ^ 60) (hP : norm P ≤ D) (hz : |z| ≤ 1.01 * D) :
    norm (sub (nadir rnd P z e) (sub P (smul z w))) ≤ 11 * eps * D := by
  have ep := eps_pos
  have es := eps_small
  have eD : 0 < eps * D := by positivity
  have ne : norm e ≤ 1.0001 := by have := norm_near e w; linarith
  have lo : (1:ℝ) / 2 ^ 90 ≤ 1 := by norm_num
  have hi : (4:ℝ) * 2 ^ 60 ≤ 2 ^ 250 := by norm_num
  have n1 : norm (smul z e) ≤ 1.011 * D := by
    rw [norm_smul]
    have := mul_le_mul hz ne (norm_nonneg e) (by linarith)
    linarith
  have d1 := vnear hr n1 (by linarith) (by linarith)
  have d2 : norm (sub (smul z e) (smul z w)) ≤ 7.08 * eps * D := by
    have e : sub (smul z e) (smul z w) = smul z (sub e w) := by ext <;> simp only [sub, smul] <;> ring
    rw [e, norm_smul]
    have := mul_le_mul hz he (norm_nonneg _) (by linarith)
    linarith
  have d3 := tri (rv rnd (smul z e)) (smul z e) (smul z w)
  have n2 : norm (rv rnd (smul z e)) ≤ 1.02 * D := by
    have := norm_near (rv rnd (smul z e)) (smul z e)
    have : 1.001 * eps * (1.011 * D) ≤ 0.001 * D := by
      have : 1.001 * eps * D ≤ 0.0001 * D := mul_le_mul_of_nonneg_right (by linarith) (by linarith)
      linarith
    linarith
  have n3 : norm (sub P (rv rnd (smul z e))) ≤ 2.02 * D := by
    have := norm_sub_le P (rv rnd (smul z e))
    linarith
  have d4 := vnear hr n3 (by linarith) (by linarith)
  have d5 : norm (sub (sub P (rv rnd (smul z e))) (sub P (smul z w))) = norm (sub (rv rnd (smul z e)) (smul z w)) := by
    rw [norm_sub_comm]
    congr 1
    ext <;> simp only [sub] <;> ring
  have d6 := tri (nadir rnd P z e) (sub P (rv rnd (smul z e))) (sub P (smul z w))
  unfold nadir at *
  linarith

/-- The rounded difference of two rounded squares `R` and `Z`. -/
theorem square_diff (hr : Rounds rnd) {R Z : ℝ} (h1 : 1 ≤ R) (h2 : R ≤ 2 ^ 120) (hz0 : 0 ≤ Z) (hz : Z ≤ 1.001 * R) :
    |rnd (rnd R - rnd Z) - (R - Z)| ≤ 3.1 * eps * R := by
  have ep := eps_pos
  have es := eps_small
  have er : 0 < eps * R := by positivity
  have er' : eps * R ≤ 1 / 10 ^ 15 * R := mul_le_mul_of_nonneg_right es (by linarith)
  have lo : (1:ℝ) / 2 ^ 100 ≤ 1 := by norm_num
  have hi : (8:ℝ) * 2 ^ 120 ≤ 2 ^ 250 := by norm_num
  have q1 := abs_le.mp (near hr (x := R) (X := R) (by rw [abs_of_pos (by linarith)]) (by linarith) (by linarith))
  have q2 := abs_le.mp (near hr (x := Z) (X := 1.001 * R) (by rw [abs_of_nonneg hz0]; exact hz) (by linarith) (by linarith))
  have b3 : |rnd R - rnd Z| ≤ 1.002 * R := by rw [abs_le]; constructor <;> linarith only [q1.1, q1.2, q2.1, q2.2, er', h1, hz0, hz]
  have q3 := abs_le.mp (near hr b3 (by linarith) (by linarith))
  rw [abs_le]
  constructor <;> linarith only [q1.1, q1.2, q2.1, q2.2, q3.1, q3.2, er]

/-- If the rounded difference is not negative, the second is not much larger. -/
theorem square_le (hr : Rounds rnd) {R Z : ℝ} (h1 : 1 ≤ R) (h2 : R ≤ 2 ^ 120) (hz0 : 0 ≤ Z) (hz : Z ≤ 2 ^ 120) (h0 : 0 ≤ rnd (rnd R - rnd Z)) :
    Z ≤ 1.001 * R := by
  have es := eps_small
  have er' : eps * R ≤ 1 / 10 ^ 15 * R := mul_le_mul_of_nonneg_right es (by linarith)
  have hs' : eps * (R + Z) ≤ 1 / 10 ^ 15 * (R + Z) := mul_le_mul_of_nonneg_right es (by linarith)
  have lo : (1:ℝ) / 2 ^ 100 ≤ 1 := by norm_num
  have hi : (8:ℝ) * 2 ^ 120 ≤ 2 ^ 250 := by norm_num
  have q1 := abs_le.mp (near hr (x := R) (X := R) (by rw [abs_of_pos (by linarith)]) (by linarith) (by linarith))
  have q2 := abs_le.mp (near hr (x := Z) (X := R + Z) (by rw [abs_of_nonneg hz0]; linarith) (by linarith) (by linarith))
  have b3 : |rnd R - rnd Z| ≤ 2 * (R + Z) := by rw [abs_le]; constructor <;> linarith only [q1.1, q1.2, q2.1, q2.2, er', hs', h1, hz0]
  have q3 := abs_le.mp (near hr b3 (by linarith) (by linarith))
  linarith only [q1.2, q2.1, q3.2, h0, er', hs', h1, hz0]

/-- A rounded root of a number of about a square. -/
theorem root_near (hr : Rounds rnd) {X r : ℝ} (h1 : 1 ≤ r) (h2 : r ≤ 2 ^ 60) (h0 : 0 ≤ X) (h : X ≤ 1.0002 * (r * r)) :
    |rnd √X| ≤ 1.01 * r ∧ |rnd √X - √X| ≤ 1.002 * eps * r ∧ |rnd √X * rnd √X - X| ≤ 2.1 * eps * (r * r) := by
  have ep := eps_pos
  have es := eps_small
  have er : 0 < eps * r := by positivity
  have er' : eps * r ≤ 1 / 10 ^ 15 * r := mul_le_mul_of_nonneg_right es (by linarith)
  have err : 0 < eps * (r * r) := by positivity
  have mm : (1.0001 * r) ^ 2 = 1.00020001 * (r * r) := by ring
  have rr : 0 < r * r := by positivity
  have Xle : X ≤ (1.0001 * r) ^ 2 := by rw [mm]; linarith only [h, rr]
  obtain ⟨s1, s2⟩ := sqrt_near hr h0 Xle (by linarith only [h1, (by norm_num : (1:ℝ) / 2 ^ 100 ≤ 1)]) (by linarith only [h2, (by norm_num : (2:ℝ) * 2 ^ 60 ≤ 2 ^ 250), h1])
  rw [mm] at s2
  have r1 : √X ≤ 1.0001 * r := Real.sqrt_le_iff.mpr ⟨by linarith only [h1], Xle⟩
  have r0 := Real.sqrt_nonneg X
  have s1' := abs_le.mp s1
  refine ⟨?_, by linarith only [s1, er], by linarith only [s2, err]⟩
  rw [abs_le]
  constructor <;> linarith only [s1'.1, s1'.2, r1, r0, er', h1]

/-- Step 3. -/
theorem gp_err (hr : Rounds rnd) {r z : ℝ} (h1 : 1 ≤ r) (h2 : r ≤ 2 ^ 60) (hz : |z| ≤ 2 ^ 60) (h0 : 0 ≤ gpSquare rnd r z) :
    |z| ≤ 1.001 * r ∧ |rnd √(gpSquare rnd r z)| ≤ 1.01 * r ∧ |rnd √(gpSquare rnd r z) * rnd √(gpSquare rnd r z) + z * z - r * r| ≤ 7 * eps * (r * r) := by
  have ep := eps_pos
  have rr : 1 ≤ r * r := by nlinarith only [h1]
  have rr2 : r * r ≤ 2 ^ 120 := by
    have := mul_self_le_mul_self (by linarith only [h1]) h2
    linarith only [this, (by norm_num : (2:ℝ) ^ 60 * 2 ^ 60 = 2 ^ 120)]
  have er : 0 < eps * (r * r) := by positivity
  have er' : eps * (r * r) ≤ 1 / 10 ^ 15 * (r * r) := mul_le_mul_of_nonneg_right eps_small (by linarith only [rr])
  have zz0 : 0 ≤ z * z := mul_self_nonneg z
  have zz : z * z ≤ 2 ^ 120 := by
    have := mul_self_le_mul_self (abs_nonneg z) hz
    rw [abs_mul_abs_self] at this
    linarith only [this, (by norm_num : (2:ℝ) ^ 60 * 2 ^ 60 = 2 ^ 120)]
  have hz2 := square_le hr rr rr2 zz0 zz h0
  have G := abs_le.mp (square_diff hr rr rr2 zz0 hz2)
  have hzr : |z| ≤ 1.001 * r := by
    refine abs_le_of_sq_le_sq ?_ (by linarith only [h1])
    calc z ^ 2 = z * z := by ring
      _ ≤ 1.001 * (r * r) := hz2
      _ ≤ 1.002001 * (r * r) := by linarith only [rr]
      _ = (1.001 * r) ^ 2 := by ring
  obtain ⟨s1, -, s2⟩ := root_near hr h1 h2 h0 (by unfold gpSquare; linarith only [G.2, er', zz0, rr])
  refine ⟨hzr, s1, ?_⟩
  have s2' := abs_le.mp s2
  unfold gpSquare at *
  rw [abs_le]
  constructor <;> linarith only [s2'.1, s2'.2, G.1, G.2, er]

/-- Step 3: the platform is not nearly above the point. -/
theorem gp_low (hr : Rounds rnd) {r z : ℝ} (h1 : 1 ≤ r) (h2 : r ≤ 2 ^ 60) (hz : |z| ≤ 0.99903 * r) :
    0 ≤ gpSquare rnd r z ∧ r / 32 ≤ rnd √(gpSquare rnd r z) := by
  have ep := eps_pos
  have es := eps_small
  have rr : 1 ≤ r * r := by nlinarith only [h1]
  have rr2 : r * r ≤ 2 ^ 120 := by
    have := mul_self_le_mul_self (by linarith only [h1]) h2
    linarith only [this, (by norm_num : (2:ℝ) ^ 60 * 2 ^ 60 = 2 ^ 120)]
  have er' : eps * (r * r) ≤ 1 / 10 ^ 15 * (r * r) := mul_le_mul_of_nonneg_right eps_small (by linarith only [rr])
  have er1 : eps * r ≤ 1 / 10 ^ 15 * r := mul_le_mul_of_nonneg_right eps_small (by linarith only [h1])
  have zz0 : 0 ≤ z * z := mul_self_nonneg z
  have zz : z * z ≤ 0.9981 * (r * r) := by
    have := mul_self_le_mul_self (abs_nonneg z) hz
    rw [abs_mul_abs_self] at this
    linarith only [this, rr]
  have G := abs_le.mp (square_diff hr rr rr2 zz0 (by linarith only [zz, rr]))
  have G0 : 0.0018 * (r * r) ≤ gpSquare rnd r z := by unfold gpSquare; linarith only [G.1, zz, er', rr]
  have G1 : gpSquare rnd r z ≤ 1.0002 * (r * r) := by unfold gpSquare; linarith only [G.2, zz0, er', rr]
  have h0 : 0 ≤ gpSquare rnd r z := by linarith only [G0, rr]
  obtain ⟨-, s, -⟩ := root_near hr h1 h2 h0 G1
  have r2 : 0.04 * r ≤ √(gpSquare rnd r z) := Real.le_sqrt_of_sq_le (by
    have : (0.04 * r) ^ 2 = 0.0016 * (r * r) := by ring
    rw [this]
    linarith only [G0, rr])
  have s' := (abs_le.mp s).1
  exact ⟨h0, by linarith only [s', r2, er1, h1]⟩

/-- Step 4. -/
theorem vz_err (hd : Dot3Rounds dot3) {V e w : V3} (he : norm (sub e w) ≤ 7 * eps) (hw : norm w = 1)
    (h1 : 1 ≤ norm V) (h2 : norm V ≤ 2 ^ 60) : |dot3 V e - dot V w| ≤ 12 * eps * norm V := by
  have ep := eps_pos
  have es := eps_small
  have ev : 0 < eps * norm V := by have := norm_nonneg V; positivity
  have ne : norm e ≤ 1.0001 := by have := norm_near e w; linarith
  have k1 := dot3_near hd (le_refl (norm V)) ne (by linarith [(by norm_num : (1:ℝ) / 2 ^ 90 ≤ 1)])
    (by linarith [(by norm_num : (2:ℝ) ^ 60 * 1.0001 ≤ 2 ^ 200)])
  have k2 := dot_moved (a := V) (a' := V) (α := 0) (by simp [sub, V3.norm, dot]) he (le_refl (norm V)) ne
  have e1 : dot3 V e - dot V w = (dot3 V e - dot V e) + (dot V e - dot V w) := by ring
  rw [e1]
  refine le_trans (abs_add_le _ _) ?_
  linarith

theorem vx_err (hr : Rounds rnd) (hd : Dot3Rounds dot3) {V w : V3} {vz : ℝ} (h1 : 1 ≤ norm V) (h2 : norm V ≤ 2 ^ 60)
    (hvz : |vz - dot V w| ≤ 12 * eps * norm V) (hlev : 2 * (dot V w * dot V w) ≤ norm V * norm V) :
    0 ≤ vxSquare rnd dot3 V vz ∧ |vz| ≤ 0.71 * norm V ∧ 0.7 * norm V ≤ rnd √(vxSquare rnd dot3 V vz) ∧ rnd √(vxSquare rnd dot3 V vz) ≤ 1.01 * norm V ∧
      |rnd √(vxSquare rnd dot3 V vz) * rnd √(vxSquare rnd dot3 V vz) - (norm V * norm V - vz * vz)| ≤ 13 * eps * (norm V * norm V) := by
  have ep := eps_pos
  have vv : 1 ≤ norm V * norm V := by nlinarith only [h1]
  have vv2 : norm V * norm V ≤ 2 ^ 120 := by
    have := mul_self_le_mul_self (by linarith only [h1]) h2
    linarith only [this, (by norm_num : (2:ℝ) ^ 60 * 2 ^ 60 = 2 ^ 120)]
  have hVw : |dot V w| ≤ 0.708 * norm V := by
    refine abs_le_of_sq_le_sq ?_ (by linarith only [h1])
    nlinarith only [hlev, vv]
  have hq := dot3_near hd (le_refl (norm V)) (le_refl (norm V)) (by linarith only [vv, (by norm_num : (1:ℝ) / 2 ^ 90 ≤ 1)])
    (by linarith only [vv2, (by norm_num : (2:ℝ) ^ 120 ≤ 2 ^ 200)])
  rw [← norm_mul_self] at hq
  have hn : normD rnd dot3 V = rnd √(dot3 V V) := rfl
  generalize norm V = v at *
  have ev : 0 < eps * (v * v) := by positivity
  have ev' : eps * (v * v) ≤ 1 / 10 ^ 15 * (v * v) := mul_le_mul_of_nonneg_right eps_small (by linarith only [vv])
  have ev1 : eps * v ≤ 1 / 10 ^ 15 * v := mul_le_mul_of_nonneg_right eps_small (by linarith only [h1])
  have hvz' : |vz| ≤ 0.71 * v := by
    have a := abs_le.mp hvz
    have b := abs_le.mp hVw
    rw [abs_le]; constructor <;> linarith only [a.1, a.2, b.1, b.2, ev1, h1]
  have zz0 : 0 ≤ vz * vz := mul_self_nonneg vz
  have zz : vz * vz ≤ 0.5041 * (v * v) := by
    have := mul_self_le_mul_self (abs_nonneg vz) hvz'
    rw [abs_mul_abs_self] at this
    linarith only [this]
  have hq' := abs_le.mp hq
  obtain ⟨-, -, m1⟩ := root_near hr h1 h2 (by linarith only [hq'.1, ev', vv]) (by linarith only [hq'.2, ev', vv] : dot3 V V ≤ 1.0002 * (v * v))
  have m1' := abs_le.mp m1
  rw [← hn] at m1'
  have lo : (1:ℝ) / 2 ^ 100 ≤ 1 := by norm_num
  have hi : (8:ℝ) * 2 ^ 120 ≤ 2 ^ 250 := by norm_num
  have m2 := abs_le.mp (near hr (x := normD rnd dot3 V * normD rnd dot3 V) (X := 1.001 * (v * v))
    (by rw [abs_le]; constructor <;> linarith only [m1'.1, m1'.2, hq'.1, hq'.2, ev', vv]) (by linarith only [lo, vv]) (by linarith only [hi, vv2]))
  have m3 := abs_le.mp (near hr (x := vz * vz) (X := 0.5041 * (v * v)) (by rw [abs_of_nonneg zz0]; exact zz) (by linarith only [lo, vv]) (by linarith only [hi, vv2]))
  have m4 := abs_le.mp (near hr (x := rnd (normD rnd dot3 V * normD rnd dot3 V) - rnd (vz * vz)) (X := 1.01 * (v * v))
    (by rw [abs_le]; constructor <;> linarith only [m1'.1, m1'.2, hq'.1, hq'.2, ev', vv, m2.1, m2.2, m3.1, m3.2, zz, zz0]) (by linarith only [lo, vv]) (by linarith only [hi, vv2]))
  have X : |vxSquare rnd dot3 V vz - (v * v - vz * vz)| ≤ 10.9 * eps * (v * v) := by
    unfold vxSquare
    rw [abs_le]
    constructor <;> linarith only [m1'.1, m1'.2, hq'.1, hq'.2, m2.1, m2.2, m3.1, m3.2, m4.1, m4.2, ev]
  have X' := abs_le.mp X
  have h0 : 0 ≤ vxSquare rnd dot3 V vz := by linarith only [X'.1, zz, ev', vv]
  obtain ⟨s0, s1, s2⟩ := root_near hr h1 h2 h0 (by linarith only [X'.2, ev', zz0, vv])
  have s1' := abs_le.mp s1
  have s2' := abs_le.mp s2
  have r2 : 0.704 * v ≤ √(vxSquare rnd dot3 V vz) := Real.le_sqrt_of_sq_le (by
    have : (0.704 * v) ^ 2 = 0.495616 * (v * v) := by ring
    rw [this]
    linarith only [X'.1, zz, ev', vv])
  refine ⟨h0, hvz', by linarith only [r2, s1'.1, ev1, h1], (abs_le.mp s0).2, ?_⟩
  rw [abs_le]
  constructor <;> linarith only [s2'.1, s2'.2, X'.1, X'.2, ev]

/-- The direction of motion along the plane without rounding, for a computed speed and speed across the plane. -/
noncomputable def x0 (V w : V3) (vz vx : ℝ) : V3 := over (sub V (smul vz w)) vx

theorem over_eq (a : V3) (k : ℝ) : over a k = smul (1 / k) a := by ext <;> simp only [over, smul] <;> ring

/-- Step 5: the direction along the plane is nearly of length 1, nearly across the normal and along the motion. -/
theorem x0_spec {V w : V3} {vz vx : ℝ} (hw : norm w = 1) (h1 : 1 ≤ norm V) (hvz : |vz - dot V w| ≤ 12 * eps * norm V) (hz : |vz| ≤ 0.71 * norm V)
    (hx : 0.7 * norm V ≤ vx) (hxx : |vx * vx - (norm V * norm V - vz * vz)| ≤ 13 * eps * (norm V * norm V)) :
    |dot (x0 V w vz vx) (x0 V w vz vx) - 1| ≤ 78 * eps ∧ |dot (x0 V w vz vx) w| ≤ 18 * eps ∧ |dot V (x0 V w vz vx) - vx| ≤ 37 * eps * norm V := by
  have ep := eps_pos
  have hw2 : dot w w = 1 := by rw [← norm_mul_self, hw]; norm_num
  have vx0 : 0 < vx := by linarith only [hx, h1]
  have hvv := norm_mul_self V
  generalize norm V = v at *
  have ev : 0 < eps * v := by positivity
  have evv : 0 < eps * (v * v) := by positivity
  have k1 : |vz * (vz - dot V w)| ≤ 8.52 * eps * (v * v) := by
    rw [abs_mul]
    have := mul_le_mul hz hvz (abs_nonneg _) (by linarith only [h1])
    linarith only [this]
  have k1' := abs_le.mp k1
  have x' := abs_le.mp hxx
  have vxx : 0.49 * (v * v) ≤ vx * vx := by
    have := mul_self_le_mul_self (by linarith only [h1] : 0 ≤ 0.7 * v) hx
    linarith only [this]
  have vxx0 : 0 < vx * vx := by positivity
  have vxv : 0.7 * (v * v) ≤ v * vx := by
    have := mul_le_mul_of_nonneg_left hx (by linarith only [h1] : 0 ≤ v)
    linarith only [this]
  unfold x0
  rw [over_eq]
  refine ⟨?_, ?_, ?_⟩
  · have e : dot (smul (1 / vx) (sub V (smul vz w))) (smul (1 / vx) (sub V (smul vz w))) - 1 =
        (2 * (vz * (vz - dot V w)) - (vx * vx - (v * v - vz * vz))) / (vx * vx) := by
      rw [dot_smul_left, dot_smul_right, dot_sub_left, dot_sub_right, dot_sub_right, dot_smul_left, dot_smul_left, dot_smul_right, dot_smul_right, hw2, ← hvv, dot_comm w V]
      field_simp
      ring
    rw [e, abs_div, abs_of_pos vxx0, div_le_iff₀ vxx0, abs_le]
    have := mul_le_mul_of_nonneg_left vxx (by positivity : 0 ≤ 78 * eps)
    constructor <;> linarith only [k1'.1, k1'.2, x'.1, x'.2, this, evv]
  · have e : dot (smul (1 / vx) (sub V (smul vz w))) w = -(vz - dot V w) / vx := by
      rw [dot_smul_left, dot_sub_left, dot_smul_left, hw2]
      field_simp
      ring
    rw [e, abs_div, abs_neg, abs_of_pos vx0, div_le_iff₀ vx0]
    have := mul_le_mul_of_nonneg_left hx (by positivity : 0 ≤ 18 * eps)
    linarith only [hvz, this, ev]
  · have e : dot V (smul (1 / vx) (sub V (smul vz w))) - vx = (vz * (vz - dot V w) - (vx * vx - (v * v - vz * vz))) / vx := by
      rw [dot_smul_right, dot_sub_right, dot_smul_right, ← hvv]
      field_simp
      ring
    rw [e, abs_div, abs_of_pos vx0, div_le_iff₀ vx0, abs_le]
    have := mul_le_mul_of_nonneg_left vxv (by positivity : 0 ≤ 37 * eps)
    constructor <;> linarith only [k1'.1, k1'.2, x'.1, x'.2, this, evv]

theorem norm_of_dot {a : V3} {k : ℝ} (hk : 0 ≤ k) (h : |dot a a - 1| ≤ k) : norm a ≤ 1 + k := by
  have := (abs_le.mp h).2
  refine norm_le_of (by linarith) ?_
  nlinarith

/-- Step 5 in doubles. -/
theorem ux_err (hr : Rounds rnd) {V e w : V3} {vz vx : ℝ} (he : norm (sub e w) ≤ 7 * eps) (hw : norm w = 1) (h1 : 1 ≤ norm V) (h2 : norm V ≤ 2 ^ 60)
    (hz : |vz| ≤ 0.71 * norm V) (hx : 0.7 * norm V ≤ vx) (hn : norm (x0 V w vz vx) ≤ 1.0001) :
    norm (sub (uvectX rnd V e vz vx) (x0 V w vz vx)) ≤ 16 * eps := by
  have ep := eps_pos
  have es := eps_small
  have ne : norm e ≤ 1.0001 := by have := norm_near e w; linarith only [this, he, hw, es]
  have vx0 : 0 < vx := by linarith only [hx, h1]
  have lo : (1:ℝ) / 2 ^ 90 ≤ 0.5 := by norm_num
  have hi : (4:ℝ) * 2 ^ 60 ≤ 2 ^ 250 := by norm_num
  have n1 : norm (smul vz e) ≤ 0.7101 * norm V := by
    rw [norm_smul]
    have := mul_le_mul hz ne (norm_nonneg e) (by linarith only [h1])
    linarith only [this, h1]
  have d1 := vnear hr n1 (by linarith only [lo, h1]) (by linarith only [hi, h2])
  have d2 : norm (sub (smul vz e) (smul vz w)) ≤ 4.97 * eps * norm V := by
    have e : sub (smul vz e) (smul vz w) = smul vz (sub e w) := by ext <;> simp only [sub, smul] <;> ring
    rw [e, norm_smul]
    have := mul_le_mul hz he (norm_nonneg _) (by linarith only [h1])
    linarith only [this]
  have d3 := tri (rv rnd (smul vz e)) (smul vz e) (smul vz w)
  have ev : 0 < eps * norm V := mul_pos ep (by linarith only [h1])
  have ev1 : eps * norm V ≤ 1 / 10 ^ 15 * norm V := mul_le_mul_of_nonneg_right es (by linarith only [h1])
  have n2 : norm (sub V (rv rnd (smul vz e))) ≤ 1.72 * norm V := by
    have a := norm_sub_le V (rv rnd (smul vz e))
    have b := norm_near (rv rnd (smul vz e)) (smul vz e)
    linarith only [a, b, n1, d1, ev1, h1]
  have d4 := vnear hr n2 (by linarith only [lo, h1]) (by linarith only [hi, h2])
  have d5 : norm (sub (sub V (rv rnd (smul vz e))) (sub V (smul vz w))) = norm (sub (rv rnd (smul vz e)) (smul vz w)) := by
    rw [norm_sub_comm]
    congr 1
    ext <;> simp only [sub] <;> ring
  have d6 := tri (rv rnd (sub V (rv rnd (smul vz e)))) (sub V (rv rnd (smul vz e))) (sub V (smul vz w))
  have d7 : norm (sub (over (rv rnd (sub V (rv rnd (smul vz e)))) vx) (x0 V w vz vx)) ≤ 12 * eps := by
    have e : sub (over (rv rnd (sub V (rv rnd (smul vz e)))) vx) (x0 V w vz vx) = smul (1 / vx) (sub (rv rnd (sub V (rv rnd (smul vz e)))) (sub V (smul vz w))) := by
      unfold x0
      rw [over_eq, over_eq]
      ext <;> simp only [sub, smul] <;> ring
    rw [e, norm_smul, abs_of_pos (by positivity), one_div, inv_mul_le_iff₀ vx0]
    have := mul_le_mul_of_nonneg_right hx (by positivity : 0 ≤ 12 * eps)
    linarith only [this, d1, d2, d3, d4, d5, d6, ev]
  have n3 : norm (over (rv rnd (sub V (rv rnd (smul vz e)))) vx) ≤ 1.001 := by
    have := norm_near (over (rv rnd (sub V (rv rnd (smul vz e)))) vx) (x0 V w vz vx)
    linarith only [this, d7, es, hn]
  have d8 := vnear hr n3 (by norm_num) (by norm_num)
  have d9 := tri (uvectX rnd V e vz vx) (over (rv rnd (sub V (rv rnd (smul vz e)))) vx) (x0 V w vz vx)
  unfold uvectX at *
  linarith only [d7, d8, d9, ep]

/-- The other direction along the plane. -/
theorem uy_err (hr : Rounds rnd) {e w ux x : V3} (he : norm (sub e w) ≤ 7 * eps) (hw : norm w = 1) (hu : norm (sub ux x) ≤ 16 * eps) (hx : norm x ≤ 1.0001) :
    norm (sub (crossD rnd e ux) (cross w x)) ≤ 27 * eps := by
  have ep := eps_pos
  have es := eps_small
  have ne : norm e ≤ 1.0001 := by have := norm_near e w; linarith only [this, he, hw, es]
  have nu : norm ux ≤ 1.0002 := by have := norm_near ux x; linarith only [this, hu, hx, es]
  have a := cross_near hr ne nu (by norm_num) (by norm_num)
  have e1 : sub (cross e ux) (cross w x) = add (cross (sub e w) ux) (cross w (sub ux x)) := by ext <;> simp only [sub, cross, add] <;> ring
  have b : norm (sub (cross e ux) (cross w x)) ≤ 7 * eps * 1.0002 + 1 * (16 * eps) := by
    rw [e1]
    refine le_trans (norm_add_le _ _) (add_le_add ?_ ?_)
    · exact le_trans (norm_cross_le _ _) (mul_le_mul he nu (norm_nonneg _) (by positivity))
    · refine le_trans (norm_cross_le _ _) ?_
      rw [hw]
      linarith only [hu]
  have c := tri (crossD rnd e ux) (cross e ux) (cross w x)
  linarith only [a, b, c, ep]

/-- Step 6: the denominator. -/
theorem azDen_err (hr : Rounds rnd) {r g vx v : ℝ} (hr1 : 1 ≤ r) (h1 : 1 ≤ v) (h2 : v ≤ 2 ^ 60)
    (hg : |g| ≤ 1.01 * r) (hg0 : r / 32 ≤ g) (hx : 0.7 * v ≤ vx) (hx' : vx ≤ 1.01 * v) :
    0.01 * v ≤ azDen rnd r g vx ∧ azDen rnd r g vx ≤ 1.04 * v ∧ |azDen rnd r g vx - vx * (g / r)| ≤ 2.1 * eps * v := by
  have ep := eps_pos
  have es := eps_small
  have r0 : 0 < r := by linarith only [hr1]
  have ev : 0 < eps * v := mul_pos ep (by linarith only [h1])
  have ev1 : eps * v ≤ 1 / 10 ^ 15 * v := mul_le_mul_of_nonneg_right es (by linarith only [h1])
  have lo : (1:ℝ) / 2 ^ 100 ≤ 0.01 := by norm_num
  have hi : (2:ℝ) ^ 80 ≤ 2 ^ 250 := by norm_num
  have hi2 : (2:ℝ) ^ 60 * 256 ≤ 2 ^ 80 := by norm_num
  have gr : |g / r| ≤ 1.01 := by rw [abs_div, abs_of_pos r0, div_le_iff₀ r0]; exact hg
  have gr0 : 1 / 32 ≤ g / r := by rw [le_div_iff₀ r0]; linarith only [hg0]
  have c1 := near hr gr (by linarith only [lo]) (by linarith only [hi, hi2])
  unfold azDen
  generalize hcg : rnd (g / r) = cg at *
  have vx0 : 0 < vx := by linarith only [hx, h1]
  have cg1 : |cg| ≤ 1.0101 := by
    have a := abs_le.mp c1
    have b := abs_le.mp gr
    rw [abs_le]; constructor <;> linarith only [a.1, a.2, b.1, b.2, es]
  have cg0 : 1 / 33 ≤ cg := by
    have a := (abs_le.mp c1).1
    linarith only [a, gr0, es]
  have u1 : |vx * cg| ≤ 1.03 * v := by
    rw [abs_mul, abs_of_pos vx0]
    have := mul_le_mul hx' cg1 (abs_nonneg _) (by linarith only [h1])
    linarith only [this, h1]
  have u2 := near hr u1 (by linarith only [lo, h1]) (by linarith only [h2, hi, hi2])
  have u3 : |vx * cg - vx * (g / r)| ≤ 1.04 * eps * v := by
    rw [← mul_sub, abs_mul, abs_of_pos vx0]
    have := mul_le_mul hx' c1 (abs_nonneg _) (by linarith only [h1])
    linarith only [this, ev]
  have u0 : 0.02 * v ≤ vx * cg := by
    have := mul_le_mul hx cg0 (by norm_num) vx0.le
    linarith only [this, h1]
  have u2' := abs_le.mp u2
  have u3' := abs_le.mp u3
  have u1' := (abs_le.mp u1).2
  refine ⟨by linarith only [u2'.1, u0, ev1, h1], by linarith only [u2'.2, u1', ev1, h1], ?_⟩
  rw [abs_le]; constructor <;> linarith only [u3'.1, u3'.2, u2'.1, u2'.2, ev]

/-- Step 6: the numerator. -/
theorem azNum_err (hr : Rounds rnd) {r rdot z vz v : ℝ} (hr1 : 1 ≤ r) (h1 : 1 ≤ v) (h2 : v ≤ 2 ^ 60)
    (hz : |z| ≤ 1.001 * r) (hvz : |vz| ≤ 0.71 * v) :
    ∃ t, azNum rnd r rdot z vz = rnd (-rdot + t) ∧ |t| ≤ v ∧ |t - vz * (z / r)| ≤ 1.5 * eps * v := by
  have ep := eps_pos
  have es := eps_small
  have r0 : 0 < r := by linarith only [hr1]
  have ev : 0 < eps * v := mul_pos ep (by linarith only [h1])
  have ev1 : eps * v ≤ 1 / 10 ^ 15 * v := mul_le_mul_of_nonneg_right es (by linarith only [h1])
  have lo : (1:ℝ) / 2 ^ 100 ≤ 0.01 := by norm_num
  have hi : (2:ℝ) ^ 80 ≤ 2 ^ 250 := by norm_num
  have hi2 : (2:ℝ) ^ 60 * 256 ≤ 2 ^ 80 := by norm_num
  have zr : |z / r| ≤ 1.001 := by rw [abs_div, abs_of_pos r0, div_le_iff₀ r0]; exact hz
  have s1 := near hr zr (by linarith only [lo]) (by linarith only [hi, hi2])
  unfold azNum
  generalize hsg : rnd (z / r) = sg at *
  have sg1 : |sg| ≤ 1.002 := by
    have a := abs_le.mp s1
    have b := abs_le.mp zr
    rw [abs_le]; constructor <;> linarith only [a.1, a.2, b.1, b.2, es]
  have t1 : |vz * sg| ≤ 0.712 * v := by
    rw [abs_mul]
    have := mul_le_mul hvz sg1 (abs_nonneg _) (by linarith only [h1])
    linarith only [this, h1]
  have t2 := near hr t1 (by linarith only [lo, h1]) (by linarith only [h2, hi, hi2])
  have t3 : |vz * sg - vz * (z / r)| ≤ 0.72 * eps * v := by
    rw [← mul_sub, abs_mul]
    have := mul_le_mul hvz s1 (abs_nonneg _) (by linarith only [h1])
    linarith only [this, ev]
  have t1' := abs_le.mp t1
  have t2' := abs_le.mp t2
  have t3' := abs_le.mp t3
  refine ⟨rnd (vz * sg), rfl, ?_, ?_⟩
  · rw [abs_le]; constructor <;> linarith only [t1'.1, t1'.2, t2'.1, t2'.2, ev1, h1]
  · rw [abs_le]; constructor <;> linarith only [t2'.1, t2'.2, t3'.1, t3'.2, ev]

/-- Step 6: the cosine of the azimuth gives the range rate. -/
theorem az_err (hr : Rounds rnd) {r rdot z g vz vx v : ℝ} (hr1 : 1 ≤ r) (h1 : 1 ≤ v) (h2 : v ≤ 2 ^ 60) (hrd : |rdot| ≤ 2 ^ 60)
    (hz : |z| ≤ 1.001 * r) (hg : |g| ≤ 1.01 * r) (hg0 : r / 32 ≤ g) (hvz : |vz| ≤ 0.71 * v) (hx : 0.7 * v ≤ vx) (hx' : vx ≤ 1.01 * v)
    (hca : |rnd (azNum rnd r rdot z vz / azDen rnd r g vx)| ≤ 1) :
    |rnd (azNum rnd r rdot z vz / azDen rnd r g vx) * (vx * g) - (-rdot * r + vz * z)| ≤ 8 * eps * (v * r) := by
  have ep := eps_pos
  have es := eps_small
  have r0 : 0 < r := by linarith only [hr1]
  have ev : 0 < eps * v := mul_pos ep (by linarith only [h1])
  have ev1 : eps * v ≤ 1 / 10 ^ 15 * v := mul_le_mul_of_nonneg_right es (by linarith only [h1])
  have lo : (1:ℝ) / 2 ^ 100 ≤ 0.01 := by norm_num
  have hi : (2:ℝ) ^ 80 ≤ 2 ^ 250 := by norm_num
  have hi2 : (2:ℝ) ^ 60 * 256 ≤ 2 ^ 80 := by norm_num
  obtain ⟨den0, den1, w0⟩ := azDen_err hr hr1 h1 h2 hg hg0 hx hx'
  obtain ⟨t, ht, t1, t3⟩ := azNum_err hr (rdot := rdot) hr1 h1 h2 hz hvz
  rw [ht] at hca ⊢
  generalize azDen rnd r g vx = den at *
  have denp : 0 < den := by linarith only [den0, h1]
  have t1' := abs_le.mp t1
  have rd' := abs_le.mp hrd
  have n1 : |(-rdot + t)| ≤ 2 ^ 60 * 2 := by
    rw [abs_le]; constructor <;> linarith only [rd'.1, rd'.2, t1'.1, t1'.2, h2]
  have n2 := near_size hr n1 (by norm_num) (by linarith only [hi, hi2])
  have q1 : |rnd (-rdot + t) / den| ≤ 2 ^ 80 := by
    rw [abs_div, abs_of_pos denp, div_le_iff₀ denp]
    have : (2:ℝ) ^ 80 * (0.01 * 1) ≤ 2 ^ 80 * den := mul_le_mul_of_nonneg_left (by linarith only [den0, h1]) (by norm_num)
    have : 1.001 * ((2:ℝ) ^ 60 * 2) ≤ 2 ^ 80 * (0.01 * 1) := by norm_num
    linarith
  -- the cosine and the quotient
  have q2 : |rnd (-rdot + t) / den| ≤ 1.001 := by
    have a := hr.err _ (le_trans q1 hi)
    have b : |rnd (-rdot + t) / den| ≤ |rnd (rnd (-rdot + t) / den)| + |rnd (rnd (-rdot + t) / den) - rnd (-rdot + t) / den| := by
      have := abs_sub (rnd (rnd (-rdot + t) / den)) (rnd (rnd (-rdot + t) / den) - rnd (-rdot + t) / den)
      have e : rnd (rnd (-rdot + t) / den) - (rnd (rnd (-rdot + t) / den) - rnd (-rdot + t) / den) = rnd (-rdot + t) / den := by ring
      rwa [e] at this
    have c : |rnd (-rdot + t) / den| / 2 ^ 53 = eps * |rnd (-rdot + t) / den| := by unfold eps; ring
    have d : eps * |rnd (-rdot + t) / den| ≤ 1 / 10 ^ 15 * |rnd (-rdot + t) / den| := mul_le_mul_of_nonneg_right es (abs_nonneg _)
    have f : (1:ℝ) / 2 ^ 200 ≤ 1 / 10 ^ 15 := by norm_num
    linarith only [a, b, c, d, f, hca]
  have q3 := near hr q2 (by linarith only [lo]) (by linarith only [hi, hi2])
  generalize hca' : rnd (rnd (-rdot + t) / den) = ca at *
  have q4 : |ca * den - rnd (-rdot + t)| ≤ 1.05 * eps * v := by
    have e : ca * den - rnd (-rdot + t) = (ca - rnd (-rdot + t) / den) * den := by field_simp
    rw [e, abs_mul, abs_of_pos denp]
    have := mul_le_mul q3 den1 denp.le (by positivity)
    linarith only [this, ev]
  have m1 : |rnd (-rdot + t)| ≤ 1.05 * v := by
    have e : rnd (-rdot + t) = rnd (-rdot + t) / den * den := by field_simp
    rw [e, abs_mul, abs_of_pos denp]
    have := mul_le_mul q2 den1 denp.le (by positivity)
    linarith only [this, h1]
  have m2 : |(-rdot + t)| ≤ 1.06 * v := by
    have a := hr.err (-rdot + t) (by linarith only [n1, hi, hi2])
    have b : |(-rdot + t)| ≤ |rnd (-rdot + t)| + |rnd (-rdot + t) - (-rdot + t)| := by
      have := abs_sub (rnd (-rdot + t)) (rnd (-rdot + t) - (-rdot + t))
      have e : rnd (-rdot + t) - (rnd (-rdot + t) - (-rdot + t)) = -rdot + t := by ring
      rwa [e] at this
    have c : |(-rdot + t)| / 2 ^ 53 = eps * |(-rdot + t)| := by unfold eps; ring
    have d : eps * |(-rdot + t)| ≤ 1 / 10 ^ 15 * |(-rdot + t)| := mul_le_mul_of_nonneg_right es (abs_nonneg _)
    have f : (1:ℝ) / 2 ^ 200 ≤ 1 / 10 ^ 15 := by norm_num
    have n0 := abs_nonneg (-rdot + t)
    linarith only [a, b, c, d, f, m1, h1, n0]
  have m3 := near hr m2 (by linarith only [lo, h1]) (by linarith only [h2, hi, hi2])
  have w1 : |ca * (vx * (g / r)) - ca * den| ≤ 2.1 * eps * v := by
    rw [← mul_sub, abs_mul]
    have a : |vx * (g / r) - den| ≤ 2.1 * eps * v := by rw [abs_sub_comm]; exact w0
    have := mul_le_mul hca a (abs_nonneg _) (by norm_num)
    linarith only [this]
  have tot : |ca * (vx * (g / r)) - (-rdot + vz * (z / r))| ≤ 8 * eps * v := by
    have w1' := abs_le.mp w1
    have q4' := abs_le.mp q4
    have m3' := abs_le.mp m3
    have t3' := abs_le.mp t3
    rw [abs_le]
    constructor <;> linarith only [w1'.1, w1'.2, q4'.1, q4'.2, m3'.1, m3'.2, t3'.1, t3'.2, ev]
  have e : ca * (vx * g) - (-rdot * r + vz * z) = (ca * (vx * (g / r)) - (-rdot + vz * (z / r))) * r := by field_simp
  rw [e, abs_mul, abs_of_pos r0]
  have := mul_le_mul_of_nonneg_right tot r0.le
  linarith only [this]

/-- Step 7. -/
theorem sa_err (hr : Rounds rnd) {ca : ℝ} (h : |ca| ≤ 1) (h0 : 0 ≤ rnd (1 - rnd (ca * ca))) :
    |rnd √(rnd (1 - rnd (ca * ca)))| ≤ 1.01 ∧ -(1.002 * eps) ≤ rnd √(rnd (1 - rnd (ca * ca))) ∧
      |rnd √(rnd (1 - rnd (ca * ca))) * rnd √(rnd (1 - rnd (ca * ca))) + ca * ca - 1| ≤ 5 * eps := by
  have ep := eps_pos
  have es := eps_small
  have cc0 := mul_self_nonneg ca
  have cc : ca * ca ≤ 1 := by
    have := mul_self_le_mul_self (abs_nonneg ca) h
    rw [abs_mul_abs_self] at this
    linarith only [this]
  have a := abs_le.mp (near hr (x := ca * ca) (X := 1) (by rw [abs_of_nonneg cc0]; exact cc) (by norm_num) (by norm_num))
  have b := abs_le.mp (near hr (x := 1 - rnd (ca * ca)) (X := 1.001) (by rw [abs_le]; constructor <;> linarith only [a.1, a.2, cc, cc0, es]) (by norm_num) (by norm_num))
  generalize rnd (1 - rnd (ca * ca)) = S at *
  obtain ⟨c1, c2, c3⟩ := root_near hr (r := 1) (le_refl 1) (by norm_num) h0 (by linarith only [a.1, b.2, cc0, es])
  have c2' := abs_le.mp c2
  have c3' := abs_le.mp c3
  have s0 := Real.sqrt_nonneg S
  refine ⟨by linarith only [c1], by linarith only [c2'.1, s0], ?_⟩
  rw [abs_le]
  constructor <;> linarith only [a.1, a.2, b.1, b.2, c3'.1, c3'.2, ep]

/-- Step 8: one of the two displacements along the plane. -/
theorem leg_err (hr : Rounds rnd) {r g c κ : ℝ} {ux x : V3} (hr1 : 1 ≤ r) (hr2 : r ≤ 2 ^ 60) (hg : |g| ≤ 1.01 * r) (hc : |c| ≤ 1.01) (hκ : 0 ≤ κ) (hκ' : κ ≤ 30)
    (hu : norm (sub ux x) ≤ κ * eps) (hx : norm x ≤ 1.0001) :
    norm (sub (rv rnd (smul (rnd (g * c)) ux)) (smul (g * c) x)) ≤ (1.021 * κ + 2.1) * eps * r ∧ norm (rv rnd (smul (rnd (g * c)) ux)) ≤ 1.03 * r := by
  have ep := eps_pos
  have es := eps_small
  have er : 0 < eps * r := mul_pos ep (by linarith only [hr1])
  have er1 : eps * r ≤ 1 / 10 ^ 15 * r := mul_le_mul_of_nonneg_right es (by linarith only [hr1])
  have lo : (1:ℝ) / 2 ^ 100 ≤ 1 / 2 ^ 90 := by norm_num
  have lo' : (1:ℝ) / 2 ^ 90 ≤ 1 := by norm_num
  have hi : (4:ℝ) * 2 ^ 60 ≤ 2 ^ 250 := by norm_num
  have κe : κ * eps ≤ 30 * eps := mul_le_mul_of_nonneg_right hκ' ep.le
  have nu : norm ux ≤ 1.0002 := by have := norm_near ux x; linarith only [this, hu, hx, es, κe]
  have gc : |g * c| ≤ 1.0201 * r := by
    rw [abs_mul]
    have := mul_le_mul hg hc (abs_nonneg _) (by linarith only [hr1])
    linarith only [this]
  have a := near hr gc (by linarith only [lo, lo', hr1]) (by linarith only [hi, hr2])
  generalize rnd (g * c) = A at *
  have A1 : |A| ≤ 1.0202 * r := by
    have h1 := abs_le.mp a
    have h2 := abs_le.mp gc
    rw [abs_le]; constructor <;> linarith only [h1.1, h1.2, h2.1, h2.2, er1, hr1]
  have n1 : norm (smul A ux) ≤ 1.021 * r := by
    rw [norm_smul]
    have := mul_le_mul A1 nu (norm_nonneg _) (by linarith only [hr1])
    linarith only [this, hr1]
  have b := vnear hr n1 (by linarith only [lo', hr1]) (by linarith only [hi, hr2])
  have e : sub (smul A ux) (smul (g * c) x) = add (smul A (sub ux x)) (smul (A - g * c) x) := by ext <;> simp only [sub, smul, add] <;> ring
  have d : norm (sub (smul A ux) (smul (g * c) x)) ≤ 1.0202 * r * (κ * eps) + 1.001 * eps * (1.0201 * r) * 1.0001 := by
    rw [e]
    refine le_trans (norm_add_le _ _) (add_le_add ?_ ?_)
    · rw [norm_smul]
      exact mul_le_mul A1 hu (norm_nonneg _) (by linarith only [hr1])
    · rw [norm_smul]
      exact mul_le_mul a hx (norm_nonneg _) (by positivity)
  have f := tri (rv rnd (smul A ux)) (smul A ux) (smul (g * c) x)
  have κr : 0 ≤ κ * (eps * r) := mul_nonneg hκ er.le
  refine ⟨by linarith only [b, d, f, er, κr], ?_⟩
  have := norm_near (rv rnd (smul A ux)) (smul A ux)
  linarith only [this, b, n1, er1, hr1]

/-- Step 8: the point. -/
theorem point_err (hr : Rounds rnd) {r D z g ca sa : ℝ} {P w agpn ux uy x y : V3} (hr1 : 1 ≤ r) (hD : r ≤ D) (hD2 : D ≤ 2 ^ 30) (hg : |g| ≤ 1.01 * r) (hc : |ca| ≤ 1)
    (hs : |sa| ≤ 1.01) (hw : norm w = 1) (hP : norm P ≤ D) (hz : |z| ≤ 1.01 * D) (hn : norm (sub agpn (sub P (smul z w))) ≤ 11 * eps * D)
    (hux : norm (sub ux x) ≤ 16 * eps) (hx : norm x ≤ 1.0001) (huy : norm (sub uy y) ≤ 27 * eps) (hy : norm y ≤ 1.0001) :
    norm (sub (pointD rnd agpn ux uy g ca sa) (add P (add (smul (-z) w) (add (smul (g * ca) x) (smul (g * sa) y))))) ≤ 70 * eps * D := by
  have ep := eps_pos
  have es := eps_small
  have eD : 0 < eps * D := mul_pos ep (by linarith only [hr1, hD])
  have eD1 : eps * D ≤ 1 / 10 ^ 15 * D := mul_le_mul_of_nonneg_right es (by linarith only [hr1, hD])
  have erD : eps * r ≤ eps * D := mul_le_mul_of_nonneg_left hD ep.le
  have lo : (1:ℝ) / 2 ^ 90 ≤ 1 := by norm_num
  have hi : (8:ℝ) * 2 ^ 30 ≤ 2 ^ 60 := by norm_num
  have hi' : (2:ℝ) ^ 60 ≤ 2 ^ 250 := by norm_num
  obtain ⟨a1, a2⟩ := leg_err hr hr1 (by linarith only [hD, hD2, hi]) hg (by linarith only [hc] : |ca| ≤ 1.01) (by norm_num) (by norm_num) hux hx
  obtain ⟨b1, b2⟩ := leg_err hr hr1 (by linarith only [hD, hD2, hi]) hg hs (by norm_num) (by norm_num) huy hy
  unfold pointD
  generalize rv rnd (smul (rnd (g * ca)) ux) = L at *
  generalize rv rnd (smul (rnd (g * sa)) uy) = M at *
  have nA : norm agpn ≤ 2.02 * D := by
    have h1 := norm_near agpn (sub P (smul z w))
    have h2 := norm_sub_le P (smul z w)
    rw [norm_smul, hw] at h2
    linarith only [h1, h2, hn, hz, hP, eD1, hr1, hD]
  have n1 : norm (add agpn L) ≤ 3.06 * D := by
    have := norm_add_le agpn L
    linarith only [this, nA, a2, hD, hr1]
  have c1 := vnear hr n1 (by linarith only [lo, hr1, hD]) (by linarith only [hi, hi', hD2])
  generalize hF : rv rnd (add agpn L) = F at *
  have nF : norm F ≤ 3.07 * D := by
    have := norm_near F (add agpn L)
    linarith only [this, c1, n1, eD1, hr1, hD]
  have n2 : norm (add F M) ≤ 4.11 * D := by
    have := norm_add_le F M
    linarith only [this, nF, b2, hD, hr1]
  have c2 := vnear hr n2 (by linarith only [lo, hr1, hD]) (by linarith only [hi, hi', hD2])
  have t1 := tri (rv rnd (add F M)) (add F M) (add P (add (smul (-z) w) (add (smul (g * ca) x) (smul (g * sa) y))))
  have e : sub (add F M) (add P (add (smul (-z) w) (add (smul (g * ca) x) (smul (g * sa) y)))) =
      add (sub F (add agpn L)) (add (sub agpn (sub P (smul z w))) (add (sub L (smul (g * ca) x)) (sub M (smul (g * sa) y)))) := by
    ext <;> simp only [sub, smul, add] <;> ring
  rw [e] at t1
  have t2 := norm_add_le (sub F (add agpn L)) (add (sub agpn (sub P (smul z w))) (add (sub L (smul (g * ca) x)) (sub M (smul (g * sa) y))))
  have t3 := norm_add_le (sub agpn (sub P (smul z w))) (add (sub L (smul (g * ca) x)) (sub M (smul (g * sa) y)))
  have t4 := norm_add_le (sub L (smul (g * ca) x)) (sub M (smul (g * sa) y))
  linarith only [t1, t2, t3, t4, a1, b1, c1, c2, hn, eD, erD]

/-- Step 7: the side of the track. -/
theorem look_err (hr : Rounds rnd) (hd : Dot3Rounds dot3) {P ref V e w : V3} {D : ℝ} (he : norm (sub e w) ≤ 7 * eps) (hw : norm w = 1)
    (h1 : 1 ≤ norm V) (h2 : norm V ≤ 2 ^ 60) (hD1 : 1 ≤ D) (hD2 : D ≤ 2 ^ 30) (hP : norm (sub P ref) ≤ D) :
    |dot3 (crossD rnd (rv rnd (sub P ref)) V) e - dot (cross (sub P ref) V) w| ≤ 16 * eps * (D * norm V) := by
  have ep := eps_pos
  have es := eps_small
  have v0 : 0 < norm V := by linarith only [h1]
  have D0 : 0 < D := by linarith only [hD1]
  have DV : 1 ≤ D * norm V := by nlinarith only [hD1, h1]
  have DV2 : D * norm V ≤ 2 ^ 90 := by
    have := mul_le_mul hD2 h2 v0.le (by norm_num)
    linarith only [this, (by norm_num : (2:ℝ) ^ 30 * 2 ^ 60 = 2 ^ 90)]
  have eDV : 0 < eps * (D * norm V) := by positivity
  have eDV1 : eps * (D * norm V) ≤ 1 / 10 ^ 15 * (D * norm V) := mul_le_mul_of_nonneg_right es (by positivity)
  have eD1 : eps * D ≤ 1 / 10 ^ 15 * D := mul_le_mul_of_nonneg_right es D0.le
  have lo : (1:ℝ) / 2 ^ 90 ≤ 1 := by norm_num
  have hi : (4:ℝ) * 2 ^ 90 ≤ 2 ^ 200 := by norm_num
  have hi' : (2:ℝ) ^ 30 ≤ 2 ^ 250 := by norm_num
  have ne : norm e ≤ 1.0001 := by have := norm_near e w; linarith only [this, he, hw, es]
  have d1 := vnear hr hP (by linarith only [lo, hD1]) (by linarith only [hi', hD2])
  have nd : norm (rv rnd (sub P ref)) ≤ 1.0001 * D := by
    have := norm_near (rv rnd (sub P ref)) (sub P ref)
    linarith only [this, d1, hP, eD1, hD1]
  generalize rv rnd (sub P ref) = d at *
  have c1 := cross_near hr nd (le_refl (norm V)) (by linarith only [lo, DV]) (by linarith only [hi, DV2, DV])
  have e1 : sub (cross d V) (cross (sub P ref) V) = cross (sub d (sub P ref)) V := by ext <;> simp only [sub, cross] <;> ring
  have c2 : norm (sub (cross d V) (cross (sub P ref) V)) ≤ 1.001 * eps * D * norm V := by
    rw [e1]
    exact le_trans (norm_cross_le _ _) (mul_le_mul_of_nonneg_right d1 v0.le)
  have c3 := tri (crossD rnd d V) (cross d V) (cross (sub P ref) V)
  have c4 : norm (sub (crossD rnd d V) (cross (sub P ref) V)) ≤ 4.01 * eps * (D * norm V) := by linarith only [c1, c2, c3, eDV]
  have n0 : norm (cross (sub P ref) V) ≤ D * norm V := le_trans (norm_cross_le _ _) (mul_le_mul_of_nonneg_right hP v0.le)
  have nc : norm (crossD rnd d V) ≤ 1.0001 * (D * norm V) := by
    have := norm_near (crossD rnd d V) (cross (sub P ref) V)
    linarith only [this, c4, n0, eDV1, DV]
  have k1 := abs_le.mp (dot3_near hd nc ne (by linarith only [lo, DV]) (by linarith only [hi, DV2, DV]))
  have k2 := abs_le.mp (dot_moved c4 he n0 ne)
  rw [abs_le]
  constructor <;> linarith only [k1.1, k1.2, k2.1, k2.2, eDV]

end Verif.Lemmas.RoundedSicd
