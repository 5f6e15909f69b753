import Verif.Model.GridRounded
import Verif.Props.Slopes

/-!
# Geolocations in doubles are as accurate as their grid
-/

namespace Verif.Props.GridRounded

open Verif.GridRounded
open Verif.Spec.Rounded (Rounds)
open Verif.Lemmas.Rounded
open Verif.Props.RoundedRsm (grow_pow_le_two)
open Verif.Props.Rounded (degrees_err)

/-! ## What is assumed -/

/-- Nodes along an axis that a spline of degree 1 can be put through: they increase, and no gap is very small or very large. -/
structure Spaced (t : Nat → ℝ) (n : Nat) : Prop where
  two : 2 ≤ n
  wide : ∀ k, k + 1 < n → 1 / 2 ^ 20 ≤ t (k + 1) - t k
  near : ∀ k, k + 1 < n → t (k + 1) - t k ≤ 2 ^ 40

/-- FITPACK's coefficients of a spline of degree 1 through the values `z` at the nodes: the values, up to a few units in the last place. -/
def Fits (n : Nat) (c z : Nat → Nat → ℝ) : Prop :=
  ∀ i j, i < n → j < n → |c i j - z i j| ≤ |z i j| / 2 ^ 49 + 1 / 2 ^ 190

/-- Positions between the features that begin at `lo` and end at `hi`. -/
def Covered (lo hi p : ℝ × ℝ) : Prop := lo.1 ≤ p.1 ∧ p.1 ≤ hi.1 ∧ lo.2 ≤ p.2 ∧ p.2 ≤ hi.2

/-- Positions up to eleven pixels around them. -/
def Around (lo hi q : ℝ × ℝ) : Prop := lo.1 - 11 ≤ q.1 ∧ q.1 ≤ hi.1 + 11 ∧ lo.2 - 11 ≤ q.2 ∧ q.2 ≤ hi.2 + 11

/-! ## The interval -/

theorem cellFrom_spec (t : Nat → ℝ) (x : ℝ) : ∀ (m i : Nat), t i ≤ x → x ≤ t (i + m + 1) →
    i ≤ cellFrom t x i m ∧ cellFrom t x i m ≤ i + m ∧ t (cellFrom t x i m) ≤ x ∧ x ≤ t (cellFrom t x i m + 1)
  | 0, i, h0, h1 => ⟨le_refl _, le_refl _, h0, h1⟩
  | m + 1, i, h0, h1 => by
    rw [cellFrom]
    by_cases h : x < t (i + 1)
    · rw [if_pos h]
      exact ⟨le_refl _, by omega, h0, h.le⟩
    · rw [if_neg h]
      obtain ⟨a, b, c, d⟩ := cellFrom_spec t x m (i + 1) (not_lt.mp h) (by rw [show i + 1 + m + 1 = i + (m + 1) + 1 by omega]; exact h1)
      exact ⟨by omega, by omega, c, d⟩

theorem Spaced.le {t : Nat → ℝ} {n : Nat} (h : Spaced t n) (k : Nat) (hk : k < n) : t 0 ≤ t k := by
  induction k with
  | zero => exact le_refl _
  | succ k ih =>
    have h1 := ih (by omega)
    have h2 := h.wide k hk
    have : (0:ℝ) < 1 / 2 ^ 20 := by positivity
    linarith

theorem clamp_inside {t : Nat → ℝ} {n : Nat} (x : ℝ) (h0 : t 0 ≤ x) (h1 : x ≤ t (n - 1)) : clamp t n x = x := by
  unfold clamp
  simp only
  rw [if_neg (not_lt.mpr h0), if_neg (not_lt.mpr h1)]

/-! ## The weights -/

/-- The reciprocal of a rounded gap. -/
theorem inverse_approx {rnd : ℝ → ℝ} (hr : Rounds rnd) (G : ℝ) (h0 : 1 / 2 ^ 20 ≤ G) (h1 : G ≤ 2 ^ 40) :
    Approx 2 0 (1 / rnd G) (1 / G) (1 / G) := by
  have p : (0:ℝ) < G := lt_of_lt_of_le (by positivity) h0
  have e := hr.err G (by rw [abs_of_pos p]; exact h1.trans (by norm_num))
  rw [abs_of_pos p] at e
  have e' : |rnd G - G| ≤ G * (3 / 2 ^ 54) := by
    have : (1:ℝ) / 2 ^ 200 ≤ G * (1 / 2 ^ 54) := by
      have := mul_le_mul_of_nonneg_right h0 (show (0:ℝ) ≤ 1 / 2 ^ 54 by positivity)
      refine le_trans ?_ this
      norm_num
    have e2 : G / 2 ^ 53 = G * (2 / 2 ^ 54) := by ring
    have e3 : G * (3 / 2 ^ 54) = G * (2 / 2 ^ 54) + G * (1 / 2 ^ 54) := by ring
    rw [e3, ← e2]
    linarith
  have b := abs_le.mp e'
  have q : G * (1 - 3 / 2 ^ 54) ≤ rnd G := by linarith [b.1, show G * (1 - 3 / 2 ^ 54) = G - G * (3 / 2 ^ 54) by ring]
  have q0 : 0 < rnd G := lt_of_lt_of_le (mul_pos p (by norm_num)) q
  refine ⟨by rw [abs_of_pos (by positivity)], le_refl _, ?_⟩
  have e4 : 1 / rnd G - 1 / G = (G - rnd G) / (rnd G * G) := by field_simp
  rw [e4, abs_div, abs_sub_comm, abs_of_pos (mul_pos q0 p), div_le_iff₀ (mul_pos q0 p)]
  refine e'.trans ?_
  have e5 : (grow ^ 2 * (1 / G + 0) - 1 / G) * (rnd G * G) = (grow ^ 2 - 1) * rnd G := by
    field_simp
    ring
  rw [e5]
  have g : (2:ℝ) / 2 ^ 53 ≤ grow ^ 2 - 1 := by unfold grow; norm_num
  refine le_trans ?_ (mul_le_mul g q (mul_nonneg p.le (by norm_num)) (by linarith [one_le_pow 2]))
  have : (3:ℝ) / 2 ^ 54 ≤ 2 / 2 ^ 53 * (1 - 3 / 2 ^ 54) := by norm_num
  calc G * (3 / 2 ^ 54) ≤ G * (2 / 2 ^ 53 * (1 - 3 / 2 ^ 54)) := mul_le_mul_of_nonneg_left this p.le
    _ = _ := by ring

/-- The weight of a node from the distance `d` to the other node of the interval. -/
theorem weight_approx {rnd : ℝ → ℝ} (hr : Rounds rnd) (G d : ℝ) (h0 : 1 / 2 ^ 20 ≤ G) (h1 : G ≤ 2 ^ 40) (d0 : 0 ≤ d) (d1 : d ≤ G) :
    Approx 5 (1 / 2 ^ 154) (rnd (rnd (1 / rnd G) * rnd d)) (1 / G * d) (1 / G * d) := by
  have p : (0:ℝ) < G := lt_of_lt_of_le (by positivity) h0
  have i0 : 0 ≤ 1 / G := by positivity
  have i1 : 1 / G ≤ 2 ^ 20 := by
    rw [div_le_iff₀ p]
    have := mul_le_mul_of_nonneg_left h0 (show (0:ℝ) ≤ 2 ^ 20 by positivity)
    refine le_trans ?_ this
    norm_num
  have u1 : 1 / G * d ≤ 1 := by
    rw [one_div, inv_mul_le_iff₀ p]
    linarith
  have f := (inverse_approx hr G h0 h1).round hr (by
    have := mul_le_mul (grow_pow_le_two (n := 2) (by norm_num)) (show 1 / G + 0 ≤ 2 ^ 20 by linarith) (by linarith) (by norm_num)
    exact this.trans (by norm_num))
  have r := (Approx.exact d).round hr (by
    rw [abs_of_nonneg d0]; simp only [pow_zero, one_mul, add_zero]; exact (d1.trans h1).trans (by norm_num))
  rw [abs_of_nonneg d0] at r
  have m := (f.mul r).weaken (k' := 4) (d' := 1 / 2 ^ 158) (by norm_num) (by
    simp only [zero_add]
    have a1 : 1 / G * (1 / 2 ^ 200) ≤ 2 ^ 20 * (1 / 2 ^ 200) := mul_le_mul_of_nonneg_right i1 (by positivity)
    have a2 : (1:ℝ) / 2 ^ 200 * d ≤ 1 / 2 ^ 200 * 2 ^ 40 := mul_le_mul_of_nonneg_left (d1.trans h1) (by positivity)
    have : (2:ℝ) ^ 20 * (1 / 2 ^ 200) + 1 / 2 ^ 200 * 2 ^ 40 + 1 / 2 ^ 200 * (1 / 2 ^ 200) ≤ 1 / 2 ^ 158 := by norm_num
    linarith)
  exact (m.round hr (by
    have := mul_le_mul (grow_pow_le_two (n := 4) (by norm_num)) (show 1 / G * d + 1 / 2 ^ 158 ≤ 2 by
      have : (1:ℝ) / 2 ^ 158 ≤ 1 := by norm_num
      linarith) (by positivity) (by norm_num)
    exact this.trans (by norm_num))).weaken (le_refl _) (by norm_num)

/-- The two weights of an interval. -/
theorem weights_approx {rnd : ℝ → ℝ} (hr : Rounds rnd) (t : Nat → ℝ) (i : Nat) (x : ℝ) (h0 : 1 / 2 ^ 20 ≤ t (i + 1) - t i) (h1 : t (i + 1) - t i ≤ 2 ^ 40)
    (x0 : t i ≤ x) (x1 : x ≤ t (i + 1)) :
    ∃ u : ℝ, 0 ≤ u ∧ u ≤ 1 ∧ x = (1 - u) * t i + u * t (i + 1) ∧
      Approx 6 (1 / 2 ^ 153) (weights rnd t i x).1 (1 - u) (1 - u) ∧ Approx 6 (1 / 2 ^ 153) (weights rnd t i x).2 u u := by
  have p : (0:ℝ) < t (i + 1) - t i := lt_of_lt_of_le (by positivity) h0
  have w0 := weight_approx hr _ (t (i + 1) - x) h0 h1 (by linarith) (by linarith)
  have w1 := weight_approx hr _ (x - t i) h0 h1 (by linarith) (by linarith)
  have e : 1 / (t (i + 1) - t i) * (t (i + 1) - x) = 1 - 1 / (t (i + 1) - t i) * (x - t i) := by
    field_simp
    ring
  have le1 : 1 / (t (i + 1) - t i) * (t (i + 1) - x) ≤ 1 := by
    rw [one_div, inv_mul_le_iff₀ p]; linarith
  have w0' : Approx 6 (1 / 2 ^ 153) (weights rnd t i x).1 (1 / (t (i + 1) - t i) * (t (i + 1) - x)) (1 / (t (i + 1) - t i) * (t (i + 1) - x)) := by
    unfold weights
    simp only [zero_add]
    exact (w0.round hr (by
      have := mul_le_mul (grow_pow_le_two (n := 5) (by norm_num)) (show 1 / (t (i + 1) - t i) * (t (i + 1) - x) + 1 / 2 ^ 154 ≤ 2 by
        have : (1:ℝ) / 2 ^ 154 ≤ 1 := by norm_num
        linarith) (by
          have : 0 ≤ 1 / (t (i + 1) - t i) * (t (i + 1) - x) := mul_nonneg (by positivity) (by linarith)
          positivity) (by norm_num)
      exact this.trans (by norm_num))).weaken (le_refl _) (by norm_num)
  refine ⟨1 / (t (i + 1) - t i) * (x - t i), mul_nonneg (by positivity) (by linarith), ?_, ?_, ?_, w1.weaken (by norm_num) (by norm_num)⟩
  · rw [one_div, inv_mul_le_iff₀ p]; linarith
  · field_simp
    ring
  · rw [← e]
    exact w0'

/-- One of the four products. -/
theorem product_approx {rnd : ℝ → ℝ} (hr : Rounds rnd) (c z Z a b u v : ℝ) (hc : |c - z| ≤ |z| / 2 ^ 49 + 1 / 2 ^ 190) (hz : |z| ≤ Z) (hZ : Z ≤ 2 ^ 40)
    (hu : Approx 6 (1 / 2 ^ 153) a u u) (hu1 : u ≤ 1) (hv : Approx 6 (1 / 2 ^ 153) b v v) (hv1 : v ≤ 1) :
    Approx 30 (1 / 2 ^ 105) (rnd (rnd (c * a) * b)) (z * u * v) (Z * u * v) := by
  have u0 := hu.nonneg
  have v0 := hv.nonneg
  have Z0 : 0 ≤ Z := (abs_nonneg z).trans hz
  have g2 : ∀ {n : ℕ}, n ≤ 1000 → grow ^ n ≤ 2 := fun h => grow_pow_le_two h
  have hz' : Approx 16 (1 / 2 ^ 190) c z Z := by
    refine ⟨hz, by positivity, hc.trans ?_⟩
    have g : 1 + 1 / 2 ^ 49 ≤ grow ^ 16 := by unfold grow; norm_num
    have := mul_le_mul_of_nonneg_right g (show 0 ≤ Z + 1 / 2 ^ 190 by positivity)
    have : |z| / 2 ^ 49 ≤ Z / 2 ^ 49 := div_le_div_of_nonneg_right hz (by positivity)
    have : (0:ℝ) ≤ 1 / 2 ^ 49 * (1 / 2 ^ 190) := by positivity
    nlinarith
  have Zu : Z * u ≤ 2 ^ 40 := (mul_le_mul hZ hu1 u0 (by norm_num)).trans (by norm_num)
  have Zu0 : 0 ≤ Z * u := mul_nonneg Z0 u0
  have m1 := (hz'.mul hu).weaken (k' := 22) (d' := 1 / 2 ^ 112) (by norm_num) (by
    have h1 : Z * (1 / 2 ^ 153) ≤ 2 ^ 40 * (1 / 2 ^ 153) := mul_le_mul_of_nonneg_right hZ (by positivity)
    have h2 : (1:ℝ) / 2 ^ 190 * u ≤ 1 / 2 ^ 190 * 1 := mul_le_mul_of_nonneg_left hu1 (by positivity)
    have e : (2:ℝ) ^ 40 * (1 / 2 ^ 153) + 1 / 2 ^ 190 * 1 + 1 / 2 ^ 190 * (1 / 2 ^ 153) ≤ 1 / 2 ^ 112 := by norm_num
    linarith)
  have r1 := (m1.round hr (by
    calc grow ^ 22 * (Z * u + 1 / 2 ^ 112) ≤ 2 * (2 ^ 40 + 1) := by
          refine mul_le_mul (g2 (by norm_num)) ?_ (by positivity) (by norm_num)
          have : (1:ℝ) / 2 ^ 112 ≤ 1 := by norm_num
          linarith
      _ ≤ 2 ^ 250 := by norm_num)).weaken (k' := 23) (d' := 1 / 2 ^ 111) (by norm_num) (by norm_num)
  have m2 := (r1.mul hv).weaken (k' := 29) (d' := 1 / 2 ^ 107) (by norm_num) (by
    have h1 : Z * u * (1 / 2 ^ 153) ≤ 2 ^ 40 * (1 / 2 ^ 153) := mul_le_mul_of_nonneg_right Zu (by positivity)
    have h2 : (1:ℝ) / 2 ^ 111 * v ≤ 1 / 2 ^ 111 * 1 := mul_le_mul_of_nonneg_left hv1 (by positivity)
    have : (2:ℝ) ^ 40 * (1 / 2 ^ 153) + 1 / 2 ^ 111 * 1 + 1 / 2 ^ 111 * (1 / 2 ^ 153) ≤ 1 / 2 ^ 107 := by norm_num
    linarith)
  exact (m2.round hr (by
    have Zuv : Z * u * v ≤ 2 ^ 40 := (mul_le_mul Zu hv1 v0 (by norm_num)).trans (by norm_num)
    calc grow ^ 29 * (Z * u * v + 1 / 2 ^ 107) ≤ 2 * (2 ^ 40 + 1) := by
          refine mul_le_mul (g2 (by norm_num)) ?_ (by positivity) (by norm_num)
          have : (1:ℝ) / 2 ^ 107 ≤ 1 := by norm_num
          linarith
      _ ≤ 2 ^ 250 := by norm_num)).weaken (k' := 30) (d' := 1 / 2 ^ 105) (by norm_num) (by norm_num)

/-! ## The value of the spline -/

/-- The rounding error of one value of the interpolator for node values up to `Z`. -/
noncomputable def slack (Z : ℝ) : ℝ := 35 / 2 ^ 53 * Z + 1 / 2 ^ 100

/-- The value that the spline gives for a position inside the nodes is the mean of the values at the four surrounding nodes, weighted by the position in
the interval, up to the rounding. -/
theorem value_err {rnd : ℝ → ℝ} (hr : Rounds rnd) (tx ty : Nat → ℝ) (n : Nat) (hx : Spaced tx n) (hy : Spaced ty n) (c z : Nat → Nat → ℝ) (hc : Fits n c z)
    (Z : ℝ) (hZ : Z ≤ 2 ^ 40) (hz : ∀ i j, i < n → j < n → |z i j| ≤ Z) (x y : ℝ) (x0 : tx 0 ≤ x) (x1 : x ≤ tx (n - 1)) (y0 : ty 0 ≤ y) (y1 : y ≤ ty (n - 1)) :
    ∃ i j u v, i + 1 < n ∧ j + 1 < n ∧ 0 ≤ u ∧ u ≤ 1 ∧ 0 ≤ v ∧ v ≤ 1 ∧ x = (1 - u) * tx i + u * tx (i + 1) ∧ y = (1 - v) * ty j + v * ty (j + 1) ∧
      |value rnd tx ty n c x y - ((1 - u) * (1 - v) * z i j + (1 - u) * v * z i (j + 1) + u * (1 - v) * z (i + 1) j + u * v * z (i + 1) (j + 1))| ≤ slack Z := by
  have n2 := hx.two
  unfold value
  simp only
  rw [clamp_inside x x0 x1, clamp_inside y y0 y1]
  obtain ⟨_, i1, ix0, ix1⟩ := cellFrom_spec tx x (n - 2) 0 x0 (by rw [show 0 + (n - 2) + 1 = n - 1 by omega]; exact x1)
  obtain ⟨_, j1, jy0, jy1⟩ := cellFrom_spec ty y (n - 2) 0 y0 (by rw [show 0 + (n - 2) + 1 = n - 1 by omega]; exact y1)
  generalize cellFrom tx x 0 (n - 2) = i at *
  generalize cellFrom ty y 0 (n - 2) = j at *
  have hi : i + 1 < n := by omega
  have hj : j + 1 < n := by omega
  obtain ⟨u, u0, u1, eu, U0, U1⟩ := weights_approx hr tx i x (hx.wide i hi) (hx.near i hi) ix0 ix1
  obtain ⟨v, v0, v1, ev, V0, V1⟩ := weights_approx hr ty j y (hy.wide j hj) (hy.near j hj) jy0 jy1
  refine ⟨i, j, u, v, hi, hj, u0, u1, v0, v1, eu, ev, ?_⟩
  have Z0 : 0 ≤ Z := (abs_nonneg _).trans (hz i j (by omega) (by omega))
  have P := sum_approx hr 30 (1 / 2 ^ 105) Z (by positivity)
    [(_, _, _), (_, _, _), (_, _, _), (_, _, _)] 30 0 0 0 0 (le_refl _) (by
      intro t ht
      simp only [List.mem_cons, List.not_mem_nil, or_false] at ht
      rcases ht with rfl | rfl | rfl | rfl
      · exact product_approx hr (c i j) (z i j) Z _ _ _ _ (hc _ _ (by omega) (by omega)) (hz _ _ (by omega) (by omega)) hZ U0 (by linarith) V0 (by linarith)
      · exact product_approx hr (c i (j + 1)) (z i (j + 1)) Z _ _ _ _ (hc _ _ (by omega) (by omega)) (hz _ _ (by omega) (by omega)) hZ U0 (by linarith) V1 v1
      · exact product_approx hr (c (i + 1) j) (z (i + 1) j) Z _ _ _ _ (hc _ _ (by omega) (by omega)) (hz _ _ (by omega) (by omega)) hZ U1 u1 V0 (by linarith)
      · exact product_approx hr (c (i + 1) (j + 1)) (z (i + 1) (j + 1)) Z _ _ _ _ (hc _ _ (by omega) (by omega)) (hz _ _ (by omega) (by omega)) hZ U1 u1 V1 v1)
    (Approx.zero.weaken (by norm_num) (le_refl _)) (by
      simp only [List.map_cons, List.map_nil, List.sum_cons, List.sum_nil]
      apply le_of_eq; ring) (by
      have g8 : grow ^ (30 + 4) ≤ 2 := grow_pow_le_two (by norm_num)
      have := mul_le_mul g8 (show Z + 0 + 4 * (1 / 2 ^ 105 + 1 / 2 ^ 200) ≤ 2 ^ 41 by
        have : (2:ℝ) ^ 40 + 0 + 4 * (1 / 2 ^ 105 + 1 / 2 ^ 200) ≤ 2 ^ 41 := by norm_num
        linarith) (by positivity) (by norm_num)
      simp only [List.length_cons, List.length_nil]
      norm_num at this ⊢
      linarith)
  simp only [List.map_cons, List.map_nil, List.sum_cons, List.sum_nil, List.length_cons, List.length_nil] at P
  have e := P.2.2
  have g8 : grow ^ (30 + (0 + 1 + 1 + 1 + 1)) ≤ 1 + 35 / 2 ^ 53 := by unfold grow; norm_num
  have e1 : 0 + (Z * (1 - u) * (1 - v) + (Z * (1 - u) * v + (Z * u * (1 - v) + (Z * u * v + 0)))) = Z := by ring
  rw [e1] at e
  have m := mul_le_mul_of_nonneg_right g8 (show 0 ≤ Z + (0 + ((0 + 1 + 1 + 1 + 1 : ℕ) : ℝ) * (1 / 2 ^ 105 + 1 / 2 ^ 200)) by positivity)
  have e2 : (1 - u) * (1 - v) * z i j + (1 - u) * v * z i (j + 1) + u * (1 - v) * z (i + 1) j + u * v * z (i + 1) (j + 1) =
      0 + (z i j * (1 - u) * (1 - v) + (z i (j + 1) * (1 - u) * v + (z (i + 1) j * u * (1 - v) + (z (i + 1) (j + 1) * u * v + 0)))) := by ring
  rw [e2]
  refine e.trans ?_
  have c : (1 + 35 / 2 ^ 53) * (0 + ((0 + 1 + 1 + 1 + 1 : ℕ) : ℝ) * (1 / 2 ^ 105 + 1 / 2 ^ 200)) ≤ 1 / 2 ^ 100 := by norm_num
  unfold slack
  linarith

/-! ## The nodes -/

/-- Features between `lo` and `hi` along an axis, in pixels, and a number of nodes of the size that occurs. -/
structure Extent (lo hi : ℝ) (n : Nat) : Prop where
  order : lo ≤ hi
  low : -2 ^ 32 ≤ lo
  high : hi ≤ 2 ^ 32
  two : 2 ≤ n
  size : n ≤ 4096

/-- Node `k` of `n` that are evenly spread from ten pixels before `lo` to ten pixels after `hi`. -/
noncomputable def evenly (lo hi : ℝ) (n k : Nat) : ℝ := lo - 10 + k * ((hi - lo + 20) / ((n : ℝ) - 1))

theorem round_abs {rnd : ℝ → ℝ} (hr : Rounds rnd) (x : ℝ) (h : |x| ≤ 2 ^ 36) : |rnd x - x| ≤ 1 / 2 ^ 16 := by
  have e := hr.err x (h.trans (by norm_num))
  have : |x| / 2 ^ 53 ≤ 2 ^ 36 / 2 ^ 53 := div_le_div_of_nonneg_right h (by positivity)
  have : (2:ℝ) ^ 36 / 2 ^ 53 + 1 / 2 ^ 200 ≤ 1 / 2 ^ 16 := by norm_num
  linarith

/-- The nodes in doubles are where they are meant to be, to less than a thousandth of a pixel. -/
theorem node_err {rnd : ℝ → ℝ} (hr : Rounds rnd) {lo hi : ℝ} {n : Nat} (h : Extent lo hi n) (k : Nat) (hk : k < n) :
    |node rnd lo hi n k - evenly lo hi n k| ≤ 1 / 2 ^ 12 := by
  obtain ⟨h1, h2, h3, h4, h5⟩ := h
  have n1 : (1:ℝ) ≤ (n:ℝ) - 1 := by
    have : (2:ℝ) ≤ n := by exact_mod_cast h4
    linarith
  have n0 : (0:ℝ) < (n:ℝ) - 1 := by linarith
  have A := abs_le.mp (round_abs hr (lo - 10) (by rw [abs_le]; constructor <;> norm_num at * <;> linarith))
  have H := abs_le.mp (round_abs hr (hi + 10) (by rw [abs_le]; constructor <;> norm_num at * <;> linarith))
  have W := abs_le.mp (round_abs hr (rnd (hi + 10) - rnd (lo - 10)) (by rw [abs_le]; constructor <;> norm_num at * <;> linarith))
  have B := abs_le.mp (round_abs hr (rnd (lo - 10) + rnd (rnd (hi + 10) - rnd (lo - 10))) (by rw [abs_le]; constructor <;> norm_num at * <;> linarith))
  unfold node evenly linspace stop start
  simp only
  generalize rnd (lo - 10) = a at *
  generalize rnd (hi + 10) = hi' at *
  generalize rnd (hi' - a) = width at *
  generalize rnd (a + width) = b at *
  by_cases e : k + 1 = n
  · rw [if_pos e]
    have : (n:ℝ) - 1 = k := by rw [← e]; push_cast; ring
    rw [this, mul_div_cancel₀ _ (by rw [← this]; exact n0.ne')]
    rw [abs_le]
    constructor <;> norm_num at * <;> linarith
  · rw [if_neg e]
    have D := abs_le.mp (round_abs hr (b - a) (by rw [abs_le]; constructor <;> norm_num at * <;> linarith))
    generalize rnd (b - a) = δ at *
    have δb : |δ| ≤ 2 ^ 35 := by rw [abs_le]; constructor <;> norm_num at * <;> linarith
    have k0 : (0:ℝ) ≤ k := by positivity
    have kn : (k:ℝ) ≤ (n:ℝ) - 1 := by
      have : ((k + 1 : ℕ) : ℝ) ≤ n := by exact_mod_cast (by omega : k + 1 ≤ n)
      push_cast at this
      linarith
    have kM : (k:ℝ) ≤ 2 ^ 12 := by
      have : ((k : ℕ) : ℝ) ≤ ((4096 : ℕ) : ℝ) := by exact_mod_cast (by omega : k ≤ 4096)
      refine this.trans (by norm_num)
    have q1 : |δ / ((n:ℝ) - 1)| ≤ 2 ^ 35 := by
      rw [abs_div, abs_of_pos n0, div_le_iff₀ n0]
      nlinarith
    have S := hr.err (δ / ((n:ℝ) - 1)) (q1.trans (by norm_num))
    generalize rnd (δ / ((n:ℝ) - 1)) = s at *
    have frac : (k:ℝ) * |δ / ((n:ℝ) - 1)| ≤ |δ| := by
      rw [abs_div, abs_of_pos n0, ← mul_div_assoc, div_le_iff₀ n0]
      rw [mul_comm]
      exact mul_le_mul_of_nonneg_left kn (abs_nonneg _)
    have S' : |k * s - k * (δ / ((n:ℝ) - 1))| ≤ 1 / 2 ^ 16 := by
      rw [← mul_sub, abs_mul, abs_of_nonneg k0]
      have t1 := mul_le_mul_of_nonneg_left S k0
      have t2 : (k:ℝ) * (|δ / ((n:ℝ) - 1)| / 2 ^ 53 + 1 / 2 ^ 200) = k * |δ / ((n:ℝ) - 1)| / 2 ^ 53 + k * (1 / 2 ^ 200) := by ring
      have t3 : (k:ℝ) * |δ / ((n:ℝ) - 1)| / 2 ^ 53 ≤ 2 ^ 35 / 2 ^ 53 := div_le_div_of_nonneg_right (frac.trans δb) (by positivity)
      have t4 : (k:ℝ) * (1 / 2 ^ 200) ≤ 2 ^ 12 * (1 / 2 ^ 200) := mul_le_mul_of_nonneg_right kM (by positivity)
      have t5 : (2:ℝ) ^ 35 / 2 ^ 53 + 2 ^ 12 * (1 / 2 ^ 200) ≤ 1 / 2 ^ 16 := by norm_num
      linarith
    have T : |k * (δ / ((n:ℝ) - 1)) - k * ((hi - lo + 20) / ((n:ℝ) - 1))| ≤ 7 / 2 ^ 16 := by
      have e1 : k * (δ / ((n:ℝ) - 1)) - k * ((hi - lo + 20) / ((n:ℝ) - 1)) = k / ((n:ℝ) - 1) * (δ - (hi - lo + 20)) := by ring
      rw [e1, abs_mul, abs_of_nonneg (by positivity)]
      have r1 : (k:ℝ) / ((n:ℝ) - 1) ≤ 1 := by rw [div_le_one n0]; exact kn
      have r2 : |δ - (hi - lo + 20)| ≤ 7 / 2 ^ 16 := by rw [abs_le]; constructor <;> norm_num at * <;> linarith
      have := mul_le_mul r1 r2 (abs_nonneg _) (by norm_num)
      linarith
    have ks : |k * s| ≤ 2 ^ 35 + 1 := by
      have f1 : |k * (δ / ((n:ℝ) - 1))| ≤ 2 ^ 35 := by rw [abs_mul, abs_of_nonneg k0]; exact frac.trans δb
      have := abs_add_le (k * s - k * (δ / ((n:ℝ) - 1))) (k * (δ / ((n:ℝ) - 1)))
      rw [sub_add_cancel] at this
      have : (1:ℝ) / 2 ^ 16 ≤ 1 := by norm_num
      linarith
    have K := abs_le.mp (round_abs hr (k * s) (ks.trans (by norm_num)))
    generalize k * (δ / ((n:ℝ) - 1)) = m at *
    generalize k * ((hi - lo + 20) / ((n:ℝ) - 1)) = M at *
    generalize (k:ℝ) * s = r at *
    have ks' := abs_le.mp ks
    have S'' := abs_le.mp S'
    have T' := abs_le.mp T
    have L := abs_le.mp (round_abs hr (rnd r + a) (by rw [abs_le]; constructor <;> norm_num at * <;> linarith))
    rw [abs_le]
    constructor <;> norm_num at * <;> linarith

/-- The gap between nodes: even, to less than a thousandth of a pixel. -/
theorem gap_err {rnd : ℝ → ℝ} (hr : Rounds rnd) {lo hi : ℝ} {n : Nat} (h : Extent lo hi n) (k : Nat) (hk : k + 1 < n) :
    |node rnd lo hi n (k + 1) - node rnd lo hi n k - (hi - lo + 20) / ((n : ℝ) - 1)| ≤ 1 / 2 ^ 11 := by
  have a := abs_le.mp (node_err hr h k (by omega))
  have b := abs_le.mp (node_err hr h (k + 1) hk)
  have e : evenly lo hi n (k + 1) = evenly lo hi n k + (hi - lo + 20) / ((n : ℝ) - 1) := by
    unfold evenly; push_cast; ring
  rw [e] at b
  rw [abs_le]
  constructor <;> norm_num at * <;> linarith

theorem node_spaced {rnd : ℝ → ℝ} (hr : Rounds rnd) {lo hi : ℝ} {n : Nat} (h : Extent lo hi n) : Spaced (node rnd lo hi n) n := by
  have n1 : (1:ℝ) ≤ (n:ℝ) - 1 := by
    have : (2:ℝ) ≤ n := by exact_mod_cast h.two
    linarith
  have n4 : (n:ℝ) - 1 ≤ 4096 := by
    have : ((n : ℕ) : ℝ) ≤ ((4096 : ℕ) : ℝ) := by exact_mod_cast h.size
    push_cast at this
    linarith
  have n0 : (0:ℝ) < (n:ℝ) - 1 := by linarith
  have lb : 20 / 4096 ≤ (hi - lo + 20) / ((n : ℝ) - 1) := by
    rw [div_le_div_iff₀ (by norm_num) n0]
    nlinarith [h.order]
  have ub : (hi - lo + 20) / ((n : ℝ) - 1) ≤ 2 ^ 34 := by
    rw [div_le_iff₀ n0]
    have := h.low
    have := h.high
    have : hi - lo + 20 ≤ 2 ^ 34 := by norm_num at *; linarith
    nlinarith
  refine ⟨h.two, fun k hk => ?_, fun k hk => ?_⟩
  · have := abs_le.mp (gap_err hr h k hk)
    norm_num at *
    linarith
  · have := abs_le.mp (gap_err hr h k hk)
    norm_num at *
    linarith

/-- The nodes go beyond the features by almost ten pixels. -/
theorem node_ends {rnd : ℝ → ℝ} (hr : Rounds rnd) {lo hi : ℝ} {n : Nat} (h : Extent lo hi n) :
    node rnd lo hi n 0 ≤ lo - 9 ∧ hi + 9 ≤ node rnd lo hi n (n - 1) := by
  have h2 := h.two
  have a := abs_le.mp (node_err hr h 0 (by omega))
  have b := abs_le.mp (node_err hr h (n - 1) (by omega))
  have n0 : (n:ℝ) - 1 ≠ 0 := by
    have : (2:ℝ) ≤ n := by exact_mod_cast h2
    intro e
    linarith
  have e0 : evenly lo hi n 0 = lo - 10 := by unfold evenly; simp
  have e1 : evenly lo hi n (n - 1) = hi + 10 := by
    unfold evenly
    rw [Nat.cast_sub (by omega), Nat.cast_one, mul_div_cancel₀ _ n0]
    ring
  rw [e0] at a
  rw [e1] at b
  constructor <;> norm_num at * <;> linarith

/-- All nodes are close to the features. -/
theorem node_inside {rnd : ℝ → ℝ} (hr : Rounds rnd) {lo hi : ℝ} {n : Nat} (h : Extent lo hi n) (k : Nat) (hk : k < n) :
    lo - 11 ≤ node rnd lo hi n k ∧ node rnd lo hi n k ≤ hi + 11 := by
  have h1 := h.order
  have a := abs_le.mp (node_err hr h k hk)
  have n0 : (0:ℝ) < (n:ℝ) - 1 := by
    have : (2:ℝ) ≤ n := by exact_mod_cast h.two
    linarith
  have k0 : (0:ℝ) ≤ k := by positivity
  have kn : (k:ℝ) ≤ (n:ℝ) - 1 := by
    have : ((k + 1 : ℕ) : ℝ) ≤ n := by exact_mod_cast (by omega : k + 1 ≤ n)
    push_cast at this
    linarith
  have s0 : 0 ≤ (hi - lo + 20) / ((n:ℝ) - 1) := div_nonneg (by linarith) n0.le
  have m0 := mul_nonneg k0 s0
  have m1 := mul_le_mul_of_nonneg_right kn s0
  rw [mul_div_cancel₀ _ n0.ne'] at m1
  unfold evenly at a
  constructor <;> norm_num at * <;> linarith

/-! ## Places of features -/

/-- The sensor model's value (longitude, latitude or height) for an image position, as the nodes of the grid sample it, and FITPACK's coefficients for it. -/
structure Sampled (rnd : ℝ → ℝ) (lo hi : ℝ × ℝ) (n : Nat) (w : ℝ × ℝ → ℝ) (Z : ℝ) (c : Nat → Nat → ℝ) : Prop where
  columns : Extent lo.1 hi.1 n
  rows : Extent lo.2 hi.2 n
  fits : Fits n c (fun i j => w (node rnd lo.1 hi.1 n i, node rnd lo.2 hi.2 n j))
  bounded : ∀ q, Around lo hi q → |w q| ≤ Z
  size : Z ≤ 2 ^ 40

/-- A feature position is located between the four nodes around it: the place is the weighted mean of what the sensor model gives there, and the nodes are
the evenly spread ones to a thousandth of a pixel. -/
theorem located_between_nodes {rnd : ℝ → ℝ} (hr : Rounds rnd) {lo hi : ℝ × ℝ} {n : Nat} {w : ℝ × ℝ → ℝ} {Z : ℝ} {c : Nat → Nat → ℝ}
    (h : Sampled rnd lo hi n w Z c) (p : ℝ × ℝ) (hp : Covered lo hi p) :
    ∃ (x y : ℝ × ℝ) (u v : ℝ), 0 ≤ u ∧ u ≤ 1 ∧ 0 ≤ v ∧ v ≤ 1 ∧ p = ((1 - u) * x.1 + u * x.2, (1 - v) * y.1 + v * y.2) ∧
      (∀ a ∈ [x.1, x.2], ∀ b ∈ [y.1, y.2], Around lo hi (a, b)) ∧
      |x.2 - x.1 - (hi.1 - lo.1 + 20) / ((n : ℝ) - 1)| ≤ 1 / 2 ^ 11 ∧ |y.2 - y.1 - (hi.2 - lo.2 + 20) / ((n : ℝ) - 1)| ≤ 1 / 2 ^ 11 ∧
      |located rnd lo hi n c p - ((1 - u) * (1 - v) * w (x.1, y.1) + (1 - u) * v * w (x.1, y.2) + u * (1 - v) * w (x.2, y.1) + u * v * w (x.2, y.2))| ≤ slack Z := by
  obtain ⟨p1, p2, p3, p4⟩ := hp
  have ex := node_ends hr h.columns
  have ey := node_ends hr h.rows
  have inside : ∀ i j, i < n → j < n → Around lo hi (node rnd lo.1 hi.1 n i, node rnd lo.2 hi.2 n j) := by
    intro i j hi' hj
    have a := node_inside hr h.columns i hi'
    have b := node_inside hr h.rows j hj
    exact ⟨a.1, a.2, b.1, b.2⟩
  obtain ⟨i, j, u, v, hi', hj, u0, u1, v0, v1, e1, e2, e⟩ := value_err hr _ _ n (node_spaced hr h.columns) (node_spaced hr h.rows) c _ h.fits Z h.size
    (fun i j hi' hj => h.bounded _ (inside i j hi' hj)) p.1 p.2 (by linarith [ex.1]) (by linarith [ex.2]) (by linarith [ey.1]) (by linarith [ey.2])
  refine ⟨(node rnd lo.1 hi.1 n i, node rnd lo.1 hi.1 n (i + 1)), (node rnd lo.2 hi.2 n j, node rnd lo.2 hi.2 n (j + 1)), u, v, u0, u1, v0, v1, Prod.ext e1 e2,
    ?_, gap_err hr h.columns i hi', gap_err hr h.rows j hj, e⟩
  intro a ha b hb
  simp only [List.mem_cons, List.not_mem_nil, or_false] at ha hb
  rcases ha with rfl | rfl <;> rcases hb with rfl | rfl <;> exact inside _ _ (by omega) (by omega)

/-- A weighted mean of values in an interval is in it. -/
theorem mean_within (u v a b c d A r : ℝ) (u0 : 0 ≤ u) (u1 : u ≤ 1) (v0 : 0 ≤ v) (v1 : v ≤ 1) (ha : |a| ≤ r) (hb : |b| ≤ r) (hc : |c| ≤ r) (hd : |d| ≤ r)
    (hA : A = (1 - u) * (1 - v) * a + (1 - u) * v * b + u * (1 - v) * c + u * v * d) : |A| ≤ r := by
  have a' := abs_le.mp ha
  have b' := abs_le.mp hb
  have c' := abs_le.mp hc
  have d' := abs_le.mp hd
  have w1 : 0 ≤ (1 - u) * (1 - v) := mul_nonneg (by linarith) (by linarith)
  have w2 : 0 ≤ (1 - u) * v := mul_nonneg (by linarith) v0
  have w3 : 0 ≤ u * (1 - v) := mul_nonneg u0 (by linarith)
  have w4 : 0 ≤ u * v := mul_nonneg u0 v0
  have l1 := mul_le_mul_of_nonneg_left a'.1 w1
  have l2 := mul_le_mul_of_nonneg_left b'.1 w2
  have l3 := mul_le_mul_of_nonneg_left c'.1 w3
  have l4 := mul_le_mul_of_nonneg_left d'.1 w4
  have r1 := mul_le_mul_of_nonneg_left a'.2 w1
  have r2 := mul_le_mul_of_nonneg_left b'.2 w2
  have r3 := mul_le_mul_of_nonneg_left c'.2 w3
  have r4 := mul_le_mul_of_nonneg_left d'.2 w4
  have e : (1 - u) * (1 - v) * r + (1 - u) * v * r + u * (1 - v) * r + u * v * r = r := by ring
  have e' : (1 - u) * (1 - v) * (-r) + (1 - u) * v * (-r) + u * (1 - v) * (-r) + u * v * (-r) = -r := by ring
  rw [abs_le]
  constructor <;> linarith

/-- Where the sensor model is affine up to `ε` around the features, places in doubles are those of the affine function up to `ε` and the rounding. -/
theorem near_affine_plane {rnd : ℝ → ℝ} (hr : Rounds rnd) {lo hi : ℝ × ℝ} {n : Nat} {w : ℝ × ℝ → ℝ} {Z : ℝ} {c : Nat → Nat → ℝ}
    (h : Sampled rnd lo hi n w Z c) (α β γ ε : ℝ) (hw : ∀ q, Around lo hi q → |w q - (α + β * q.1 + γ * q.2)| ≤ ε) (p : ℝ × ℝ) (hp : Covered lo hi p) :
    |located rnd lo hi n c p - (α + β * p.1 + γ * p.2)| ≤ ε + slack Z := by
  obtain ⟨x, y, u, v, u0, u1, v0, v1, e, hin, _, _, hl⟩ := located_between_nodes hr h p hp
  have m := mean_within u v _ _ _ _ ((1 - u) * (1 - v) * w (x.1, y.1) + (1 - u) * v * w (x.1, y.2) + u * (1 - v) * w (x.2, y.1) + u * v * w (x.2, y.2) - (α + β * p.1 + γ * p.2)) ε
    u0 u1 v0 v1 (hw (x.1, y.1) (hin _ (by simp) _ (by simp))) (hw (x.1, y.2) (hin _ (by simp) _ (by simp))) (hw (x.2, y.1) (hin _ (by simp) _ (by simp)))
    (hw (x.2, y.2) (hin _ (by simp) _ (by simp))) (by rw [e]; ring)
  have l := abs_le.mp hl
  have m' := abs_le.mp m
  rw [abs_le]
  constructor <;> linarith

theorem Covered.around {lo hi p : ℝ × ℝ} (hp : Covered lo hi p) : Around lo hi p :=
  ⟨by linarith [hp.1], by linarith [hp.2.1], by linarith [hp.2.2.1], by linarith [hp.2.2.2]⟩

/-- Where the sensor model is affine up to `ε` around the features, places in doubles are those of the sensor model up to `2ε` and the rounding. -/
theorem near_affine_located {rnd : ℝ → ℝ} (hr : Rounds rnd) {lo hi : ℝ × ℝ} {n : Nat} {w : ℝ × ℝ → ℝ} {Z : ℝ} {c : Nat → Nat → ℝ}
    (h : Sampled rnd lo hi n w Z c) (α β γ ε : ℝ) (hw : ∀ q, Around lo hi q → |w q - (α + β * q.1 + γ * q.2)| ≤ ε) (p : ℝ × ℝ) (hp : Covered lo hi p) :
    |located rnd lo hi n c p - w p| ≤ 2 * ε + slack Z := by
  have l := abs_le.mp (near_affine_plane hr h α β γ ε hw p hp)
  have d := abs_le.mp (hw p hp.around)
  rw [abs_le]
  constructor <;> linarith

/-- Where the sensor model moves by at most `L` per column and `M` per row, places in doubles are those of the sensor model up to what it moves over one
interval of the grid, and the rounding. -/
theorem lipschitz_located {rnd : ℝ → ℝ} (hr : Rounds rnd) {lo hi : ℝ × ℝ} {n : Nat} {w : ℝ × ℝ → ℝ} {Z : ℝ} {c : Nat → Nat → ℝ}
    (h : Sampled rnd lo hi n w Z c) (L M : ℝ) (hL : 0 ≤ L) (hM : 0 ≤ M)
    (hw : ∀ q q', Around lo hi q → Around lo hi q' → |w q - w q'| ≤ L * |q.1 - q'.1| + M * |q.2 - q'.2|) (p : ℝ × ℝ) (hp : Covered lo hi p) :
    |located rnd lo hi n c p - w p| ≤ L * ((hi.1 - lo.1 + 20) / ((n : ℝ) - 1) + 1 / 2 ^ 11) + M * ((hi.2 - lo.2 + 20) / ((n : ℝ) - 1) + 1 / 2 ^ 11) + slack Z := by
  obtain ⟨x, y, u, v, u0, u1, v0, v1, e, hin, gx, gy, hl⟩ := located_between_nodes hr h p hp
  have hpa : Around lo hi p := ⟨by linarith [hp.1], by linarith [hp.2.1], by linarith [hp.2.2.1], by linarith [hp.2.2.2]⟩
  have sx0 : 0 ≤ (hi.1 - lo.1 + 20) / ((n : ℝ) - 1) := by
    have : (2:ℝ) ≤ n := by exact_mod_cast h.columns.two
    exact div_nonneg (by linarith [h.columns.order]) (by linarith)
  have sy0 : 0 ≤ (hi.2 - lo.2 + 20) / ((n : ℝ) - 1) := by
    have : (2:ℝ) ≤ n := by exact_mod_cast h.rows.two
    exact div_nonneg (by linarith [h.rows.order]) (by linarith)
  have gx' := abs_le.mp gx
  have gy' := abs_le.mp gy
  generalize (hi.1 - lo.1 + 20) / ((n : ℝ) - 1) = sx at *
  generalize (hi.2 - lo.2 + 20) / ((n : ℝ) - 1) = sy at *
  have near : ∀ (t : ℝ × ℝ) (u s g : ℝ), 0 ≤ u → u ≤ 1 → s = (1 - u) * t.1 + u * t.2 → |t.2 - t.1| ≤ g → ∀ a ∈ [t.1, t.2], |a - s| ≤ g := by
    intro t u s g u0 u1 es tg a ha
    simp only [List.mem_cons, List.not_mem_nil, or_false] at ha
    refine le_trans ?_ tg
    rcases ha with rfl | rfl
    · have e : t.1 - s = -(u * (t.2 - t.1)) := by rw [es]; ring
      rw [e, abs_neg, abs_mul, abs_of_nonneg u0]
      exact mul_le_of_le_one_left (abs_nonneg _) u1
    · have e : t.2 - s = (1 - u) * (t.2 - t.1) := by rw [es]; ring
      rw [e, abs_mul, abs_of_nonneg (by linarith)]
      exact mul_le_of_le_one_left (abs_nonneg _) (by linarith)
  have nx := near x u p.1 (sx + 1 / 2 ^ 11) u0 u1 (congrArg Prod.fst e) (by rw [abs_le]; constructor <;> linarith)
  have ny := near y v p.2 (sy + 1 / 2 ^ 11) v0 v1 (congrArg Prod.snd e) (by rw [abs_le]; constructor <;> linarith)
  have each : ∀ a ∈ [x.1, x.2], ∀ b ∈ [y.1, y.2], |w (a, b) - w p| ≤ L * (sx + 1 / 2 ^ 11) + M * (sy + 1 / 2 ^ 11) := by
    intro a ha b hb
    refine (hw (a, b) p (hin a ha b hb) hpa).trans ?_
    have := mul_le_mul_of_nonneg_left (nx a ha) hL
    have := mul_le_mul_of_nonneg_left (ny b hb) hM
    simp only
    linarith
  have m := mean_within u v _ _ _ _ ((1 - u) * (1 - v) * w (x.1, y.1) + (1 - u) * v * w (x.1, y.2) + u * (1 - v) * w (x.2, y.1) + u * v * w (x.2, y.2) - w p) _
    u0 u1 v0 v1 (each x.1 (by simp) y.1 (by simp)) (each x.1 (by simp) y.2 (by simp)) (each x.2 (by simp) y.1 (by simp))
    (each x.2 (by simp) y.2 (by simp)) (by ring)
  have l := abs_le.mp hl
  have m' := abs_le.mp m
  rw [abs_le]
  constructor <;> linarith

/-- FITPACK holds the values at the edges of the grid. -/
theorem clamp_eq (t : Nat → ℝ) (n : Nat) (h : t 0 ≤ t (n - 1)) (x : ℝ) : clamp t n x = max (t 0) (min x (t (n - 1))) := by
  unfold clamp
  by_cases a : x < t 0
  · simp only [if_pos a]
    rw [if_neg (by linarith), min_eq_left (by linarith), max_eq_left (by linarith)]
  · simp only [if_neg a]
    by_cases b : t (n - 1) < x
    · rw [if_pos b, min_eq_right b.le, max_eq_right h]
    · rw [if_neg b, min_eq_left (by linarith), max_eq_right (by linarith)]

/-- A position outside the grid gets the place of the nearest position on its edge: the grid never extrapolates. -/
theorem located_outside {rnd : ℝ → ℝ} (hr : Rounds rnd) {lo hi : ℝ × ℝ} {n : Nat} (columns : Extent lo.1 hi.1 n) (rows : Extent lo.2 hi.2 n) (c : Nat → Nat → ℝ) (p : ℝ × ℝ) :
    located rnd lo hi n c p = located rnd lo hi n c
      (max (node rnd lo.1 hi.1 n 0) (min p.1 (node rnd lo.1 hi.1 n (n - 1))), max (node rnd lo.2 hi.2 n 0) (min p.2 (node rnd lo.2 hi.2 n (n - 1)))) := by
  have ex := node_ends hr columns
  have ey := node_ends hr rows
  have hx : node rnd lo.1 hi.1 n 0 ≤ node rnd lo.1 hi.1 n (n - 1) := by linarith [columns.order]
  have hy : node rnd lo.2 hi.2 n 0 ≤ node rnd lo.2 hi.2 n (n - 1) := by linarith [rows.order]
  have twice : ∀ a b x : ℝ, a ≤ b → max a (min (max a (min x b)) b) = max a (min x b) := by
    intro a b x h
    rw [min_eq_left (max_le h (min_le_right _ _)), max_eq_right (le_max_left _ _)]
  simp only [located, value, clamp_eq _ n hx, clamp_eq _ n hy, twice _ _ _ hx, twice _ _ _ hy]

/-- The same in degrees, for a longitude or latitude. -/
theorem degrees_located {rnd : ℝ → ℝ} (hr : Rounds rnd) {lo hi : ℝ × ℝ} {n : Nat} {w : ℝ × ℝ → ℝ} {Z : ℝ} {c : Nat → Nat → ℝ}
    (h : Sampled rnd lo hi n w Z c) (hZ : Z ≤ 7) (p : ℝ × ℝ) (hp : Covered lo hi p) (e : ℝ) (he : |located rnd lo hi n c p - w p| ≤ e) :
    |Verif.Rounded.degrees rnd (located rnd lo hi n c p) - 180 / Real.pi * w p| ≤ 180 / Real.pi * e + 1110 / 2 ^ 53 := by
  have small : |located rnd lo hi n c p| ≤ 8 := by
    obtain ⟨x, y, u, v, u0, u1, v0, v1, _, hin, _, _, hl⟩ := located_between_nodes hr h p hp
    have m := mean_within u v _ _ _ _ _ Z u0 u1 v0 v1 (h.bounded (x.1, y.1) (hin _ (by simp) _ (by simp))) (h.bounded (x.1, y.2) (hin _ (by simp) _ (by simp)))
      (h.bounded (x.2, y.1) (hin _ (by simp) _ (by simp))) (h.bounded (x.2, y.2) (hin _ (by simp) _ (by simp))) rfl
    have t := abs_add_le (located rnd lo hi n c p - ((1 - u) * (1 - v) * w (x.1, y.1) + (1 - u) * v * w (x.1, y.2) + u * (1 - v) * w (x.2, y.1) + u * v * w (x.2, y.2)))
      ((1 - u) * (1 - v) * w (x.1, y.1) + (1 - u) * v * w (x.1, y.2) + u * (1 - v) * w (x.2, y.1) + u * v * w (x.2, y.2))
    rw [sub_add_cancel] at t
    have s : slack Z ≤ 1 := by
      unfold slack
      have : 35 / 2 ^ 53 * Z ≤ 35 / 2 ^ 53 * 7 := mul_le_mul_of_nonneg_left hZ (by positivity)
      have : (35:ℝ) / 2 ^ 53 * 7 + 1 / 2 ^ 100 ≤ 1 := by norm_num
      linarith
    linarith
  have d := (degrees_err hr small).1
  have k : 0 ≤ 180 / Real.pi := by have := Real.pi_pos; positivity
  have t := abs_add_le (Verif.Rounded.degrees rnd (located rnd lo hi n c p) - 180 / Real.pi * located rnd lo hi n c p)
    (180 / Real.pi * located rnd lo hi n c p - 180 / Real.pi * w p)
  rw [sub_add_sub_cancel, ← mul_sub, abs_mul, abs_of_nonneg k] at t
  have := mul_le_mul_of_nonneg_left he k
  linarith

/-! ## An example: features over 1000 by 500 pixels, eleven nodes each way, latitude of an image with pixels of a metre that bends by a hundredth of a metre -/

/-- The latitude in radians for a position in the image; between the columns it wobbles by a hundredth of a metre. -/
noncomputable def latitude (q : ℝ × ℝ) : ℝ := 7 / 10 - q.2 / 6378137 + Real.sin q.1 / 637813700

/-- What the code computes for a feature at column 123 and row 45 is right to a fiftieth of a metre (and a ten-millionth of a metre for the rounding). -/
example (c : Nat → Nat → ℝ)
    (hc : Fits 11 c (fun i j => latitude (node Verif.Rounded.double 0 1000 11 i, node Verif.Rounded.double 0 500 11 j))) :
    |located Verif.Rounded.double (0, 0) (1000, 500) 11 c (123, 45) - latitude (123, 45)| ≤ 2 / 637813700 + 1 / 2 ^ 47 := by
  have s : ∀ x : ℝ, |Real.sin x / 637813700| ≤ 1 / 637813700 := by
    intro x
    rw [abs_div, abs_of_pos (by norm_num : (0:ℝ) < 637813700)]
    exact div_le_div_of_nonneg_right (Real.abs_sin_le_one x) (by norm_num)
  have h : Sampled Verif.Rounded.double (0, 0) (1000, 500) 11 latitude 1 c := by
    refine ⟨⟨by norm_num, by norm_num, by norm_num, by norm_num, by norm_num⟩, ⟨by norm_num, by norm_num, by norm_num, by norm_num, by norm_num⟩, hc, ?_, by norm_num⟩
    rintro q ⟨_, _, h3, h4⟩
    simp only at h3 h4
    have := abs_le.mp (s q.1)
    unfold latitude
    rw [abs_le]
    constructor <;> norm_num at * <;> linarith
  have := near_affine_located double_rounds h (7 / 10) 0 (-(1 / 6378137)) (1 / 637813700) (by
    intro q _
    have e : latitude q - (7 / 10 + 0 * q.1 + -(1 / 6378137) * q.2) = Real.sin q.1 / 637813700 := by unfold latitude; ring
    rw [e]
    exact s q.1) (123, 45) ⟨by norm_num, by norm_num, by norm_num, by norm_num⟩
  refine this.trans ?_
  unfold slack
  norm_num

end Verif.Props.GridRounded
