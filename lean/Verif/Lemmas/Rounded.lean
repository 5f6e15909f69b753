import Mathlib.Tactic.Linarith
import Mathlib.Tactic.Ring
import Mathlib.Tactic.NormNum
import Mathlib.Tactic.Positivity
import Mathlib.Tactic.FieldSimp
import Mathlib.Data.Rat.Cast.Order
import Verif.Model.Rounded
import Verif.Spec.Rounded
import Verif.Lemmas.Float64

/-!
# Rounding errors of sums and products
-/

namespace Verif.Lemmas.Rounded

open Verif.Rounded Verif.Spec.Rounded

/-! ## The rounding of real numbers to doubles -/

theorem rint_spec (x : ℝ) : |(rint x : ℝ) - x| ≤ 1 / 2 := by
  have h1 := Int.floor_le x
  have h2 := Int.lt_floor_add_one x
  unfold rint
  simp only
  rw [abs_le]
  split_ifs <;> push_cast <;> constructor <;> linarith

theorem double_err (x : ℝ) : |double x - x| ≤ |x| / 2 ^ 53 + 1 / 2 ^ 200 := by
  by_cases hx : x = 0
  · subst hx; simp [double]
  have hp : 0 < |x| := abs_pos.mpr hx
  have u : (0:ℝ) < 2 ^ ulpExp x := zpow_pos (by norm_num) _
  have e : double x - x = (rint (x / 2 ^ ulpExp x) - x / 2 ^ ulpExp x) * 2 ^ ulpExp x := by
    unfold double
    rw [if_neg hx]
    field_simp
  rw [e, abs_mul, abs_of_pos u]
  have h := mul_le_mul_of_nonneg_right (rint_spec (x / 2 ^ ulpExp x)) u.le
  refine le_trans h ?_
  rcases le_total (Int.log 2 |x| - 52) (-1074) with hs | hn
  · have : ulpExp x = -1074 := by unfold ulpExp; omega
    rw [this]
    have h3 : (2:ℝ) ^ (-1074 : Int) ≤ 1 / 2 ^ 200 := by
      have : (2:ℝ) ^ (-1074 : Int) ≤ 2 ^ (-200 : Int) := zpow_le_zpow_right₀ (by norm_num) (by norm_num)
      refine le_trans this (le_of_eq ?_)
      rw [zpow_neg, one_div]
      norm_cast
    have : 0 ≤ |x| / 2 ^ 53 := by positivity
    have : (0:ℝ) < 2 ^ (-1074 : Int) := zpow_pos (by norm_num) _
    linarith
  · have : ulpExp x = Int.log 2 |x| - 52 := by unfold ulpExp; omega
    rw [this, sub_eq_add_neg, zpow_add₀ (by norm_num)]
    have h3 : (2:ℝ) ^ (Int.log 2 |x|) ≤ |x| := by
      have := Int.zpow_log_le_self (b := 2) (by norm_num) hp
      simpa using this
    have h4 : (2:ℝ) ^ (-52 : Int) = 1 / 2 ^ 52 := by norm_num
    have h5 : (0:ℝ) < 1 / 2 ^ 200 := by positivity
    rw [h4]
    have : 1 / 2 * ((2:ℝ) ^ Int.log 2 |x| * (1 / 2 ^ 52)) = 2 ^ Int.log 2 |x| / 2 ^ 53 := by ring
    rw [this]
    have := div_le_div_of_nonneg_right h3 (by positivity : (0:ℝ) ≤ 2 ^ 53)
    linarith

theorem double_rounds : Rounds double := ⟨fun x _ => double_err x⟩

theorem id_rounds : Rounds id := ⟨fun x _ => by simp; positivity⟩

theorem rint_cast (q : ℚ) : rint (q : ℝ) = Verif.Float64.rint q := by
  unfold rint Verif.Float64.rint
  simp only [Rat.floor_cast]
  have e : ((q : ℝ) - (⌊q⌋ : ℝ)) = ((q - ⌊q⌋ : ℚ) : ℝ) := by push_cast; rfl
  have h1 : ((q : ℝ) - (⌊q⌋ : ℝ) < 1 / 2) ↔ (q - ⌊q⌋ < 1 / 2) := by
    rw [e, show (1 / 2 : ℝ) = ((1 / 2 : ℚ) : ℝ) by norm_num, Rat.cast_lt]
  have h2 : (1 / 2 < (q : ℝ) - (⌊q⌋ : ℝ)) ↔ (1 / 2 < q - ⌊q⌋) := by
    rw [e, show (1 / 2 : ℝ) = ((1 / 2 : ℚ) : ℝ) by norm_num, Rat.cast_lt]
  simp only [h1, h2]

theorem log_cast (q : ℚ) : Int.log 2 ((q : ℝ)) = Int.log 2 q := by
  by_cases hq : 0 < q
  · have hq' : (0:ℝ) < q := by exact_mod_cast hq
    refine le_antisymm ?_ ?_
    · rw [← Int.zpow_le_iff_le_log (by norm_num) hq]
      have := Int.zpow_log_le_self (b := 2) (by norm_num) hq'
      have h2 : (((2:ℕ):ℚ) ^ Int.log 2 (q:ℝ) : ℚ) ≤ q := by
        rw [← Rat.cast_le (K := ℝ)]; push_cast; simpa using this
      exact h2
    · rw [← Int.zpow_le_iff_le_log (by norm_num) hq']
      have := Int.zpow_log_le_self (b := 2) (by norm_num) hq
      have h2 : (((((2:ℕ):ℚ) ^ Int.log 2 q : ℚ)) : ℝ) ≤ q := by
        rw [Rat.cast_le]; exact this
      push_cast at h2 ⊢; exact h2
  · rw [Int.log_of_right_le_zero _ (not_lt.mp hq), Int.log_of_right_le_zero _ (by exact_mod_cast not_lt.mp hq)]

/-- On rational numbers it is the rounding of Model/Float64. -/
theorem double_cast (q : ℚ) : double (q : ℝ) = (Verif.Float64.rne64 q : ℚ) := by
  unfold double Verif.Float64.rne64
  have e : ulpExp (q : ℝ) = Verif.Float64.ulpExp q := by
    unfold ulpExp Verif.Float64.ulpExp
    rw [← Rat.cast_abs, log_cast]
  by_cases hq : q = 0
  · simp [hq]
  · have hq' : (q : ℝ) ≠ 0 := by exact_mod_cast hq
    rw [if_neg hq, if_neg hq', e]
    have : ((q : ℝ) / 2 ^ Verif.Float64.ulpExp q) = ((q / 2 ^ Verif.Float64.ulpExp q : ℚ) : ℝ) := by push_cast; rfl
    rw [this, rint_cast]
    push_cast
    rfl

/-! ## Error bounds -/

/-- One and a relative rounding error. -/
noncomputable def grow : ℝ := 1 + 1 / 2 ^ 53

/-- `s` is `S` up to `k` relative rounding errors of a quantity `a ≥ |S|` that has been moved away
from zero by `d`. -/
def Approx (k : ℕ) (d s S a : ℝ) : Prop := |S| ≤ a ∧ 0 ≤ d ∧ |s - S| ≤ grow ^ k * (a + d) - a

theorem one_le_grow : 1 ≤ grow := by unfold grow; norm_num

theorem one_le_pow (k : ℕ) : 1 ≤ grow ^ k := one_le_pow₀ one_le_grow

theorem Approx.exact (x : ℝ) : Approx 0 0 x x |x| := by
  refine ⟨le_refl _, le_refl _, ?_⟩; simp

theorem Approx.zero : Approx 0 0 0 0 0 := by
  refine ⟨by simp, le_refl _, by simp⟩

theorem Approx.nonneg {k : ℕ} {d s S a : ℝ} (h : Approx k d s S a) : 0 ≤ a := le_trans (abs_nonneg _) h.1

theorem Approx.weaken {k : ℕ} {d s S a : ℝ} (h : Approx k d s S a) {k' : ℕ} {d' : ℝ} (hk : k ≤ k') (hd : d ≤ d') :
    Approx k' d' s S a := by
  obtain ⟨h1, h2, h3⟩ := h
  have ha : 0 ≤ a := le_trans (abs_nonneg _) h1
  refine ⟨h1, le_trans h2 hd, le_trans h3 ?_⟩
  have := pow_le_pow_right₀ one_le_grow hk
  have h0 := one_le_pow k
  have : grow ^ k * (a + d) ≤ grow ^ k' * (a + d') :=
    mul_le_mul this (by linarith) (by linarith) (by linarith [one_le_pow k'])
  linarith

theorem Approx.size {k : ℕ} {d s S a : ℝ} (h : Approx k d s S a) : |s| ≤ grow ^ k * (a + d) := by
  obtain ⟨h1, h2, h3⟩ := h
  have : |s| ≤ |s - S| + |S| := by have := abs_add_le (s - S) S; simpa using this
  linarith

theorem Approx.round {rnd : ℝ → ℝ} (hr : Rounds rnd) {k : ℕ} {d s S a : ℝ} (h : Approx k d s S a)
    (hb : grow ^ k * (a + d) ≤ 2 ^ 250) : Approx (k + 1) (d + 1 / 2 ^ 200) (rnd s) S a := by
  have hs := h.size
  obtain ⟨h1, h2, h3⟩ := h
  have ha : 0 ≤ a := le_trans (abs_nonneg _) h1
  refine ⟨h1, by positivity, ?_⟩
  have e := hr.err s (le_trans hs hb)
  have t : |rnd s - S| ≤ |rnd s - s| + |s - S| := by
    have := abs_add_le (rnd s - s) (s - S); simpa using this
  have q := one_le_pow k
  rw [pow_succ]
  have hη : (0:ℝ) ≤ 1 / 2 ^ 200 := by positivity
  have hu : (0:ℝ) ≤ 1 / 2 ^ 53 := by positivity
  have e2 : |s| / 2 ^ 53 ≤ grow ^ k * (a + d) * (1 / 2 ^ 53) := by
    have := mul_le_mul_of_nonneg_right hs hu
    calc |s| / 2 ^ 53 = |s| * (1 / 2 ^ 53) := by ring
      _ ≤ _ := this
  have h5 : (1:ℝ) / 2 ^ 200 ≤ grow ^ k * grow * (1 / 2 ^ 200) := by
    have : 1 ≤ grow ^ k * grow := by have := one_le_pow (k + 1); rwa [pow_succ] at this
    exact le_mul_of_one_le_left hη this
  have : grow ^ k * grow * (a + (d + 1 / 2 ^ 200)) - a
      = grow ^ k * (a + d) - a + grow ^ k * (a + d) * (1 / 2 ^ 53) + grow ^ k * grow * (1 / 2 ^ 200) := by
    have : grow ^ k * grow * (a + d) = grow ^ k * (a + d) + grow ^ k * (a + d) * (1 / 2 ^ 53) := by
      generalize grow ^ k = q; unfold grow; ring
    linarith
  rw [this]
  linarith

theorem Approx.add {k : ℕ} {d s S a e t T b : ℝ} (h : Approx k d s S a) (g : Approx k e t T b) :
    Approx k (d + e) (s + t) (S + T) (a + b) := by
  obtain ⟨h1, h2, h3⟩ := h
  obtain ⟨g1, g2, g3⟩ := g
  refine ⟨le_trans (abs_add_le _ _) (by linarith), by linarith, ?_⟩
  have : s + t - (S + T) = (s - S) + (t - T) := by ring
  rw [this]
  have := abs_add_le (s - S) (t - T)
  have e : grow ^ k * (a + b + (d + e)) - (a + b) = (grow ^ k * (a + d) - a) + (grow ^ k * (b + e) - b) := by ring
  rw [e]; linarith

theorem Approx.neg {k : ℕ} {d s S a : ℝ} (h : Approx k d s S a) : Approx k d (-s) (-S) a := by
  obtain ⟨h1, h2, h3⟩ := h
  refine ⟨by rwa [abs_neg], h2, ?_⟩
  have : -s - -S = -(s - S) := by ring
  rwa [this, abs_neg]

theorem Approx.mul {k j : ℕ} {d s S a e t T b : ℝ} (h : Approx k d s S a) (g : Approx j e t T b) :
    Approx (k + j) (a * e + d * b + d * e) (s * t) (S * T) (a * b) := by
  have hs := h.size
  obtain ⟨h1, h2, h3⟩ := h
  obtain ⟨g1, g2, g3⟩ := g
  have ha : 0 ≤ a := le_trans (abs_nonneg _) h1
  have hb : 0 ≤ b := le_trans (abs_nonneg _) g1
  refine ⟨by rw [abs_mul]; exact mul_le_mul h1 g1 (abs_nonneg _) ha, by positivity, ?_⟩
  have e1 : s * t - S * T = s * (t - T) + (s - S) * T := by ring
  rw [e1]
  have q := abs_add_le (s * (t - T)) ((s - S) * T)
  rw [abs_mul, abs_mul] at q
  have p1 : |s| * |t - T| ≤ (grow ^ k * (a + d)) * (grow ^ j * (b + e) - b) :=
    mul_le_mul hs g3 (abs_nonneg _) (le_trans (abs_nonneg _) hs)
  have p2 : |s - S| * |T| ≤ (grow ^ k * (a + d) - a) * b :=
    mul_le_mul h3 g1 (abs_nonneg _) (le_trans (abs_nonneg _) h3)
  have : grow ^ (k + j) * (a * b + (a * e + d * b + d * e)) - a * b
      = (grow ^ k * (a + d)) * (grow ^ j * (b + e) - b) + (grow ^ k * (a + d) - a) * b := by
    rw [pow_add]; ring
  rw [this]; linarith

theorem Approx.scale {k : ℕ} {d s S a : ℝ} (h : Approx k d s S a) (x : ℝ) : Approx k (d * |x|) (s * x) (S * x) (a * |x|) := by
  have := h.mul (Approx.exact x)
  simpa using this

/-- Sums from left to right. -/
theorem sum_approx {rnd : ℝ → ℝ} (hr : Rounds rnd) (k : ℕ) (d M : ℝ) (hd : 0 ≤ d) :
    ∀ (L : List (ℝ × ℝ × ℝ)) (k0 : ℕ) (d0 s S a : ℝ), k ≤ k0 → (∀ x ∈ L, Approx k d x.1 x.2.1 x.2.2) → Approx k0 d0 s S a →
      a + (L.map (fun x => x.2.2)).sum ≤ M → grow ^ (k0 + L.length) * (M + d0 + L.length * (d + 1 / 2 ^ 200)) ≤ 2 ^ 250 →
      Approx (k0 + L.length) (d0 + L.length * (d + 1 / 2 ^ 200))
        ((L.map (fun x => x.1)).foldl (fun r t => rnd (r + t)) s) (S + (L.map (fun x => x.2.1)).sum)
        (a + (L.map (fun x => x.2.2)).sum)
  | [], k0, d0, s, S, a, _, _, h, _, _ => by simpa using h
  | x :: L, k0, d0, s, S, a, hk, hL, h, hM, hB => by
    have hx := hL x (by simp)
    have hpos : 0 ≤ (L.map (fun x => x.2.2)).sum :=
      List.sum_nonneg (by
        intro y hy
        obtain ⟨z, hz, rfl⟩ := List.mem_map.mp hy
        exact (hL z (by simp [hz])).nonneg)
    have ha := h.nonneg
    have hxa := hx.nonneg
    have hd0 : 0 ≤ d0 := h.2.1
    have hη : (0:ℝ) ≤ 1 / 2 ^ 200 := by positivity
    simp only [List.map_cons, List.sum_cons, List.length_cons] at hM hB ⊢
    have step := (h.add (hx.weaken hk (le_refl _))).round hr (by
      refine le_trans ?_ hB
      have := pow_le_pow_right₀ one_le_grow (show k0 ≤ k0 + (L.length + 1) by omega)
      refine mul_le_mul this ?_ (by linarith) (by linarith [one_le_pow (k0 + (L.length + 1))])
      push_cast
      have : 0 ≤ (L.length : ℝ) * (d + 1 / 2 ^ 200) := by positivity
      nlinarith)
    have ih := sum_approx hr k d M hd L (k0 + 1) (d0 + d + 1 / 2 ^ 200) _ _ _ (by omega) (fun y hy => hL y (by simp [hy])) step
      (by linarith) (by
        refine le_trans (le_of_eq ?_) hB
        rw [show k0 + 1 + L.length = k0 + (L.length + 1) by omega]
        push_cast; ring)
    have e1 : k0 + (L.length + 1) = k0 + 1 + L.length := by omega
    have e2 : d0 + ((L.length + 1 : ℕ) : ℝ) * (d + 1 / 2 ^ 200) = d0 + d + 1 / 2 ^ 200 + L.length * (d + 1 / 2 ^ 200) := by
      push_cast; ring
    rw [e1, e2, List.foldl_cons, ← add_assoc, ← add_assoc]
    exact ih

end Verif.Lemmas.Rounded
