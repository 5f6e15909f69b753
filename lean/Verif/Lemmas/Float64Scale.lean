import Verif.Lemmas.Float64

/-!
# Scaling by powers of two, and the spacing of doubles
-/

namespace Verif.Float64

theorem log_mul_zpow {x : ℚ} (hx : 0 < x) (k : Int) : Int.log 2 (x * 2 ^ k) = Int.log 2 x + k := by
  have h2 : (0 : ℚ) < 2 ^ k := zpow_pos (by norm_num) _
  have hy : 0 < x * 2 ^ k := mul_pos hx h2
  apply le_antisymm
  · have h : x * 2 ^ k < ((2 : ℕ) : ℚ) ^ (Int.log 2 x + k + 1) := by
      have := Int.lt_zpow_succ_log_self (b := 2) (by norm_num) x
      rw [show Int.log 2 x + k + 1 = (Int.log 2 x + 1) + k by ring, zpow_add₀ (by norm_num)]
      push_cast at this ⊢
      exact mul_lt_mul_of_pos_right this h2
    have := (Int.lt_zpow_iff_log_lt (b := 2) (by norm_num) hy).1 h
    omega
  · have h : ((2 : ℕ) : ℚ) ^ (Int.log 2 x + k) ≤ x * 2 ^ k := by
      have := Int.zpow_log_le_self (b := 2) (by norm_num) hx
      rw [zpow_add₀ (by norm_num)]
      push_cast at this ⊢
      exact mul_le_mul_of_nonneg_right this h2.le
    exact (Int.zpow_le_iff_le_log (b := 2) (by norm_num) hy).1 h

theorem log_ge {x : ℚ} {n : Int} (h : (2 : ℚ) ^ n ≤ x) : n ≤ Int.log 2 x := by
  have hx : 0 < x := lt_of_lt_of_le (zpow_pos (by norm_num) _) h
  apply (Int.zpow_le_iff_le_log (b := 2) (by norm_num) hx).1
  push_cast
  exact h

/-- Rounding commutes with scaling by a power of two, outside of the subnormal range. -/
theorem rne64_scale (x : ℚ) (k : Int) (h : x ≠ 0 → (2 : ℚ) ^ (-1022 : Int) ≤ |x| ∧ (2 : ℚ) ^ (-1022 : Int) ≤ |x * 2 ^ k|) :
    rne64 (x * 2 ^ k) = rne64 x * 2 ^ k := by
  by_cases hx : x = 0
  · subst hx; simp [rne64]
  obtain ⟨h1, h2⟩ := h hx
  have h2k : (0 : ℚ) < 2 ^ k := zpow_pos (by norm_num) _
  have e : ulpExp (x * 2 ^ k) = ulpExp x + k := by
    have hl1 := log_ge h1
    have hl2 := log_ge h2
    unfold ulpExp
    rw [abs_mul, abs_of_pos h2k] at hl2 ⊢
    rw [log_mul_zpow (abs_pos.2 hx)] at hl2 ⊢
    omega
  unfold rne64
  rw [if_neg hx, if_neg (mul_ne_zero hx h2k.ne'), e, zpow_add₀ (by norm_num)]
  have : x * 2 ^ k / (2 ^ ulpExp x * 2 ^ k) = x / 2 ^ ulpExp x := by field_simp
  rw [this]
  ring

/-- The numbers that binary64 represents (no overflow in the model). -/
def IsDouble (x : ℚ) : Prop := rne64 x = x

theorem isDouble_rne64 (x : ℚ) : IsDouble (rne64 x) := rne64_idem x

/-- A double of at least 2ⁿ is a multiple of 2ⁿ⁻⁵². -/
theorem double_multiple {x : ℚ} (h : IsDouble x) {n : Int} (hn : (2 : ℚ) ^ n ≤ |x|) : ∃ k : Int, x = k * 2 ^ (n - 52) := by
  have hx : x ≠ 0 := by
    rintro rfl
    have : (0 : ℚ) < 2 ^ n := zpow_pos (by norm_num) _
    simp at hn
    linarith
  have hl := log_ge hn
  unfold IsDouble rne64 at h
  rw [if_neg hx] at h
  have hle : n - 52 ≤ ulpExp x := by unfold ulpExp; omega
  obtain ⟨d, hd⟩ := Int.le.dest hle
  refine ⟨rint (x / 2 ^ ulpExp x) * 2 ^ d, ?_⟩
  conv_lhs => rw [← h]
  rw [← hd, zpow_add₀ (by norm_num)]
  push_cast
  rw [zpow_natCast]
  ring

/-- Doubles scaled by a power of two are doubles, outside of the subnormal range. -/
theorem isDouble_scale {x : ℚ} (h : IsDouble x) (k : Int) (hx : x ≠ 0 → (2 : ℚ) ^ (-1022 : Int) ≤ |x| ∧ (2 : ℚ) ^ (-1022 : Int) ≤ |x * 2 ^ k|) :
    IsDouble (x * 2 ^ k) := by
  unfold IsDouble
  rw [rne64_scale x k hx, h]

/-- The rounding error of a number below 2ⁿ. -/
theorem rne64_err_lt (x : ℚ) (n : Int) (hn : -1021 ≤ n) (h : |x| < 2 ^ n) : |rne64 x - x| ≤ 2 ^ (n - 54) := by
  by_cases hx : x = 0
  · subst hx
    rw [rne64_zero, sub_zero, abs_zero]
    exact (zpow_pos (by norm_num) _).le
  have hpos := abs_pos.2 hx
  have u : (0 : ℚ) < 2 ^ ulpExp x := zpow_pos (by norm_num) _
  have hlog : Int.log 2 |x| < n := by
    apply (Int.lt_zpow_iff_log_lt (b := 2) (by norm_num) hpos).1
    push_cast
    exact h
  have hle : ulpExp x ≤ n - 53 := by unfold ulpExp; omega
  have e : rne64 x - x = (rint (x / 2 ^ ulpExp x) - x / 2 ^ ulpExp x) * 2 ^ ulpExp x := by
    unfold rne64
    rw [if_neg hx]
    field_simp
  rw [e, abs_mul, abs_of_pos u]
  calc |(rint (x / 2 ^ ulpExp x) : ℚ) - x / 2 ^ ulpExp x| * 2 ^ ulpExp x ≤ 1 / 2 * 2 ^ (n - 53) :=
        mul_le_mul (rint_spec _) (zpow2_mono hle) u.le (by norm_num)
    _ = 2 ^ (n - 54) := by
        rw [show n - 53 = (n - 54) + 1 by ring, zpow_add₀ (by norm_num)]; ring

end Verif.Float64
