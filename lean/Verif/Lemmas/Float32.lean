import Verif.Lemmas.Float64
import Verif.Model.Sar

/-!
# Rounding to binary32

The conversion keeps the order with respect to integers of up to 2 ^ 23, and moves a number below 2 ^ 15 by at most 2 ^ -10.
-/

namespace Verif.Float32

open Verif.Float64 Verif.Sar

theorem rne32_neg (x : ℚ) : rne32 (-x) = -rne32 x := by
  unfold rne32
  by_cases h : x = 0
  · simp [h]
  · rw [if_neg (neg_ne_zero.mpr h), if_neg h]
    simp only [abs_neg]
    rw [neg_div, rint_neg]
    push_cast
    ring

theorem rne32_le_int (x : ℚ) (n : Int) (hn : |n| ≤ 2 ^ 23) (h : x ≤ n) : rne32 x ≤ n := by
  unfold rne32
  by_cases hx : x = 0
  · rw [if_pos hx]; rw [hx] at h; exact h
  rw [if_neg hx]
  simp only
  generalize he : max (Int.log 2 |x| - 23) (-149) = e
  have hp : (0 : ℚ) < 2 ^ e := by positivity
  by_cases h0 : e ≤ 0
  · obtain ⟨k, hk⟩ := Int.eq_ofNat_of_zero_le (by omega : 0 ≤ -e)
    have ek : e = -(k : Int) := by omega
    have en : (n : ℚ) / 2 ^ e = ((n * 2 ^ k : Int) : ℚ) := by
      rw [ek, zpow_neg, zpow_natCast, div_inv_eq_mul]; push_cast; rfl
    have hm : rint (x / 2 ^ e) ≤ n * 2 ^ k := by
      rw [← rint_intCast (n * 2 ^ k), ← en]
      exact rint_mono (by gcongr)
    have hm' : (rint (x / 2 ^ e) : ℚ) ≤ ((n * 2 ^ k : Int) : ℚ) := by exact_mod_cast hm
    rw [← en, le_div_iff₀ hp] at hm'
    exact hm'
  · have hl : e = Int.log 2 |x| - 23 := by omega
    have hxp : 0 < |x| := abs_pos.mpr hx
    have hb : (2 : ℚ) ^ (Int.log 2 |x|) ≤ |x| := by
      have := Int.zpow_log_le_self (b := 2) (R := ℚ) (by norm_num) hxp
      exact_mod_cast this
    have hlog : Int.log 2 |x| = e + 23 := by omega
    rw [hlog, zpow_add₀ (by norm_num)] at hb
    have h1 : (1 : ℚ) ≤ 2 ^ e := one_le_zpow₀ (by norm_num) (by omega)
    have hn' : |(n : ℚ)| ≤ 2 ^ 23 := by exact_mod_cast hn
    have e23 : (2 : ℚ) ^ (23 : Int) = 8388608 := by norm_num
    have h2 : (2 : ℚ) ≤ 2 ^ e := by
      calc (2 : ℚ) = 2 ^ (1 : Int) := by norm_num
        _ ≤ 2 ^ e := zpow_le_zpow_right₀ (by norm_num) (by omega)
    rw [e23] at hb
    rw [abs_le] at hn'
    have hneg : x < 0 := by
      by_contra hge
      rw [abs_of_nonneg (not_lt.1 hge)] at hb
      norm_num at hn'
      linarith [hn'.2]
    rw [abs_of_neg hneg] at hb
    have hs := (abs_le.1 (rint_spec (x / 2 ^ e))).2
    have : (rint (x / 2 ^ e) : ℚ) * 2 ^ e ≤ (x / 2 ^ e + 1 / 2) * 2 ^ e := mul_le_mul_of_nonneg_right (by linarith) hp.le
    have e1 : (x / 2 ^ e + 1 / 2) * 2 ^ e = x + 2 ^ e / 2 := by field_simp
    rw [e1] at this
    norm_num at hn'
    linarith [hn'.1]

theorem int_le_rne32 (x : ℚ) (n : Int) (hn : |n| ≤ 2 ^ 23) (h : (n : ℚ) ≤ x) : (n : ℚ) ≤ rne32 x := by
  have := rne32_le_int (-x) (-n) (by rwa [abs_neg]) (by push_cast; linarith)
  rw [rne32_neg] at this
  push_cast at this
  linarith

theorem rne32_int (n : Int) (hn : |n| ≤ 2 ^ 23) : rne32 (n : ℚ) = n :=
  le_antisymm (rne32_le_int _ n hn le_rfl) (int_le_rne32 _ n hn le_rfl)

theorem rne32_error (x : ℚ) (h : |x| < 2 ^ 15) : |rne32 x - x| ≤ 1 / 1024 := by
  unfold rne32
  by_cases hx : x = 0
  · rw [if_pos hx, hx]; norm_num
  rw [if_neg hx]
  simp only
  have hxp : 0 < |x| := abs_pos.mpr hx
  have hlog : Int.log 2 |x| < 15 := by
    rw [← Int.lt_zpow_iff_log_lt (by norm_num) hxp]
    exact_mod_cast h
  generalize he : max (Int.log 2 |x| - 23) (-149) = e
  have hp : (0 : ℚ) < 2 ^ e := by positivity
  have he9 : e ≤ -9 := by omega
  have h9 : (2 : ℚ) ^ e ≤ 1 / 512 := by
    calc (2 : ℚ) ^ e ≤ 2 ^ (-9 : Int) := zpow_le_zpow_right₀ (by norm_num) he9
      _ = 1 / 512 := by norm_num
  have hs := rint_spec (x / 2 ^ e)
  have e1 : (rint (x / 2 ^ e) : ℚ) * 2 ^ e - x = ((rint (x / 2 ^ e) : ℚ) - x / 2 ^ e) * 2 ^ e := by field_simp
  rw [e1, abs_mul, abs_of_pos hp]
  calc _ ≤ 1 / 2 * (1 / 512 : ℚ) := mul_le_mul hs h9 hp.le (by norm_num)
    _ = 1 / 1024 := by norm_num

end Verif.Float32
