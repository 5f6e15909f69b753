import Mathlib.Tactic.Linarith
import Mathlib.Tactic.FieldSimp
import Mathlib.Tactic.Ring
import Mathlib.Tactic.NormNum
import Mathlib.Algebra.Order.Field.Basic
import Mathlib.Algebra.Order.Round
import Verif.Model.Float64
import Verif.Spec.Float64

/-!
# binary64 rounding satisfies `GoodRounding`
-/

namespace Verif.Float64

open Verif.Spec.Float64

theorem rint_spec (x : ℚ) : |(rint x : ℚ) - x| ≤ 1 / 2 := by
  have h1 := Int.floor_le x
  have h2 := Int.lt_floor_add_one x
  unfold rint
  simp only
  rw [abs_le]
  split_ifs <;> push_cast <;> constructor <;> linarith

theorem rint_intCast (n : Int) : rint (n : ℚ) = n := by
  unfold rint
  simp

theorem rint_mono {x y : ℚ} (h : x ≤ y) : rint x ≤ rint y := by
  have hf : ⌊x⌋ ≤ ⌊y⌋ := Int.floor_mono h
  have a1 := Int.floor_le x
  have a2 := Int.lt_floor_add_one x
  have b1 := Int.floor_le y
  have b2 := Int.lt_floor_add_one y
  rcases lt_or_eq_of_le hf with hlt | heq
  · have hx : rint x ≤ ⌊x⌋ + 1 := by
      unfold rint; simp only; split_ifs <;> omega
    have hy : ⌊y⌋ ≤ rint y := by
      unfold rint; simp only; split_ifs <;> omega
    omega
  · unfold rint
    simp only
    rw [← heq]
    rw [← heq] at b1 b2
    split_ifs <;> first | omega | linarith

theorem rint_neg (x : ℚ) : rint (-x) = -rint x := by
  by_cases hx : ((⌊x⌋ : Int) : ℚ) = x
  · rw [← hx, ← Int.cast_neg, rint_intCast, rint_intCast]
  · have h1 := Int.floor_le x
    have h2 := Int.lt_floor_add_one x
    have h3 : (⌊x⌋ : ℚ) < x := lt_of_le_of_ne h1 hx
    have hfl : ⌊-x⌋ = -⌊x⌋ - 1 := by
      rw [Int.floor_eq_iff]
      push_cast
      constructor <;> linarith
    unfold rint
    simp only [hfl]
    push_cast
    split_ifs <;> first | omega | linarith

theorem rint_nonneg {x : ℚ} (h : 0 ≤ x) : 0 ≤ rint x := by
  have := rint_mono h
  have e : rint 0 = 0 := by have := rint_intCast 0; simpa using this
  omega

theorem ulpExp_neg (x : ℚ) : ulpExp (-x) = ulpExp x := by simp [ulpExp]

theorem rne64_neg (x : ℚ) : rne64 (-x) = -rne64 x := by
  unfold rne64
  by_cases h : x = 0
  · simp [h]
  · rw [if_neg (neg_ne_zero.mpr h), if_neg h, ulpExp_neg, neg_div, rint_neg]
    push_cast
    ring

theorem rne64_nonneg {x : ℚ} (h : 0 ≤ x) : 0 ≤ rne64 x := by
  unfold rne64
  split_ifs
  · exact le_refl _
  · have : (0:ℚ) < 2 ^ ulpExp x := zpow_pos (by norm_num) _
    have h2 : 0 ≤ rint (x / 2 ^ ulpExp x) := rint_nonneg (by positivity)
    have : (0:ℚ) ≤ (rint (x / 2 ^ ulpExp x) : ℚ) := by exact_mod_cast h2
    positivity

theorem zpow2_mono {a b : Int} (h : a ≤ b) : (2:ℚ) ^ a ≤ 2 ^ b := zpow_le_zpow_right₀ (by norm_num) h

theorem ulpExp_mono {x y : ℚ} (hx : 0 < x) (h : x ≤ y) : ulpExp x ≤ ulpExp y := by
  unfold ulpExp
  rw [abs_of_pos hx, abs_of_pos (lt_of_lt_of_le hx h)]
  have := Int.log_mono_right (b := 2) hx h
  omega

/-- A positive `x` is below the next power of two of its binade (or of the subnormal range). -/
theorem lt_zpow_ulp {x : ℚ} (hx : 0 < x) : x < 2 ^ (ulpExp x + 53) := by
  have h : x < 2 ^ (Int.log 2 x + 1) := by
    have := Int.lt_zpow_succ_log_self (b := 2) (by norm_num) x
    simpa using this
  refine lt_of_lt_of_le h (zpow2_mono ?_)
  unfold ulpExp
  rw [abs_of_pos hx]
  omega

theorem zpow_log_le {x : ℚ} (hx : 0 < x) : (2:ℚ) ^ (Int.log 2 x) ≤ x := by
  have := Int.zpow_log_le_self (b := 2) (by norm_num) hx
  simpa using this

theorem rne64_mono_pos {x y : ℚ} (hx : 0 < x) (h : x ≤ y) : rne64 x ≤ rne64 y := by
  have hy : 0 < y := lt_of_lt_of_le hx h
  have ux : (0:ℚ) < 2 ^ ulpExp x := zpow_pos (by norm_num) _
  have uy : (0:ℚ) < 2 ^ ulpExp y := zpow_pos (by norm_num) _
  unfold rne64
  rw [if_neg hx.ne', if_neg hy.ne']
  rcases lt_or_eq_of_le (ulpExp_mono hx h) with hlt | heq
  · -- different binades: both sides are separated by a power of two
    have hlog : ulpExp y = Int.log 2 y - 52 := by
      unfold ulpExp at *
      rw [abs_of_pos hx, abs_of_pos hy] at hlt
      rw [abs_of_pos hy]
      omega
    have h1 : (rint (x / 2 ^ ulpExp x) : ℚ) * 2 ^ ulpExp x ≤ 2 ^ (ulpExp x + 53) := by
      have : rint (x / 2 ^ ulpExp x) ≤ 2 ^ 53 := by
        have e : rint (((2 ^ 53 : Int)) : ℚ) = 2 ^ 53 := rint_intCast _
        rw [← e]
        apply rint_mono
        rw [div_le_iff₀ ux]
        have := (lt_zpow_ulp hx).le
        rw [zpow_add₀ (by norm_num)] at this
        push_cast
        norm_num at this ⊢
        linarith
      have h' : (rint (x / 2 ^ ulpExp x) : ℚ) ≤ 2 ^ 53 := by exact_mod_cast this
      rw [zpow_add₀ (by norm_num), mul_comm]
      have : (2:ℚ) ^ (53:Int) = 2 ^ 53 := by norm_num
      rw [this]
      exact mul_le_mul_of_nonneg_left h' ux.le
    have h2 : (2:ℚ) ^ (ulpExp y + 52) ≤ rint (y / 2 ^ ulpExp y) * 2 ^ ulpExp y := by
      have : 2 ^ 52 ≤ rint (y / 2 ^ ulpExp y) := by
        have e : rint (((2 ^ 52 : Int)) : ℚ) = 2 ^ 52 := rint_intCast _
        rw [← e]
        apply rint_mono
        rw [le_div_iff₀ uy]
        have := zpow_log_le hy
        have e2 : Int.log 2 y = 52 + ulpExp y := by omega
        rw [e2, zpow_add₀ (by norm_num)] at this
        push_cast
        norm_num at this ⊢
        linarith
      have h' : (2:ℚ) ^ 52 ≤ rint (y / 2 ^ ulpExp y) := by exact_mod_cast this
      rw [zpow_add₀ (by norm_num), mul_comm]
      have : (2:ℚ) ^ (52:Int) = 2 ^ 52 := by norm_num
      rw [this]
      exact mul_le_mul_of_nonneg_right h' uy.le
    exact le_trans h1 (le_trans (zpow2_mono (by omega)) h2)
  · rw [heq]
    have : rint (x / 2 ^ ulpExp y) ≤ rint (y / 2 ^ ulpExp y) :=
      rint_mono (div_le_div_of_nonneg_right h uy.le)
    have h' : (rint (x / 2 ^ ulpExp y) : ℚ) ≤ rint (y / 2 ^ ulpExp y) := by exact_mod_cast this
    exact mul_le_mul_of_nonneg_right h' uy.le

theorem rne64_zero : rne64 0 = 0 := by simp [rne64]

theorem rne64_mono {x y : ℚ} (h : x ≤ y) : rne64 x ≤ rne64 y := by
  rcases lt_trichotomy x 0 with hx | hx | hx
  · rcases lt_trichotomy y 0 with hy | hy | hy
    · have := rne64_mono_pos (x := -y) (y := -x) (by linarith) (by linarith)
      rw [rne64_neg, rne64_neg] at this
      linarith
    · rw [hy, rne64_zero]
      have := rne64_nonneg (x := -x) (by linarith)
      rw [rne64_neg] at this
      linarith
    · have h1 := rne64_nonneg (x := -x) (by linarith)
      rw [rne64_neg] at h1
      have h2 := rne64_nonneg hy.le
      linarith
  · subst hx
    rw [rne64_zero]
    exact rne64_nonneg h
  · exact rne64_mono_pos hx h

theorem rne64_err_pos {x : ℚ} (hx : 0 < x) : |rne64 x - x| ≤ x / 2 ^ 53 + 1 / 2 ^ 200 := by
  have u : (0:ℚ) < 2 ^ ulpExp x := zpow_pos (by norm_num) _
  have e : rne64 x - x = (rint (x / 2 ^ ulpExp x) - x / 2 ^ ulpExp x) * 2 ^ ulpExp x := by
    unfold rne64
    rw [if_neg hx.ne']
    field_simp
  rw [e, abs_mul, abs_of_pos u]
  have h := mul_le_mul_of_nonneg_right (rint_spec (x / 2 ^ ulpExp x)) u.le
  refine le_trans h ?_
  rcases le_total (Int.log 2 x - 52) (-1074) with hs | hn
  · have : ulpExp x = -1074 := by unfold ulpExp; rw [abs_of_pos hx]; omega
    rw [this]
    have h3 : (2:ℚ) ^ (-1074 : Int) ≤ 1 / 2 ^ 200 := by
      have := zpow2_mono (a := -1074) (b := -200) (by norm_num)
      refine le_trans this (le_of_eq ?_)
      rw [zpow_neg, one_div]
      norm_cast
    have : 0 ≤ x / 2 ^ 53 := by positivity
    have : (0:ℚ) < 2 ^ (-1074 : Int) := zpow_pos (by norm_num) _
    linarith
  · have : ulpExp x = Int.log 2 x - 52 := by unfold ulpExp; rw [abs_of_pos hx]; omega
    rw [this, sub_eq_add_neg, zpow_add₀ (by norm_num)]
    have h3 := zpow_log_le hx
    have h4 : (2:ℚ) ^ (-52 : Int) = 1 / 2 ^ 52 := by norm_num
    have h5 : (0:ℚ) < 1 / 2 ^ 200 := by positivity
    rw [h4]
    have : 1 / 2 * ((2:ℚ) ^ Int.log 2 x * (1 / 2 ^ 52)) = 2 ^ Int.log 2 x / 2 ^ 53 := by ring
    rw [this]
    have := div_le_div_of_nonneg_right h3 (by positivity : (0:ℚ) ≤ 2 ^ 53)
    linarith

theorem rne64_int (n : Int) (h : |n| ≤ 2 ^ 53) : rne64 n = n := by
  have pos : ∀ m : Int, 0 < m → m ≤ 2 ^ 53 → rne64 m = m := by
    intro m hm hle
    have hq : (0:ℚ) < m := by exact_mod_cast hm
    unfold rne64
    rw [if_neg hq.ne']
    have h1 : (1:ℚ) ≤ m := by exact_mod_cast hm
    have hlog0 : 0 ≤ Int.log 2 (m:ℚ) := by
      have := Int.log_mono_right (b := 2) (by norm_num : (0:ℚ) < 1) h1
      simpa using this
    have hlogle : Int.log 2 (m:ℚ) ≤ 53 := by
      by_contra hcon
      have h53 : (54 : Int) ≤ Int.log 2 (m:ℚ) := by omega
      have := le_trans (zpow2_mono h53) (zpow_log_le hq)
      have h2 : (m:ℚ) ≤ 2 ^ 53 := by exact_mod_cast hle
      norm_num at this h2
      linarith
    have hu : ulpExp (m:ℚ) = Int.log 2 (m:ℚ) - 52 := by
      unfold ulpExp; rw [abs_of_pos hq]; omega
    rcases eq_or_lt_of_le hlogle with h53 | hlt
    · -- m = 2^53
      have : (m:ℚ) = 2 ^ 53 := by
        apply le_antisymm
        · exact_mod_cast hle
        · have := zpow_log_le hq; rw [h53] at this; norm_num at this ⊢; exact this
      rw [hu, h53, this]
      have e : ((2:ℚ) ^ 53 / 2 ^ ((53:Int) - 52)) = ((2 ^ 52 : Int) : ℚ) := by norm_num
      rw [e, rint_intCast]
      norm_num
    · obtain ⟨k, hk⟩ : ∃ k : Nat, ulpExp (m:ℚ) = -(k:Int) := ⟨(-(ulpExp (m:ℚ))).toNat, by omega⟩
      rw [hk]
      have e : (m:ℚ) / 2 ^ (-(k:Int)) = ((m * 2 ^ k : Int) : ℚ) := by
        rw [zpow_neg, div_inv_eq_mul]; push_cast; rw [zpow_natCast]
      rw [e, rint_intCast, zpow_neg, zpow_natCast]
      push_cast
      field_simp
  rcases lt_trichotomy n 0 with hn | hn | hn
  · have h1 := pos (-n) (by omega) (by rw [abs_of_neg hn] at h; exact h)
    rw [Int.cast_neg, rne64_neg] at h1
    linarith
  · subst hn; simp [rne64]
  · exact pos n hn (by rw [abs_of_pos hn] at h; exact h)

/-- Numbers `k · 2^e` with at most 53 bits are representable. -/
theorem rne64_repr_lt (k e : Int) (hk : 0 < k) (hlt : k < 2 ^ 53) (he : -1074 ≤ e) :
    rne64 ((k:ℚ) * 2 ^ e) = k * 2 ^ e := by
  have hkq : (0:ℚ) < k := by exact_mod_cast hk
  have h2e : (0:ℚ) < 2 ^ e := zpow_pos (by norm_num) _
  have hy : (0:ℚ) < (k:ℚ) * 2 ^ e := by positivity
  have hlog : Int.log 2 ((k:ℚ) * 2 ^ e) < e + 53 := by
    by_contra hcon
    have h1 := le_trans (zpow2_mono (not_lt.mp hcon)) (zpow_log_le hy)
    rw [zpow_add₀ (by norm_num), mul_comm] at h1
    have h3 := le_of_mul_le_mul_right h1 h2e
    have h4 : (k:ℚ) < 2 ^ 53 := by exact_mod_cast hlt
    norm_num at h3 h4
    linarith
  have hu : ulpExp ((k:ℚ) * 2 ^ e) ≤ e := by
    unfold ulpExp; rw [abs_of_pos hy]; omega
  obtain ⟨n, hn⟩ : ∃ n : Nat, e = ulpExp ((k:ℚ) * 2 ^ e) + n := ⟨(e - ulpExp ((k:ℚ) * 2 ^ e)).toNat, by omega⟩
  unfold rne64
  rw [if_neg hy.ne']
  set u := ulpExp ((k:ℚ) * 2 ^ e)
  have hu0 : (2:ℚ) ^ u ≠ 0 := (zpow_pos (by norm_num) _).ne'
  have e1 : (k:ℚ) * 2 ^ e / 2 ^ u = ((k * 2 ^ n : Int) : ℚ) := by
    rw [hn, zpow_add₀ (by norm_num), zpow_natCast]
    push_cast
    field_simp
  rw [e1, rint_intCast, ← e1]
  field_simp

theorem rne64_repr (k e : Int) (hk : |k| ≤ 2 ^ 53) (he : -1074 ≤ e) : rne64 ((k:ℚ) * 2 ^ e) = k * 2 ^ e := by
  have pos : ∀ k : Int, 0 < k → k ≤ 2 ^ 53 → rne64 ((k:ℚ) * 2 ^ e) = k * 2 ^ e := by
    intro k h0 h1
    rcases lt_or_eq_of_le h1 with h | h
    · exact rne64_repr_lt k e h0 h he
    · have := rne64_repr_lt (2 ^ 52) (e + 1) (by norm_num) (by norm_num) (by omega)
      have e1 : ((2 ^ 52 : Int) : ℚ) * 2 ^ (e + 1) = k * 2 ^ e := by
        rw [h, zpow_add₀ (by norm_num)]; push_cast; ring
      rwa [e1] at this
  rcases lt_trichotomy k 0 with h | h | h
  · have := pos (-k) (by omega) (by rw [abs_of_neg h] at hk; exact hk)
    rw [Int.cast_neg, neg_mul, rne64_neg] at this
    linarith
  · subst h; simp [rne64]
  · exact pos k h (by rw [abs_of_pos h] at hk; exact hk)

/-- Rounding twice is rounding once: every result is a double. -/
theorem rne64_idem (x : ℚ) : rne64 (rne64 x) = rne64 x := by
  by_cases hx : x = 0
  · subst hx; simp [rne64]
  have e : rne64 x = (rint (x / 2 ^ ulpExp x) : ℚ) * 2 ^ ulpExp x := by unfold rne64; rw [if_neg hx]
  rw [e]
  apply rne64_repr
  · have pos : ∀ y : ℚ, 0 < y → |rint (y / 2 ^ ulpExp y)| ≤ 2 ^ 53 := by
      intro y hy
      have u : (0:ℚ) < 2 ^ ulpExp y := zpow_pos (by norm_num) _
      rw [abs_of_nonneg (rint_nonneg (by positivity))]
      have e : rint (((2 ^ 53 : Int)) : ℚ) = 2 ^ 53 := rint_intCast _
      rw [← e]
      apply rint_mono
      rw [div_le_iff₀ u]
      have := (lt_zpow_ulp hy).le
      rw [zpow_add₀ (by norm_num)] at this
      push_cast
      norm_num at this ⊢
      linarith
    rcases lt_or_gt_of_ne hx with h | h
    · have := pos (-x) (by linarith)
      rwa [ulpExp_neg, neg_div, rint_neg, abs_neg] at this
    · exact pos x h
  · unfold ulpExp; omega

/-- IEEE binary64 rounding to nearest even is a good rounding. -/
theorem rne64_good : GoodRounding rne64 where
  mono _ _ h := rne64_mono h
  int := rne64_int
  neg := rne64_neg
  err := by
    intro x _
    rcases lt_trichotomy x 0 with hx | hx | hx
    · have := rne64_err_pos (x := -x) (by linarith)
      rw [rne64_neg] at this
      rw [abs_of_neg hx]
      have e : -rne64 x - -x = -(rne64 x - x) := by ring
      rw [e, abs_neg] at this
      exact this
    · subst hx; simp [rne64]
    · rw [abs_of_pos hx]; exact rne64_err_pos hx

/-- Exact arithmetic is a good rounding. -/
theorem id_good : GoodRounding id where
  mono _ _ h := h
  int _ _ := rfl
  neg _ := rfl
  err := by intro x _; simp; positivity

end Verif.Float64
