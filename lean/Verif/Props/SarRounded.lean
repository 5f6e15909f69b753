import Verif.Model.SarRounded
import Verif.Spec.SarDisplay
import Verif.Lemmas.Rounded

/-!
# The grey levels of SAR images are right in single precision
-/

namespace Verif.Props.SarRounded

open Verif.SarRounded Verif.Spec.SarDisplay
open Verif.Rounded (rint)

/-! ## Rounding -/

theorem rint_int (n : Int) : rint (n : ℝ) = n := by simp [rint]

theorem rint_le {x y : ℝ} (h : x ≤ y) : rint x ≤ rint y := by
  have hf : ⌊x⌋ ≤ ⌊y⌋ := Int.floor_le_floor h
  rcases lt_or_eq_of_le hf with hlt | heq
  · have a : rint x ≤ ⌊x⌋ + 1 := by
      simp only [rint]
      split_ifs <;> omega
    have b : ⌊y⌋ ≤ rint y := by
      simp only [rint]
      split_ifs <;> omega
    omega
  · simp only [rint, heq]
    split_ifs <;> first | omega | (exfalso; linarith)

theorem rint_nonneg {x : ℝ} (h : 0 ≤ x) : 0 ≤ rint x := by
  have := rint_le h
  have e := rint_int 0
  simp only [Int.cast_zero] at e
  omega

theorem rint_neg (x : ℝ) : rint (-x) = -rint x := by
  have h1 : ∀ y : ℝ, (⌊y⌋ : ℝ) ≤ y ∧ y < ⌊y⌋ + 1 := fun y => ⟨Int.floor_le y, Int.lt_floor_add_one y⟩
  by_cases hi : (⌊x⌋ : ℝ) = x
  · have : rint x = ⌊x⌋ := by rw [← hi, rint_int]; simp
    rw [this, ← hi]
    have := rint_int (-⌊x⌋)
    push_cast at this
    simpa using this
  · have hf : ⌊-x⌋ = -⌊x⌋ - 1 := by
      rw [Int.floor_eq_iff]
      have a := h1 x
      have b : (⌊x⌋ : ℝ) < x := lt_of_le_of_ne a.1 hi
      push_cast
      constructor <;> linarith
    simp only [rint, hf]
    push_cast
    split_ifs <;> first | omega | (exfalso; linarith)

section
variable (p : Nat) (q : Int)

/-- The exponent of the last bit. -/
noncomputable def lastBit (x : ℝ) : Int := max (Int.log 2 |x| - p) q

theorem nearest_eq {x : ℝ} (h : x ≠ 0) : nearest p q x = rint (x / 2 ^ lastBit p q x) * 2 ^ lastBit p q x := by
  unfold nearest
  rw [if_neg h]
  rfl

theorem two_le {a b : Int} (h : a ≤ b) : (2 : ℝ) ^ a ≤ 2 ^ b := zpow_le_zpow_right₀ (by norm_num) h

theorem two_pos (a : Int) : (0 : ℝ) < 2 ^ a := zpow_pos (by norm_num) _

theorem log_le {x : ℝ} (hx : 0 < x) : (2 : ℝ) ^ Int.log 2 x ≤ x := by
  have := Int.zpow_log_le_self (b := 2) (by norm_num) hx
  simpa using this

theorem lt_log (x : ℝ) : x < (2 : ℝ) ^ (Int.log 2 x + 1) := by
  have := Int.lt_zpow_succ_log_self (b := 2) (by norm_num) x
  simpa using this

theorem nearest_neg (x : ℝ) : nearest p q (-x) = -nearest p q x := by
  by_cases h : x = 0
  · simp [nearest, h]
  · rw [nearest_eq p q h, nearest_eq p q (neg_ne_zero.2 h)]
    have e : lastBit p q (-x) = lastBit p q x := by simp [lastBit]
    rw [e, neg_div, rint_neg]
    push_cast
    ring

theorem nearest_nonneg {x : ℝ} (h : 0 ≤ x) : 0 ≤ nearest p q x := by
  by_cases h0 : x = 0
  · simp [nearest, h0]
  · rw [nearest_eq p q h0]
    have h2 : 0 ≤ rint (x / 2 ^ lastBit p q x) := rint_nonneg (div_nonneg h (two_pos _).le)
    have h3 : (0 : ℝ) ≤ (rint (x / 2 ^ lastBit p q x) : ℝ) := by exact_mod_cast h2
    exact mul_nonneg h3 (two_pos _).le

theorem nearest_mono_pos {x y : ℝ} (hx : 0 < x) (h : x ≤ y) : nearest p q x ≤ nearest p q y := by
  have hy : 0 < y := lt_of_lt_of_le hx h
  rw [nearest_eq p q hx.ne', nearest_eq p q hy.ne']
  have hl := Int.log_mono_right (b := 2) hx h
  have hle : lastBit p q x ≤ lastBit p q y := by
    simp only [lastBit, abs_of_pos hx, abs_of_pos hy]
    omega
  have ux := two_pos (lastBit p q x)
  have uy := two_pos (lastBit p q y)
  rcases lt_or_eq_of_le hle with hlt | heq
  · have hlog : lastBit p q y = Int.log 2 y - p := by
      simp only [lastBit, abs_of_pos hx, abs_of_pos hy] at *
      omega
    have h1 : (rint (x / 2 ^ lastBit p q x) : ℝ) * 2 ^ lastBit p q x ≤ 2 ^ (lastBit p q x + (p + 1)) := by
      have : rint (x / 2 ^ lastBit p q x) ≤ 2 ^ (p + 1) := by
        have e := rint_int (2 ^ (p + 1))
        rw [← e]
        apply rint_le
        rw [div_le_iff₀ ux]
        have := lt_log x
        have h2 : x ≤ 2 ^ (lastBit p q x + (p + 1)) := by
          refine this.le.trans (two_le ?_)
          simp only [lastBit, abs_of_pos hx]
          omega
        rw [zpow_add₀ (by norm_num), mul_comm] at h2
        push_cast
        exact_mod_cast h2
      have h' : (rint (x / 2 ^ lastBit p q x) : ℝ) ≤ 2 ^ (p + 1) := by exact_mod_cast this
      rw [zpow_add₀ (by norm_num), mul_comm]
      refine mul_le_mul_of_nonneg_left ?_ ux.le
      exact_mod_cast h'
    have h2 : (2 : ℝ) ^ (lastBit p q y + p) ≤ rint (y / 2 ^ lastBit p q y) * 2 ^ lastBit p q y := by
      have : 2 ^ p ≤ rint (y / 2 ^ lastBit p q y) := by
        have e := rint_int (2 ^ p)
        rw [← e]
        apply rint_le
        rw [le_div_iff₀ uy]
        have := log_le hy
        rw [show Int.log 2 y = p + lastBit p q y by omega, zpow_add₀ (by norm_num)] at this
        push_cast
        exact_mod_cast this
      have h' : (2 : ℝ) ^ p ≤ rint (y / 2 ^ lastBit p q y) := by exact_mod_cast this
      rw [zpow_add₀ (by norm_num), mul_comm]
      refine mul_le_mul_of_nonneg_right ?_ uy.le
      exact_mod_cast h'
    exact h1.trans ((two_le (by omega)).trans h2)
  · rw [heq]
    have : rint (x / 2 ^ lastBit p q y) ≤ rint (y / 2 ^ lastBit p q y) := rint_le (div_le_div_of_nonneg_right h uy.le)
    have h' : (rint (x / 2 ^ lastBit p q y) : ℝ) ≤ rint (y / 2 ^ lastBit p q y) := by exact_mod_cast this
    exact mul_le_mul_of_nonneg_right h' uy.le

theorem nearest_mono {x y : ℝ} (h : x ≤ y) : nearest p q x ≤ nearest p q y := by
  have neg : ∀ z : ℝ, z ≤ 0 → nearest p q z ≤ 0 := by
    intro z hz
    have := nearest_nonneg p q (x := -z) (by linarith)
    rw [nearest_neg] at this
    linarith
  rcases le_or_gt x 0 with hx | hx
  · rcases lt_or_ge y 0 with hy | hy
    · have := nearest_mono_pos p q (x := -y) (y := -x) (by linarith) (by linarith)
      rw [nearest_neg, nearest_neg] at this
      linarith
    · exact (neg x hx).trans (nearest_nonneg p q hy)
  · exact nearest_mono_pos p q hx h

theorem nearest_err {x : ℝ} (h : (2 : ℝ) ^ (q + p) ≤ |x|) : |nearest p q x - x| ≤ |x| / 2 ^ (p + 1) := by
  have hp : 0 < |x| := lt_of_lt_of_le (two_pos _) h
  have hx : x ≠ 0 := abs_pos.1 hp
  have hl : q + p ≤ Int.log 2 |x| := by
    rw [← Int.zpow_le_iff_le_log (by norm_num) hp]
    simpa using h
  have hb : lastBit p q x = Int.log 2 |x| - p := by simp only [lastBit]; omega
  have u := two_pos (lastBit p q x)
  have e : nearest p q x - x = (rint (x / 2 ^ lastBit p q x) - x / 2 ^ lastBit p q x) * 2 ^ lastBit p q x := by
    rw [nearest_eq p q hx]
    field_simp
  rw [e, abs_mul, abs_of_pos u]
  refine (mul_le_mul_of_nonneg_right (Verif.Lemmas.Rounded.rint_spec (x / 2 ^ lastBit p q x)) u.le).trans ?_
  have h1 := log_le hp
  rw [hb, zpow_sub₀ (by norm_num)]
  rw [pow_succ, zpow_natCast]
  have h2 : (0 : ℝ) < 2 ^ p := by positivity
  rw [show |x| / (2 ^ p * 2) = 1 / 2 * (|x| / 2 ^ p) by field_simp]
  exact mul_le_mul_of_nonneg_left (div_le_div_of_nonneg_right h1 h2.le) (by norm_num)

end

/-- `np.float32` and `np.float64` are roundings to single precision or better, and so is no rounding. -/
theorem nearest_single (p : Nat) (q : Int) (hp : 23 ≤ p) (hq : q + p ≤ -126) : RoundsSingle (nearest p q) := by
  refine ⟨by simp [nearest], fun _ _ => nearest_mono p q, fun x h _ => ?_⟩
  refine (nearest_err p q ?_).trans ?_
  · refine le_trans (two_le hq) (le_trans (le_of_eq ?_) h)
    rw [zpow_neg, one_div]
    norm_cast
  · refine div_le_div_of_nonneg_left (abs_nonneg x) (by positivity) ?_
    exact pow_le_pow_right₀ (by norm_num) (by omega)

theorem single_rounds : RoundsSingle single := nearest_single 23 (-149) (by norm_num) (by norm_num)

theorem double_rounds : RoundsSingle Verif.Rounded.double := nearest_single 52 (-1074) (by norm_num) (by norm_num)

theorem id_rounds : RoundsSingle id := ⟨rfl, fun _ _ h => h, fun x _ _ => by simp; positivity⟩

/-! ## Errors -/

theorem w_pos : (0 : ℝ) < 1 - 1 / 2 ^ 24 := by norm_num

theorem w_le (n : Nat) : (1 - 1 / 2 ^ 24 : ℝ) ^ n ≤ 1 := pow_le_one₀ w_pos.le (by norm_num)

theorem w_ge (n : Nat) : 1 - (n : ℝ) / 2 ^ 24 ≤ (1 - 1 / 2 ^ 24 : ℝ) ^ n := by
  have := one_add_mul_le_pow (a := (-1 / 2 ^ 24 : ℝ)) (by norm_num) n
  rw [show (1 + -1 / 2 ^ 24 : ℝ) = 1 - 1 / 2 ^ 24 by norm_num] at this
  linarith

theorem _root_.Verif.Spec.SarDisplay.Within.refl (x : ℝ) : Within 0 x x := by simp [Within]

theorem _root_.Verif.Spec.SarDisplay.Within.trans {n m : Nat} {x y z : ℝ} (h : Within n x y) (k : Within m y z) : Within (n + m) x z := by
  have a := pow_nonneg w_pos.le n
  have b := pow_nonneg w_pos.le m
  unfold Within at *
  rw [pow_add]
  constructor
  · rw [← mul_assoc]
    exact (mul_le_mul_of_nonneg_right h.1 b).trans k.1
  · rw [mul_comm (_ ^ n), ← mul_assoc]
    exact (mul_le_mul_of_nonneg_right k.2 a).trans h.2

theorem _root_.Verif.Spec.SarDisplay.Within.weaken {n m : Nat} {x y : ℝ} (hx : 0 ≤ x) (hy : 0 ≤ y) (h : Within n x y) (hm : n ≤ m) : Within m x y := by
  have hw : (1 - 1 / 2 ^ 24 : ℝ) ^ m ≤ (1 - 1 / 2 ^ 24) ^ n := pow_le_pow_of_le_one w_pos.le (by norm_num) hm
  exact ⟨(mul_le_mul_of_nonneg_left hw hx).trans h.1, (mul_le_mul_of_nonneg_left hw hy).trans h.2⟩

theorem _root_.Verif.Spec.SarDisplay.Within.mul {n m : Nat} {x y a b : ℝ} (hx : 0 ≤ x) (hy : 0 ≤ y) (ha : 0 ≤ a) (hb : 0 ≤ b) (h : Within n x y) (k : Within m a b) : Within (n + m) (x * a) (y * b) := by
  have wn := pow_nonneg w_pos.le n
  have wm := pow_nonneg w_pos.le m
  unfold Within at *
  rw [pow_add]
  constructor
  · have := mul_le_mul h.1 k.1 (mul_nonneg ha wm) hy
    linarith
  · have := mul_le_mul h.2 k.2 (mul_nonneg hb wm) hx
    linarith

theorem _root_.Verif.Spec.SarDisplay.Within.const {n : Nat} {x y c : ℝ} (hx : 0 ≤ x) (hy : 0 ≤ y) (hc : 0 ≤ c) (h : Within n x y) : Within n (c * x) (c * y) := by
  have := Within.mul hc hc hx hy (Within.refl c) h
  rwa [Nat.zero_add] at this

theorem _root_.Verif.Spec.SarDisplay.Within.add {n : Nat} {x y a b : ℝ} (h : Within n x y) (k : Within n a b) : Within n (x + a) (y + b) := by
  unfold Within at *
  constructor
  · linarith [h.1, k.1]
  · linarith [h.2, k.2]

theorem _root_.Verif.Spec.SarDisplay.Within.inv {n : Nat} {x y : ℝ} (hx : 0 < x) (hy : 0 < y) (h : Within n x y) : Within n (1 / x) (1 / y) := by
  unfold Within at *
  constructor
  · rw [div_mul_eq_mul_div, one_mul, div_le_div_iff₀ hx hy]
    linarith [h.2]
  · rw [div_mul_eq_mul_div, one_mul, div_le_div_iff₀ hy hx]
    linarith [h.1]

theorem _root_.Verif.Spec.SarDisplay.Within.sqrt {n : Nat} {x y : ℝ} (hx : 0 ≤ x) (hy : 0 ≤ y) (h : Within n x y) : Within n √x √y := by
  have key : ∀ a b : ℝ, 0 ≤ a → a * (1 - 1 / 2 ^ 24) ^ n ≤ b → √a * (1 - 1 / 2 ^ 24) ^ n ≤ √b := by
    intro a b ha hab
    have wn := pow_nonneg w_pos.le n
    apply Real.le_sqrt_of_sq_le
    rw [mul_pow, Real.sq_sqrt ha]
    refine le_trans ?_ hab
    refine mul_le_mul_of_nonneg_left ?_ ha
    rw [sq]
    exact mul_le_of_le_one_left wn (w_le n)
  exact ⟨key x y hx h.1, key y x hy h.2⟩

/-- Numbers that are 0 or of ordinary size. -/
def Rg (lo hi : Nat) (x : ℝ) : Prop := x = 0 ∨ 1 / 2 ^ lo ≤ x ∧ x ≤ 2 ^ hi

theorem Rg.nonneg {lo hi : Nat} {x : ℝ} (h : Rg lo hi x) : 0 ≤ x := by
  rcases h with rfl | h
  · exact le_rfl
  · exact le_trans (by positivity) h.1

theorem Rg.moderate {lo hi k : Nat} {x : ℝ} (h : Rg lo hi x) (h1 : lo ≤ k) (h2 : hi ≤ k) : Moderate k x := by
  refine h.imp id fun h => ⟨le_trans ?_ h.1, h.2.trans (pow_le_pow_right₀ (by norm_num) h2)⟩
  exact div_le_div_of_nonneg_left (by norm_num) (by positivity) (pow_le_pow_right₀ (by norm_num) h1)

theorem Rg.mul {a b c d : Nat} {x y : ℝ} (h : Rg a b x) (k : Rg c d y) : Rg (a + c) (b + d) (x * y) := by
  rcases h with rfl | h
  · exact .inl (zero_mul _)
  · rcases k with rfl | k
    · exact .inl (mul_zero _)
    · refine .inr ⟨?_, ?_⟩
      · have := mul_le_mul h.1 k.1 (by positivity) (le_trans (by positivity) h.1)
        rw [pow_add]
        refine le_trans (le_of_eq ?_) this
        field_simp
      · rw [pow_add]
        exact mul_le_mul h.2 k.2 (le_trans (by positivity) k.1) (by positivity)

theorem Rg.within {lo hi n : Nat} {x y : ℝ} (h : Rg lo hi x) (hn : n ≤ 100) (hy : 0 ≤ y) (k : Within n x y) : Rg (lo + 1) (hi + 1) y := by
  have hw : (1 / 2 : ℝ) ≤ (1 - 1 / 2 ^ 24) ^ n := by
    refine le_trans ?_ (w_ge n)
    have : (n : ℝ) ≤ 100 := by exact_mod_cast hn
    have e : (2 : ℝ) ^ 24 = 16777216 := by norm_num
    rw [e]
    linarith [div_le_div_of_nonneg_right this (show (0 : ℝ) ≤ 16777216 by norm_num), show (100 : ℝ) / 16777216 ≤ 1 / 2 by norm_num]
  rcases h with rfl | h
  · left
    have := k.2
    have : y * (1 / 2) ≤ 0 := (mul_le_mul_of_nonneg_left hw hy).trans this
    linarith
  · right
    have hx : 0 ≤ x := le_trans (by positivity) h.1
    have h1 := (mul_le_mul_of_nonneg_left hw hx).trans k.1
    have h2 := (mul_le_mul_of_nonneg_left hw hy).trans k.2
    rw [pow_succ, pow_succ]
    constructor
    · rw [show (1 : ℝ) / (2 ^ lo * 2) = 1 / 2 ^ lo * (1 / 2) by field_simp]
      linarith [h.1]
    · linarith [h.2]

section
variable {fl : ℝ → ℝ} (hf : RoundsSingle fl)
include hf

theorem round_nonneg {x : ℝ} (h : 0 ≤ x) : 0 ≤ fl x := hf.zero ▸ hf.mono 0 x h

theorem Rg.round {lo hi : Nat} {x : ℝ} (h : Rg lo hi x) (h1 : lo ≤ 126) (h2 : hi ≤ 127) : Within 1 x (fl x) := by
  rcases h with rfl | h
  · rw [hf.zero]; simp [Within]
  · have hx : 0 < x := lt_of_lt_of_le (by positivity) h.1
    have e := hf.err x (by
        rw [abs_of_pos hx]
        refine le_trans ?_ h.1
        exact div_le_div_of_nonneg_left (by norm_num) (by positivity) (pow_le_pow_right₀ (by norm_num) h1)) (by
        rw [abs_of_pos hx]
        exact h.2.trans (pow_le_pow_right₀ (by norm_num) h2))
    rw [abs_of_pos hx, abs_le] at e
    unfold Within
    rw [pow_one]
    constructor
    · linarith [e.1, show x * (1 - 1 / 2 ^ 24) = x - x / 2 ^ 24 by ring]
    · have : fl x ≤ x * (1 + 1 / 2 ^ 24) := by linarith [e.2, show x * (1 + 1 / 2 ^ 24) = x + x / 2 ^ 24 by ring]
      refine (mul_le_mul_of_nonneg_right this w_pos.le).trans ?_
      rw [mul_assoc]
      refine mul_le_of_le_one_right hx.le (by norm_num)

/-- A value that is right to `n` roundings, rounded once more. -/
theorem Rg.more {lo hi n : Nat} {x y : ℝ} (h : Rg lo hi x) (hn : n ≤ 100) (hy : 0 ≤ y) (k : Within n x y) (h1 : lo ≤ 125) (h2 : hi ≤ 126) : Within (n + 1) x (fl y) :=
  k.trans (Rg.round hf (h.within hn hy k) (by omega) (by omega))
end

/-- All roundings of an arithmetic are to single precision or better. -/
structure Good (A : Arith) : Prop where
  elem : RoundsSingle A.elem
  scal : RoundsSingle A.scal
  cast : RoundsSingle A.cast
  prod : RoundsSingle A.prod

section
variable {A : Arith} (hA : Good A)
include hA

theorem power_nonneg (p : ℝ × ℝ) : 0 ≤ power A p :=
  round_nonneg hA.elem (add_nonneg (round_nonneg hA.elem (mul_self_nonneg _)) (round_nonneg hA.elem (mul_self_nonneg _)))

omit hA in
theorem power_range {k : Nat} {p : ℝ × ℝ} (h : Ordinary k p) : Rg (2 * k) (2 * k) (p.1 * p.1) ∧ Rg (2 * k) (2 * k) (p.2 * p.2) ∧ Rg (2 * k) (2 * k + 1) (powerOf p) := by
  have key : ∀ c, (c = 0 ∨ 1 / 2 ^ k ≤ |c| ∧ |c| ≤ 2 ^ k) → Rg (2 * k) (2 * k) (c * c) := by
    intro c hc
    have : Rg k k |c| := by
      rcases hc with rfl | hc
      · exact .inl abs_zero
      · exact .inr hc
    have := this.mul this
    rw [abs_mul_abs_self, ← two_mul] at this
    exact this
  have h1 := key _ (h p.1 (.inl rfl))
  have h2 := key _ (h p.2 (.inr rfl))
  refine ⟨h1, h2, ?_⟩
  unfold powerOf
  rw [sq, sq]
  have n1 := h1.nonneg
  have n2 := h2.nonneg
  have e : (2 : ℝ) ^ (2 * k + 1) = 2 ^ (2 * k) + 2 ^ (2 * k) := by rw [pow_succ]; ring
  have pos : (0 : ℝ) ≤ 2 ^ (2 * k) := by positivity
  rcases h1 with z1 | h1
  · rcases h2 with z2 | h2
    · exact .inl (by rw [z1, z2, add_zero])
    · exact .inr ⟨by rw [z1, zero_add]; exact h2.1, by rw [z1, zero_add, e]; linarith [h2.2]⟩
  · refine .inr ⟨by linarith [h1.1], ?_⟩
    rw [e]
    rcases h2 with z2 | h2
    · rw [z2]; linarith [h1.2]
    · linarith [h1.2, h2.2]

theorem power_right {k : Nat} (hk : k ≤ 62) {p : ℝ × ℝ} (h : Ordinary k p) : Within 2 (powerOf p) (power A p) := by
  obtain ⟨h1, h2, h3⟩ := power_range h
  have w1 := h1.round hA.elem (by omega) (by omega)
  have w2 := h2.round hA.elem (by omega) (by omega)
  have w := w1.add w2
  have e : powerOf p = p.1 * p.1 + p.2 * p.2 := by unfold powerOf; ring
  rw [← e] at w
  exact h3.more hA.elem (by norm_num) (add_nonneg (round_nonneg hA.elem h1.nonneg) (round_nonneg hA.elem h2.nonneg)) w (by omega) (by omega)

omit hA in
theorem sqrt_range {k : Nat} {x : ℝ} (h : Rg (2 * k) (2 * k + 1) x) : Rg k (k + 1) √x := by
  rcases h with rfl | h
  · exact .inl Real.sqrt_zero
  · refine .inr ⟨?_, ?_⟩
    · apply Real.le_sqrt_of_sq_le
      rw [div_pow, one_pow, ← pow_mul, mul_comm k]
      exact h.1
    · rw [Real.sqrt_le_left (by positivity), ← pow_mul]
      exact h.2.trans (pow_le_pow_right₀ (by norm_num) (by omega))

theorem root_right {k : Nat} (hk : k ≤ 62) {p : ℝ × ℝ} (h : Ordinary k p) : Within 3 (magnitudeOf p) (root A (power A p)) := by
  obtain ⟨-, -, h3⟩ := power_range h
  have w := (power_right hA hk h).sqrt h3.nonneg (power_nonneg hA p)
  unfold root
  rw [abs_of_nonneg (power_nonneg hA p)]
  exact (sqrt_range h3).more hA.elem (by norm_num) (Real.sqrt_nonneg _) w (by omega) (by omega)

theorem root_nonneg (v : ℝ) : 0 ≤ root A v := round_nonneg hA.elem (Real.sqrt_nonneg _)

theorem factor_nonneg {scale m : ℝ} (hs : 0 ≤ scale) (hm : 0 ≤ m) : 0 ≤ factor A scale m :=
  round_nonneg hA.scal (mul_nonneg (by norm_num) (round_nonneg hA.scal (div_nonneg zero_le_one (round_nonneg hA.scal (mul_nonneg hs hm)))))

theorem grey_mono {scale m v v' : ℝ} (hs : 0 ≤ scale) (hm : 0 ≤ m) (h : v ≤ v') : grey A scale m v ≤ grey A scale m v' := by
  have hk := round_nonneg hA.cast (factor_nonneg hA hs hm)
  exact min_le_min_right _ (max_le_max_right _ (hA.prod.mono _ _ (mul_le_mul_of_nonneg_left h hk)))

omit hA in
theorem grey_range (A : Arith) (scale m v : ℝ) : 0 ≤ grey A scale m v ∧ grey A scale m v ≤ 255 :=
  ⟨le_min (le_max_right _ _) (by norm_num), min_le_right _ _⟩

omit hA in
theorem clip_right {n : Nat} {x y : ℝ} (hx : 0 ≤ x) (hy : 0 ≤ y) (h : Within n x y) : |Verif.Sar.clip y 0 255 - min 255 x| ≤ 255 * n / 2 ^ 24 := by
  have wn := pow_nonneg w_pos.le n
  have hw := w_ge n
  have key : ∀ a b : ℝ, 0 ≤ a → a * (1 - 1 / 2 ^ 24) ^ n ≤ b → min a 255 - min b 255 ≤ 255 * n / 2 ^ 24 := by
    intro a b ha hab
    have hc : min a 255 * (1 - 1 / 2 ^ 24) ^ n ≤ min b 255 := by
      refine le_min ?_ ?_
      · exact (mul_le_mul_of_nonneg_right (min_le_left _ _) wn).trans hab
      · exact (mul_le_of_le_one_right (le_min ha (by norm_num)) (w_le n)).trans (min_le_right _ _)
    have h0 : 0 ≤ min a 255 := le_min ha (by norm_num)
    have h1 : min a 255 ≤ 255 := min_le_right _ _
    have h2 : min a 255 * (1 - n / 2 ^ 24) ≤ min a 255 * (1 - 1 / 2 ^ 24) ^ n := mul_le_mul_of_nonneg_left hw h0
    have h3 : min a 255 * ((n : ℝ) / 2 ^ 24) ≤ 255 * (n / 2 ^ 24) := mul_le_mul_of_nonneg_right h1 (by positivity)
    have e : (255 : ℝ) * n / 2 ^ 24 = 255 * (n / 2 ^ 24) := by ring
    rw [e]
    linarith
  unfold Verif.Sar.clip
  rw [max_eq_left hy, min_comm 255 x, abs_le]
  constructor
  · linarith [key x y hx h.1]
  · exact key y x hy h.2

theorem grey_right {g h lo hi : Nat} {scale m m' v v' : ℝ} (hs : 1 ≤ scale ∧ scale ≤ 16) (hm : 1 / 2 ^ 60 ≤ m ∧ m ≤ 2 ^ 60) (hg : g ≤ 50) (hm' : 0 ≤ m') (wm : Within g m m')
    (hv : Rg lo hi v) (hlo : lo ≤ 60) (hhi : hi ≤ 57) (hh : h ≤ 40) (hv' : 0 ≤ v') (wv : Within h v v') : |grey A scale m' v' - level scale m v| ≤ 255 * (g + h + 5 : Nat) / 2 ^ 24 := by
  have pos : 0 < m := lt_of_lt_of_le (by positivity) hm.1
  have spos : 0 < scale := by linarith [hs.1]
  have mpos : 0 < m' := by
    have := wm.1
    have h1 := pow_pos w_pos g
    exact lt_of_lt_of_le (mul_pos pos h1) this
  have r0 : Rg 60 64 (scale * m) := by
    have : Rg 0 4 scale := .inr ⟨by simpa using hs.1, by norm_num; exact hs.2⟩
    have := this.mul (show Rg 60 60 m from .inr hm)
    simpa using this
  have w1 := r0.more hA.scal (by omega) (mul_nonneg spos.le hm') (wm.const pos.le hm' spos.le) (by norm_num) (by norm_num)
  have p1 : 0 < A.scal (scale * m') := lt_of_lt_of_le (mul_pos (mul_pos spos pos) (pow_pos w_pos _)) w1.1
  have sm : 0 < scale * m := mul_pos spos pos
  have r1 : Rg 64 60 (1 / (scale * m)) := by
    rcases r0 with h0 | h0
    · exact absurd h0 sm.ne'
    · refine .inr ⟨?_, ?_⟩
      · exact one_div_le_one_div_of_le sm h0.2
      · have := one_div_le_one_div_of_le (by positivity) h0.1
        simpa using this
  have w2 := r1.more hA.scal (by omega) (by positivity) (w1.inv sm p1) (by norm_num) (by norm_num)
  have n2 := round_nonneg hA.scal (x := 1 / A.scal (scale * m')) (by positivity)
  have r2 : Rg 64 68 (255 * (1 / (scale * m))) := by
    have : Rg 0 8 (255 : ℝ) := .inr ⟨by norm_num, by norm_num⟩
    have := this.mul r1
    simpa using this
  have w3 := r2.more hA.scal (by omega) (mul_nonneg (by norm_num) n2) (w2.const (by positivity) n2 (by norm_num : (0 : ℝ) ≤ 255)) (by norm_num) (by norm_num)
  have n3 := round_nonneg hA.scal (mul_nonneg (by norm_num : (0 : ℝ) ≤ 255) n2)
  have w4 := r2.more hA.cast (by omega) n3 w3 (by norm_num) (by norm_num)
  have n4 := round_nonneg hA.cast n3
  have w5 := Within.mul r2.nonneg n4 hv.nonneg hv' w4 wv
  have w6 := (r2.mul hv).more hA.prod (by omega) (mul_nonneg n4 hv') w5 (by omega) (by omega)
  have n6 := round_nonneg hA.prod (mul_nonneg n4 hv')
  have := clip_right (mul_nonneg r2.nonneg hv.nonneg) n6 w6
  have e : level scale m v = min 255 (255 * (1 / (scale * m)) * v) := by
    unfold level
    congr 1
    ring
  rw [e]
  refine this.trans (le_of_eq ?_)
  congr 2
  norm_cast
  omega

end

/-! ## Means in floating point -/

theorem total_right {fl : ℝ → ℝ} (hf : RoundsSingle fl) : ∀ t : Order, (∀ x ∈ t.leaves, Moderate 60 x) → t.depth ≤ 38 →
    Within t.depth t.leaves.sum (t.total fl) ∧ 0 ≤ t.total fl ∧ Rg 60 (60 + t.depth) t.leaves.sum
  | .leaf x, h, _ => by
    have hx : Rg 60 60 x := h x (by simp [Order.leaves])
    simp only [Order.leaves, Order.depth, Order.total, List.sum_cons, List.sum_nil, add_zero]
    exact ⟨Within.refl x, hx.nonneg, hx⟩
  | .node a b, h, hd => by
    simp only [Order.depth] at hd
    obtain ⟨a1, a2, a3⟩ := total_right hf a (fun x hx => h x (by simp [Order.leaves, hx])) (by omega)
    obtain ⟨b1, b2, b3⟩ := total_right hf b (fun x hx => h x (by simp [Order.leaves, hx])) (by omega)
    simp only [Order.leaves, Order.depth, Order.total, List.sum_append]
    have w := (a1.weaken a3.nonneg a2 (le_max_left _ b.depth)).add (b1.weaken b3.nonneg b2 (le_max_right a.depth _))
    have rg : Rg 60 (60 + (max a.depth b.depth + 1)) (a.leaves.sum + b.leaves.sum) := by
      have na := a3.nonneg
      have nb := b3.nonneg
      have e : (2 : ℝ) ^ (60 + (max a.depth b.depth + 1)) = 2 ^ (60 + max a.depth b.depth) + 2 ^ (60 + max a.depth b.depth) := by rw [← add_assoc, pow_succ]; ring
      have ha : (2 : ℝ) ^ (60 + a.depth) ≤ 2 ^ (60 + max a.depth b.depth) := pow_le_pow_right₀ (by norm_num) (by omega)
      have hb : (2 : ℝ) ^ (60 + b.depth) ≤ 2 ^ (60 + max a.depth b.depth) := pow_le_pow_right₀ (by norm_num) (by omega)
      have pos : (0 : ℝ) ≤ 2 ^ (60 + max a.depth b.depth) := by positivity
      rcases a3 with za | a3
      · rcases b3 with zb | b3
        · exact .inl (by rw [za, zb, add_zero])
        · exact .inr ⟨by rw [za, zero_add]; exact b3.1, by rw [za, zero_add, e]; linarith [b3.2]⟩
      · refine .inr ⟨by linarith [a3.1], ?_⟩
        rw [e]
        rcases b3 with zb | b3
        · rw [zb]; linarith [a3.2]
        · linarith [a3.2, b3.2]
    exact ⟨rg.more hf (by omega) (add_nonneg a2 b2) w (by omega) (by omega), round_nonneg hf (add_nonneg a2 b2), rg⟩

theorem leaves_length : ∀ t : Order, t.leaves.length ≤ 2 ^ t.depth ∧ 0 < t.leaves.length
  | .leaf x => by simp [Order.leaves, Order.depth]
  | .node a b => by
    obtain ⟨a1, a2⟩ := leaves_length a
    obtain ⟨b1, b2⟩ := leaves_length b
    simp only [Order.leaves, Order.depth, List.length_append, pow_succ]
    have ha : 2 ^ a.depth ≤ 2 ^ max a.depth b.depth := Nat.pow_le_pow_right (by norm_num) (le_max_left _ _)
    have hb : 2 ^ b.depth ≤ 2 ^ max a.depth b.depth := Nat.pow_le_pow_right (by norm_num) (le_max_right _ _)
    omega

/-- A mean in single precision or better is right to one rounding more than the depth of its additions. -/
theorem float_mean {fl : ℝ → ℝ} (hf : RoundsSingle fl) {d : Nat} (hd : d ≤ 38) {n : Nat} (order : List ℝ → Order) (h : ∀ l, l ≠ [] → l.length ≤ n → (order l).leaves = l ∧ (order l).depth ≤ d) :
    MeanRounds n (d + 1) (fun l => if l = [] then 0 else fl ((order l).total fl / l.length)) := by
  intro l hn hl
  by_cases h0 : l = []
  · subst h0
    simp [mean, Within]
  · obtain ⟨e, hdep⟩ := h l h0 hn
    obtain ⟨t1, t2, t3⟩ := total_right hf (order l) (by rw [e]; exact hl) (hdep.trans hd)
    obtain ⟨l1, l2⟩ := leaves_length (order l)
    rw [e] at t1 t3 l1 l2
    simp only [if_neg h0]
    have w := t1.weaken t3.nonneg t2 hdep
    have np : (0 : ℝ) < l.length := by exact_mod_cast l2
    have n1 : (1 : ℝ) ≤ l.length := by exact_mod_cast l2
    have nd : (l.length : ℝ) ≤ 2 ^ d := by
      have : l.length ≤ 2 ^ d := l1.trans (Nat.pow_le_pow_right (by norm_num) hdep)
      exact_mod_cast this
    have w' : Within d (mean l) ((order l).total fl / l.length) := by
      unfold mean
      rw [div_eq_inv_mul, div_eq_inv_mul]
      exact w.const t3.nonneg t2 (by positivity)
    have rg : Rg (60 + d) (60 + d) (mean l) := by
      unfold mean
      rcases t3 with z | t3
      · exact .inl (by rw [z, zero_div])
      · refine .inr ⟨?_, ?_⟩
        · rw [le_div_iff₀ np, pow_add]
          refine le_trans ?_ t3.1
          rw [div_mul_eq_mul_div, one_mul, div_le_div_iff₀ (by positivity) (by positivity)]
          nlinarith [show (0 : ℝ) < 2 ^ 60 by positivity]
        · rw [div_le_iff₀ np]
          have h2 : (2 : ℝ) ^ (60 + (order l).depth) ≤ 2 ^ (60 + d) := pow_le_pow_right₀ (by norm_num) (by omega)
          have h3 : (2 : ℝ) ^ (60 + d) ≤ 2 ^ (60 + d) * l.length := le_mul_of_one_le_right (by positivity) n1
          linarith [t3.2]
    exact rg.more hf (by omega) (div_nonneg t2 np.le) w' (by omega) (by omega)

theorem mean_within {n : Nat} {l l' : List ℝ} (h : List.Forall₂ (Within n) l l') : Within n (mean l) (mean l') := by
  have hs : Within n l.sum l'.sum := by
    induction h with
    | nil => simp [Within]
    | cons h _ ih => rw [List.sum_cons, List.sum_cons]; exact h.add ih
  unfold mean
  rw [← h.length_eq]
  have : (0 : ℝ) ≤ 1 / (l.length : ℝ) := by positivity
  constructor
  · have := mul_le_mul_of_nonneg_right hs.1 this
    rw [div_mul_eq_mul_div, div_eq_mul_one_div, div_eq_mul_one_div l'.sum]
    exact this
  · have := mul_le_mul_of_nonneg_right hs.2 this
    rw [div_mul_eq_mul_div, div_eq_mul_one_div, div_eq_mul_one_div l.sum]
    exact this

/-! ## C171 -/

/-- **C171**: grey levels of `histogram_stretch` in single precision. -/
theorem histogram_levels {A : Arith} (hA : Good A) {g : Nat} (hg : g ≤ 40) {f : List ℝ → ℝ} {n : Nat} (hf : MeanRounds n g f) {scale : ℝ} (hs : 1 ≤ scale ∧ scale ≤ 16) {px : List (ℝ × ℝ)}
    (hn : px.length ≤ n) (hp : ∀ p ∈ px, Ordinary 25 p) (hm : 1 / 2 ^ 60 ≤ mean (px.map powerOf) ∧ mean (px.map powerOf) ≤ 2 ^ 60) :
    List.Forall₂ (fun p y => 0 ≤ y ∧ y ≤ 255 ∧ |y - level scale (mean (px.map powerOf)) (powerOf p)| ≤ 255 * (g + 9) / 2 ^ 24) px (histogramStretch A f scale px) := by
  have hw : List.Forall₂ (Within 2) (px.map powerOf) (px.map (power A)) := by
    rw [List.forall₂_map_left_iff, List.forall₂_map_right_iff, List.forall₂_same]
    exact fun p h => power_right hA (by norm_num) (hp p h)
  have n0 : ∀ x ∈ px.map (power A), Moderate 60 x := by
    intro x hx
    obtain ⟨p, h, rfl⟩ := List.mem_map.1 hx
    exact ((power_range (hp p h)).2.2.within (by norm_num) (power_nonneg hA p) (power_right hA (by norm_num) (hp p h))).moderate (by norm_num) (by norm_num)
  have wm := (mean_within hw).trans (hf _ (by simpa using hn) n0)
  have m0 : 0 ≤ f (px.map (power A)) := le_trans (mul_nonneg (le_trans (by positivity) hm.1) (pow_nonneg w_pos.le _)) wm.1
  unfold histogramStretch
  rw [List.map_map, List.forall₂_map_right_iff, List.forall₂_same]
  intro p h
  refine ⟨(grey_range A _ _ _).1, (grey_range A _ _ _).2, ?_⟩
  have := grey_right hA hs hm (by omega) m0 wm (power_range (hp p h)).2.2 (by norm_num) (by norm_num) (by norm_num) (power_nonneg hA p) (power_right hA (by norm_num) (hp p h))
  refine this.trans (le_of_eq ?_)
  push_cast
  ring

/-- **C171**: grey levels of `quarter_power_image` in single precision, with the mean of the tile and with a given mean. -/
theorem quarter_power_levels {A : Arith} (hA : Good A) {g : Nat} (hg : g ≤ 40) {f : List ℝ → ℝ} {n : Nat} (hf : MeanRounds n g f) {scale : ℝ} (hs : 1 ≤ scale ∧ scale ≤ 16) {px : List (ℝ × ℝ)}
    (hn : px.length ≤ n) (hp : ∀ p ∈ px, Ordinary 50 p) :
    (1 / 2 ^ 60 ≤ mean (px.map magnitudeOf) → mean (px.map magnitudeOf) ≤ 2 ^ 60 →
      List.Forall₂ (fun p y => 0 ≤ y ∧ y ≤ 255 ∧ |y - level scale (mean (px.map magnitudeOf)) (magnitudeOf p)| ≤ 255 * (g + 11) / 2 ^ 24) px (quarterPower A f scale none px)) ∧
    ∀ m, 1 / 2 ^ 60 ≤ m → m ≤ 2 ^ 60 →
      List.Forall₂ (fun p y => 0 ≤ y ∧ y ≤ 255 ∧ |y - level scale m (magnitudeOf p)| ≤ 255 * 8 / 2 ^ 24) px (quarterPower A f scale (some m) px) := by
  have hw : List.Forall₂ (Within 3) (px.map magnitudeOf) (px.map (fun p => root A (power A p))) := by
    rw [List.forall₂_map_left_iff, List.forall₂_map_right_iff, List.forall₂_same]
    exact fun p h => root_right hA (by norm_num) (hp p h)
  have rg : ∀ p ∈ px, Rg 50 51 (magnitudeOf p) := fun p h => sqrt_range (power_range (hp p h)).2.2
  have n0 : ∀ x ∈ px.map (fun p => root A (power A p)), Moderate 60 x := by
    intro x hx
    obtain ⟨p, h, rfl⟩ := List.mem_map.1 hx
    exact ((rg p h).within (by norm_num) (root_nonneg hA _) (root_right hA (by norm_num) (hp p h))).moderate (by norm_num) (by norm_num)
  constructor
  · intro m1 m2
    have wm := (mean_within hw).trans (hf _ (by simpa using hn) n0)
    have m0 : 0 ≤ f (px.map (fun p => root A (power A p))) := le_trans (mul_nonneg (le_trans (by positivity) m1) (pow_nonneg w_pos.le _)) wm.1
    unfold quarterPower
    simp only [Option.getD_none]
    rw [List.map_map, List.forall₂_map_right_iff, List.forall₂_same]
    intro p h
    refine ⟨(grey_range A _ _ _).1, (grey_range A _ _ _).2, ?_⟩
    have := grey_right hA hs ⟨m1, m2⟩ (by omega) m0 wm (rg p h) (by norm_num) (by norm_num) (by norm_num) (root_nonneg hA _) (root_right hA (by norm_num) (hp p h))
    refine this.trans (le_of_eq ?_)
    push_cast
    ring
  · intro m m1 m2
    unfold quarterPower
    simp only [Option.getD_some]
    rw [List.map_map, List.forall₂_map_right_iff, List.forall₂_same]
    intro p h
    refine ⟨(grey_range A _ _ _).1, (grey_range A _ _ _).2, ?_⟩
    have := grey_right hA hs ⟨m1, m2⟩ (by norm_num) (le_trans (by positivity) m1) (Within.refl m) (rg p h) (by norm_num) (by norm_num) (by norm_num) (root_nonneg hA _)
      (root_right hA (by norm_num) (hp p h))
    refine this.trans (le_of_eq ?_)
    norm_num

/-- `p'` is at least as strong as `p` in both components, or its power is larger by more than the rounding of two powers. -/
def Stronger (p p' : ℝ × ℝ) : Prop := |p.1| ≤ |p'.1| ∧ |p.2| ≤ |p'.2| ∨ Ordinary 62 p ∧ Ordinary 62 p' ∧ powerOf p ≤ (1 - 1 / 2 ^ 22) * powerOf p'

theorem power_mono {A : Arith} (hA : Good A) {p p' : ℝ × ℝ} (h : Stronger p p') : power A p ≤ power A p' := by
  rcases h with ⟨h1, h2⟩ | ⟨h1, h2, h3⟩
  · have s1 := abs_mul_abs_self p.1 ▸ abs_mul_abs_self p'.1 ▸ mul_self_le_mul_self (abs_nonneg _) h1
    have s2 := abs_mul_abs_self p.2 ▸ abs_mul_abs_self p'.2 ▸ mul_self_le_mul_self (abs_nonneg _) h2
    exact hA.elem.mono _ _ (add_le_add (hA.elem.mono _ _ s1) (hA.elem.mono _ _ s2))
  · have w1 := (power_right hA le_rfl h1).2
    have w2 := (power_right hA le_rfl h2).1
    have hw := w_ge 4
    have n : 0 ≤ powerOf p' := (power_range h2).2.2.nonneg
    have h4 : powerOf p ≤ powerOf p' * (1 - 1 / 2 ^ 24) ^ 2 * (1 - 1 / 2 ^ 24) ^ 2 := by
      rw [mul_assoc, ← pow_add]
      refine h3.trans ?_
      rw [mul_comm]
      refine mul_le_mul_of_nonneg_left (le_trans ?_ hw) n
      norm_num
    have pos : (0 : ℝ) < (1 - 1 / 2 ^ 24) ^ 2 := pow_pos w_pos 2
    have := w1.trans (h4.trans (mul_le_mul_of_nonneg_right w2 pos.le))
    exact le_of_mul_le_mul_right this pos

/-- **C171**: a stronger pixel is never shown darker, whatever the rounding. -/
theorem stronger_not_darker {A : Arith} (hA : Good A) (f : List ℝ → ℝ) (hf : ∀ l : List ℝ, (∀ x ∈ l, 0 ≤ x) → 0 ≤ f l) {scale : ℝ} (hs : 0 ≤ scale) (given : Option ℝ) (hg : ∀ m, given = some m → 0 ≤ m)
    (px : List (ℝ × ℝ)) (i j : Nat) (p p' : ℝ × ℝ) (hi : px[i]? = some p) (hj : px[j]? = some p') (h : Stronger p p') :
    (∃ y y', (histogramStretch A f scale px)[i]? = some y ∧ (histogramStretch A f scale px)[j]? = some y' ∧ y ≤ y') ∧
    ∃ y y', (quarterPower A f scale given px)[i]? = some y ∧ (quarterPower A f scale given px)[j]? = some y' ∧ y ≤ y' := by
  have hp := power_mono hA h
  constructor
  · refine ⟨_, _, by simp only [histogramStretch, List.getElem?_map, hi, Option.map_some]; rfl, by simp only [histogramStretch, List.getElem?_map, hj, Option.map_some]; rfl, ?_⟩
    refine grey_mono hA hs (hf _ ?_) hp
    intro x hx
    obtain ⟨q, -, rfl⟩ := List.mem_map.1 hx
    exact power_nonneg hA q
  · refine ⟨_, _, by simp only [quarterPower, List.getElem?_map, hi, Option.map_some]; rfl, by simp only [quarterPower, List.getElem?_map, hj, Option.map_some]; rfl, ?_⟩
    refine grey_mono hA hs ?_ (hA.elem.mono _ _ (Real.sqrt_le_sqrt (by rw [abs_of_nonneg (power_nonneg hA p), abs_of_nonneg (power_nonneg hA p')]; exact hp)))
    cases given with
    | some m => exact hg m rfl
    | none =>
      refine hf _ ?_
      intro x hx
      obtain ⟨q, -, rfl⟩ := List.mem_map.1 hx
      exact root_nonneg hA _

/-! ## An example -/

/-- Arrays of `np.float32` in NumPy 2: a Python float takes the type of the array, and a `np.float64` keeps its own. -/
noncomputable def arrays32 : Arith := ⟨single, single, single, single⟩
noncomputable def mixed : Arith := ⟨single, Verif.Rounded.double, id, Verif.Rounded.double⟩

theorem arrays32_good : Good arrays32 := ⟨single_rounds, single_rounds, single_rounds, single_rounds⟩
theorem mixed_good : Good mixed := ⟨single_rounds, double_rounds, id_rounds, double_rounds⟩

/-- Pixels of magnitude 5 and 13, and a mean of 2: 255 times 5/6, and white. -/
example : List.Forall₂ (fun p y => 0 ≤ y ∧ y ≤ 255 ∧ |y - level 3 2 (magnitudeOf p)| ≤ 255 * 8 / 2 ^ 24) [(3, 4), (-5, 12)] (quarterPower mixed mean 3 (some 2) [(3, 4), (-5, 12)]) ∧
    level 3 2 (magnitudeOf (3, 4)) = 425 / 2 ∧ level 3 2 (magnitudeOf (-5, 12)) = 255 := by
  refine ⟨(quarter_power_levels mixed_good (g := 0) (n := 2) (by norm_num) (fun l _ _ => Within.refl _) (by norm_num) (by simp) ?_).2 2 (by norm_num) (by norm_num), ?_, ?_⟩
  · intro p hp c hc
    simp only [List.mem_cons, List.not_mem_nil, or_false] at hp
    rcases hp with rfl | rfl <;> rcases hc with rfl | rfl <;> right <;> norm_num [abs_of_pos, abs_of_neg]
  · have : √(25 : ℝ) = 5 := by rw [show (25 : ℝ) = 5 ^ 2 by norm_num]; exact Real.sqrt_sq (by norm_num)
    unfold level magnitudeOf
    norm_num [this]
  · have : √(169 : ℝ) = 13 := by rw [show (169 : ℝ) = 13 ^ 2 by norm_num]; exact Real.sqrt_sq (by norm_num)
    unfold level magnitudeOf
    norm_num [this]

/-- Two numbers are added in one step. -/
def pair : List ℝ → Order
  | [a, b] => .node (.leaf a) (.leaf b)
  | a :: _ => .leaf a
  | [] => .leaf 0

/-- The mean of up to two pixels in single precision is right to two roundings. -/
example : MeanRounds 2 2 (fun l => if l = [] then 0 else single ((pair l).total single / l.length)) := by
  refine float_mean single_rounds (by norm_num) pair fun l h0 h2 => ?_
  match l, h0, h2 with
  | [a], _, _ => exact ⟨rfl, by simp [pair, Order.depth]⟩
  | [a, b], _, _ => exact ⟨rfl, by simp [pair, Order.depth]⟩

/-- A weaker and a stronger pixel. -/
example : Stronger (3, 4) (-5, 12) := .inl (by norm_num)

end Verif.Props.SarRounded
