import Mathlib.Analysis.SpecialFunctions.Arsinh
import Mathlib.Analysis.SpecialFunctions.Trigonometric.Deriv
import Mathlib.Analysis.SpecialFunctions.Trigonometric.ArctanDeriv
import Mathlib.Analysis.Calculus.Deriv.MeanValue
import Mathlib.Analysis.SpecialFunctions.Exp
import Mathlib.Analysis.SpecialFunctions.Sqrt
import Mathlib.Tactic.Linarith
import Mathlib.Tactic.FieldSimp
import Mathlib.Tactic.Ring
import Verif.Spec.Mercator

/-!
# How far equal steps of latitude are from equal steps of northing
-/

namespace Verif.Lemmas.Mercator

open Verif.Spec.Mercator Real

theorem northing_deriv (x : ℝ) (h : 0 < cos x) : HasDerivAt northing (1 / cos x) x := by
  have a := (hasDerivAt_tan h.ne').arsinh
  unfold northing
  convert a using 1
  rw [inv_sqrt_one_add_tan_sq h, smul_eq_mul]
  field_simp

theorem cosh_northing (x : ℝ) (h : 0 < cos x) : cosh (northing x) = 1 / cos x := by
  unfold northing
  rw [cosh_arsinh, ← inv_sqrt_one_add_tan_sq h]
  rw [one_div, inv_inv]

/-- The growth of `cosh`. -/
theorem cosh_le (a b d : ℝ) (h : |a - b| ≤ d) : cosh a ≤ exp d * cosh b := by
  rw [abs_le] at h
  have e1 : exp a ≤ exp d * exp b := by rw [← exp_add]; exact exp_le_exp.2 (by linarith)
  have e2 : exp (-a) ≤ exp d * exp (-b) := by rw [← exp_add]; exact exp_le_exp.2 (by linarith)
  rw [cosh_eq, cosh_eq]
  linarith

theorem cos_pos_of (x : ℝ) (h : -(π / 2) < x ∧ x < π / 2) : 0 < cos x := cos_pos_of_mem_Ioo ⟨h.1, h.2⟩

/-- The mean value theorem for the northing. -/
theorem northing_slope (a b : ℝ) (ha : -(π / 2) < a) (hab : a < b) (hb : b < π / 2) : ∃ c, a < c ∧ c < b ∧ northing b - northing a = (b - a) / cos c := by
  have hc : ∀ x, a ≤ x → x ≤ b → 0 < cos x := fun x h1 h2 => cos_pos_of x ⟨by linarith, by linarith⟩
  obtain ⟨c, hc1, hc2⟩ := exists_hasDerivAt_eq_slope northing (fun x => 1 / cos x) hab
    (fun x hx => (northing_deriv x (hc x hx.1 hx.2)).continuousAt.continuousWithinAt) (fun x hx => northing_deriv x (hc x hx.1.le hx.2.le))
  refine ⟨c, hc1.1, hc1.2, ?_⟩
  have h1 : b - a ≠ 0 := (sub_pos.2 hab).ne'
  have := hc c hc1.1.le hc1.2.le
  field_simp at hc2 ⊢
  linarith

theorem northing_lt (a b : ℝ) (ha : -(π / 2) < a) (hab : a < b) (hb : b < π / 2) : northing a < northing b := by
  obtain ⟨c, h1, h2, h3⟩ := northing_slope a b ha hab hb
  have : 0 < (b - a) / cos c := div_pos (by linarith) (cos_pos_of c ⟨by linarith, by linarith⟩)
  linarith

theorem northing_le (a b : ℝ) (ha : -(π / 2) < a) (hab : a ≤ b) (hb : b < π / 2) : northing a ≤ northing b := by
  rcases hab.eq_or_lt with e | e
  · rw [e]
  · exact (northing_lt a b ha e hb).le

/-- If the odds of two shares differ by a factor of at most `q ^ 2`, the shares differ by at most `(q - 1) / (q + 1)`. -/
theorem odds (p s q u v : ℝ) (hs0 : 0 < s) (hs1 : s < 1) (hu : 0 < u) (hv : 0 < v) (hq : 1 ≤ q) (h : p * ((1 - s) * v) = s * (1 - p) * u) (huv : u ≤ q ^ 2 * v) : p - s ≤ (q - 1) / (q + 1) := by
  rw [le_div_iff₀ (by linarith)]
  have hD : 0 < (1 - s) * v + s * u := by
    have : 0 < (1 - s) * v := mul_pos (by linarith) hv
    have := mul_pos hs0 hu
    linarith
  have e : (p - s) * ((1 - s) * v + s * u) = s * (1 - s) * (u - v) := by linear_combination h
  have e2 : (q - 1) * (((1 - s) - s * q) ^ 2 * v + (1 - s + 1 * s) * 0) ≥ 0 := by
    have : 0 ≤ (q - 1) * (((1 - s) - s * q) ^ 2 * v) := mul_nonneg (by linarith) (mul_nonneg (sq_nonneg _) hv.le)
    linarith
  have key : (p - s) * (q + 1) * ((1 - s) * v + s * u) ≤ (q - 1) * ((1 - s) * v + s * u) := by
    have : (p - s) * (q + 1) * ((1 - s) * v + s * u) = (q + 1) * (s * (1 - s) * (u - v)) := by rw [← e]; ring
    rw [this]
    -- linear in `u`, with the worst case at `u = q ^ 2 * v`
    have hcoef : (q + 1) * (s * (1 - s)) - (q - 1) * s ≥ 0 ∨ (q + 1) * (s * (1 - s)) - (q - 1) * s < 0 := le_or_gt _ _
    rcases hcoef with hc | hc
    · have := mul_le_mul_of_nonneg_left huv hc
      nlinarith [e2]
    · have h1 : ((q + 1) * (s * (1 - s)) - (q - 1) * s) * u ≤ 0 := by nlinarith
      have h2 : 0 ≤ (q - 1) * ((1 - s) * v) := mul_nonneg (by linarith) (mul_nonneg (by linarith) hv.le)
      have h3 : 0 ≤ (q + 1) * (s * (1 - s) * v) := by
        have : 0 ≤ s * (1 - s) * v := mul_nonneg (mul_nonneg hs0.le (by linarith)) hv.le
        nlinarith
      nlinarith
  exact le_of_mul_le_mul_right key hD

theorem tanh_bound (d : ℝ) (hd : 0 ≤ d) : (exp (d / 2) - 1) / (exp (d / 2) + 1) ≤ d / 4 := by
  rw [div_le_iff₀ (by positivity)]
  -- `(x - 2) e ^ x + x + 2` grows from 0, with `x = d / 2`
  have mono : MonotoneOn (fun x : ℝ => (x - 2) * exp x + x) (Set.Ici 0) := by
    apply monotoneOn_of_deriv_nonneg (convex_Ici 0)
    · fun_prop
    · fun_prop
    · intro x hx
      rw [interior_Ici] at hx
      have hx' : 0 < x := hx
      have hder : HasDerivAt (fun x : ℝ => (x - 2) * exp x + x) (1 * exp x + (x - 2) * exp x + 1) x := (((hasDerivAt_id x).sub_const 2).mul (hasDerivAt_exp x)).add (hasDerivAt_id x)
      rw [hder.deriv]
      have h1 : 1 - x ≤ exp (-x) := by have := add_one_le_exp (-x); linarith
      have h2 : (1 - x) * exp x ≤ 1 := by
        calc (1 - x) * exp x ≤ exp (-x) * exp x := mul_le_mul_of_nonneg_right h1 (exp_pos x).le
          _ = 1 := by rw [← exp_add]; simp
      nlinarith
  have h := mono (Set.mem_Ici.2 le_rfl) (Set.mem_Ici.2 (by linarith : (0 : ℝ) ≤ d / 2)) (by linarith)
  simp only [exp_zero] at h
  nlinarith

/-- Two points of an interval of northings: the secants are comparable. -/
theorem sec_le (S N a b : ℝ) (hS : -(π / 2) < S) (hN : N < π / 2) (ha : S ≤ a ∧ a ≤ N) (hb : S ≤ b ∧ b ≤ N) : 1 / cos a ≤ exp (northing N - northing S) * (1 / cos b) := by
  rw [← cosh_northing a (cos_pos_of a ⟨by linarith [ha.1], by linarith [ha.2]⟩), ← cosh_northing b (cos_pos_of b ⟨by linarith [hb.1], by linarith [hb.2]⟩)]
  apply cosh_le
  have := northing_le S a hS ha.1 (by linarith [ha.2])
  have := northing_le a N (by linarith [ha.1]) ha.2 hN
  have := northing_le S b hS hb.1 (by linarith [hb.2])
  have := northing_le b N (by linarith [hb.1]) hb.2 hN
  rw [abs_le]
  constructor <;> linarith

/-- The share of the northing at a share `s` of the latitude. -/
theorem share (S N s : ℝ) (hS : -(π / 2) < S) (hSN : S < N) (hN : N < π / 2) (h0 : 0 ≤ s) (h1 : s ≤ 1) :
    |(northing (S + s * (N - S)) - northing S) / (northing N - northing S) - s| ≤ (northing N - northing S) / 4 := by
  have hΔ : 0 < northing N - northing S := by have := northing_lt S N hS hSN hN; linarith
  rcases h0.eq_or_lt with e | h0
  · rw [← e, zero_mul, add_zero, sub_self, zero_div, sub_zero, abs_zero]; linarith
  rcases h1.eq_or_lt with e | h1
  · rw [e, one_mul, add_sub_cancel, div_self hΔ.ne', sub_self, abs_zero]; linarith
  have hm : S < S + s * (N - S) := by have := mul_pos h0 (sub_pos.2 hSN); linarith
  have hm' : S + s * (N - S) < N := by nlinarith
  obtain ⟨c, c1, c2, c3⟩ := northing_slope S _ hS hm (by linarith)
  obtain ⟨c', c1', c2', c3'⟩ := northing_slope _ N (by linarith) hm' hN
  have hc := cos_pos_of c ⟨by linarith, by linarith⟩
  have hc' := cos_pos_of c' ⟨by linarith, by linarith⟩
  generalize hM : northing (S + s * (N - S)) = M at *
  generalize hA : northing S = A at *
  generalize hB : northing N = B at *
  have ha := sec_le S N c c' hS hN ⟨by linarith, by linarith⟩ ⟨by linarith, by linarith⟩
  have hb := sec_le S N c' c hS hN ⟨by linarith, by linarith⟩ ⟨by linarith, by linarith⟩
  rw [hA, hB] at ha hb
  have hu : 0 < 1 / cos c := by positivity
  have hv : 0 < 1 / cos c' := by positivity
  have f1 : M - A = s * (N - S) * (1 / cos c) := by rw [c3]; ring
  have f2 : B - M = (1 - s) * (N - S) * (1 / cos c') := by rw [c3']; ring
  generalize 1 / cos c = u at *
  generalize 1 / cos c' = v at *
  have hNS : 0 < N - S := by linarith
  have hsq : exp (B - A) = exp ((B - A) / 2) ^ 2 := by rw [← exp_nat_mul]; congr 1; push_cast; ring
  have hq : 1 ≤ exp ((B - A) / 2) := by have := add_one_le_exp ((B - A) / 2); linarith
  rw [hsq] at ha hb
  have hp : (M - A) / (B - A) * ((1 - s) * v) = s * (1 - (M - A) / (B - A)) * u := by
    have e : 1 - (M - A) / (B - A) = (B - M) / (B - A) := by field_simp; ring
    rw [e, f1, f2]
    ring
  have t := tanh_bound (B - A) hΔ.le
  have o1 := odds _ s _ u v h0 h1 hu hv hq hp ha
  have o2 := odds (1 - (M - A) / (B - A)) (1 - s) _ v u (by linarith) (by linarith) hv hu hq (by linear_combination -hp) hb
  rw [abs_le]
  constructor <;> linarith

/-- North of the equator the share of the northing is smaller. -/
theorem share_lt (S N s : ℝ) (hS : 0 ≤ S) (hSN : S < N) (hN : N < π / 2) (h0 : 0 < s) (h1 : s < 1) :
    (northing (S + s * (N - S)) - northing S) / (northing N - northing S) < s := by
  have hπ := pi_pos
  have hS' : -(π / 2) < S := by linarith
  have hΔ : 0 < northing N - northing S := by have := northing_lt S N hS' hSN hN; linarith
  have hm : S < S + s * (N - S) := by have := mul_pos h0 (sub_pos.2 hSN); linarith
  have hm' : S + s * (N - S) < N := by nlinarith
  obtain ⟨c, c1, c2, c3⟩ := northing_slope S _ hS' hm (by linarith)
  obtain ⟨c', c1', c2', c3'⟩ := northing_slope _ N (by linarith) hm' hN
  have hc := cos_pos_of c ⟨by linarith, by linarith⟩
  have hc' := cos_pos_of c' ⟨by linarith, by linarith⟩
  have hlt : cos c' < cos c := cos_lt_cos_of_nonneg_of_le_pi_div_two (by linarith) (by linarith) (by linarith)
  have huv : 1 / cos c < 1 / cos c' := one_div_lt_one_div_of_lt hc' hlt
  have f1 : northing (S + s * (N - S)) - northing S = s * (N - S) * (1 / cos c) := by rw [c3]; ring
  have f2 : northing N - northing (S + s * (N - S)) = (1 - s) * (N - S) * (1 / cos c') := by rw [c3']; ring
  rw [div_lt_iff₀ hΔ]
  have hw : 0 < s * (1 - s) * (N - S) := mul_pos (mul_pos h0 (by linarith)) (by linarith)
  have e : northing N - northing S = s * (N - S) * (1 / cos c) + (1 - s) * (N - S) * (1 / cos c') := by linarith
  rw [f1, e]
  nlinarith [mul_lt_mul_of_pos_left huv hw]

end Verif.Lemmas.Mercator
