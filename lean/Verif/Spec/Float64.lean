import Mathlib.Data.Rat.Floor
import Mathlib.Tactic.Positivity.Basic

/-!
# What is assumed about a rounding function
-/

namespace Verif.Spec.Float64

/-- A floating point rounding: monotone, exact on integers up to 2⁵³, odd, and with
relative error 2⁻⁵³ (plus a quantum larger than that of the subnormal numbers) below 2⁵³. -/
structure GoodRounding (rnd : ℚ → ℚ) : Prop where
  mono : ∀ x y, x ≤ y → rnd x ≤ rnd y
  int : ∀ n : Int, |n| ≤ 2 ^ 53 → rnd n = n
  neg : ∀ x, rnd (-x) = -rnd x
  err : ∀ x : ℚ, |x| ≤ 2 ^ 53 → |rnd x - x| ≤ |x| / 2 ^ 53 + 1 / 2 ^ 200

end Verif.Spec.Float64
