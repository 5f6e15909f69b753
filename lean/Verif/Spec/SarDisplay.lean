import Mathlib.Analysis.Real.Sqrt

/-!
# Specification: grey levels of complex pixels, and single precision
-/

namespace Verif.Spec.SarDisplay

noncomputable section

/-- A rounding to single precision or better: it keeps the order, and its relative error is at most 2⁻²⁴ where single precision numbers are normal. -/
structure RoundsSingle (fl : ℝ → ℝ) : Prop where
  zero : fl 0 = 0
  mono : ∀ x y, x ≤ y → fl x ≤ fl y
  err : ∀ x, 1 / 2 ^ 126 ≤ |x| → |x| ≤ 2 ^ 127 → |fl x - x| ≤ |x| / 2 ^ 24

/-- `x` and `y` agree to `n` roundings. -/
def Within (n : Nat) (x y : ℝ) : Prop := x * (1 - 1 / 2 ^ 24) ^ n ≤ y ∧ y * (1 - 1 / 2 ^ 24) ^ n ≤ x

/-- The mean of a list of numbers. -/
def mean (l : List ℝ) : ℝ := l.sum / l.length

/-- Zero, or neither too small nor too large. -/
def Moderate (k : Nat) (x : ℝ) : Prop := x = 0 ∨ 1 / 2 ^ k ≤ x ∧ x ≤ 2 ^ k

/-- A mean of at most `n` numbers that are not negative, right to `g` roundings. -/
def MeanRounds (n g : Nat) (f : List ℝ → ℝ) : Prop := ∀ l : List ℝ, l.length ≤ n → (∀ x ∈ l, Moderate 60 x) → Within g (mean l) (f l)

/-- An order in which numbers are added, such as numpy's pairwise summation. -/
inductive Order where
  | leaf (x : ℝ)
  | node (a b : Order)

/-- The numbers of an order. -/
def Order.leaves : Order → List ℝ
  | leaf x => [x]
  | node a b => a.leaves ++ b.leaves

/-- The largest number of additions that a number goes through. -/
def Order.depth : Order → Nat
  | leaf _ => 0
  | node a b => max a.depth b.depth + 1

/-- The sum in floating point. -/
def Order.total (fl : ℝ → ℝ) : Order → ℝ
  | leaf x => x
  | node a b => fl (a.total fl + b.total fl)

/-- Power and magnitude of a complex pixel. -/
def powerOf (p : ℝ × ℝ) : ℝ := p.1 ^ 2 + p.2 ^ 2
def magnitudeOf (p : ℝ × ℝ) : ℝ := √(p.1 ^ 2 + p.2 ^ 2)

/-- Components are zero or neither too small nor too large. -/
def Ordinary (k : Nat) (p : ℝ × ℝ) : Prop := ∀ c, c = p.1 ∨ c = p.2 → c = 0 ∨ 1 / 2 ^ k ≤ |c| ∧ |c| ≤ 2 ^ k

/-- The grey level of a value: white is `scale` times the mean. -/
def level (scale m v : ℝ) : ℝ := min 255 (255 * (v / (scale * m)))

end

end Verif.Spec.SarDisplay
