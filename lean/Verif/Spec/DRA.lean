import Mathlib.Algebra.Order.Field.Basic
import Mathlib.Algebra.BigOperators.Group.List.Basic

/-!
# Specification vocabulary for histograms (independent of the model)
-/

namespace Verif.Spec.DRA

variable {K : Type*} [Field K] [LinearOrder K]

/-- `i` is the first bucket with a non-zero count. -/
def IsFirstNonzero (counts : List K) (i : Nat) : Prop :=
  (∃ c, counts[i]? = some c ∧ c ≠ 0) ∧ ∀ j < i, counts[j]? = some 0

/-- `i` is the last bucket with a non-zero count. -/
def IsLastNonzero (counts : List K) (i : Nat) : Prop :=
  (∃ c, counts[i]? = some c ∧ c ≠ 0) ∧ ∀ j, i < j → j < counts.length → counts[j]? = some 0

/-- Number of pixels in buckets `0..i`. -/
def upTo (counts : List K) (i : Nat) : K := (counts.take (i + 1)).sum

/-- `i` is the first bucket at which the number of pixels so far reaches `low` (the last bucket when none
does). -/
def IsLowBucket (counts : List K) (low : K) (i : Nat) : Prop :=
  i < counts.length ∧ (∀ j < i, upTo counts j < low) ∧ (low ≤ upTo counts i ∨ i + 1 = counts.length)

/-- `i` is the last bucket at which the number of pixels so far does not exceed `high` (the first bucket when
it always does). -/
def IsHighBucket (counts : List K) (high : K) (i : Nat) : Prop :=
  i < counts.length ∧ (∀ j, i < j → j < counts.length → high < upTo counts j) ∧ (upTo counts i ≤ high ∨ i = 0)

/-- The value of the lower edge of bucket position `x` when `n` buckets span `[f, l]`. -/
def bucketValue (n : Nat) (f l x : K) : K := x * ((l - f) / (n : K)) + f

/-- The bounds a caller asked for: an omitted first bound means 0, an omitted
last bound means the number of buckets. -/
inductive Bounds (n : K) : Option K → Option K → K → K → Prop
  | both (f l : K) : Bounds n (some f) (some l) f l
  | onlyFirst (f : K) : Bounds n (some f) none f n
  | onlyLast (l : K) : Bounds n none (some l) 0 l
  | neither : Bounds n none none 0 n

end Verif.Spec.DRA
