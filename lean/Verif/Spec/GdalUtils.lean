import Verif.Model.GdalUtils
import Verif.Spec.DRA

/-! # Independent statements about pixel types, scales, extensions and paths -/

namespace Verif.Spec.GdalUtils

open Verif.GdalUtils

/-- The integer pixel types of GDAL 3.7 and later: code, bits, signed. -/
def integerTypes : List (Int × Nat × Bool) :=
  [(1, 8, false), (2, 16, false), (3, 16, true), (4, 32, false), (5, 32, true), (12, 64, false), (13, 64, true), (14, 8, true)]

/-- Integers that a machine type holds. -/
def Storable (bits : Nat) (signed : Bool) (v : Int) : Prop :=
  if signed then -(2 : Int) ^ (bits - 1) ≤ v ∧ v < 2 ^ (bits - 1) else 0 ≤ v ∧ v < 2 ^ bits

/-- The greatest finite single precision number. -/
def maxFloat32 : ℚ := (2 - 1 / 2 ^ 23) * 2 ^ 127

/-- The greatest finite double precision number. -/
def maxFloat64 : ℚ := (2 - 1 / 2 ^ 52) * 2 ^ 1023

/-- The number of histogram buckets: 255 for the float types (codes 6 and 7), else the range of the statistics
without its fraction. -/
def IsBucketCount (type : Int) (lo hi : ℚ) (n : Int) : Prop :=
  ((type = 6 ∨ type = 7) → n = 255) ∧
  (type ≠ 6 → type ≠ 7 → (lo ≤ hi → (n : ℚ) ≤ hi - lo ∧ hi - lo < n + 1) ∧ (hi < lo → hi - lo ≤ n ∧ (n : ℚ) < hi - lo + 1))

/-- What a scale should be.  The output limits are those of the desired type or of the band's own type.  The input limits
depend on the adjustment: the type's limits, the values of the first and last non-empty bucket of the band's
histogram, or the suggestion for the histogram. -/
def IsScale (desired : Option Code) (adjust : Adjust) (b : Band) (s : Scale) : Prop :=
  (∀ d, desired = some d → (s.outMin, s.outMax) = minmaxForType d) ∧
  (desired = none → (s.outMin, s.outMax) = minmaxForType b.type) ∧
  ((adjust = .none ∨ adjust = .other) → (s.inMin, s.inMax) = minmaxForType b.type) ∧
  (adjust = .minmax → ∃ n counts, IsBucketCount b.type b.stats.1 b.stats.2 n ∧ b.histogram n b.stats.1 b.stats.2 = .ok counts ∧
    ∃ r, Verif.DRA.fromCountsDefault counts (some b.stats.1) (some b.stats.2) = .ok r ∧ s.inMin = r.actualMin ∧ s.inMax = r.actualMax) ∧
  (adjust = .dra → ∃ n counts, IsBucketCount b.type b.stats.1 b.stats.2 n ∧ b.histogram n b.stats.1 b.stats.2 = .ok counts ∧
    ∃ r, Verif.DRA.fromCountsDefault counts (some b.stats.1) (some b.stats.2) = .ok r ∧ s.inMin = r.suggestedMin ∧ s.inMax = r.suggestedMax)

/-- Equal up to the case of letters. -/
def EqIgnoreCase (a b : List Char) : Prop := a.map Char.toUpper = b.map Char.toUpper

/-- `s` contains the word in some spelling. -/
def Mentions (s word : List Char) : Prop := ∃ t, t <:+: s ∧ EqIgnoreCase t word

end Verif.Spec.GdalUtils
