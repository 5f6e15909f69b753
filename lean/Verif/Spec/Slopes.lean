import Verif.Model.Dem
import Mathlib.Analysis.Real.Pi.Bounds

/-!
# The steepness of an elevation tile
-/

namespace Verif.Spec.Slopes

open Verif.Dem (Posts)

/-- Posts next to each other differ by at most `S`. -/
structure Gentle (p : Posts ℝ) (S : ℝ) : Prop where
  across : ∀ i j, i + 1 < p.width → j < p.height → |p.z (i + 1) j - p.z i j| ≤ S
  down : ∀ i j, i < p.width → j + 1 < p.height → |p.z i (j + 1) - p.z i j| ≤ S

/-- All posts are at heights between `lo` and `hi`. -/
def Between (p : Posts ℝ) (lo hi : ℝ) : Prop := ∀ i j, i < p.width → j < p.height → lo ≤ p.z i j ∧ p.z i j ≤ hi

end Verif.Spec.Slopes
