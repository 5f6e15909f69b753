import Mathlib.Data.Rat.Floor
import Verif.Model.MapTiles

/-!
# Specification vocabulary for map tiles in double arithmetic
-/

namespace Verif.Spec.MapTilesFloat

open Verif.MapTiles

/-- A finite binary64 number. -/
def IsBinary64 (x : ℚ) : Prop := ∃ k e : Int, |k| ≤ 2 ^ 53 ∧ -1074 ≤ e ∧ x = k * 2 ^ e

/-- Half of the width of the Web Mercator square in metres: the double
20037508.342789244 nearest to 6378137 π. -/
def worldHalf : ℚ := 5378777689100435 / 2 ^ 28

/-- Where edge number `i` of the level `z` lies: `2^z` equal parts of the square. -/
def gridLine (z : Nat) (i : Int) : ℚ := -worldHalf + i * (2 * worldHalf / 2 ^ z)

/-- What is assumed of the forward direction of the projection: it returns doubles. -/
def ReturnsDoubles (A : Axis ℚ) : Prop := ∀ a, IsBinary64 (A.fwd a)

/-- The projected location is in the Web Mercator square without its lower edge. -/
def InSquare (A : Axis ℚ) (a : ℚ) : Prop := -worldHalf < A.fwd a ∧ A.fwd a ≤ worldHalf

end Verif.Spec.MapTilesFloat
