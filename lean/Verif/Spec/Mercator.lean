import Mathlib.Analysis.SpecialFunctions.Arsinh
import Mathlib.Analysis.SpecialFunctions.Trigonometric.Basic

/-!
# Specification: where Web Mercator puts a place in a picture of `n` by `n` pixels

Independent of the code.  Angles are radians.
-/

namespace Verif.Spec.Mercator

open Real

/-- The northing of a latitude on the map of a sphere of radius 1. -/
noncomputable def northing (lat : ℝ) : ℝ := arsinh (tan lat)

/-- The position of a latitude in the picture of a tile, in pixels from the northern edge of the tile.  The centre of row `i` is at `i + 1 / 2`. -/
noncomputable def rowPosition (north south : ℝ) (n : Nat) (lat : ℝ) : ℝ := n * ((northing north - northing lat) / (northing north - northing south))

/-- The position of a longitude in the picture of a tile, in pixels from the western edge of the tile. -/
noncomputable def colPosition (west east : ℝ) (n : Nat) (lon : ℝ) : ℝ := n * ((lon - west) / (east - west))

end Verif.Spec.Mercator
