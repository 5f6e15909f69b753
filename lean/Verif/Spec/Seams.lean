import Verif.Model.DemFiles

/-!
# What a set of one degree elevation files with common borders describes
-/

namespace Verif.Spec.Seams

open Verif.Dem Verif.DemFiles Verif.Sensors

/-- The interpolating surface of posts at all integers. -/
noncomputable def grid (Z : ℤ → ℤ → ℝ) (x y : ℝ) : ℝ :=
  let u := x - ⌊x⌋
  let v := y - ⌊y⌋
  (1 - u) * (1 - v) * Z ⌊x⌋ ⌊y⌋ + u * (1 - v) * Z (⌊x⌋ + 1) ⌊y⌋ + (1 - u) * v * Z ⌊x⌋ (⌊y⌋ + 1) + u * v * Z (⌊x⌋ + 1) (⌊y⌋ + 1)

/-- The file of the cell whose south west corner is at `a` degrees east and `b` degrees north, as in the SRTM distribution: `n + 1` by `n + 1`
posts, the outer ones on the borders of the cell, where the files of the neighbours have them too.  `Z i j` is the elevation at `i / n` degrees
east and `j / n` degrees north; the geo transform refers to the upper left corner of the first pixel, whose centre is the post. -/
structure CellFile (n : Nat) (Z : ℤ → ℤ → ℝ) (a b : ℤ) (r : Raster) : Prop where
  geo : r.geo = some [(a : ℝ) - 1 / (2 * n), 1 / n, 0, (b : ℝ) + 1 + 1 / (2 * n), 0, -(1 / n)]
  width : r.posts.width = n + 1
  height : r.posts.height = n + 1
  posts : ∀ i j : Nat, i ≤ n → j ≤ n → r.posts.z i j = Z (a * n + i) ((b + 1) * n - j)

/-- The file is there under its SRTM name. -/
def HasFile (t : Verif.DemTileSet.Srtm) (open' : List Char → Option Raster) (dir : List Char) (n : Nat) (Z : ℤ → ℤ → ℝ) (a b : ℤ) : Prop :=
  ∃ name r, t.findTileId id ⟨(a : ℤ), (b : ℤ), 0⟩ = some name ∧ name ≠ [] ∧ open' (Verif.GdalUtils.tileLocation dir name) = some r ∧ CellFile n Z a b r

/-- Neighbouring posts differ by at most `L`. -/
def Gentle (L : ℝ) (Z : ℤ → ℤ → ℝ) : Prop := ∀ i j, |Z (i + 1) j - Z i j| ≤ L ∧ |Z i (j + 1) - Z i j| ≤ L

/-- The place at `lon` and `lat` degrees. -/
def place (an : Angles ℝ) (lon lat z : ℝ) : Geo ℝ := ⟨an.rad lon, an.rad lat, z⟩

end Verif.Spec.Seams
