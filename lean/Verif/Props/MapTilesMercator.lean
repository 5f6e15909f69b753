import Mathlib.Analysis.SpecialFunctions.Arsinh
import Mathlib.Analysis.SpecialFunctions.Trigonometric.Arctan
import Mathlib.Algebra.Order.Floor.Ring
import Mathlib.Algebra.Order.Archimedean.Real.Basic
import Verif.Props.MapTiles

/-!
# The spherical Mercator formulas satisfy the assumptions of the tile theorems

Non-vacuity of `GoodTileSet`: EPSG:3857 is `x = R·lon`, `y = R·arsinh(tan lat)`.
-/

namespace Verif.Props.MapTiles

open Verif.MapTiles Verif.Spec.MapTiles Real

/-- Spherical Mercator, longitude axis. -/
noncomputable def mercLon (R : ℝ) : Axis ℝ := { fwd := fun lon => R * lon, inv := fun x => x / R }

/-- Spherical Mercator, latitude axis. -/
noncomputable def mercLat (R : ℝ) : Axis ℝ :=
  { fwd := fun lat => R * arsinh (tan lat), inv := fun y => arctan (sinh (y / R)) }

/-- Any tile set over spherical Mercator is good for longitudes in `[-π, π]` and
latitudes in `(-π/2, π/2)`. -/
theorem mercator_good (R : ℝ) (hR : 0 < R) (size : Nat) (hs : 0 < size) (name : String) :
    GoodTileSet (K := ℝ) ⟨size, name, 2 * π * R, mercLon R, mercLat R⟩
      (fun lon => -π ≤ lon ∧ lon ≤ π) (fun lat => -(π / 2) < lat ∧ lat < π / 2) := by
  have hπ := pi_pos
  refine ⟨hs, by positivity, ⟨?_, ?_, ?_, ?_, ?_⟩, ⟨?_, ?_, ?_, ?_, ?_⟩⟩
  · intro a _ b _ hab
    exact div_lt_div_of_pos_right hab hR
  · intro a b _ _ hab
    exact mul_le_mul_of_nonneg_left hab hR.le
  · intro a _
    simp only [mercLon]
    field_simp
  · intro m _
    simp only [mercLon]
    field_simp
  · rintro m ⟨h1, h2⟩
    simp only [mercLon] at *
    constructor
    · rw [le_div_iff₀ hR]; nlinarith
    · rw [div_le_iff₀ hR]; nlinarith
  · intro a _ b _ hab
    exact arctan_strictMono (sinh_strictMono (div_lt_div_of_pos_right hab hR))
  · intro a b ha hb hab
    simp only [mercLat]
    apply mul_le_mul_of_nonneg_left _ hR.le
    apply arsinh_le_arsinh.mpr
    exact strictMonoOn_tan.monotoneOn ⟨ha.1, ha.2⟩ ⟨hb.1, hb.2⟩ hab
  · intro a ha
    simp only [mercLat]
    rw [mul_div_cancel_left₀ _ hR.ne', sinh_arsinh, arctan_tan ha.1 ha.2]
  · intro m _
    simp only [mercLat]
    rw [tan_arctan, arsinh_sinh]
    field_simp
  · intro m _
    exact ⟨neg_pi_div_two_lt_arctan _, arctan_lt_pi_div_two _⟩

/-- Greenwich on the equator is a location in the extent: the hypotheses of
`tile_for_location_contains` are met. -/
example : InExtent (mercLon 6378137) (2 * π * 6378137 / 2) (fun lon => -π ≤ lon ∧ lon ≤ π) 0 ∧
    InExtent (mercLat 6378137) (2 * π * 6378137 / 2) (fun lat => -(π / 2) < lat ∧ lat < π / 2) 0 := by
  have hπ := pi_pos
  refine ⟨⟨⟨by linarith, by linarith⟩, ?_, ?_⟩, ⟨⟨by linarith, by linarith⟩, ?_, ?_⟩⟩ <;>
    simp only [mercLon, mercLat, tan_zero, arsinh_zero, mul_zero] <;> nlinarith

/-- **C11 (negated, concrete).** With the real projection, longitude −180° is in
the closed world extent and gets column −1 in both well-known tile sets, at every level. -/
theorem longitude_minus_180_has_no_valid_tile (z : Nat) (lat : ℝ) (size : Nat) (hs : 0 < size) (name : String) :
    (TileSet.getTileForLocation (K := ℝ) ⟨size, name, 2 * π * 6378137, mercLon 6378137, mercLat 6378137⟩
      (-π) lat z).id.col = -1 := by
  refine (west_edge_column_negative (t := ⟨size, name, 2 * π * 6378137, mercLon 6378137, mercLat 6378137⟩)
    hs (by have := pi_pos; simp only; positivity) (-π) lat z ?_).1
  simp only [mercLon]
  ring

end Verif.Props.MapTiles
