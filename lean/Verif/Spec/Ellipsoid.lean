import Verif.Spec.Sicd

/-!
# Specification of geodetic coordinates on an ellipsoid of revolution

Textbook formulas with the semi-axes `a` (equatorial) and `b` (polar); for WGS-84 `a` is 6378137 and `b` about 6356752.3.
-/

namespace Verif.Spec.Ellipsoid

open Verif.Sicd (V3 Lle)

noncomputable section

/-- The outward normal of the ellipsoid at a longitude and latitude in radians. -/
def normalAt (lon lat : ℝ) : V3 := ⟨Real.cos lat * Real.cos lon, Real.cos lat * Real.sin lon, Real.sin lat⟩

/-- The radius of curvature in the prime vertical, with the squared eccentricity `1 - b ^ 2 / a ^ 2`. -/
def primeVertical (a b lat : ℝ) : ℝ := a / √(1 - (1 - b ^ 2 / a ^ 2) * Real.sin lat ^ 2)

/-- The position of a longitude, latitude and height above the ellipsoid. -/
def position (a b : ℝ) (l : Lle) : V3 :=
  ⟨(primeVertical a b l.lat + l.h) * Real.cos l.lat * Real.cos l.lon, (primeVertical a b l.lat + l.h) * Real.cos l.lat * Real.sin l.lon,
    (primeVertical a b l.lat * (b ^ 2 / a ^ 2) + l.h) * Real.sin l.lat⟩

end

end Verif.Spec.Ellipsoid
