import Mathlib.Analysis.Real.Pi.Bounds
import Verif.Spec.Rpc
import Verif.Spec.Rounded

/-!
# When a rational polynomial camera is close enough to an affine map to have exactly one place per pixel
-/

namespace Verif.Spec.Nearby

open Verif.Spec.Rpc Verif.Rpc Verif.Sensors
open Verif.Dem (Geo)

/-- How much an RPC cubic can change per unit of change of `L` and `P` when no coordinate exceeds `b` and `H` changes by at most
`slope` per unit: `L^i P^j H^k` changes by at most `(i + j + slope k) b^(i+j+k-1)`. -/
noncomputable def variation (c : List ℝ) (b slope : ℝ) : ℝ :=
  ((c.zip rpc00b).map (fun t => |t.1| * ((t.2.1 + t.2.2.1 + slope * t.2.2.2) * b ^ (t.2.1 + t.2.2.1 + t.2.2.2 - 1)))).sum

/-- The cubic without its terms `L` and `P`. -/
def bent (c : List ℝ) : List ℝ := (c.set 1 0).set 2 0

/-- The terms `L` and `P` of the cubic. -/
noncomputable def straight (c : List ℝ) (l p : ℝ) : ℝ := c.getD 1 0 * l + c.getD 2 0 * p

/-- Longitude and latitude in radians of normalised coordinates. -/
noncomputable def lonOf (r : RpcModel) (l : ℝ) : ℝ := (l * r.longScale + r.longOff) * (Real.pi / 180)
noncomputable def latOf (r : RpcModel) (p : ℝ) : ℝ := (p * r.latScale + r.latOff) * (Real.pi / 180)

/-- One of the two rational functions of an RPC model: for normalised coordinates up to `b` the denominator is not zero and at most `most`,
the quotient is at most `q`, and the bends of numerator and denominator leave `gain` of the steepness `steep` of the linear terms. -/
structure Bends (num den : List ℝ) (b slope steep q most gain : ℝ) : Prop where
  lengths : num.length = 20 ∧ den.length = 20
  den_ne : ∀ l p h, |l| ≤ b → |p| ≤ b → |h| ≤ b → cubic den l p h ≠ 0
  den_le : ∀ l p h, |l| ≤ b → |p| ≤ b → |h| ≤ b → |cubic den l p h| ≤ most
  quotient : ∀ l p h, |l| ≤ b → |p| ≤ b → |h| ≤ b → |cubic num l p h / cubic den l p h| ≤ q
  slack : gain + variation (bent num) b slope + q * variation den b slope ≤ steep

/-- An RPC model that is close to an affine map in the box `b`. -/
structure NearlyAffine (r : RpcModel) (b slope steep q most gain : ℝ) : Prop where
  scales : r.longScale ≠ 0 ∧ r.latScale ≠ 0 ∧ r.heightScale ≠ 0 ∧ r.sampScale ≠ 0 ∧ r.lineScale ≠ 0
  positive : 0 < b ∧ 0 ≤ slope ∧ 0 < gain
  samp : Bends r.sampNum r.sampDen b slope steep q most gain
  line : Bends r.lineNum r.lineDen b slope steep q most gain
  regular : ∀ l p, steep * max |l| |p| ≤ max |straight r.sampNum l p| |straight r.lineNum l p|

/-- The ground in the box of the model: the elevation model sets nothing but the elevation (C24), the place with normalised coordinates `l`, `p` has the normalised height `height l p`, which is in the
box and changes by at most `slope` per unit. -/
structure Surface (r : RpcModel) (e : Option (Elev ℝ)) (b slope : ℝ) (height : ℝ → ℝ → ℝ) : Prop where
  keeps : ∀ f, e = some f → ∀ g g', f g = .ok g' → g'.longitude = g.longitude ∧ g'.latitude = g.latitude
  ground : ∀ l p, |l| ≤ b → |p| ≤ b →
    ground r.heightOff e (lonOf r l) (latOf r p) = .ok ⟨lonOf r l, latOf r p, height l p * r.heightScale + r.heightOff⟩
  inside : ∀ l p, |l| ≤ b → |p| ≤ b → |height l p| ≤ b
  gentle : ∀ l p l' p', |l| ≤ b → |p| ≤ b → |l'| ≤ b → |p'| ≤ b → |height l p - height l' p'| ≤ slope * max |l - l'| |p - p'|

/-- The pixel in normalised image coordinates. -/
noncomputable def sampOf (r : RpcModel) (x : ℝ) : ℝ := (x - r.sampOff) / r.sampScale
noncomputable def lineOf (r : RpcModel) (y : ℝ) : ℝ := (y - r.lineOff) / r.lineScale

/-- The pixel is seen from inside the box: the middle of the box misses it by no more than the model is sure to gain on the way to the edge. -/
def Reached (r : RpcModel) (b q gain : ℝ) (h0 : ℝ) (x : ℝ × ℝ) : Prop :=
  |sampOf r x.1| ≤ q ∧ |lineOf r x.2| ≤ q ∧
  |cubic r.sampNum 0 0 h0 - sampOf r x.1 * cubic r.sampDen 0 0 h0| ≤ gain * b ∧
  |cubic r.lineNum 0 0 h0 - lineOf r x.2 * cubic r.lineDen 0 0 h0| ≤ gain * b

/-! ## RSM -/

open Verif.Rsm Verif.Spec.Rsm
open Verif.Spec.Rounded (coefficient value Complete)

/-- The coefficients of `x` and `y`. -/
noncomputable def xTerm (p : RsmPoly ℝ) : ℝ := if 1 ≤ p.px ∧ 0 ≤ p.py ∧ 0 ≤ p.pz then coefficient p 1 0 0 else 0
noncomputable def yTerm (p : RsmPoly ℝ) : ℝ := if 0 ≤ p.px ∧ 1 ≤ p.py ∧ 0 ≤ p.pz then coefficient p 0 1 0 else 0

/-- How much an RSM polynomial can change per unit of change of `x` and `y`, as for RPC; and without its terms `x` and `y`. -/
noncomputable def rsmVariation (p : RsmPoly ℝ) (b slope : ℝ) : ℝ :=
  ∑ k ∈ Finset.range (p.pz + 1).toNat, ∑ j ∈ Finset.range (p.py + 1).toNat, ∑ i ∈ Finset.range (p.px + 1).toNat,
    |coefficient p i j k| * ((i + j + slope * k) * b ^ (i + j + k - 1))
noncomputable def rsmBend (p : RsmPoly ℝ) (b slope : ℝ) : ℝ :=
  ∑ k ∈ Finset.range (p.pz + 1).toNat, ∑ j ∈ Finset.range (p.py + 1).toNat, ∑ i ∈ Finset.range (p.px + 1).toNat,
    if i + j = 1 ∧ k = 0 then 0 else |coefficient p i j k| * ((i + j + slope * k) * b ^ (i + j + k - 1))

/-- As `Bends`, for RSM. -/
structure RsmBends (num den : RsmPoly ℝ) (b slope steep q most gain : ℝ) : Prop where
  complete : Complete num ∧ Complete den
  den_ne : ∀ x y z, |x| ≤ b → |y| ≤ b → |z| ≤ b → value den x y z ≠ 0
  den_le : ∀ x y z, |x| ≤ b → |y| ≤ b → |z| ≤ b → |value den x y z| ≤ most
  quotient : ∀ x y z, |x| ≤ b → |y| ≤ b → |z| ≤ b → |value num x y z / value den x y z| ≤ q
  slack : gain + rsmBend num b slope + q * rsmVariation den b slope ≤ steep

/-- Longitude and latitude of normalised coordinates of a geodetic ground domain. -/
def rsmLon (m : PolyModel) (x : ℝ) : ℝ := x * m.xScale + m.xOff
def rsmLat (m : PolyModel) (y : ℝ) : ℝ := y * m.yScale + m.yOff

/-- As `NearlyAffine`, for an RSM model with a geodetic ground domain. -/
structure RsmNearlyAffine (m : PolyModel) (b slope steep q most gain : ℝ) : Prop where
  form : m.domain.frame.form = .geodetic ∨
    m.domain.frame.form = .geodetic2pi ∧ ∀ x, |x| ≤ b → 0 ≤ rsmLon m x ∧ rsmLon m x < 2 * Real.pi
  scales : m.xScale ≠ 0 ∧ m.yScale ≠ 0 ∧ m.zScale ≠ 0 ∧ m.colScale ≠ 0 ∧ m.rowScale ≠ 0
  positive : 0 < b ∧ 0 ≤ slope ∧ 0 < gain
  col : RsmBends m.colNum m.colDen b slope steep q most gain
  row : RsmBends m.rowNum m.rowDen b slope steep q most gain
  regular : ∀ x y, steep * max |x| |y| ≤ max |xTerm m.colNum * x + yTerm m.colNum * y| |xTerm m.rowNum * x + yTerm m.rowNum * y|

/-- As `Surface`, for RSM. -/
structure RsmSurface (m : PolyModel) (e : Option (Elev ℝ)) (b slope : ℝ) (height : ℝ → ℝ → ℝ) : Prop where
  keeps : ∀ f, e = some f → ∀ g g', f g = .ok g' → g'.longitude = g.longitude ∧ g'.latitude = g.latitude
  ground : ∀ x y, |x| ≤ b → |y| ≤ b →
    ground m.domain.defaultHeight e (rsmLon m x) (rsmLat m y) = .ok ⟨rsmLon m x, rsmLat m y, height x y * m.zScale + m.zOff⟩
  inside : ∀ x y, |x| ≤ b → |y| ≤ b → |height x y| ≤ b
  gentle : ∀ x y x' y', |x| ≤ b → |y| ≤ b → |x'| ≤ b → |y'| ≤ b → |height x y - height x' y'| ≤ slope * max |x - x'| |y - y'|

/-- The pixel in normalised image coordinates, and when it is seen from inside the box. -/
noncomputable def colOf (m : PolyModel) (c : ℝ) : ℝ := (c - m.colOff) / m.colScale
noncomputable def rowOf (m : PolyModel) (r : ℝ) : ℝ := (r - m.rowOff) / m.rowScale
def RsmReached (m : PolyModel) (b q gain : ℝ) (h0 : ℝ) (p : ℝ × ℝ) : Prop :=
  |colOf m p.1| ≤ q ∧ |rowOf m p.2| ≤ q ∧
  |value m.colNum 0 0 h0 - colOf m p.1 * value m.colDen 0 0 h0| ≤ gain * b ∧
  |value m.rowNum 0 0 h0 - rowOf m p.2 * value m.rowDen 0 0 h0| ≤ gain * b

end Verif.Spec.Nearby
