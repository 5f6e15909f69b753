import Mathlib.Analysis.Real.Pi.Bounds
import Verif.Spec.Rsm
import Verif.Model.Rsm

/-!
# What is assumed about the rounding of doubles, and how sensitive a polynomial is to it
-/

namespace Verif.Spec.Rounded

open Verif.Spec.Rpc Verif.Rpc
open Verif.Dem (Geo)

/-- A rounding of results to doubles: relative error 2⁻⁵³ plus (for results near zero) a quantum that is
larger than that of the subnormal numbers, below a limit that is far from the largest double. -/
structure Rounds (rnd : ℝ → ℝ) : Prop where
  err : ∀ x, |x| ≤ 2 ^ 250 → |rnd x - x| ≤ |x| / 2 ^ 53 + 1 / 2 ^ 200

/-- The sum of the magnitudes of the terms of an RPC cubic. -/
noncomputable def magnitude (c : List ℝ) (l p h : ℝ) : ℝ := cubic (c.map (fun a => |a|)) |l| |p| |h|

/-- The quotient of two RPC cubics has condition number at most `κ` for normalised coordinates up to `b`:
the terms of neither polynomial cancel so much that they are more than `κ` times as large as the
value of the denominator. -/
structure Tame (num den : List ℝ) (b κ : ℝ) : Prop where
  lengths : num.length = 20 ∧ den.length = 20
  coefficients : ∀ a, a ∈ num ∨ a ∈ den → |a| ≤ 2 ^ 100
  condition : ∀ l p h, |l| ≤ b → |p| ≤ b → |h| ≤ b →
    magnitude num l p h ≤ κ * |cubic den l p h| ∧ magnitude den l p h ≤ κ * |cubic den l p h| ∧
    1 / 2 ^ 20 ≤ |cubic den l p h|

/-- Offsets and scales of the size that occurs: degrees, heights up to a thousand kilometres, and no
ground scale below a millionth of a degree or a micrometre. -/
structure Ordinary (r : RpcModel) : Prop where
  offsets : |r.longOff| ≤ 720 ∧ |r.latOff| ≤ 720 ∧ |r.heightOff| ≤ 2 ^ 20
  scales : ∀ s, s = r.longScale ∨ s = r.latScale ∨ s = r.heightScale → 1 / 2 ^ 20 ≤ |s| ∧ |s| ≤ 2 ^ 20
  image : ∀ x, x = r.lineScale ∨ x = r.sampScale ∨ x = r.lineOff ∨ x = r.sampOff → |x| ≤ 2 ^ 40

/-- A ground position in radians and metres, on or above the Earth (or a little below), and its normalised
coordinates are inside the box `b` with some room. -/
structure Inside (r : RpcModel) (b : ℝ) (g : Geo ℝ) : Prop where
  position : |g.longitude| ≤ 8 ∧ |g.latitude| ≤ 8 ∧ |g.elevation| ≤ 2 ^ 20
  longitude : |(180 / Real.pi * g.longitude - r.longOff) / r.longScale| + 1 / 1000 ≤ b
  latitude : |(180 / Real.pi * g.latitude - r.latOff) / r.latScale| + 1 / 1000 ≤ b
  height : |(g.elevation - r.heightOff) / r.heightScale| + 1 / 1000 ≤ b

/-- The exact projection (column, row) of a ground position by the RPC00B formulas. -/
def Projects (r : RpcModel) (g : Geo ℝ) (q : ℝ × ℝ) : Prop :=
  ∃ L P H, L * r.longScale + r.longOff = 180 / Real.pi * g.longitude ∧
    P * r.latScale + r.latOff = 180 / Real.pi * g.latitude ∧ H * r.heightScale + r.heightOff = g.elevation ∧
    cubic r.sampDen L P H ≠ 0 ∧ cubic r.lineDen L P H ≠ 0 ∧
    q = (r.sampOff + r.sampScale * (cubic r.sampNum L P H / cubic r.sampDen L P H),
      r.lineOff + r.lineScale * (cubic r.lineNum L P H / cubic r.lineDen L P H))

/-! ## RSM -/

open Verif.Rsm Verif.Spec.Rsm

/-- A power function that is right up to one unit in the last place. -/
structure PowRounds (pow : ℝ → Nat → ℝ) : Prop where
  err : ∀ x i, |x ^ i| ≤ 2 ^ 250 → |pow x i - x ^ i| ≤ |x ^ i| / 2 ^ 52 + 1 / 2 ^ 200

/-- The coefficient of `x^i y^j z^k`: the power of `x` runs fastest, then `y`, then `z`. -/
noncomputable def coefficient (p : RsmPoly ℝ) (i j k : Nat) : ℝ :=
  p.coefficients.getD (i + (p.px + 1).toNat * (j + (p.py + 1).toNat * k)) 0

/-- The value of an RSM polynomial, and the sum of the magnitudes of its terms. -/
noncomputable def value (p : RsmPoly ℝ) (x y z : ℝ) : ℝ :=
  triple (p.px + 1).toNat (p.py + 1).toNat (p.pz + 1).toNat (coefficient p) x y z
noncomputable def rsmMagnitude (p : RsmPoly ℝ) (x y z : ℝ) : ℝ :=
  triple (p.px + 1).toNat (p.py + 1).toNat (p.pz + 1).toNat (fun i j k => |coefficient p i j k|) |x| |y| |z|

/-- A polynomial as the format allows: powers up to five, all coefficients. -/
structure Complete (p : RsmPoly ℝ) : Prop where
  powers : p.px ≤ 5 ∧ p.py ≤ 5 ∧ p.pz ≤ 5
  length : p.coefficients.length = (p.px + 1).toNat * ((p.py + 1).toNat * (p.pz + 1).toNat)
  size : ∀ a ∈ p.coefficients, |a| ≤ 2 ^ 40

/-- The quotient of two polynomials has condition number at most `κ` for normalised coordinates up to `b`. -/
structure RsmTame (num den : RsmPoly ℝ) (b κ : ℝ) : Prop where
  complete : Complete num ∧ Complete den
  condition : ∀ x y z, |x| ≤ b → |y| ≤ b → |z| ≤ b →
    rsmMagnitude num x y z ≤ κ * |value den x y z| ∧ rsmMagnitude den x y z ≤ κ * |value den x y z| ∧
    1 / 2 ^ 20 ≤ |value den x y z|

/-- Normalising `v` with this offset and scale gives at most `b`, with some room; the scale is not too
small for the magnitude of the numbers. -/
structure InRange (v off scale b : ℝ) : Prop where
  inside : |(v - off) / scale| + 1 / 1000 ≤ b
  size : |v| + |off| ≤ 2 ^ 30
  scale_min : 1 / 2 ^ 20 ≤ |scale|
  scale_max : |scale| ≤ 2 ^ 30
  ratio : |v| + |off| + 1 ≤ 2 ^ 40 * |scale|

/-- The exact (column, row) of a ground domain coordinate. -/
def RsmProjects (m : PolyModel) (v : Vec) (q : ℝ × ℝ) : Prop :=
  ∃ x y z, x * m.xScale + m.xOff = v 0 ∧ y * m.yScale + m.yOff = v 1 ∧ z * m.zScale + m.zOff = v 2 ∧
    value m.colDen x y z ≠ 0 ∧ value m.rowDen x y z ≠ 0 ∧
    q = (m.colOff + m.colScale * (value m.colNum x y z / value m.colDen x y z),
      m.rowOff + m.rowScale * (value m.rowNum x y z / value m.rowDen x y z))

/-! ## Affine models -/

/-- The exact inner product, and that of the absolute values. -/
noncomputable def inner (a x : ℝ × ℝ × ℝ) : ℝ := a.1 * x.1 + a.2.1 * x.2.1 + a.2.2 * x.2.2
noncomputable def absInner (a x : ℝ × ℝ × ℝ) : ℝ := |a.1| * |x.1| + |a.2.1| * |x.2.1| + |a.2.2| * |x.2.2|

/-- An inner product of three terms in doubles: in whatever order the terms are added, with or without fused operations. -/
structure DotRounds (dot : ℝ × ℝ × ℝ → ℝ × ℝ × ℝ → ℝ) : Prop where
  err : ∀ a x, absInner a x ≤ 2 ^ 200 → |dot a x - inner a x| ≤ 4 / 2 ^ 53 * absInner a x + 1 / 2 ^ 190

/-- Numbers of a size that occurs. -/
def Small (a : ℝ × ℝ × ℝ) : Prop := |a.1| ≤ 2 ^ 40 ∧ |a.2.1| ≤ 2 ^ 40 ∧ |a.2.2| ≤ 2 ^ 40

end Verif.Spec.Rounded
