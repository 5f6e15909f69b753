import Verif.Model.Sicd

/-!
# Specification of the SAR projections, in coordinates
-/

namespace Verif.Spec.Sicd

open Verif.Sicd (V3)

/-- Squared distance. -/
def sqDist (p q : V3) : ℝ := (p.x - q.x) ^ 2 + (p.y - q.y) ^ 2 + (p.z - q.z) ^ 2

/-- Inner product of a direction with the displacement from `q` to `p`. -/
def along (v p q : V3) : ℝ := v.x * (p.x - q.x) + v.y * (p.y - q.y) + v.z * (p.z - q.z)

/-- Two directions are perpendicular. -/
def Perp (a b : V3) : Prop := a.x * b.x + a.y * b.y + a.z * b.z = 0

/-- A vector of length one. -/
def IsUnit (a : V3) : Prop := a.x ^ 2 + a.y ^ 2 + a.z ^ 2 = 1

/-- Two directions are independent: one of the three minors is not 0. -/
def Independent (a b : V3) : Prop := a.y * b.z - a.z * b.y ≠ 0 ∨ a.z * b.x - a.x * b.z ≠ 0 ∨ a.x * b.y - a.y * b.x ≠ 0

/-- `q` lies on the plane through `ref` across `n`. -/
def OnPlane (ref n q : V3) : Prop := along n q ref = 0

/-- `q` is seen from a platform at `P` moving with `V` at range `r` and the range changes at rate `rdot`. -/
def Seen (P V : V3) (r rdot : ℝ) (q : V3) : Prop := sqDist P q = r ^ 2 ∧ along V P q = r * rdot

/-- The determinant of line of sight, velocity and up direction: positive on one side of the track, negative on the other. -/
def side (P V n q : V3) : ℝ :=
  ((P.y - q.y) * V.z - (P.z - q.z) * V.y) * n.x + ((P.z - q.z) * V.x - (P.x - q.x) * V.z) * n.y + ((P.x - q.x) * V.y - (P.y - q.y) * V.x) * n.z

end Verif.Spec.Sicd
