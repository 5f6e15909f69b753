import Verif.Spec.Sicd
import Verif.Spec.Rounded

/-!
# What is assumed about inner products in doubles and about the geometry of a radar image
-/

namespace Verif.Spec.RoundedSicd

open Verif.Sicd (V3)

/-- The inner product, and that of the absolute values. -/
def inner3 (a b : V3) : ℝ := a.x * b.x + a.y * b.y + a.z * b.z
noncomputable def absInner3 (a b : V3) : ℝ := |a.x| * |b.x| + |a.y| * |b.y| + |a.z| * |b.z|

/-- An inner product of three terms in doubles: in whatever order the terms are added, with or without fused operations. -/
structure Dot3Rounds (dot3 : V3 → V3 → ℝ) : Prop where
  err : ∀ a b, absInner3 a b ≤ 2 ^ 200 → |dot3 a b - inner3 a b| ≤ 4 / 2 ^ 53 * absInner3 a b + 1 / 2 ^ 190

/-- The length of a vector. -/
noncomputable def length (a : V3) : ℝ := √(a.x ^ 2 + a.y ^ 2 + a.z ^ 2)

/-- The geometry of a radar image, in metres and metres a second, with lengths up to a million kilometres: the platform is at most `D` from the centre of the Earth and from the reference point
of the plane; the range is at least a metre and at most `D`; the platform moves, and its velocity is not steeper than 45 degrees to the plane;
the normal is of length 1 up to a factor 2; the line of sight is not within about 2.5 degrees of the normal of the plane;
the reference point is not under the track (as far as doubles can tell). -/
structure Imaging (ref u : V3) (r : ℝ) (P V : V3) (D : ℝ) : Prop where
  size : D ≤ 2 ^ 30
  platform : length P ≤ D
  reference : length ⟨P.x - ref.x, P.y - ref.y, P.z - ref.z⟩ ≤ D
  range : 1 ≤ r ∧ r ≤ D
  normal : 1 / 2 ≤ length u ∧ length u ≤ 2
  speed : 1 ≤ length V ∧ length V ≤ 2 ^ 60
  level : 2 * inner3 V u ^ 2 ≤ (length V * length u) ^ 2
  grazing : |Spec.Sicd.along u P ref| ≤ (1 - 1 / 2 ^ 10) * (r * length u)
  aside : 20 / 2 ^ 53 * (D * length V * length u) ≤ |Spec.Sicd.side P V u ref|

end Verif.Spec.RoundedSicd
