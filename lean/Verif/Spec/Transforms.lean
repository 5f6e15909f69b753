import Verif.Model.Transforms

/-!
# Specification: plane projective geometry
-/

namespace Verif.Spec.Transforms

variable {K : Type} [Field K] [LinearOrder K]

/-- Twice the signed area of a triangle; zero exactly for points on a line. -/
def area (p q r : K × K) : K := (q.1 - p.1) * (r.2 - p.2) - (q.2 - p.2) * (r.1 - p.1)

/-- Four of the points have no three on a line. -/
def GeneralPosition (ps : List (K × K)) : Prop :=
  ∃ p1 ∈ ps, ∃ p2 ∈ ps, ∃ p3 ∈ ps, ∃ p4 ∈ ps,
    area p1 p2 p3 ≠ 0 ∧ area p1 p2 p4 ≠ 0 ∧ area p1 p3 p4 ≠ 0 ∧ area p2 p3 p4 ≠ 0

end Verif.Spec.Transforms

namespace Verif.Transforms

variable {K : Type} [Field K] [LinearOrder K]

/-- The determinant of the matrix with rows `(1, c0, c1)`, `(a0, a1, a2)`, `(b0, b1, b2)`. -/
def Projective.det (t : Projective K) : K :=
  t.a1 * t.b2 - t.a2 * t.b1 + (t.b0 * t.a2 - t.a0 * t.b2) * t.c0 + (t.a0 * t.b1 - t.b0 * t.a1) * t.c1

/-- The denominator at a point; zero on the line that is mapped to infinity. -/
def Projective.den (t : Projective K) (p : K × K) : K := 1 + t.c0 * p.1 + t.c1 * p.2

end Verif.Transforms
