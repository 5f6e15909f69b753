import Mathlib.Algebra.Order.Field.Basic
import Verif.Model.Py

/-!
# Model of `photogrammetry/transforms.py`

Exact arithmetic in a linear ordered field.  NumPy does not raise on a division by
zero but gives infinities or NaN; the model gives `none` for such a point.
-/

namespace Verif.Transforms

variable {K : Type} [Field K] [LinearOrder K]

/-- transforms.py L35: the eight parameters. -/
structure Projective (K : Type) where
  a0 : K
  a1 : K
  a2 : K
  b0 : K
  b1 : K
  b2 : K
  c0 : K
  c1 : K
deriving DecidableEq

/-- A division of numpy: `none` for a zero divisor.  `transforms.py` L39-40, L55-60. -/
def ndiv (a b : K) : Option K := if b = 0 then none else some (a / b)

/-- transforms.py L27-41, one row of the array. -/
def Projective.forward (t : Projective K) (p : K × K) : Option (K × K) := do
  let x := p.1
  let y := p.2
  let u ← ndiv (t.a0 + t.a1 * x + t.a2 * y) (1 + t.c0 * x + t.c1 * y)
  let v ← ndiv (t.b0 + t.b1 * x + t.b2 * y) (1 + t.c0 * x + t.c1 * y)
  pure (u, v)

/-- transforms.py L43-61, one row of the array. -/
def Projective.inverse (t : Projective K) (q : K × K) : Option (K × K) := do
  let x := q.1
  let y := q.2
  let u ← ndiv (t.a2 * t.b0 - t.a0 * t.b2 + (t.b2 - t.b0 * t.c1) * x + (t.a0 * t.c1 - t.a2) * y)
    (t.a1 * t.b2 - t.a2 * t.b1 + (t.b1 * t.c1 - t.b2 * t.c0) * x + (t.a2 * t.c0 - t.a1 * t.c1) * y)
  let v ← ndiv (t.a0 * t.b1 - t.a1 * t.b0 + (t.b0 * t.c0 - t.b1) * x + (t.a1 - t.a0 * t.c0) * y)
    (t.a1 * t.b2 - t.a2 * t.b1 + (t.b1 * t.c1 - t.b2 * t.c0) * x + (t.a2 * t.c0 - t.a1 * t.c1) * y)
  pure (u, v)

/-- One row of the linear system of `estimate`: eight coefficients and the right-hand side.  `transforms.py` L80-95. -/
structure Row (K : Type) where
  m : Projective K
  rhs : K

/-- transforms.py L79-95: the rows of the first half for one pair of points. -/
def rowX (s d : K × K) : Row K := ⟨⟨1, s.1, s.2, 0, 0, 0, -d.1 * s.1, -d.1 * s.2⟩, d.1⟩

/-- transforms.py L79-95: the rows of the second half for one pair of points. -/
def rowY (s d : K × K) : Row K := ⟨⟨0, 0, 0, 1, s.1, s.2, -d.2 * s.1, -d.2 * s.2⟩, d.2⟩

/-- transforms.py L75-95: the matrix and the right-hand sides. -/
def system (pairs : List ((K × K) × (K × K))) : List (Row K) :=
  pairs.map (fun p => rowX p.1 p.2) ++ pairs.map (fun p => rowY p.1 p.2)

/-- The product of a row with a parameter vector.  `transforms.py` L98. -/
def Row.apply (r : Row K) (t : Projective K) : K :=
  r.m.a0 * t.a0 + r.m.a1 * t.a1 + r.m.a2 * t.a2 + r.m.b0 * t.b0 + r.m.b1 * t.b1 + r.m.b2 * t.b2
    + r.m.c0 * t.c0 + r.m.c1 * t.c1

/-- The sum of the squares of the residuals.  What `lstsq` minimises (`transforms.py` L98). -/
def residual (rows : List (Row K)) (t : Projective K) : K := (rows.map (fun r => (r.apply t - r.rhs) ^ 2)).sum

/-- The squared length of a parameter vector.  `lstsq` takes the shortest solution (`transforms.py` L98). -/
def normSq (t : Projective K) : K :=
  t.a0 ^ 2 + t.a1 ^ 2 + t.a2 ^ 2 + t.b0 ^ 2 + t.b1 ^ 2 + t.b2 ^ 2 + t.c0 ^ 2 + t.c1 ^ 2

/-- What `numpy.linalg.lstsq` (external, transforms.py L98) returns: a parameter vector with
the least sum of squares, and the shortest of those. -/
structure IsLstsq (rows : List (Row K)) (t : Projective K) : Prop where
  least : ∀ t', residual rows t ≤ residual rows t'
  shortest : ∀ t', residual rows t' = residual rows t → normSq t ≤ normSq t'

/-- transforms.py L63-100: `estimate` returns the solution that `lstsq` gives for the system. -/
def estimate (lstsq : List (Row K) → Projective K) (pairs : List ((K × K) × (K × K))) : Projective K :=
  lstsq (system pairs)

end Verif.Transforms
