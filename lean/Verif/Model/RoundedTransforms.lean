import Verif.Model.Rounded
import Verif.Model.Sensors

/-!
# Projective transforms and chips in double arithmetic

`Model/Transforms.lean` describes the code over a field.  Here each arithmetic operation is the exact operation
followed by a rounding function `rnd`, in the order of the code (NumPy evaluates each operation on the
array before the next one and does not fuse them).  Overflow is not modelled.
-/

namespace Verif.RoundedTransforms

open Verif.Sensors Verif.Transforms

/-- A division of numpy: `none` for a zero divisor.  `transforms.py` L39-40, L55-60. -/
noncomputable def ndiv (rnd : ℝ → ℝ) (a b : ℝ) : Option ℝ := if b = 0 then none else some (rnd (a / b))

/-- transforms.py L39-40: `m0 + m1 * x + m2 * y` -/
def linear (rnd : ℝ → ℝ) (m0 m1 m2 x y : ℝ) : ℝ := rnd (rnd (m0 + rnd (m1 * x)) + rnd (m2 * y))

/-- transforms.py L27-41, one row of the array. -/
noncomputable def forward (rnd : ℝ → ℝ) (t : Projective ℝ) (p : ℝ × ℝ) : Option (ℝ × ℝ) := do
  let u ← ndiv rnd (linear rnd t.a0 t.a1 t.a2 p.1 p.2) (linear rnd 1 t.c0 t.c1 p.1 p.2)
  let v ← ndiv rnd (linear rnd t.b0 t.b1 t.b2 p.1 p.2) (linear rnd 1 t.c0 t.c1 p.1 p.2)
  pure (u, v)

/-- transforms.py L55-60: a difference of two products, and of a number and a product. -/
def minor (rnd : ℝ → ℝ) (a b c d : ℝ) : ℝ := rnd (rnd (a * b) - rnd (c * d))
/-- transforms.py L55-60 -/
def minorL (rnd : ℝ → ℝ) (a c d : ℝ) : ℝ := rnd (a - rnd (c * d))
/-- transforms.py L55-60 -/
def minorR (rnd : ℝ → ℝ) (a b c : ℝ) : ℝ := rnd (rnd (a * b) - c)

/-- transforms.py L43-61, one row of the array. -/
noncomputable def inverse (rnd : ℝ → ℝ) (t : Projective ℝ) (q : ℝ × ℝ) : Option (ℝ × ℝ) := do
  let det := linear rnd (minor rnd t.a1 t.b2 t.a2 t.b1) (minor rnd t.b1 t.c1 t.b2 t.c0) (minor rnd t.a2 t.c0 t.a1 t.c1) q.1 q.2
  let u ← ndiv rnd (linear rnd (minor rnd t.a2 t.b0 t.a0 t.b2) (minorL rnd t.b2 t.b0 t.c1) (minorR rnd t.a0 t.c1 t.a2) q.1 q.2) det
  let v ← ndiv rnd (linear rnd (minor rnd t.a0 t.b1 t.a1 t.b0) (minorR rnd t.b0 t.c0 t.b1) (minorL rnd t.a1 t.a0 t.c0) q.1 q.2) det
  pure (u, v)

/-- transforms.py L79-95: the rows of the system; the products with the coordinates are rounded. -/
def rowX (rnd : ℝ → ℝ) (s d : ℝ × ℝ) : Row ℝ := ⟨⟨1, s.1, s.2, 0, 0, 0, rnd (-d.1 * s.1), rnd (-d.1 * s.2)⟩, d.1⟩
/-- transforms.py L79-95 -/
def rowY (rnd : ℝ → ℝ) (s d : ℝ × ℝ) : Row ℝ := ⟨⟨0, 0, 0, 1, s.1, s.2, rnd (-d.2 * s.1), rnd (-d.2 * s.2)⟩, d.2⟩
/-- transforms.py L79-95 -/
def system (rnd : ℝ → ℝ) (pairs : List ((ℝ × ℝ) × (ℝ × ℝ))) : List (Row ℝ) :=
  pairs.map (fun p => rowX rnd p.1 p.2) ++ pairs.map (fun p => rowY rnd p.1 p.2)

/-- transforms.py L63-100, and `np.vstack` of the callers as in Model/Sensors.lean. -/
def estimateStacked (rnd : ℝ → ℝ) (lstsq : List (Row ℝ) → Projective ℝ) (src dst : List (ℝ × ℝ)) : Except PyErr (Projective ℝ) :=
  if src = [] ∨ dst = [] ∨ src.length ≠ dst.length then .error .valueError
  else .ok (lstsq (system rnd (src.zip dst)))

/-- chipped_image_sensor_model.py L20-79. -/
noncomputable def chipped {O : Type} (rnd : ℝ → ℝ) (lstsq : List (Row ℝ) → Projective ℝ) (original chip : List (ℝ × ℝ)) (full : SensorModel ℝ O) :
    Except PyErr (SensorModel ℝ O) :=
  match estimateStacked rnd lstsq original chip with
  | .error e => .error e
  | .ok t => .ok {
      imageToWorld := fun p e o => do
        let q ← finite (inverse rnd t p)
        full.imageToWorld q e o
      worldToImage := fun g => do
        let q ← full.worldToImage g
        finite (forward rnd t q) }

/-- projective_sensor_model.py L19-72. -/
noncomputable def projective {O : Type} (rnd : ℝ → ℝ) (lstsq : List (Row ℝ) → Projective ℝ) (world : List (Verif.Dem.Geo ℝ)) (image : List (ℝ × ℝ)) :
    Except PyErr (SensorModel ℝ O) :=
  match estimateStacked rnd lstsq (world.map (fun g => (g.longitude, g.latitude))) image with
  | .error e => .error e
  | .ok t => .ok {
      imageToWorld := fun p e _ => do
        let q ← finite (inverse rnd t p)
        withElevation e ⟨q.1, q.2, 0⟩
      worldToImage := fun g => finite (forward rnd t (g.longitude, g.latitude)) }

end Verif.RoundedTransforms
