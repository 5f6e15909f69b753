import Verif.Model.Rounded

/-!
# The grid of a geolocator in doubles

`/repo/src/aws/osml/features/geolocation.py` L46-81 and L156-165 with a rounding after every operation.  `Verif.GeolocationGrid` is the same code
with exact numbers.  Numpy's `linspace` and FITPACK's evaluation of a spline of degree 1 are written out; the coefficients that FITPACK fits are a
parameter (for a spline of degree 1 they are the values at the nodes, but FITPACK gets them from a system of equations).
-/

namespace Verif.GridRounded

/-- geolocation.py L156-157, L162-163: the left (upper) edge of the grid for features that begin at `lo`. -/
noncomputable def start (rnd : ℝ → ℝ) (lo : ℝ) : ℝ := rnd (lo - 10)

/-- geolocation.py L158-159, L164-165 (the width), L46-47 (its sum with the edge): the right (lower) edge of the grid for features from `lo` to `hi`. -/
noncomputable def stop (rnd : ℝ → ℝ) (lo hi : ℝ) : ℝ :=
  let width := rnd (rnd (hi + 10) - start rnd lo)
  rnd (start rnd lo + width)

/-- geolocation.py L46-47, `np.linspace(a, b, n)`: multiples of the step are added to `a`, and the last value is `b`. -/
noncomputable def linspace (rnd : ℝ → ℝ) (a b : ℝ) (n k : Nat) : ℝ :=
  if k + 1 = n then b
  else rnd (rnd (k * rnd (rnd (b - a) / ((n : ℝ) - 1))) + a)

/-- geolocation.py L46-47: the nodes along one axis. -/
noncomputable def node (rnd : ℝ → ℝ) (lo hi : ℝ) (n k : Nat) : ℝ := linspace rnd (start rnd lo) (stop rnd lo hi) n k

/-- geolocation.py L77-81 (FITPACK `fpbisp`): a position outside the nodes is moved to the edge. -/
noncomputable def clamp (t : Nat → ℝ) (n : Nat) (x : ℝ) : ℝ :=
  let x := if x < t 0 then t 0 else x
  if t (n - 1) < x then t (n - 1) else x

/-- geolocation.py L77-81 (FITPACK `fpbisp`): the search for the interval of nodes that contains `x`, from interval `i` on, over at most `m` more. -/
noncomputable def cellFrom (t : Nat → ℝ) (x : ℝ) : Nat → Nat → Nat
  | i, 0 => i
  | i, m + 1 => if x < t (i + 1) then i else cellFrom t x (i + 1) m

/-- geolocation.py L77-81 (FITPACK `fpbspl` for degree 1): the weights of the two nodes of interval `i`. -/
noncomputable def weights (rnd : ℝ → ℝ) (t : Nat → ℝ) (i : Nat) (x : ℝ) : ℝ × ℝ :=
  let f := rnd (1 / rnd (t (i + 1) - t i))
  (rnd (0 + rnd (f * rnd (t (i + 1) - x))), rnd (f * rnd (x - t i)))

/-- geolocation.py L77-81 for one of the three values (`RectBivariateSpline.__call__`): the nodes along the axes are `tx` and `ty`, the coefficients `c`. -/
noncomputable def value (rnd : ℝ → ℝ) (tx ty : Nat → ℝ) (n : Nat) (c : Nat → Nat → ℝ) (x y : ℝ) : ℝ :=
  let x := clamp tx n x
  let y := clamp ty n y
  let i := cellFrom tx x 0 (n - 2)
  let j := cellFrom ty y 0 (n - 2)
  let u := weights rnd tx i x
  let v := weights rnd ty j y
  [rnd (rnd (c i j * u.1) * v.1), rnd (rnd (c i (j + 1) * u.1) * v.2), rnd (rnd (c (i + 1) j * u.2) * v.1),
    rnd (rnd (c (i + 1) (j + 1) * u.2) * v.2)].foldl (fun r t => rnd (r + t)) 0

/-- geolocation.py L46-81 for one of the three values, for features between `lo` and `hi`. -/
noncomputable def located (rnd : ℝ → ℝ) (lo hi : ℝ × ℝ) (n : Nat) (c : Nat → Nat → ℝ) (p : ℝ × ℝ) : ℝ :=
  value rnd (node rnd lo.1 hi.1 n) (node rnd lo.2 hi.2 n) n c p.1 p.2

end Verif.GridRounded
