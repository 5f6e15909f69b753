import Verif.Model.Py
import Verif.Model.Float64
import Mathlib.Analysis.Real.Sqrt
import Mathlib.Analysis.SpecialFunctions.Trigonometric.Basic

/-!
# Model of `image_processing/sar_complex_imageop.py`

The functions work elementwise on arrays, except for minimum, maximum and mean.  A pixel has two
components.  Floating-point pixels are real numbers without rounding or overflow; `none` stands for NaN.
Integer pixels are exact, with the wrap-around of numpy's fixed-width arithmetic.  `np.float32` in
`linear_mapping` is a rounding parameter.  The functions on whole images and `power_value_in_decibels` are in `SarTiles`.
-/

namespace Verif.Sar

/-- An integer stored in a fixed-width numpy type.  `sar_complex_imageop.py` L50. -/
def wrap (bits : Nat) (signed : Bool) (z : Int) : Int :=
  if signed then (z + 2 ^ (bits - 1)) % 2 ^ bits - 2 ^ (bits - 1) else z % 2 ^ bits

/-- The two components of a pixel, with the numpy type of the array.  `sar_complex_imageop.py` L26-50. -/
inductive Px where
  | ints (bits : Nat) (signed : Bool) (c0 c1 : Int)
  | reals (c0 c1 : ℝ)

/-- `amplitude_lut[amplitude]` (L35-36) for an unsigned amplitude. -/
def lookup (table : List ℝ) (a : Int) : Except PyErr ℝ :=
  match table[a.toNat]? with
  | some v => .ok v
  | none => .error .indexError

/-- L31-37 for one amplitude and phase -/
noncomputable def polar (amplitude phase : ℝ) : Px :=
  .reals (amplitude * Real.cos (2 * Real.pi * (phase / 256))) (amplitude * Real.sin (2 * Real.pi * (phase / 256)))

/-- sar_complex_imageop.py L13-39 -/
noncomputable def toComplex (ptype : Option String) (table : Option (List ℝ)) (px : Px) : Except PyErr Px :=
  if ptype = none ∨ ptype = some "RE32F_IM32F" ∨ ptype = some "RE16I_IM16I" then .ok px
  else if ptype = some "AMP8I_PHS8I" then
    match px, table with
    | .ints _ _ a p, none => .ok (polar a p)
    | .ints _ _ a p, some t => do
      let v ← lookup t a
      pure (polar v p)
    | .reals a p, none => .ok (polar a p)
    | .reals _ _, some _ => .error .indexError
  else .error .valueError

/-- sar_complex_imageop.py L42-50: `np.square` keeps the type of the array, `np.sum` widens it to 64 bits. -/
noncomputable def power : Px → ℝ
  | .ints bits signed a b => ((wrap bits signed (a * a) + wrap bits signed (b * b) : Int) : ℝ)
  | .reals a b => a * a + b * b

/-- `np.clip(x, lo, hi)`.  `sar_complex_imageop.py` L84, L98, L119. -/
noncomputable def clip {K : Type} [LinearOrder K] (x lo hi : K) : K := min (max x lo) hi

/-- `np.mean` over the finite elements (L96, L117); NaN when there are none. -/
noncomputable def finiteMean (vs : List (Option ℝ)) : Option ℝ :=
  let fs := vs.filterMap id
  if fs = [] then none else some (fs.sum / fs.length)

/-- `np.clip(255.0 * (1 / (scale * mean)) * v, 0.0, 255.0)` in numpy arithmetic (L97-98, L118-119): division by
zero gives infinity, and infinity times zero NaN. -/
noncomputable def stretchOne (scale : ℝ) (mean : Option ℝ) (v : Option ℝ) : Option ℝ :=
  match mean, v with
  | some m, some x =>
    if scale * m = 0 then (if x = 0 then none else if 0 < x then some 255 else some 0)
    else some (clip (255 * (1 / (scale * m)) * x) 0 255)
  | _, _ => none

/-- sar_complex_imageop.py L87-98 -/
noncomputable def histogramStretch (scale : ℝ) (vs : List (Option ℝ)) : List (Option ℝ) :=
  vs.map (stretchOne scale (finiteMean vs))

/-- sar_complex_imageop.py L101-119; a given mean is a numpy scalar (as in `gdal_tile_factory.py` L439). -/
noncomputable def quarterPower (scale : ℝ) (given : Option ℝ) (vs : List (Option ℝ)) : List (Option ℝ) :=
  let roots := vs.map (Option.map (fun x => Real.sqrt |x|))
  roots.map (stretchOne scale (given.or (finiteMean roots)))

/-- Conversion to IEEE-754 binary32, nearest, ties to even, below the overflow threshold.  `astype(np.float32)` in `sar_complex_imageop.py` L84. -/
def rne32 (x : ℚ) : ℚ :=
  if x = 0 then 0
  else
    let e := max (Int.log 2 |x| - 23) (-149)
    Verif.Float64.rint (x / 2 ^ e) * 2 ^ e

/-- sar_complex_imageop.py L73-84 on numbers; `f32` is the conversion to `np.float32`, the remaining arithmetic is
exact.  `none` is NaN (0 / 0). -/
def linearOne (f32 : ℚ → ℚ) (lo hi v : ℚ) : Option ℚ :=
  let d := f32 hi - lo
  let n := f32 v - lo
  if d = 0 then (if n = 0 then none else if 0 < n then some 1 else some 0)
  else some (min (max (n / d) 0) 1)

/-- sar_complex_imageop.py L63-84; `np.min` of an empty array raises `ValueError`. -/
def linearMapping (f32 : ℚ → ℚ) (vs : List ℚ) : Except PyErr (List (Option ℚ)) :=
  match vs.min?, vs.max? with
  | some lo, some hi =>
    if hi = lo then .ok (vs.map (fun _ => some (1 / 2)))
    else .ok (vs.map (linearOne f32 lo hi))
  | _, _ => .error .valueError

end Verif.Sar
