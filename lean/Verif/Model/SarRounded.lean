import Verif.Model.Sar
import Verif.Model.Rounded

/-!
# Model of the display functions of `image_processing/sar_complex_imageop.py` in floating point

Each operation is the exact operation followed by a rounding function, in the order of the code.  Pixels are finite and overflow is not modelled.  `np.mean` is a parameter.
-/

namespace Verif.SarRounded

/-- IEEE-754 rounding to nearest, ties to even, to `p + 1` bits with exponents of the last bit from `q` on, below the overflow threshold; `np.float32` is `nearest 23 (-149)`.
Part of every float operation in `sar_complex_imageop.py` L50, L96-98, L114-119. -/
noncomputable def nearest (p : Nat) (q : Int) (x : ℝ) : ℝ :=
  if x = 0 then 0 else Verif.Rounded.rint (x / 2 ^ max (Int.log 2 |x| - p) q) * 2 ^ max (Int.log 2 |x| - p) q

/-- `np.float32`, the type of the components of RE32F_IM32F pixels.  `sar_complex_imageop.py` L26-28. -/
noncomputable def single : ℝ → ℝ := nearest 23 (-149)

/-- The roundings that numpy uses: `elem` for operations on arrays, `scal` for operations on numbers, and `cast` and `prod` for a number that multiplies an array, which is
converted to the type of the array before NumPy 2 and for Python floats, and otherwise not (`sar_complex_imageop.py` L98, L119). -/
structure Arith where
  elem : ℝ → ℝ
  scal : ℝ → ℝ
  cast : ℝ → ℝ
  prod : ℝ → ℝ

/-- sar_complex_imageop.py L42-50 for one pixel -/
noncomputable def power (A : Arith) (px : ℝ × ℝ) : ℝ := A.elem (A.elem (px.1 * px.1) + A.elem (px.2 * px.2))

/-- `np.sqrt(np.abs(...))`, sar_complex_imageop.py L114 -/
noncomputable def root (A : Arith) (v : ℝ) : ℝ := A.elem √|v|

/-- `255.0 * (1 / (scale_factor * mean_value))`, sar_complex_imageop.py L97-98, L118-119 -/
noncomputable def factor (A : Arith) (scale mean : ℝ) : ℝ := A.scal (255 * A.scal (1 / A.scal (scale * mean)))

/-- `np.clip(255.0 * u * v, 0.0, 255.0)` for one value, sar_complex_imageop.py L98, L119 -/
noncomputable def grey (A : Arith) (scale mean v : ℝ) : ℝ := Verif.Sar.clip (A.prod (A.cast (factor A scale mean) * v)) 0 255

/-- `histogram_stretch` (sar_complex_imageop.py L87-98, L122-143) of pixels that are complex -/
noncomputable def histogramStretch (A : Arith) (mean : List ℝ → ℝ) (scale : ℝ) (px : List (ℝ × ℝ)) : List ℝ :=
  (px.map (power A)).map (grey A scale (mean (px.map (power A))))

/-- `quarter_power_image` (sar_complex_imageop.py L101-119, L146-166) of pixels that are complex -/
noncomputable def quarterPower (A : Arith) (mean : List ℝ → ℝ) (scale : ℝ) (given : Option ℝ) (px : List (ℝ × ℝ)) : List ℝ :=
  let roots := px.map (fun p => root A (power A p))
  roots.map (grey A scale (given.getD (mean roots)))

end Verif.SarRounded
