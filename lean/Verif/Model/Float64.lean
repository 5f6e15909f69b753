import Mathlib.Data.Rat.Floor
import Mathlib.Data.Int.Log

/-!
# Model of the floating point operations the code relies on

Finite values are rationals.  An arithmetic operation is the exact operation
followed by a rounding function `rnd`.  Infinities and NaN are not modelled.
-/

namespace Verif.Float64

/-- C `rint` / numpy `rint` in the default mode: nearest integer, ties to even.
Used by `round(np.float64, 6)`, coordinates.py L163-164 and L172-173. -/
def rint (x : ℚ) : Int :=
  let f := ⌊x⌋
  if x - f < 1 / 2 then f
  else if 1 / 2 < x - f then f + 1
  else if f % 2 = 0 then f else f + 1

/-- Python `int(x)` for a finite float: truncation toward zero (coordinates.py L162-164, L171-173). -/
def pyInt (x : ℚ) : Int := if 0 ≤ x then ⌊x⌋ else ⌈x⌉

/-- `round(x, 6)` for a numpy `float64` `x` (coordinates.py L163-164, L172-173):
numpy multiplies by 10⁶, applies `rint` and divides by 10⁶. -/
def round6 (rnd : ℚ → ℚ) (x : ℚ) : ℚ := rnd (rint (rnd (x * 1000000)) / 1000000)

/-- The exponent of the last bit of the binary64 number nearest to `x ≠ 0`
(normal range, with the subnormal cut-off).  Of every float operation in the code, for example `coordinates.py` L157-173. -/
def ulpExp (x : ℚ) : Int := max (Int.log 2 |x| - 52) (-1074)

/-- IEEE-754 binary64 rounding to nearest, ties to even, for values below the
overflow threshold.  Of every float operation in the code, for example `coordinates.py` L157-173. -/
def rne64 (x : ℚ) : ℚ := if x = 0 then 0 else rint (x / 2 ^ ulpExp x) * 2 ^ ulpExp x

/-- The double nearest to π (`math.pi`, numpy `NPY_PI`).  `coordinates.py` L157-173, `map_tileset_wmq.py` L35-162. -/
def piDouble : ℚ := 884279719003555 / 281474976710656

/-- numpy `rad2deg` / C-Python `math.degrees`: multiplication by the double `180.0 / pi`.  `coordinates.py` L157-173, `rpc_sensor_model.py` L165-166. -/
def degrees (x : ℚ) : ℚ := rne64 (x * rne64 (180 / piDouble))

/-- C-Python `math.radians`: multiplication by the double `pi / 180.0`.  `rpc_sensor_model.py` L215-231, `gdal_sensor_model.py` L93. -/
def radians (x : ℚ) : ℚ := rne64 (x * rne64 (piDouble / 180))

end Verif.Float64
