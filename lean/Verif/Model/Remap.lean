import Verif.Model.Orthophoto
import Verif.Model.Sar

/-!
# Model of `cv2.remap` with linear interpolation, as the tile factory uses it

`gdal_tile_factory.py` L287-297.  The positions are converted to binary32 (L287-288).  OpenCV rounds them to 1/32 of a pixel and interpolates 8-bit pixels with integer weights
that add up to 2 ^ 15; a pixel outside the array counts as 0 (`BORDER_CONSTANT`, the default).  This is OpenCV's general code for 8-bit arrays.  Two of its details make no difference and are left
out: at a whole position its table has the weights 32767 and 1 instead of 32768 and 0, which gives the same 8-bit pixel; and a position whose 32nds do not fit in 32 bits becomes the least
integer, which is as far outside the array as the position itself.
-/

namespace Verif.Remap

open Verif.Orthophoto

/-- A position in 32nds of a pixel: `astype(np.float32)` (gdal_tile_factory.py L287-288) and then `cvRound(32 * x)` in `cv2.remap` (L297), half to even. -/
def fixed (x : ℚ) : Int := Verif.Float64.rint (32 * Verif.Sar.rne32 x)

/-- The pixel to the left of (above) the position, as a 16-bit number (`cv2.remap`, gdal_tile_factory.py L297). -/
def cell (x : ℚ) : Int := max (-32768) (min 32767 (fixed x / 32))

/-- The 32nds beyond this pixel (`cv2.remap`, gdal_tile_factory.py L297). -/
def frac (x : ℚ) : Int := fixed x % 32

/-- A pixel of the array, or 0 outside of it (`cv2.remap`, gdal_tile_factory.py L297). -/
def tap (w h : Nat) (c : Channel) (row col : Int) : Int := if 0 ≤ col ∧ col < w ∧ 0 ≤ row ∧ row < h then c row col else 0

/-- gdal_tile_factory.py L287-297: one channel of `cv2.remap(src_bordered, map1, map2, cv2.INTER_LINEAR)` at a position, in an array of `w` columns and `h` rows. -/
def remap (w h : Nat) (c : Channel) (x y : ℚ) : Int :=
  (32 * (32 - frac y) * (32 - frac x) * tap w h c (cell y) (cell x) + 32 * (32 - frac y) * frac x * tap w h c (cell y) (cell x + 1) +
    32 * frac y * (32 - frac x) * tap w h c (cell y + 1) (cell x) + 32 * frac y * frac x * tap w h c (cell y + 1) (cell x + 1) + 2 ^ 14) / 2 ^ 15

end Verif.Remap
