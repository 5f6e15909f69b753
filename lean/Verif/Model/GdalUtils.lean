import Mathlib.Data.Rat.Floor
import Mathlib.Data.List.Infix
import Verif.Model.DRA
import Verif.Model.Sensors

/-!
# Model of `gdal_utils.py` and `gdal_dem_tile_factory.py`

GDAL data sets are given by what the code reads from them.  Numbers are rationals without rounding;
the decimal literals of the float limits stand for themselves.  Characters are ASCII (Python's
`upper` and `re.IGNORECASE` do more for other characters).
-/

namespace Verif.GdalUtils

/-- `gdalconst`: the type codes of GDAL 3.7 and later.  Compared in `gdal_utils.py` L82-106. -/
abbrev Code := Int
/-- `gdalconst.GDT_Byte` (`gdal_utils.py` L82) -/
def gdtByte : Code := 1
/-- `gdalconst.GDT_UInt16` (`gdal_utils.py` L85) -/
def gdtUInt16 : Code := 2
/-- `gdalconst.GDT_Int16` (`gdal_utils.py` L88) -/
def gdtInt16 : Code := 3
/-- `gdalconst.GDT_UInt32` (`gdal_utils.py` L91) -/
def gdtUInt32 : Code := 4
/-- `gdalconst.GDT_Int32` (`gdal_utils.py` L94) -/
def gdtInt32 : Code := 5
/-- `gdalconst.GDT_Float32` (`gdal_utils.py` L103) -/
def gdtFloat32 : Code := 6
/-- `gdalconst.GDT_Float64` (`gdal_utils.py` L106) -/
def gdtFloat64 : Code := 7
/-- `gdalconst.GDT_UInt64` (`gdal_utils.py` L97) -/
def gdtUInt64 : Code := 12
/-- `gdalconst.GDT_Int64` (`gdal_utils.py` L100) -/
def gdtInt64 : Code := 13

/-- gdal_utils.py L73-112 -/
def minmaxForType (t : Code) : ℚ × ℚ :=
  if t = gdtByte then (0, 2 ^ 8 - 1)
  else if t = gdtUInt16 then (0, 2 ^ 16 - 1)
  else if t = gdtInt16 then (-(2 ^ 15), 2 ^ 15 - 1)
  else if t = gdtUInt32 then (0, 2 ^ 32 - 1)
  else if t = gdtInt32 then (-(2 ^ 31), 2 ^ 31 - 1)
  else if t = gdtUInt64 then (0, 2 ^ 64 - 1)
  else if t = gdtInt64 then (-(2 ^ 63), 2 ^ 63 - 1)
  else if t = gdtFloat32 then (-(34028235 * 10 ^ 31), 34028235 * 10 ^ 31)
  else if t = gdtFloat64 then (-(17976931348623157 * 10 ^ 292), 17976931348623157 * 10 ^ 292)
  else (0, 255)

/-- typing.py L29-42; `other` is any other string. -/
inductive Adjust
  | none
  | minmax
  | dra
  | other
deriving DecidableEq

/-- What is read from a raster band: type, `GetStatistics(1, 1)`, and `GetHistogram` as a function of the number
of buckets and the bounds.  `gdal_utils.py` L132-165. -/
structure Band where
  type : Code
  stats : ℚ × ℚ
  histogram : Int → ℚ → ℚ → Except PyErr (List ℚ)

/-- `int(q)`: towards zero.  `gdal_utils.py` L155. -/
def truncate (q : ℚ) : Int := if 0 ≤ q then ⌊q⌋ else ⌈q⌉

/-- gdal_utils.py L155-157 -/
def numBuckets (b : Band) : Int :=
  if b.type = gdtFloat32 ∨ b.type = gdtFloat64 then 255 else truncate (b.stats.2 - b.stats.1)

/-- gdal_utils.py L147-174 -/
def inputRange (adjust : Adjust) (b : Band) : Except PyErr (ℚ × ℚ) :=
  match adjust with
  | .none => .ok (minmaxForType b.type)
  | a => do
    let counts ← b.histogram (numBuckets b) b.stats.1 b.stats.2
    let d ← Verif.DRA.fromCountsDefault counts (some b.stats.1) (some b.stats.2)
    match a with
    | .dra => pure (d.suggestedMin, d.suggestedMax)
    | .minmax => pure (d.actualMin, d.actualMax)
    | _ => pure (minmaxForType b.type)

/-- `[selected_min, selected_max, output_min, output_max]`.  `gdal_utils.py` L176. -/
structure Scale where
  inMin : ℚ
  inMax : ℚ
  outMin : ℚ
  outMax : ℚ
deriving DecidableEq

/-- gdal_utils.py L132-177: one round of the loop. -/
def addBand (desired : Option Code) (adjust : Adjust) (st : Code × List Scale) (b : Band) : Except PyErr (Code × List Scale) := do
  let outType := desired.getD b.type
  let out := minmaxForType outType
  let sel ← inputRange adjust b
  pure (outType, st.2 ++ [⟨sel.1, sel.2, out.1, out.2⟩])

/-- gdal_utils.py L115-179 -/
def typeAndScales (bands : List Band) (desired : Option Code) (adjust : Adjust) : Except PyErr (Code × List Scale) :=
  bands.foldlM (addBand desired adjust) (gdtByte, [])

/-! ## Extensions -/

/-- `s.upper()`.  `gdal_utils.py` L209-223. -/
def upper (s : List Char) : List Char := s.map Char.toUpper

/-- gdal_utils.py L197-212; `enumerate` starts at 0. -/
def selectExtension (path : List Char) (exts : List (List Char)) : List Char :=
  (exts.zipIdx).foldl (fun sel e =>
    if e.2 = 0 then upper e.1
    else if upper ('.' :: e.1) <:+: upper path then upper e.1
    else sel) "UNKNOWN".toList

/-- `re.search(p, s, re.IGNORECASE)` for a pattern that is an alternative of words, on an upper-case string.  `gdal_utils.py` L224-228. -/
def searches (words : List String) (s : List Char) : Bool := words.any (fun w => decide (w.toList <:+: upper s))

/-- gdal_utils.py L215-230; `ni?tf`, `tif{1,2}` and `jpe?g` written as words. -/
def normalizeExtension (s : List Char) : List Char :=
  let n := upper s
  if searches ["NITF", "NTF"] n then "NITF".toList
  else if searches ["TIF", "TIFF"] n then "TIFF".toList
  else if searches ["JPEG", "JPG"] n then "JPEG".toList
  else n

/-! ## Elevation tiles -/

/-- `s.replace(a, b, 1)` for a non-empty `a`: the first occurrence is replaced.  `gdal_dem_tile_factory.py` L49. -/
def replaceFirst (a b : List Char) : List Char → List Char
  | [] => []
  | c :: cs => if a <+: c :: cs then b ++ (c :: cs).drop a.length else c :: replaceFirst a b cs

/-- gdal_dem_tile_factory.py L48-49 -/
def tileLocation (dir path : List Char) : List Char :=
  replaceFirst "s3:/".toList "/vsis3".toList (dir ++ '/' :: path)

/-- What is read from a data set that could be opened: geo transform, first band, statistics, no-data value.  `gdal_dem_tile_factory.py` L50-82. -/
structure Dataset where
  geo : Option (List ℚ)
  posts : List (List ℚ)
  stats : ℚ × ℚ
  noData : Option ℚ

/-- `ElevationRegionSummary`.  `elevation_model.py` L10-19. -/
structure Summary where
  minElevation : ℚ
  maxElevation : ℚ
  noData : Option ℚ
  postSpacing : ℚ

/-- gdal_dem_tile_factory.py L36-84.  `open'` is `gdal.Open`, `model` the constructor of the affine sensor
model, `spacing` the computation of L70-74 (square roots, not modelled). -/
def getTile {M : Type} (open' : List Char → Option Dataset) (model : List ℚ → Except PyErr M) (spacing : M → List (List ℚ) → ℚ)
    (dir path : List Char) : Except PyErr (Option (List (List ℚ) × M × Summary)) :=
  match open' (tileLocation dir path) with
  | none => .ok none
  | some ds =>
    match ds.geo with
    | none => .ok none
    | some g => do
      let m ← model g
      pure (some (ds.posts, m, ⟨ds.stats.1, ds.stats.2, ds.noData, spacing m ds.posts⟩))

end Verif.GdalUtils
