import Verif.Model.GdalUtils
import Verif.Model.Updaters
import Verif.Model.Float64
import Mathlib.Data.Nat.Log

/-!
# Model of `image_processing/gdal_tile_factory.py`

GDAL, OpenCV and SciPy are parameters or described by what the code needs of them.  The choice of the
metadata segment in `__init__` is in `SarTiles`.
-/

namespace Verif.TileFactory

open Verif.GdalUtils Verif.Updaters

/-! ## Encoded tiles -/

/-- `GDALImageFormats` (gdal_config.py); PNG and JPEG have no creation options. -/
inductive Format where
  | nitf | gtiff | png | jpeg
deriving DecidableEq

/-- `GDALCompressionOptions` (`typing.py`, compared in `gdal_tile_factory.py` L539-579) -/
inductive Compression where
  | none | jpeg | j2k | lzw
deriving DecidableEq

/-- Keyword arguments for `gdal.Translate`.  `creationOptions` is a Python list, that is a reference into the
heap of the process.  `gdal_tile_factory.py` L517-581. -/
structure Kwargs where
  scaleParams : List Scale
  outputType : Code
  format : Format
  creationOptions : Nat
  size : Option (Int × Int)

/-- gdal_tile_factory.py L539-579: the default creation options. -/
def creationOptions (format : Format) (compression : Option Compression) (outputType : Code) : List String :=
  match format with
  | .nitf =>
    match compression with
    | .none | some .j2k => if outputType = gdtFloat32 ∨ outputType = gdtFloat64 then ["IC=NC"] else ["IC=C8"]
    | some .jpeg => ["IC=C3"]
    | some .none => ["IC=NC"]
    | some .lzw => ["IC=C8"]
  | .gtiff =>
    match compression with
    | .none | some .lzw => ["COMPRESS=LZW"]
    | some .jpeg => ["COMPRESS=JPEG"]
    | some .none => ["COMPRESS=NONE"]
    | some .j2k => ["COMPRESS=LZW"]
  | .png | .jpeg => []

/-- The constant parts of a factory: format, sensor model (as the IGEOLO of a window, which may raise, L490-515), the updater of the
SAR metadata with its XML rendering, and the header of its segment. -/
structure Config (S : Type) where
  format : Format
  igeolo : Option (Window → Except PyErr String)
  sar : Option ((S → Request → Except PyErr S) × (S → String) × String)

/-- The parts that change: the heap of lists, the state of the SAR updater, the files in memory, and the
default arguments.  `gdal_tile_factory.py` L56-82, L84-147. -/
structure State (S : Type) where
  heap : List (List String)
  sar : S
  files : List String
  defaults : Kwargs

/-- `list.append` on the heap.  `gdal_tile_factory.py` L106-122. -/
def append (heap : List (List String)) (ref : Nat) (xs : List String) : List (List String) :=
  heap.modify ref (· ++ xs)

/-- L100: `copy.deepcopy` of keyword arguments: the list is copied to a new place. -/
def deepcopy (heap : List (List String)) (k : Kwargs) : Option (List (List String) × Kwargs) :=
  match heap[k.creationOptions]? with
  | some l => some (heap ++ [l], { k with creationOptions := heap.length })
  | none => none

/-- L106-109.  The heap is returned with the outcome, since it changes although a later step fails. -/
def addIgeolo {S : Type} (c : Config S) (win : Window) (ref : Nat) (heap : List (List String)) : List (List String) × Except PyErr Unit :=
  match c.format, c.igeolo with
  | .nitf, some f =>
    match f win with
    | .error e => (append heap ref ["ICORDS=G"], .error e)
    | .ok s => (append (append heap ref ["ICORDS=G"]) ref ["IGEOLO=" ++ s], .ok ())
  | _, _ => (heap, .ok ())

/-- L111-122; the updater's new state, the heap and the outcome. -/
def addSar {S : Type} (c : Config S) (q : Request) (ref : Nat) (sar : S) (heap : List (List String)) :
    S × List (List String) × Except PyErr Unit :=
  match c.format, c.sar with
  | .nitf, some (update, encode, header) =>
    match update sar q with
    | .error e => (sar, heap, .error e)
    | .ok s => (s, append heap ref ["ICAT=SAR", "IREP=NODISPLY", "IREPBAND= , ", "ISUBCAT=I,Q",
        "DES=XML_DATA_CONTENT=" ++ (header ++ encode s)], .ok ())
  | _, _ => (sar, heap, .ok ())

/-- What `gdal.Translate` is called with.  `gdal_tile_factory.py` L128-133. -/
structure Call where
  win : Window
  scaleParams : List Scale
  outputType : Code
  format : Format
  options : List String
  size : Option (Int × Int)

/-- L106-122 -/
def addOptions {S : Type} (c : Config S) (q : Request) (ref : Nat) (sar : S) (heap : List (List String)) :
    S × List (List String) × Except PyErr Unit :=
  match addIgeolo c q.win ref heap with
  | (heap, .error e) => (sar, heap, .error e)
  | (heap, .ok ()) => addSar c q ref sar heap

/-- L102-104 and L128-133: the arguments of the call.  The reference is always valid. -/
def callOf (k : Kwargs) (q : Request) (heap : List (List String)) : Call :=
  ⟨q.win, k.scaleParams, k.outputType, k.format, (heap[k.creationOptions]?).getD [], q.out.or k.size⟩

/-- L124-147.  `translate` is `gdal.Translate`: `.ok true` writes the file, `.ok false` writes nothing, an error is
raised (with `UseExceptions`) and leaves the file or not. -/
def finish {S : Type} (translate : Call → Bool × Except PyErr Bool) (name : String) (call : Call) (st : State S) :
    State S × Except PyErr (Option String) × Option Call :=
  match translate call with
  | (left, .error e) => ({ st with files := if left then name :: st.files else st.files }, .error e, some call)
  | (_, .ok false) => ({ st with files := st.files.filter (· ≠ name) }, .ok none, some call)
  | (_, .ok true) => ({ st with files := (name :: st.files).filter (· ≠ name) }, .ok (some name), some call)

/-- gdal_tile_factory.py L84-147.  `name` is the random file name.  The last component of the result is the call of
`Translate`, if it was reached. -/
def createEncodedTile {S : Type} (c : Config S) (translate : Call → Bool × Except PyErr Bool) (name : String) (q : Request) (st : State S) :
    State S × Except PyErr (Option String) × Option Call :=
  match deepcopy st.heap st.defaults with
  | none => (st, .error .runtimeError, none)
  | some (heap, kwargs) =>
    let r := addOptions c q kwargs.creationOptions st.sar heap
    let st' := { st with heap := r.2.1, sar := r.1 }
    match r.2.2 with
    | .error e => (st', .error e, none)
    | .ok () => finish translate name (callOf kwargs q r.2.1) st'

/-- A sequence of requests, each with its file name and the behaviour of GDAL.  `gdal_tile_factory.py` L84-147. -/
def serve {S : Type} (c : Config S) (st : State S) (rs : List (String × (Call → Bool × Except PyErr Bool) × Request)) : State S :=
  rs.foldl (fun st r => (createEncodedTile c r.2.1 r.1 r.2.2 st).1) st

/-! ## Orthophoto tiles: windows -/

/-- A box [min x, min y, max x, max y] of pixels.  `gdal_tile_factory.py` L206-244. -/
structure Box where
  x0 : Int
  y0 : Int
  x1 : Int
  y1 : Int
deriving DecidableEq

/-- L206-211: the box of the projected grid. -/
def sourceBox (xs ys : List ℚ) : Option Box :=
  match xs.min?, ys.min?, xs.max?, ys.max? with
  | some a, some b, some c, some d => some ⟨⌊a⌋, ⌊b⌋, ⌈c⌉, ⌈d⌉⟩
  | _, _, _, _ => none

/-- L212-217 -/
def noOverlap (b : Box) (width height : Int) : Bool := decide (b.x0 > width ∨ b.y0 > height ∨ b.x1 < 0 ∨ b.y1 < 0)

/-- L229-231: `int(np.floor(np.log2(src_dim / tile_width)))`, at least 0.  The logarithm of 0 is minus infinity, which has no integer.
Logarithms are exact here. -/
def findLevel (b : Box) (tileWidth : Nat) : Except PyErr Nat :=
  let dim := min (b.x1 - b.x0) (b.y1 - b.y0)
  if dim ≤ 0 then .error .overflowError else .ok (Nat.log 2 (dim.toNat / tileWidth))

/-- L236-241 -/
def clipBox (b : Box) (width height : Int) : Box := ⟨max b.x0 0, max b.y0 0, min b.x1 width, min b.y1 height⟩

/-- L244: `int(x / 2**r_level)` truncates; after the clip every entry is non-negative. -/
def overviewBox (b : Box) (r : Nat) : Box := ⟨b.x0.tdiv (2 ^ r), b.y0.tdiv (2 ^ r), b.x1.tdiv (2 ^ r), b.y1.tdiv (2 ^ r)⟩

/-- L205-251 up to the read: no tile, or the full resolution box, the level and the box that is read. -/
def readWindow (b : Box) (width height : Int) (tileWidth overviews : Nat) : Except PyErr (Option (Box × Nat × Box)) :=
  if noOverlap b width height then .ok none
  else do
    let l ← findLevel b tileWidth
    let r := min l overviews
    let full := clipBox b width height
    pure (some (full, r, overviewBox full r))

/-! ## Orthophoto tiles: sampling positions -/

/-- Interpolation on three equally spaced points 0, m, 2m.  `gdal_tile_factory.py` L276-288. -/
def lin3 (m f0 f1 f2 x : ℚ) : ℚ := if x ≤ m then f0 + (f1 - f0) * (x / m) else f1 + (f2 - f1) * ((x - m) / m)

/-- `np.linspace(a, b, 3)[i]`.  `gdal_tile_factory.py` L171-177. -/
def linspace3 (a b : ℚ) (i : Fin 3) : ℚ := a + (b - a) * (i.val : ℚ) / 2

/-- L276-288: `RectBivariateSpline(pixel_x, pixel_y, z, kx=1, ky=1)` evaluated on the grid of `dst_x` and `dst_y`.  `z i j` is
the value in row `i` and column `j` of the grid of `np.meshgrid`.  The spline wants strictly increasing points, so a side of
one pixel raises `ValueError`.  The result is an array of `tile_size[0]` rows and `tile_size[1]` columns. -/
def remapArray (z : Fin 3 → Fin 3 → ℚ) (w h : Nat) : Except PyErr (List (List ℚ)) :=
  if w ≤ 1 ∨ h ≤ 1 then .error .valueError
  else
    let mx : ℚ := ((w : ℚ) - 1) / 2
    let my : ℚ := ((h : ℚ) - 1) / 2
    .ok ((List.range w).map (fun (a : Nat) => (List.range h).map (fun (b : Nat) =>
      lin3 mx (lin3 my (z 0 0) (z 0 1) (z 0 2) b) (lin3 my (z 1 0) (z 1 1) (z 1 2) b) (lin3 my (z 2 0) (z 2 1) (z 2 2) b) a)))

/-- L171-177 and L188-197: the grid of source positions, one coordinate of the projection. -/
def grid (project : ℚ → ℚ → ℚ) (minLon minLat maxLon maxLat : ℚ) (i j : Fin 3) : ℚ :=
  project (linspace3 minLon maxLon j) (linspace3 maxLat minLat i)

/-- L270-274: position in the bordered array that was read; `start` is the clipped box's corner. -/
def toRead (start : Int) (r : Nat) (x : ℚ) : ℚ := (x - start) / 2 ^ r + 2

/-! ## Orthophoto tiles: pixel values -/

/-- `np.clip(v, 0.0, 255.0).astype(np.uint8)`.  `gdal_tile_factory.py` L462, L488. -/
def clip8 (v : ℚ) : Int := ⌊min (max v 0) 255⌋

/-- L460-462 for one pixel -/
def minmax8 (lo hi p : ℚ) : Int := clip8 ((p - lo) * (255 / max hi 1))

/-- L482-488 for one pixel -/
def dra8 (lo hi p : ℚ) : Int := clip8 (255 * (p - lo) / max (hi - lo) 1)

/-- L456-457, L475-476: statistics of the band, else of the tile (`ValueError` for an empty one). -/
def limits (gmin gmax : Option ℚ) (ps : List ℚ) : Except PyErr (ℚ × ℚ) :=
  match gmin.or ps.min?, gmax.or ps.max? with
  | some lo, some hi => .ok (lo, hi)
  | _, _ => .error .valueError

/-- L445-462.  When the band has no statistics and the pixels are signed integers, see `normalizeMinmaxSigned`. -/
def normalizeMinmax (gmin gmax : Option ℚ) (ps : List ℚ) : Except PyErr (List Int) := do
  let l ← limits gmin gmax ps
  pure (ps.map (minmax8 l.1 l.2))

/-- A difference in a signed integer type of `bits` bits.  `gdal_tile_factory.py` L460. -/
def wrapSigned (bits : Nat) (d : Int) : Int := (d + 2 ^ (bits - 1)) % 2 ^ bits - 2 ^ (bits - 1)

/-- L445-462 for a band of signed integers that has no minimum of its own (L456): `np.min` is a number of the type of the pixels, and so is the difference of L460,
which wraps around.  (`GetMinimum` is a Python float, with which the difference is one of floats; differences of unsigned pixels with their minimum do not wrap.) -/
def normalizeMinmaxSigned (bits : Nat) (gmax : Option ℚ) (ps : List Int) : Except PyErr (List Int) :=
  match ps.min?, gmax.or ((ps.max?).map (fun (p : Int) => (p : ℚ))) with
  | some lo, some hi => .ok (ps.map (fun p => clip8 ((wrapSigned bits (p - lo) : ℚ) * (255 / max hi 1))))
  | _, _ => .error .valueError

/-- L464-488; `hist buckets min max` is `band.GetHistogram`. -/
def normalizeDra (gmin gmax : Option ℚ) (hist : Int → ℚ → ℚ → List ℚ) (ps : List ℚ) : Except PyErr (List Int) := do
  let l ← limits gmin gmax ps
  let d ← Verif.DRA.fromCounts (hist (max 256 (truncate (l.2 - l.1))) l.1 l.2) (some l.1) (some l.2) (2 / 100) (97 / 100) (2 / 10) (4 / 10)
  pure (ps.map (dra8 d.suggestedMin d.suggestedMax))

/-- `astype(np.uint8)` of an integer pixel (L386, L420) -/
def cast8 (p : Int) : Int := p % 256

/-- L299-308: the alpha value of a pixel with these channels. -/
def alpha (channels : List Int) : Int := if channels.all (· ≠ 0) then 255 else 0

end Verif.TileFactory
