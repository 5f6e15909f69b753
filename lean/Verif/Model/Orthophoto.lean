import Verif.Model.TileFactory
import Verif.Model.Coordinates

/-!
# Model of orthophoto tiles from end to end (`image_processing/gdal_tile_factory.py`)

`TileFactory` has the single steps (windows, levels, sampling positions, pixel adjustment).  Here they are put together as in
`create_orthophoto_tile`, with the image, the sensor model and `cv2.remap` as parameters.  Pixels of the image are integers.
-/

namespace Verif.Orthophoto

open Verif.TileFactory Verif.GdalUtils Verif.Updaters

/-- The raster dataset as the factory uses it.  `pixel band level x y` is what `ReadAsArray` gives for a band (counted from 1), `gmin` and `gmax`
are `GetMinimum` and `GetMaximum`, `hist` is `GetHistogram`.  (The constructor has computed the statistics by L151 of `gdal_utils.py`
when the pixels are adjusted.  For signed pixels without statistics the difference with the minimum of the array would wrap, see
`TileFactory.normalizeMinmaxSigned`; this is left out here.) -/
structure Raster where
  width : Nat
  height : Nat
  bands : Nat
  overviews : Nat
  pixel : Nat → Nat → Int → Int → Int
  gmin : Nat → Option ℚ
  gmax : Nat → Option ℚ
  hist : Nat → Int → ℚ → ℚ → List ℚ

/-- The sensor model: `image_to_world` gives longitude, latitude and elevation, `world_to_image` a pixel position.  Either may raise.
`sensor_model.py` L14-52. -/
structure Sensor where
  toWorld : ℚ × ℚ → Except PyErr (ℚ × ℚ × ℚ)
  toImage : ℚ × ℚ × ℚ → Except PyErr (ℚ × ℚ)

/-- One channel of a pixel array: the value in a row and a column.  `gdal_tile_factory.py` L328-371. -/
abbrev Channel := Int → Int → Int

/-! ## The corners of a NITF tile -/

/-- gdal_tile_factory.py L505-510: the corners of the window, clockwise from the upper left. -/
def igeoloCorners (w : Window) : List (ℚ × ℚ) :=
  [(w.x, w.y), (w.x + w.w, w.y), (w.x + w.w, w.y + w.h), (w.x, w.y + w.h)]

/-- L511-515: `_create_new_igeolo`.  `A` is the arithmetic of `to_dms_string`. -/
def createNewIgeolo (A : Verif.Coordinates.Arith) (toWorld : ℚ × ℚ → Except PyErr (ℚ × ℚ × ℚ)) (w : Window) : Except PyErr (List Char) := do
  let cs ← (igeoloCorners w).mapM (fun p => do
    let g ← toWorld p
    pure (Verif.Coordinates.toDmsString A ⟨g.1, g.2.1, g.2.2⟩))
  pure cs.flatten

/-! ## Reading and adjusting pixels -/

/-- L343-371: the channel of one band of the window `o` at level `r`.  `ReadAsArray` is given the left and upper edge. -/
def readBand (R : Raster) (r : Nat) (o : Box) (band : Nat) : Channel := fun row col => R.pixel band r (o.x0 + col) (o.y0 + row)

/-- All values of a channel of `h` rows and `w` columns.  `gdal_tile_factory.py` L456-457. -/
def values (w h : Nat) (c : Channel) : List ℚ := (List.range h).flatMap (fun (i : Nat) => (List.range w).map (fun (j : Nat) => (c i j : ℚ)))

/-- L445-488: the adjustment of one band, as the function of the pixel value that is applied to the array (`normalizeMinmax` and `normalizeDra` of `TileFactory`
apply it to the list of values). -/
def adjuster (adj : Adjust) (R : Raster) (band : Nat) (ps : List ℚ) : Except PyErr (ℚ → Int) := do
  let l ← limits (R.gmin band) (R.gmax band) ps
  match adj with
  | .dra =>
    let d ← Verif.DRA.fromCounts (R.hist band (max 256 (truncate (l.2 - l.1))) l.1 l.2) (some l.1) (some l.2) (2 / 100) (97 / 100) (2 / 10) (4 / 10)
    pure (dra8 d.suggestedMin d.suggestedMax)
  | _ => pure (minmax8 l.1 l.2)

/-- One adjusted band.  `gdal_tile_factory.py` L445-488. -/
def adjustBand (adj : Adjust) (R : Raster) (w h : Nat) (band : Nat) (c : Channel) : Except PyErr Channel := do
  let f ← adjuster adj R band (values w h c)
  pure (fun row col => f (c row col))

/-- L373-421: `_normalize_image_for_display` and `_normalize_bands` on the channels that were read.  `sar` is `_normalize_complex_sar` (L423-443), which makes one
channel of two.  The fall-back of L418-420 is for arrays that have no bands; a dataset has at least one. -/
def display (adj : Adjust) (R : Raster) (sar : Channel → Channel → Except PyErr Channel) (w h : Nat) (cs : List Channel) : Except PyErr (List Channel) :=
  if adj ≠ .dra ∧ adj ≠ .minmax then .ok (cs.map (fun c row col => cast8 (c row col)))
  else
    match cs with
    | [] => .ok []
    | [c] => do pure [← adjustBand adj R w h 1 c]
    | [a, b] => do pure [← sar a b]
    | a :: b :: c :: _ => do
      let a' ← adjustBand adj R w h 1 a
      let b' ← adjustBand adj R w h 2 b
      let c' ← adjustBand adj R w h 3 c
      pure [a', b', c']

/-- L267-268: a border of two pixels that repeats the edge. -/
def bordered (w h : Nat) (c : Channel) : Channel := fun row col => c (max 0 (min (row - 2) (h - 1))) (max 0 (min (col - 2) (w - 1)))

/-! ## The output pixel -/

/-- L299-322: the channels of an output pixel with the alpha mask; a single channel is repeated three times. -/
def withAlpha (channels : List Int) : List Int :=
  match channels with
  | [g] => [g, g, g, alpha [g]]
  | cs => cs ++ [alpha cs]

/-- Red, green, blue and alpha of a pixel as a reader of the PNG file sees it.  `gdal_tile_factory.py` L325. -/
structure Rgba where
  red : Int
  green : Int
  blue : Int
  alpha : Int
deriving DecidableEq

/-- L325: `cv2.imencode(".png", …)`.  OpenCV takes one, three or four channels and understands three and four in the order blue, green, red. -/
def encodePixel (channels : List Int) : Except PyErr Rgba :=
  match channels with
  | [g] => .ok ⟨g, g, g, 255⟩
  | [b, g, r] => .ok ⟨r, g, b, 255⟩
  | [b, g, r, a] => .ok ⟨r, g, b, a⟩
  | _ => .error .runtimeError

/-! ## The tile -/

/-- L188-197: one projected grid point. -/
def project (S : Sensor) (elevation : ℚ) (lon lat : ℚ) : Except PyErr (ℚ × ℚ) := S.toImage (lon, lat, elevation)

/-- The indices of the 3 × 3 grid in the order of the array.  `gdal_tile_factory.py` L171-197. -/
def gridIndices : List (Fin 3 × Fin 3) := [(0, 0), (0, 1), (0, 2), (1, 0), (1, 1), (1, 2), (2, 0), (2, 1), (2, 2)]

/-- L171-177 and L188-197: the projected grid, or the first error. -/
def projectGrid (S : Sensor) (elevation minLon minLat maxLon maxLat : ℚ) : Except PyErr (List (ℚ × ℚ)) :=
  gridIndices.mapM (fun ij => project S elevation (linspace3 minLon maxLon ij.2) (linspace3 maxLat minLat ij.1))

/-- The grid as a 3 × 3 array.  `gdal_tile_factory.py` L188-197. -/
def asArray (zs : List ℚ) (i j : Fin 3) : ℚ := (zs[3 * i.val + j.val]?).getD 0

/-- L296-326: one output pixel from the sampling position.  `sample w h c x y` is the interpolation of `cv2.remap` in an array of `w` columns and `h` rows. -/
def outputPixel (sample : Nat → Nat → Channel → ℚ → ℚ → Int) (w h : Nat) (cs : List Channel) (p : ℚ × ℚ) : Except PyErr Rgba :=
  encodePixel (withAlpha (cs.map (fun c => sample (w + 4) (h + 4) (bordered w h c) p.1 p.2)))

/-- `cv2.remap` (L297) asserts that neither the array nor the result has 32767 (`SHRT_MAX`) rows or columns or more. -/
def remapLimit : Int := 32767

/-- L258-326: from the window that was read to the rows of output pixels.  An empty window cannot be read.  (The exception of `cv2.remap` is
`cv2.error`, given as `runtimeError`; that it comes after those of the adjustment makes no difference to what is stated about it.) -/
def render (R : Raster) (adj : Adjust) (sar : Channel → Channel → Except PyErr Channel) (sample : Nat → Nat → Channel → ℚ → ℚ → Int)
    (zs : List (ℚ × ℚ)) (tw th : Nat) (full : Box) (r : Nat) (o : Box) : Except PyErr (List (List Rgba)) :=
  if o.x1 ≤ o.x0 ∨ o.y1 ≤ o.y0 then .error .runtimeError
  else if remapLimit ≤ o.x1 - o.x0 + 4 ∨ remapLimit ≤ o.y1 - o.y0 + 4 ∨ remapLimit ≤ tw ∨ remapLimit ≤ th then .error .runtimeError
  else do
    let w := (o.x1 - o.x0).toNat
    let h := (o.y1 - o.y0).toNat
    let cs ← display adj R sar w h ((List.range R.bands).map (fun k => readBand R r o (k + 1)))
    let map1 ← remapArray (asArray (zs.map (fun z => toRead full.x0 r z.1))) tw th
    let map2 ← remapArray (asArray (zs.map (fun z => toRead full.y0 r z.2))) tw th
    (map1.zip map2).mapM (fun rows => (rows.1.zip rows.2).mapM (outputPixel sample w h cs))

/-- L149-326: `create_orthophoto_tile` (`tw`, `th` are `tile_size`).  The elevation is the one of the sensor model's image-to-world at `[height / 2, width / 2]` (L184-186).  The `try` of
L193-203 is around the projection of the grid only. -/
def createOrthophotoTile (R : Raster) (S : Sensor) (adj : Adjust) (sar : Channel → Channel → Except PyErr Channel)
    (sample : Nat → Nat → Channel → ℚ → ℚ → Int) (minLon minLat maxLon maxLat : ℚ) (tw th : Nat) : Except PyErr (Option (List (List Rgba))) := do
  let centre ← S.toWorld ((R.height : ℚ) / 2, (R.width : ℚ) / 2)
  match projectGrid S centre.2.2 minLon minLat maxLon maxLat with
  | .error _ => pure none
  | .ok zs =>
    match sourceBox (zs.map Prod.fst) (zs.map Prod.snd) with
    | none => pure none
    | some b =>
      match ← readWindow b R.width R.height tw R.overviews with
      | none => pure none
      | some (full, r, o) => do pure (some (← render R adj sar sample zs tw th full r o))

end Verif.Orthophoto
