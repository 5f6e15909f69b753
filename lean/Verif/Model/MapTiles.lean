import Mathlib.Algebra.Order.Floor.Ring
import Mathlib.Algebra.Order.Field.Basic
import Verif.Model.Py

/-!
# Web Mercator map tiles

Model of `/repo/src/aws/osml/image_processing/map_tileset.py`,
`map_tileset_wmq.py` and `map_tileset_factory.py`.

Floats are elements of a linearly ordered field with floor.  The pyproj
transformer `LLE_TO_WEB_MERCATOR` (map_tileset_wmq.py L12-16) is a parameter:
EPSG:3857 treats the axes independently, so it is a pair of functions per axis.
Zoom levels are natural numbers.
-/

namespace Verif.MapTiles

/-- One axis of the map projection: radians to metres and back.  The `pyproj` projection of `map_tileset_wmq.py` L12-16, called in L75-80 and L160-161. -/
structure Axis (K : Type*) where
  fwd : K → K
  inv : K → K

/-- map_tileset.py L9: `MapTileId`. -/
structure TileId where
  matrix : Nat
  row : Int
  col : Int
deriving DecidableEq, Repr

/-- map_tileset.py L21: `MapTileBounds`. -/
structure Bounds (K : Type*) where
  minLon : K
  minLat : K
  maxLon : K
  maxLat : K
deriving DecidableEq

/-- map_tileset.py L27-35: `MapTile`. -/
structure MapTile (K : Type*) where
  id : TileId
  size : Nat × Nat
  bounds : Bounds K
deriving DecidableEq

/-- map_tileset_wmq.py L35-47: a tile set; `circ` is `spherical_circumference`. -/
structure TileSet (K : Type*) where
  tileSize : Nat
  name : String
  circ : K
  lonAxis : Axis K
  latAxis : Axis K

variable {K : Type*} [Field K] [LinearOrder K] [FloorRing K]

/-- L46: `initial_resolution`. -/
def TileSet.initialResolution (t : TileSet K) : K := t.circ / (t.tileSize : K)

/-- L47: `origin_shift`. -/
def TileSet.originShift (t : TileSet K) : K := t.circ / 2

/-- L85-92 `_resolution`. -/
def TileSet.resolution (t : TileSet K) (z : Nat) : K := t.initialResolution / 2 ^ z

/-- L94-108 `_pixels_to_meters`, one axis. -/
def TileSet.pixelsToMeters (t : TileSet K) (px : K) (z : Nat) : K :=
  px * t.resolution z - t.originShift

/-- L110-123 `_meters_to_pixels`, one axis. -/
def TileSet.metersToPixels (t : TileSet K) (m : K) (z : Nat) : K :=
  (m + t.originShift) / t.resolution z

/-- L125-135 `_pixels_to_tile`, one axis. -/
def TileSet.pixelsToTile (t : TileSet K) (px : K) : Int := ⌈px / (t.tileSize : K)⌉ - 1

/-- L137-150 `_calculate_tile_bounds_meters`: `(min_x, min_y, max_x, max_y)`. -/
def TileSet.boundsMeters (t : TileSet K) (id : TileId) : K × K × K × K :=
  (t.pixelsToMeters ((id.col * t.tileSize : Int) : K) id.matrix,
   t.pixelsToMeters ((id.row * t.tileSize : Int) : K) id.matrix,
   t.pixelsToMeters (((id.col + 1) * t.tileSize : Int) : K) id.matrix,
   t.pixelsToMeters (((id.row + 1) * t.tileSize : Int) : K) id.matrix)

/-- L152-162 `_calculate_tile_bounds_lle`. -/
def TileSet.boundsLle (t : TileSet K) (id : TileId) : Bounds K :=
  let (minX, minY, maxX, maxY) := t.boundsMeters id
  { minLon := t.lonAxis.inv minX
    minLat := t.latAxis.inv minY
    maxLon := t.lonAxis.inv maxX
    maxLat := t.latAxis.inv maxY }

/-- L58-65 `get_tile`. -/
def TileSet.getTile (t : TileSet K) (id : TileId) : MapTile K :=
  { id := id, size := (t.tileSize, t.tileSize), bounds := t.boundsLle id }

/-- L67-83 `get_tile_for_location`. -/
def TileSet.getTileForLocation (t : TileSet K) (lon lat : K) (z : Nat) : MapTile K :=
  let x := t.lonAxis.fwd lon
  let y := t.latAxis.fwd lat
  let col := t.pixelsToTile (t.metersToPixels x z)
  let row := t.pixelsToTile (t.metersToPixels y z)
  t.getTile { matrix := z, row := row, col := col }

/-- Python `min` of a list of integers; raises `ValueError` when empty.  `map_tileset.py` L87. -/
def pyMin : List Int → Except PyErr Int
  | [] => .error .valueError
  | a :: rest => .ok (rest.foldl min a)

/-- Python `max` of a list of integers; raises `ValueError` when empty.  `map_tileset.py` L87. -/
def pyMax : List Int → Except PyErr Int
  | [] => .error .valueError
  | a :: rest => .ok (rest.foldl max a)

/-- map_tileset.py L71-87 `get_tile_matrix_limits_for_area`:
`(min_col, min_row, max_col, max_row)`. Locations are `(lon, lat)` pairs. -/
def TileSet.limitsForArea (t : TileSet K) (boundary : List (K × K)) (z : Nat) :
    Except PyErr (Int × Int × Int × Int) := do
  let tiles := boundary.map (fun p => t.getTileForLocation p.1 p.2 z)
  let rows := tiles.map (fun m => m.id.row)
  let cols := tiles.map (fun m => m.id.col)
  let minCol ← pyMin cols
  let minRow ← pyMin rows
  let maxCol ← pyMax cols
  let maxRow ← pyMax rows
  return (minCol, minRow, maxCol, maxRow)

/-- map_tileset_factory.py L26-41 `MapTileSetFactory.get_for_id`; the projection
and circumference come from pyproj. -/
def getForId (circ : K) (lonAxis latAxis : Axis K) (name : String) : Option (TileSet K) :=
  if name = "WebMercatorQuad" then
    some { tileSize := 256, name := "WebMercatorQuad", circ, lonAxis, latAxis }
  else if name = "WebMercatorQuadx2" then
    some { tileSize := 512, name := "WebMercatorQuadx2", circ, lonAxis, latAxis }
  else none

end Verif.MapTiles
