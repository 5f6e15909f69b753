import Verif.Model.MapTiles
import Verif.Model.Float64

/-!
# Web Mercator map tiles in double arithmetic

Model of `/repo/src/aws/osml/image_processing/map_tileset_wmq.py` L35-162 with
every floating point operation rounded to binary64 (`rne64`); `Model/MapTiles.lean`
is the same code over an exact ordered field.

Simplified: overflow to infinity (and the `OverflowError` of an integer that has no
double) is not modelled.  The two directions of the pyproj transformer are again one
pair of functions per axis; what they return is a double in the theorems.
-/

namespace Verif.MapTilesFloat

open Verif.Float64 Verif.MapTiles

/-- L42-43: the attributes of a tile set. -/
structure TileSet64 where
  tileSize : Nat
  name : String
  lonAxis : Axis ℚ
  latAxis : Axis ℚ

/-- L45: `2 * math.pi * WEB_MERCATOR_PROJ.crs.ellipsoid.semi_major_metre`; the semi-major
axis of EPSG:3857 is 6378137.0 m. -/
def circ : ℚ := rne64 (rne64 (2 * piDouble) * 6378137)

/-- L46: `spherical_circumference / self.tile_size`. -/
def TileSet64.initialResolution (t : TileSet64) : ℚ := rne64 (circ / rne64 (t.tileSize : ℚ))

/-- L47: `spherical_circumference / 2.0`. -/
def originShift : ℚ := rne64 (circ / 2)

/-- L85-92 `_resolution`: the integer `2**tile_matrix` becomes a double first. -/
def TileSet64.resolution (t : TileSet64) (z : Nat) : ℚ := rne64 (t.initialResolution / rne64 (2 ^ z))

/-- L94-108 `_pixels_to_meters`, one axis; the pixel number is a Python integer (L144-149). -/
def TileSet64.pixelsToMeters (t : TileSet64) (px : Int) (z : Nat) : ℚ :=
  rne64 (rne64 (rne64 (px : ℚ) * t.resolution z) - originShift)

/-- L110-123 `_meters_to_pixels`, one axis. -/
def TileSet64.metersToPixels (t : TileSet64) (m : ℚ) (z : Nat) : ℚ :=
  rne64 (rne64 (m + originShift) / t.resolution z)

/-- L125-135 `_pixels_to_tile`, one axis; `math.ceil` gives an integer. -/
def TileSet64.pixelsToTile (t : TileSet64) (px : ℚ) : Int := ⌈rne64 (px / rne64 (t.tileSize : ℚ))⌉ - 1

/-- L137-150 `_calculate_tile_bounds_meters`: `(min_x, min_y, max_x, max_y)`. -/
def TileSet64.boundsMeters (t : TileSet64) (id : TileId) : ℚ × ℚ × ℚ × ℚ :=
  (t.pixelsToMeters (id.col * t.tileSize) id.matrix,
   t.pixelsToMeters (id.row * t.tileSize) id.matrix,
   t.pixelsToMeters ((id.col + 1) * t.tileSize) id.matrix,
   t.pixelsToMeters ((id.row + 1) * t.tileSize) id.matrix)

/-- L152-162 `_calculate_tile_bounds_lle`. -/
def TileSet64.boundsLle (t : TileSet64) (id : TileId) : Bounds ℚ :=
  let (minX, minY, maxX, maxY) := t.boundsMeters id
  { minLon := t.lonAxis.inv minX
    minLat := t.latAxis.inv minY
    maxLon := t.lonAxis.inv maxX
    maxLat := t.latAxis.inv maxY }

/-- L58-65 `get_tile`. -/
def TileSet64.getTile (t : TileSet64) (id : TileId) : MapTile ℚ :=
  { id := id, size := (t.tileSize, t.tileSize), bounds := t.boundsLle id }

/-- L67-83 `get_tile_for_location`. -/
def TileSet64.getTileForLocation (t : TileSet64) (lon lat : ℚ) (z : Nat) : MapTile ℚ :=
  let x := t.lonAxis.fwd lon
  let y := t.latAxis.fwd lat
  let col := t.pixelsToTile (t.metersToPixels x z)
  let row := t.pixelsToTile (t.metersToPixels y z)
  t.getTile { matrix := z, row := row, col := col }

/-- map_tileset.py L71-87 `get_tile_matrix_limits_for_area`:
`(min_col, min_row, max_col, max_row)`. Locations are `(lon, lat)` pairs. -/
def TileSet64.limitsForArea (t : TileSet64) (boundary : List (ℚ × ℚ)) (z : Nat) :
    Except PyErr (Int × Int × Int × Int) := do
  let tiles := boundary.map (fun p => t.getTileForLocation p.1 p.2 z)
  let rows := tiles.map (fun m => m.id.row)
  let cols := tiles.map (fun m => m.id.col)
  let minCol ← pyMin cols
  let minRow ← pyMin rows
  let maxCol ← pyMax cols
  let maxRow ← pyMax rows
  return (minCol, minRow, maxCol, maxRow)

/-- map_tileset_factory.py L26-41 `MapTileSetFactory.get_for_id`. -/
def getForId64 (lonAxis latAxis : Axis ℚ) (name : String) : Option TileSet64 :=
  if name = "WebMercatorQuad" then
    some { tileSize := 256, name := "WebMercatorQuad", lonAxis, latAxis }
  else if name = "WebMercatorQuadx2" then
    some { tileSize := 512, name := "WebMercatorQuadx2", lonAxis, latAxis }
  else none

end Verif.MapTilesFloat
