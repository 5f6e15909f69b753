import Mathlib.Analysis.Real.Sqrt
import Verif.Model.Dem
import Verif.Model.Sensors
import Verif.Model.GdalUtils
import Verif.Model.DemTileSet

/-!
# Model of `gdal_dem_tile_factory.py` as the tile source of a `DigitalElevationModel`

Over the reals; the file access of GDAL is a function from names to rasters.  `Verif.Model.GdalUtils`
has the same function with the sensor model left open.
-/

namespace Verif.DemFiles

open Verif.Dem Verif.Sensors

/-- An elevation file as GDAL presents it: geo transform, coordinate reference system as a conversion to longitude and
latitude in degrees (`none`: the coordinates are longitude and latitude), first band, statistics, no-data value.
Read by `gdal_dem_tile_factory.py` L50-82. -/
structure Raster where
  geo : Option (List ℝ)
  crs : Option (Crs ℝ)
  posts : Posts ℝ
  stats : ℝ × ℝ
  noData : Option ℝ

/-- elevation_model.py L10-19: `ElevationRegionSummary`. -/
structure Summary where
  minElevation : ℝ
  maxElevation : ℝ
  noData : Option ℝ
  postSpacing : ℝ

/-- The libraries: degrees and radians, and `geodetic_to_geocentric`.  Used by `gdal_sensor_model.py` L93-121 and `gdal_dem_tile_factory.py` L72-73. -/
structure Lib where
  angles : Angles ℝ
  ecef : Geo ℝ → ℝ × ℝ × ℝ

/-- Exceptions of a projection as they leave `world_to_image`; the affine model has no other.  `gdal_sensor_model.py` L99-123. -/
def raised {α : Type} : Except Fail α → Except PyErr α
  | .ok a => .ok a
  | .error (.raised e) => .error e
  | .error .notFinite => .error .valueError

/-- gdal_dem_tile_factory.py L72-74: `image_to_world` of a pixel of the affine model, converted. -/
def corner (lib : Lib) (m : SensorModel ℝ Unit) (x y : ℝ) : Except PyErr (ℝ × ℝ × ℝ) :=
  (raised (m.imageToWorld (x, y) none none)).map lib.ecef

/-- gdal_dem_tile_factory.py L70-74 (a raster has at least one row and column) -/
noncomputable def postSpacing (lib : Lib) (m : SensorModel ℝ Unit) (width height : Nat) : Except PyErr ℝ := do
  let ul ← corner lib m 0 0
  let lr ← corner lib m width height
  pure (Real.sqrt ((ul.1 - lr.1) ^ 2 + (ul.2.1 - lr.2.1) ^ 2 + (ul.2.2 - lr.2.2) ^ 2) /
    Real.sqrt (width * width + height * height))

/-- gdal_dem_tile_factory.py L36-84: `get_tile`.  The geo transform is the only georeferencing that is read (L68). -/
noncomputable def getTile (lib : Lib) (open' : List Char → Option Raster) (dir path : List Char) :
    Except PyErr (Loaded ℝ (Posts ℝ) Summary) :=
  match open' (Verif.GdalUtils.tileLocation dir path) with
  | none => .ok ⟨none, none, none⟩
  | some ds =>
    match ds.geo with
    | none => .ok ⟨none, none, none⟩
    | some geo => do
      let m ← gdalAffine (O := Unit) lib.angles geo none
      let spacing ← postSpacing lib m ds.posts.width ds.posts.height
      pure ⟨some ds.posts, some (fun g => raised (m.worldToImage g)), some ⟨ds.stats.1, ds.stats.2, ds.noData, spacing⟩⟩

/-- `DigitalElevationModel(tile_set, GDALDigitalElevationModelTileFactory(dir))`.  `digital_elevation_model.py` L79-100, `gdal_dem_tile_factory.py` L24-34. -/
noncomputable def terrain (lib : Lib) (tileId : Geo ℝ → Option (List Char)) (open' : List Char → Option Raster) (dir : List Char) :
    Terrain ℝ (Posts ℝ) Summary where
  tileId := tileId
  getTile := getTile lib open' dir
  spline := bilinear

/-- srtm_dem_tile_set.py L31-66: `SRTMTileSet.find_tile_id` for a coordinate over the reals.  It uses nothing but `floor(degrees(...))` (L44-45). -/
noncomputable def srtmTiles (t : Verif.DemTileSet.Srtm) (an : Angles ℝ) (c : Geo ℝ) : Option (List Char) :=
  t.findTileId id ⟨(⌊an.deg c.longitude⌋ : ℤ), (⌊an.deg c.latitude⌋ : ℤ), 0⟩

end Verif.DemFiles
