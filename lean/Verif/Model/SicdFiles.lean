import Verif.Model.Loading
import Verif.Model.SicdDem

/-!
# SICD images as files

The SICD parts of `Verif.Model.Loading` and `Verif.Model.SarTiles` filled in: the sensor model that is built from the text of a metadata segment, and the tile factory that
writes updated metadata.  Reading and writing XML (xsdata) are parameters, on dataclass contents.
-/

namespace Verif.SicdFiles

open Verif.Sensors Verif.Loading Verif.SarTiles
open Verif.Updaters (ImageData)

/-- What a SICD document says: `ImageData`, which the updater writes, and everything else (the first row and column in `rest` are not used).
`sicd_updater.py` L59-62, `sicd_sensor_model_builder.py` L115-192. -/
structure Doc where
  rest : Verif.Sicd.Meta
  image : ImageData

/-- The content that the builder reads (sicd_sensor_model_builder.py L115-192). -/
noncomputable def Doc.content (d : Doc) : Verif.Sicd.Meta := { d.rest with firstRow := d.image.firstRow, firstCol := d.image.firstCol }

/-- `XmlParser().from_string` and `XmlSerializer(...).render` (sicd_updater.py L27-28, L70-72; sicd_sensor_model_builder.py L108-109). -/
structure Xsdata where
  parse : String → Except PyErr Doc
  render : Doc → String

/-- Coordinate conversions, and what `DEMRRDotSurfaceProjection` uses of an elevation model.  Elevation models are identified by what `set_elevation` does.
`sicd_sensor_model.py` L797-967, L1053-1065, `coordinates.py` L233-275. -/
structure Ground where
  geo : Verif.Sicd.Geo
  dem : Elev ℝ → Verif.Sicd.DemModel

/-- An error or a NaN as the outcome of a sensor model.  `sicd_sensor_model.py` L1027-1128. -/
def outcome : Except PyErr (Option Verif.Sicd.Lle) → Except Fail (Verif.Dem.Geo ℝ)
  | .error e => .error (.raised e)
  | .ok none => .error .notFinite
  | .ok (some l) => .ok ⟨l.lon, l.lat, l.h⟩

/-- `image_to_world` with an elevation model, of what the builder returned.  `sicd_sensor_model.py` L1027-1065. -/
noncomputable def onTerrain (G : Ground) (right : Bool) (e : Elev ℝ) (rc : ℝ × ℝ) : Verif.Sicd.Built → Except PyErr (Option Verif.Sicd.Lle)
  | .model M => some <$> M.toWorldDem G.geo right (G.dem e) rc
  | .noProjection _ => .error .attributeError

/-- sicd_sensor_model.py L1027-1065 and L1067-1128 as a sensor model: `x` is the column and `y` the row (coordinates.py L307-321); options are not used. -/
noncomputable def sensorOf (G : Ground) (right : Bool) (b : Verif.Sicd.Built) : Model where
  imageToWorld := fun p e _ => outcome (match e with
    | none => b.toWorld G.geo (p.2, p.1)
    | some e => onTerrain G right e (p.2, p.1) b)
  worldToImage := fun g =>
    match b.toImage G.geo ⟨g.longitude, g.latitude, g.elevation⟩ with
    | .ok rc => .ok (rc.2, rc.1)
    | .error e => .error (.raised e)

/-- sicd_sensor_model_builder.py L98-113 -/
noncomputable def sicdBuilder (x : Xsdata) (G : Ground) (xml : String) : Option Model :=
  if xml = "" then none
  else match x.parse xml with
    | .ok d => (d.content.build G.geo).map (sensorOf G d.content.right)
    | .error _ => none

/-- gdal_tile_factory.py L76-79 with sicd_updater.py L19-72: a tile factory with SICD metadata, and the state of its updater. -/
def sicdTiles (x : Xsdata) (sel : Selected) (format : Verif.TileFactory.Format) (igeolo : Option (Verif.Updaters.Window → Except PyErr String)) :
    Except PyErr (Verif.TileFactory.Config Verif.Updaters.Sicd × Verif.Updaters.Sicd) := do
  let d ← x.parse sel.xml
  pure (⟨format, igeolo, some (Verif.Updaters.Sicd.update, fun s => x.render { d with image := s.image }, String.ofList sel.header)⟩, Verif.Updaters.Sicd.new d.image)

end Verif.SicdFiles
