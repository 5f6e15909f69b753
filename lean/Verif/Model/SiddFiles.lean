import Verif.Model.SicdFiles

/-!
# SIDD images as files

The SIDD parts of `Verif.Model.Loading` and `Verif.Model.SarTiles` filled in, like `Verif.Model.SicdFiles` for SICD.
-/

namespace Verif.SiddFiles

open Verif.Sensors Verif.Loading Verif.SarTiles Verif.SicdFiles
open Verif.Updaters (Chip)

/-- What a SIDD document says: `DownstreamReprocessing.GeometricChip`, which the updater writes, and what the builder reads of the rest (polynomials as converted, so documents whose
polynomials cannot be converted are not covered).  `sidd_updater.py` L121-135, `sidd_sensor_model_builder.py` L63-138. -/
structure Doc where
  rest : Verif.Sicd.Sidd
  chip : Option (Chip ℝ)

/-- `XmlParser().from_string` and `XmlSerializer(...).render` (sidd_updater.py L25-27, L137-145; sidd_sensor_model_builder.py L56-57). -/
structure Xsdata where
  parse : String → Except PyErr Doc
  render : Doc → String

/-- sidd_sensor_model_builder.py L74-107: the model of the full image.  The side of track is not given, so it is left (sicd_sensor_model.py L981). -/
noncomputable def fullModel (G : Ground) (s : Verif.Sicd.Sidd) : Model := sensorOf G false (.model (s.model G.geo))

/-- sidd_sensor_model_builder.py L46-61 and L109-138; every exception is caught. -/
noncomputable def siddBuilder (x : Xsdata) (G : Ground) (lstsq : List (Verif.Transforms.Row ℝ) → Verif.Transforms.Projective ℝ) (xml : String) : Option Model :=
  if xml = "" then none
  else match x.parse xml with
    | .ok d => (Verif.Updaters.siddModel lstsq d.chip (fullModel G d.rest)).toOption
    | .error _ => none

/-- gdal_tile_factory.py L73-75 with sidd_updater.py L17-145: a tile factory with SIDD metadata, and the state of its updater. -/
noncomputable def siddTiles (x : Xsdata) (sel : Selected) (format : Verif.TileFactory.Format) (igeolo : Option (Verif.Updaters.Window → Except PyErr String)) :
    Except PyErr (Verif.TileFactory.Config (Option (Chip ℝ)) × Option (Chip ℝ)) := do
  let d ← x.parse sel.xml
  pure (⟨format, igeolo, some (Verif.Updaters.siddUpdate, fun g => x.render { d with chip := g }, String.ofList sel.header)⟩, d.chip)

end Verif.SiddFiles
