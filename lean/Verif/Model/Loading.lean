import Verif.Model.Factory
import Verif.Model.SarTiles

/-!
# Model of `load_gdal_dataset` (gdal_utils.py) with the sensor models that the factory makes

`Verif.Model.Factory` leaves the builders open; here they are the modelled ones.  The SIDD and SICD builders stay parameters.
-/

namespace Verif.Loading

open Verif.Sensors Verif.Tre Verif.Rpc Verif.Rsm Verif.Factory

/-- Sensor models with an options dictionary.  `sensor_model.py` L14-62. -/
abbrev Model := SensorModel ℝ (Dict ℝ)

/-- composite_sensor_model.py L50-55: the options for the precision model. -/
noncomputable def guessFrom (g : Verif.Dem.Geo ℝ) (o : Option (Dict ℝ)) : Dict ℝ := fun k =>
  if k = "initial_search_distance" then some (.num (radians 0.005))
  else if k = "initial_guess" then some (.pair g.longitude g.latitude)
  else o.bind (· k)

/-- composite_sensor_model.py L17-69, with dictionaries as values (`Verif.Sensors.composite` has them as objects). -/
noncomputable def compositeModel (approximate precision : Model) : Model where
  imageToWorld := fun p e o => do
    let g ← approximate.imageToWorld p e o
    precision.imageToWorld p e (some (guessFrom g o))
  worldToImage := precision.worldToImage

/-- The libraries and the remaining builders.  Used by `gdal_utils.py` L19-70 and `sensor_model_factory.py` L116-214. -/
structure Env where
  lib : Verif.Factory.Lib
  parseTres : String → Except PyErr Xml
  earth : Earth
  minimise : Minimiser
  lstsq : List (Verif.Transforms.Row ℝ) → Verif.Transforms.Projective ℝ
  sidd : String → Option Model
  sicd : String → Option Model

/-- projective_sensor_model_builder.py L38-87 -/
noncomputable def cornerModel (env : Env) (tres : Xml) (width height : Int) : Except PyErr (Option Model) := do
  match ← buildCorners env.lib.conv tres width height with
  | none => pure none
  | some (world, image) => some <$> projective env.lstsq world image

/-- The builders that sensor_model_factory.py L127-179 uses.  The factory calls the GCP builder with at least four points
(L132), for which it returns a model; `crs` is `proj_wkt`. -/
noncomputable def builders (env : Env) (crs : Option (Crs ℝ)) : Builders Model where
  affine := fun geo => gdalAffine ⟨degrees, radians⟩ geo crs
  gcps := fun l => projective env.lstsq (l.map (fun g => ⟨radians g.x, radians g.y, g.z⟩)) (l.map (fun g => (g.pixel, g.line)))
  rsm := fun t => (buildRsm env.earth env.lib.conv t).map (Option.map (RsmResult.model env.earth env.minimise))
  rpc := fun t => (buildRpc env.lib.conv t).map (Option.map (RpcModel.model env.minimise))
  corners := cornerModel env
  chip := fun full chip m => chipped env.lstsq full chip m
  sidd := env.sidd
  sicd := env.sicd
  composite := compositeModel

/-- What GDAL tells about an open image: size, geo transform, reference system of the geo transform (`GetProjection`; `none` for the empty
string, gdal_sensor_model.py L56), ground control points and their own reference system (`GetGCPProjection`), and the metadata domains
`xml:TRE` and `xml:DES`. -/
structure Image where
  width : Int
  height : Int
  geo : Option (List ℝ)
  crs : Option (Crs ℝ)
  gcps : List Gcp
  gcpCrs : Option (Crs ℝ)
  tres : List String
  dess : List String

/-- `gdal.Open`: an image, `None`, or an exception.  `gdal_utils.py` L28-35. -/
inductive Opened
  | image (i : Image)
  | nothing
  | raises (e : PyErr)

/-- gdal_utils.py L28-35 -/
def openImage : Opened → Except PyErr Image
  | .image i => .ok i
  | .nothing => .error .valueError
  | .raises .runtimeError => .error .valueError
  | .raises e => .error e

/-- gdal_utils.py L42-46 -/
def parsedTres (env : Env) (i : Image) : Except PyErr (Option Xml) :=
  match i.tres with
  | [] => .ok none
  | s :: _ => some <$> env.parseTres s

/-- gdal_utils.py L19-70: `load_gdal_dataset`. -/
noncomputable def load (env : Env) (o : Opened) : Except PyErr (Image × Option Model) := do
  let i ← openImage o
  let tres ← parsedTres env i
  let m ← build (builders env i.crs) env.lib
    ⟨i.width, i.height, tres, some i.dess, i.geo, some i.gcps, some [.affine, .projective, .rpc, .sicd, .rsm]⟩
  pure (i, m)

end Verif.Loading
