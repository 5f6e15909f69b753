import Verif.Model.Factory
import Verif.Model.Sar
import Verif.Model.TileFactory
import Mathlib.Analysis.SpecialFunctions.Log.Base
import Mathlib.Data.EReal.Basic

/-!
# Model of the SAR parts of `gdal_tile_factory.py` and of the remaining functions on SAR pixels

The choice of the metadata segment when a tile factory is made, the display of two-band (complex) images, and
`power_value_in_decibels`; and the builder for ground control points of `gdal_sensor_model_builder.py`.
-/

namespace Verif.SarTiles

open Verif.Tre Verif.Des Verif.Factory

/-! ## The metadata segment of a tile factory -/

/-- Which updater is made.  `gdal_tile_factory.py` L75, L79. -/
inductive Product where
  | sidd | sicd
deriving DecidableEq

/-- `sar_des_header` and the arguments of the updater.  `gdal_tile_factory.py` L71-80. -/
structure Selected where
  product : Product
  xml : String
  header : List Char
deriving DecidableEq

/-- gdal_tile_factory.py L73-79: header and updater of a segment whose text is taken; `parses` is what the constructor of the
updater does with the text (it raises for a text that is not well-formed). -/
def take (c : Conv) (parses : Product → String → Except PyErr Unit) (p : Product) (s : Xml) (xml : String) : Except PyErr (Option Selected) := do
  let h ← header c s
  parses p xml
  pure (some ⟨p, xml, h⟩)

/-- gdal_tile_factory.py L65-80: the loop over the segments. -/
def select (c : Conv) (k : Codec) (parses : Product → String → Except PyErr Unit) : List Xml → Except PyErr (Option Selected)
  | [] => .ok none
  | s :: rest => do
    match ← extractXml k s with
    | none => select c k parses rest
    | some xml =>
      if xml = "" then select c k parses rest
      else if contains xml "SIDD" then take c parses .sidd s xml
      else if contains xml "SICD" then take c parses .sicd s xml
      else select c k parses rest

/-- gdal_tile_factory.py L60-80; `dess` is `GetMetadata("xml:DES")`. -/
def newFactory (lib : Lib) (parses : Product → String → Except PyErr Unit) (driver : String) (dess : Option (List String)) :
    Except PyErr (Option Selected) :=
  if driver = "NITF" then do
    let lists ← parsedLists lib.parse ((dess.getD []).map String.toList)
    select lib.conv lib.codec parses (segments lists "XML_DATA_CONTENT")
  else .ok none

/-! ## Display of complex pixels -/

/-- gdal_tile_factory.py L431-439: `stats` has the result of `GetStatistics` for each band (minimum, maximum, mean, deviation). -/
noncomputable def bandMeans (stats : List (Option (List ℝ))) : List ℝ :=
  stats.filterMap (fun s =>
    match s with
    | some [_, _, mean, std] => some (std * 50 / 68 + mean)
    | _ => none)

/-- gdal_tile_factory.py L438-439 -/
noncomputable def precomputedMean (stats : List (Option (List ℝ))) : Option ℝ :=
  if (bandMeans stats).length > 0 then some (Real.sqrt (((bandMeans stats).map (fun m => m ^ 2)).sum)) else none

/-- sar_complex_imageop.py L145-166 (`quarter_power_image`) on finite pixels. -/
noncomputable def quarterPowerImage (ptype : Option String) (table : Option (List ℝ)) (scale : ℝ) (given : Option ℝ) (pixels : List Verif.Sar.Px) :
    Except PyErr (List (Option ℝ)) := do
  let cs ← pixels.mapM (Verif.Sar.toComplex ptype table)
  pure (Verif.Sar.quarterPower scale given (cs.map (fun p => some (Verif.Sar.power p))))

/-- sar_complex_imageop.py L122-142 (`histogram_stretch`) on finite pixels. -/
noncomputable def histogramStretchImage (ptype : Option String) (table : Option (List ℝ)) (scale : ℝ) (pixels : List Verif.Sar.Px) :
    Except PyErr (List (Option ℝ)) := do
  let cs ← pixels.mapM (Verif.Sar.toComplex ptype table)
  pure (Verif.Sar.histogramStretch scale (cs.map (fun p => some (Verif.Sar.power p))))

/-- gdal_tile_factory.py L423-443: the pixels of a tile of a two-band image as they are shown. -/
noncomputable def normalizeComplexSar (stats : List (Option (List ℝ))) (pixels : List Verif.Sar.Px) : Except PyErr (List (Option ℝ)) :=
  quarterPowerImage none none 3 (precomputedMean stats) pixels

/-- sar_complex_imageop.py L53-60: `10.0 * np.log10(x)`; NaN for negative numbers, minus infinity for 0. -/
noncomputable def decibels (x : ℝ) : Option EReal :=
  if x < 0 then none else if x = 0 then some ⊥ else some ((10 * Real.logb 10 x : ℝ) : EReal)

/-! ## Ground control points -/

/-- gdal_sensor_model_builder.py L58-71 -/
noncomputable def gcpBuild {O : Type} (lstsq : List (Verif.Transforms.Row ℝ) → Verif.Transforms.Projective ℝ) (rad : ℝ → ℝ) (gcps : List Gcp) :
    Except PyErr (Option (Verif.Sensors.SensorModel ℝ O)) :=
  if gcps.length < 4 then .ok none
  else do
    let m ← Verif.Sensors.projective lstsq (gcps.map (fun g => ⟨rad g.x, rad g.y, g.z⟩)) (gcps.map (fun g => (g.pixel, g.line)))
    pure (some m)

end Verif.SarTiles
