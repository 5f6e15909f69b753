import Verif.Model.Schemas
import Verif.Model.SicdFiles
import Verif.Model.SiddFiles

/-!
# SAR metadata as objects

What `SICDSensorModelBuilder` and `SIDDSensorModelBuilder` read of the dataclass objects that xsdata returns (`Verif.Model.Xsdata`), and what `SICDUpdater` and `SIDDUpdater` change
in them.  With these, the parameter `Xsdata` of `Verif.Model.SicdFiles` and `Verif.Model.SiddFiles` is a definition.
-/

namespace Verif.SarXml

open Verif.Xsdata Verif.SarTiles
open Verif.Updaters (ImageData Chip)

variable {P : Type}

/-- Python values: as a number, as a whole number, the `value` of a member of an enumeration, and the value of a whole number and of a number.
`sicd_sensor_model_builder.py` L30-79, L141-188, `sicd_updater.py` L59-62, `sidd_updater.py` L121-135. -/
structure Numbers (P : Type) where
  real : P → Option ℝ
  int : P → Option Int
  enum : P → Option String
  ofInt : Int → P
  ofReal : ℝ → P

/-- How a document becomes text and is taken apart again (prefixes, escapes, the XML declaration; lxml).  `sicd_updater.py` L27-28, L70-72. -/
structure Text where
  write : Tree → String
  read : String → Except PyErr Tree

/-- A number; anything else fails when it is computed with.  `sicd_sensor_model_builder.py` L30-79. -/
def num (N : Numbers P) : Val P → Except PyErr ℝ
  | .plain p =>
    match N.real p with
    | some x => .ok x
    | none => .error .typeError
  | _ => .error .typeError

/-- A whole number.  `sicd_sensor_model_builder.py` L40-65. -/
def whole (N : Numbers P) : Val P → Except PyErr Int
  | .plain p =>
    match N.int p with
    | some x => .ok x
    | none => .error .typeError
  | _ => .error .typeError

/-- `.value` of a member of an enumeration; a text that is no member is a string and has none.  `sicd_sensor_model_builder.py` L141-188. -/
def member (N : Numbers P) : Val P → Except PyErr String
  | .plain p =>
    match N.enum p with
    | some x => .ok x
    | none => .error .attributeError
  | _ => .error .attributeError

/-- The entries of a list.  `sicd_sensor_model_builder.py` L48-49. -/
def entries : Val P → Except PyErr (List (Val P))
  | .many l => .ok l
  | _ => .error .typeError

/-- sicd_sensor_model_builder.py L30-37 -/
def xyz (S : Schema) (N : Numbers P) (v : Val P) : Except PyErr Verif.Sicd.V3 := do
  pure ⟨← num N (← v.get S n!"x"), ← num N (← v.get S n!"y"), ← num N (← v.get S n!"z")⟩

/-- What sicd_sensor_model_builder.py L40-50 reads. -/
def poly1 (S : Schema) (N : Numbers P) (v : Val P) : Except PyErr Verif.Sicd.Poly1 := do
  let order ← whole N (← v.get S n!"order1")
  let coef ← (← entries (← v.get S n!"coef")).mapM (fun c => do pure (← whole N (← c.get S n!"exponent1"), ← num N (← c.get S n!"value")))
  pure ⟨order, coef⟩

/-- What sicd_sensor_model_builder.py L53-65 reads. -/
def poly2 (S : Schema) (N : Numbers P) (v : Val P) : Except PyErr Verif.Sicd.Poly2 := do
  let order1 ← whole N (← v.get S n!"order1")
  let order2 ← whole N (← v.get S n!"order2")
  let coef ← (← entries (← v.get S n!"coef")).mapM (fun c => do
    pure (← whole N (← c.get S n!"exponent1"), ← whole N (← c.get S n!"exponent2"), ← num N (← c.get S n!"value")))
  pure ⟨order1, order2, coef⟩

/-- What sicd_sensor_model_builder.py L68-79 reads. -/
def xyzPoly (S : Schema) (N : Numbers P) (v : Val P) : Except PyErr Verif.Sicd.XyzPoly := do
  pure ⟨← poly1 S N (← v.get S n!"x"), ← poly1 S N (← v.get S n!"y"), ← poly1 S N (← v.get S n!"z")⟩

/-- `ImageGridType`: `sicd_v1_2_1.py` L126-131, `sicd_v1_3_0.py` L105-110. -/
def gridType (s : String) : Verif.Sicd.GridType :=
  if s = "RGAZIM" then .rgazim else if s = "RGZERO" then .rgzero else if s = "XRGYCR" then .xrgycr else if s = "XCTYAT" then .xctyat else if s = "PLANE" then .plane else .other

/-- `ImageFormAlgo`: `sicd_v1_2_1.py` L187-191, `sicd_v1_3_0.py` L166-170. -/
def algo (s : String) : Verif.Sicd.Algo :=
  if s = "PFA" then .pfa else if s = "RMA" then .rma else if s = "RGAZCOMP" then .rgazcomp else .other

/-- What the builder reads of a SICD object, without the first row and column (which are left at 0).  `sicd_sensor_model_builder.py` L125-190; the image formation algorithm is
only looked at for RGAZIM grids, and the parts for one kind of projection may be missing. -/
noncomputable def sicdRest (S : Schema) (N : Numbers P) (o : Val P) : Except PyErr Verif.Sicd.Meta := do
  let scp ← xyz S N (← o.path S [n!"geo_data", n!"scp", n!"ecf"])
  let scpCol ← num N (← o.path S [n!"image_data", n!"scppixel", n!"col"])
  let scpRow ← num N (← o.path S [n!"image_data", n!"scppixel", n!"row"])
  let time ← poly2 S N (← o.path S [n!"grid", n!"time_coapoly"])
  let arp ← xyzPoly S N (← o.path S [n!"position", n!"arppoly"])
  let uRow ← xyz S N (← o.path S [n!"grid", n!"row", n!"uvect_ecf"])
  let uCol ← xyz S N (← o.path S [n!"grid", n!"col", n!"uvect_ecf"])
  let rowSS ← num N (← o.path S [n!"grid", n!"row", n!"ss"])
  let colSS ← num N (← o.path S [n!"grid", n!"col", n!"ss"])
  let grid ← member N (← o.path S [n!"grid", n!"type_value"])
  let form ← if grid = "RGAZIM" then (do member N (← o.path S [n!"image_formation", n!"image_form_algo"])) else pure ""
  let pfa : Except PyErr _ := do
    pure (← xyz S N (← o.path S [n!"pfa", n!"fpn"]), ← poly1 S N (← o.path S [n!"pfa", n!"polar_ang_poly"]), ← poly1 S N (← o.path S [n!"pfa", n!"spatial_freq_sfpoly"]))
  let az : Except PyErr _ := do num N (← o.path S [n!"rg_az_comp", n!"az_sf"])
  let inca : Except PyErr _ := do
    pure (← num N (← o.path S [n!"rma", n!"inca", n!"r_ca_scp"]), ← poly1 S N (← o.path S [n!"rma", n!"inca", n!"time_capoly"]),
      ← poly2 S N (← o.path S [n!"rma", n!"inca", n!"drate_sfpoly"]))
  let arpPos ← xyz S N (← o.path S [n!"scpcoa", n!"arppos"])
  let arpVel ← xyz S N (← o.path S [n!"scpcoa", n!"arpvel"])
  let side ← member N (← o.path S [n!"scpcoa", n!"side_of_track"])
  pure ⟨scp, scpRow, scpCol, 0, 0, uRow, uCol, rowSS, colSS, time, arp, gridType grid, algo form, pfa.toOption, az.toOption, inca.toOption, arpPos, arpVel, side = "R"⟩

/-- `ImageData` of a SICD object (the numbers of rows and columns are not read by the code; 0 stands for a missing one).  `sicd_sensor_model_builder.py` L137, `sicd_updater.py` L32-33. -/
def imageOf (S : Schema) (N : Numbers P) (o : Val P) : Except PyErr ImageData := do
  let row ← whole N (← o.path S [n!"image_data", n!"first_row"])
  let col ← whole N (← o.path S [n!"image_data", n!"first_col"])
  let rows : Except PyErr Int := do whole N (← o.path S [n!"image_data", n!"num_rows"])
  let cols : Except PyErr Int := do whole N (← o.path S [n!"image_data", n!"num_cols"])
  pure ⟨row, col, rows.toOption.getD 0, cols.toOption.getD 0⟩

/-- The content of a SICD object.  `sicd_sensor_model_builder.py` L115-192, `sicd_updater.py` L32-33. -/
noncomputable def sicdDoc (S : Schema) (N : Numbers P) (o : Val P) : Except PyErr Verif.SicdFiles.Doc := do
  pure ⟨← sicdRest S N o, ← imageOf S N o⟩

/-- The assignments of sicd_updater.py L59-62. -/
def setImage (S : Schema) (N : Numbers P) (im : ImageData) (o : Val P) : Except PyErr (Val P) := do
  let d ← o.get S n!"image_data"
  let d ← d.set S n!"first_row" (.plain (N.ofInt im.firstRow))
  let d ← d.set S n!"first_col" (.plain (N.ofInt im.firstCol))
  let d ← d.set S n!"num_rows" (.plain (N.ofInt im.numRows))
  let d ← d.set S n!"num_cols" (.plain (N.ofInt im.numCols))
  o.set S n!"image_data" d

/-- `XmlSerializer(...).render(o)`.  `sicd_updater.py` L70-72, `sidd_updater.py` L143-145. -/
def renderObject (S : Schema) (K : Codec P) : Val P → Except PyErr Tree
  | .obj cls vs =>
    match S.find cls with
    | some c => .ok (render S K c vs)
    | none => .error .valueError
  | _ => .error .valueError

/-- The updater of an object as the library of `Verif.Model.SicdFiles`: reading a text, and writing the object with the `ImageData` of the updater.
`sicd_updater.py` L19-72, `sicd_sensor_model_builder.py` L98-113. -/
noncomputable def sicdXsdata [DecidableEq P] (S : Schema) (K : Codec P) (N : Numbers P) (W : Text) (o : Val P) : Verif.SicdFiles.Xsdata where
  parse := fun s => do sicdDoc S N (← parse S K (← W.read s))
  render := fun d =>
    match (do renderObject S K (← setImage S N d.image o)) with
    | .ok t => W.write t
    | .error _ => ""

/-- What the builder reads of a SIDD object, without the chip.  `sidd_sensor_model_builder.py` L74-96. -/
noncomputable def siddRest (S : Schema) (N : Numbers P) (o : Val P) : Except PyErr Verif.Sicd.Sidd := do
  let plane ← o.path S [n!"measurement", n!"plane_projection"]
  let scp ← xyz S N (← plane.path S [n!"reference_point", n!"ecef"])
  let scpCol ← num N (← plane.path S [n!"reference_point", n!"point", n!"col"])
  let scpRow ← num N (← plane.path S [n!"reference_point", n!"point", n!"row"])
  let time ← poly2 S N (← plane.path S [n!"time_coapoly"])
  let arp ← xyzPoly S N (← o.path S [n!"measurement", n!"arppoly"])
  let uRow ← xyz S N (← plane.path S [n!"product_plane", n!"row_unit_vector"])
  let uCol ← xyz S N (← plane.path S [n!"product_plane", n!"col_unit_vector"])
  let rowSS ← num N (← plane.path S [n!"sample_spacing", n!"row"])
  let colSS ← num N (← plane.path S [n!"sample_spacing", n!"col"])
  pure ⟨scp, scpRow, scpCol, ← time.native, ← arp.native, uRow, uCol, rowSS, colSS⟩

/-- A corner of a chip, (x, y).  `sidd_sensor_model_builder.py` L124-132, `sidd_updater.py` L95-112. -/
def corner (S : Schema) (N : Numbers P) (v : Val P) : Except PyErr (ℝ × ℝ) := do
  pure (← num N (← v.get S n!"col"), ← num N (← v.get S n!"row"))

/-- The chip of a SIDD object, if there is one.  `sidd_sensor_model_builder.py` L109-132, `sidd_updater.py` L90-112. -/
def chipOf (S : Schema) (N : Numbers P) (o : Val P) : Except PyErr (Option (Chip ℝ)) := do
  match ← o.get S n!"downstream_reprocessing" with
  | .null => pure none
  | d =>
    match ← d.get S n!"geometric_chip" with
    | .null => pure none
    | g =>
      let rows ← whole N (← g.path S [n!"chip_size", n!"row"])
      let cols ← whole N (← g.path S [n!"chip_size", n!"col"])
      pure (some ⟨cols, rows, ← corner S N (← g.get S n!"original_upper_left_coordinate"), ← corner S N (← g.get S n!"original_upper_right_coordinate"),
        ← corner S N (← g.get S n!"original_lower_right_coordinate"), ← corner S N (← g.get S n!"original_lower_left_coordinate")⟩)

/-- The content of a SIDD object.  `sidd_sensor_model_builder.py` L63-138. -/
noncomputable def siddDoc (S : Schema) (N : Numbers P) (o : Val P) : Except PyErr Verif.SiddFiles.Doc := do
  pure ⟨← siddRest S N o, ← chipOf S N o⟩

/-- The classes that sidd_updater.py L67-75 chooses for an object: `DownstreamReprocessingType`, `GeometricChipType`, `RowColIntType` and `RowColDoubleType`, as the modules define or
import them (`sidd_v1_0_0.py` L37-52, `sidd_v2_0_0.py` L33-53, `sidd_v3_0_0.py` L33-53). -/
def siddClasses (cls : Name) : Name × Name × Name × Name :=
  if cls = n!"sidd100.SIDD" then (n!"sidd100.DownstreamReprocessingType", n!"sidd100.GeometricChipType", n!"sicommon01.RowColIntType", n!"sicommon01.RowColDoubleType")
  else if cls = n!"sidd200.SIDD" then (n!"sidd200.DownstreamReprocessingType", n!"sidd200.GeometricChipType", n!"sicommon10.RowColIntType", n!"sicommon10.RowColDoubleType")
  else (n!"sidd300.DownstreamReprocessingType", n!"sidd300.GeometricChipType", n!"sicommon10.RowColIntType", n!"sicommon10.RowColDoubleType")

/-- The class of an object.  `sidd_updater.py` L67-75. -/
def classOf : Val P → Name
  | .obj cls _ => cls
  | _ => 0

/-- sidd_updater.py L121-135: the object that is assigned. -/
def newChip (S : Schema) (K : Codec P) (N : Numbers P) (g : Chip ℝ) (cls : Name × Name × Name × Name) : Val P :=
  let size := S.construct K cls.2.2.1 [(n!"row", .plain (N.ofInt g.rows)), (n!"col", .plain (N.ofInt g.cols))]
  let point (p : ℝ × ℝ) := S.construct K cls.2.2.2 [(n!"row", .plain (N.ofReal p.2)), (n!"col", .plain (N.ofReal p.1))]
  S.construct K cls.2.1 [(n!"chip_size", size), (n!"original_upper_left_coordinate", point g.ul), (n!"original_upper_right_coordinate", point g.ur),
    (n!"original_lower_left_coordinate", point g.ll), (n!"original_lower_right_coordinate", point g.lr)]

/-- The assignments of sidd_updater.py L67-79 and L121-135, for the chip that is computed in between. -/
def setChip (S : Schema) (K : Codec P) (N : Numbers P) (g : Chip ℝ) (o : Val P) : Except PyErr (Val P) := do
  let cls := siddClasses (classOf o)
  let d ← match ← o.get S n!"downstream_reprocessing" with
    | .null => pure (S.construct K cls.1 [])
    | d => pure d
  let d ← d.set S n!"geometric_chip" (newChip S K N g cls)
  o.set S n!"downstream_reprocessing" d

/-- The updater of an object as the library of `Verif.Model.SiddFiles`.  `sidd_updater.py` L17-145, `sidd_sensor_model_builder.py` L46-61. -/
noncomputable def siddXsdata [DecidableEq P] (S : Schema) (K : Codec P) (N : Numbers P) (W : Text) (o : Val P) : Verif.SiddFiles.Xsdata where
  parse := fun s => do siddDoc S N (← parse S K (← W.read s))
  render := fun d =>
    match (do renderObject S K (← match d.chip with
      | some g => setChip S K N g o
      | none => pure o)) with
    | .ok t => W.write t
    | .error _ => ""

end Verif.SarXml
