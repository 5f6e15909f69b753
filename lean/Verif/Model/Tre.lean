import Verif.Model.Rsm

/-!
# Model of the TRE parsing and of the builders that read TREs

`xmltre_utils.py`, `rpc_sensor_model_builder.py`, `rsm_sensor_model_builder.py` and
`projective_sensor_model_builder.py`.
-/

namespace Verif.Tre

open Verif.Rpc Verif.Rsm Verif.Sensors
open Verif.Dem (Geo)

/-- An `ET.Element` (without text).  Read by `xmltre_utils.py` L10-67. -/
inductive Xml
  | node (tag : String) (attrs : List (String × String)) (children : List Xml)

/-- `element.tag` (`xmltre_utils.py` L22) -/
def Xml.tag : Xml → String
  | .node t _ _ => t

/-- The elements in an element (`xmltre_utils.py` L52, L58). -/
def Xml.children : Xml → List Xml
  | .node _ _ cs => cs

/-- `element.get(key)`.  `xmltre_utils.py` L25, L46, L53. -/
def Xml.get (x : Xml) (key : String) : Option String :=
  match x with
  | .node _ attrs _ => attrs.lookup key

/-- `element.findall("./tag[@name='v']")`.  `rsm_sensor_model_builder.py` L83, `nitf_des_accessor.py` L53. -/
def Xml.findall (x : Xml) (tag name : String) : List Xml :=
  x.children.filter (fun c => c.tag = tag ∧ c.get "name" = some name)

/-- `element.find("./tag[@name='v']")`.  `xmltre_utils.py` L22, L42. -/
def Xml.find (x : Xml) (tag name : String) : Option Xml := (x.findall tag name).head?

/-- Python's `float` and `int` on strings; `none` is `ValueError`.  (NaN and infinities are not
modelled.)  `xmltre_utils.py` L28, L49, L56, L64. -/
structure Conv where
  float : String → Option ℝ
  int : String → Option Int

/-- A conversion function as it is passed to `get_tre_field_value`.  `xmltre_utils.py` L28. -/
def conv {α : Type} (f : String → Option α) (s : String) : Except PyErr α :=
  match f s with
  | none => .error .valueError
  | some a => .ok a

/-- xmltre_utils.py L10-28 -/
def fieldValue {α : Type} (tre : Xml) (name : String) (f : String → Option α) : Except PyErr α :=
  match tre.find "field" name with
  | none => .error .valueError
  | some e =>
    match e.get "value" with
    | none => .error .valueError
    | some s => conv f s

/-- xmltre_utils.py L52-65, one group.  A group without children raises `IndexError` at
`group[0]`. -/
def addGroup (c : Conv) (result : List ℝ) (group : Xml) : Except PyErr (List ℝ) := do
  let i ← (match group.get "index" with
    | none => Except.error PyErr.valueError
    | some s => conv c.int s)
  let v ← (match group.children.head? with
    | none => Except.error PyErr.indexError
    | some f =>
      match f.get "value" with
      | none => .error .valueError
      | some s => conv c.float s)
  pySet result i v

/-- xmltre_utils.py L31-67 -/
def parseCoefficients (c : Conv) (tre : Xml) (name : String) : Except PyErr (List ℝ) :=
  match tre.find "repeated" name with
  | none => .error .valueError
  | some r =>
    match r.get "number" with
    | none => .error .valueError
    | some s => do
      let n ← conv c.int s
      r.children.foldlM (addGroup c) (List.replicate n.toNat 0)

/-- `except ValueError: return None`.  `rpc_sensor_model_builder.py` L61-65, `rsm_sensor_model_builder.py` L113-117. -/
def orNone {α : Type} (x : Except PyErr (Option α)) : Except PyErr (Option α) :=
  match x with
  | .error .valueError => .ok none
  | y => y

/-! ## RPC -/

/-- rpc_sensor_model_builder.py L68-93 -/
noncomputable def buildRpcModel (c : Conv) (t : Xml) : Except PyErr RpcModel := do
  let _ ← fieldValue t "ERR_BIAS" c.float
  let _ ← fieldValue t "ERR_RAND" c.float
  let lineOff ← fieldValue t "LINE_OFF" c.float
  let sampOff ← fieldValue t "SAMP_OFF" c.float
  let latOff ← fieldValue t "LAT_OFF" c.float
  let longOff ← fieldValue t "LONG_OFF" c.float
  let heightOff ← fieldValue t "HEIGHT_OFF" c.float
  let lineScale ← fieldValue t "LINE_SCALE" c.float
  let sampScale ← fieldValue t "SAMP_SCALE" c.float
  let latScale ← fieldValue t "LAT_SCALE" c.float
  let longScale ← fieldValue t "LONG_SCALE" c.float
  let heightScale ← fieldValue t "HEIGHT_SCALE" c.float
  let lineNum ← parseCoefficients c t "LINE_NUM_COEFF"
  let lineDen ← parseCoefficients c t "LINE_DEN_COEFF"
  let sampNum ← parseCoefficients c t "SAMP_NUM_COEFF"
  let sampDen ← parseCoefficients c t "SAMP_DEN_COEFF"
  pure { lineOff, sampOff, latOff, longOff, heightOff, lineScale, sampScale, latScale, longScale, heightScale,
         lineNum, lineDen, sampNum, sampDen }

/-- rpc_sensor_model_builder.py L36-65 -/
noncomputable def buildRpc (c : Conv) (tres : Xml) : Except PyErr (Option RpcModel) :=
  match tres.find "tre" "RPC00B" with
  | none => .ok none
  | some t => orNone (do
      let success ← fieldValue t "SUCCESS" c.int
      if success ≠ 1 then pure none
      else some <$> buildRpcModel c t)

/-! ## RSM -/

/-- `RSMGroundDomainForm(s)`, replacement_sensor_model.py L75-77 -/
def formOf (s : String) : Option Form :=
  if s = "G" then some .geodetic
  else if s = "H" then some .geodetic2pi
  else if s = "R" then some .rectangular
  else none

/-- Three fields of numbers (`rsm_sensor_model_builder.py` L134-140, L150-156, L168-174). -/
def floats3 (c : Conv) (t : Xml) (a b d : String) : Except PyErr Vec := do
  let x ← fieldValue t a c.float
  let y ← fieldValue t b c.float
  let z ← fieldValue t d c.float
  pure ![x, y, z]

/-- rsm_sensor_model_builder.py L159-165: the rows XR, YR, ZR of `{X,Y,Z}U{row}`. -/
def unitVectors (c : Conv) (t : Xml) : Except PyErr Mat := do
  let x ← floats3 c t "XUXR" "YUXR" "ZUXR"
  let y ← floats3 c t "XUYR" "YUYR" "ZUYR"
  let z ← floats3 c t "XUZR" "YUZR" "ZUZR"
  pure (Matrix.of ![x, y, z])

/-- rsm_sensor_model_builder.py L120-186 -/
noncomputable def buildGroundDomain (earth : Earth) (c : Conv) (t : Xml) : Except PyErr GroundDomain := do
  let form ← (do
    let s ← fieldValue t "GRNDD" some
    conv formOf s)
  let vertices ← (List.range 8).mapM (fun i =>
    let n := toString (i + 1)
    floats3 c t ("V" ++ n ++ "X") ("V" ++ n ++ "Y") ("V" ++ n ++ "Z"))
  let (origin, units) ← (if form = .rectangular then do
      let o ← floats3 c t "XUOR" "YUOR" "ZUOR"
      let u ← unitVectors c t
      pure (some o, some u)
    else pure (none, none))
  let reference := (match floats3 c t "GRPX" "GRPY" "GRPZ" with
    | .ok v => some v
    | .error _ => none)
  groundDomain earth form vertices origin units reference

/-- rsm_sensor_model_builder.py L188-215: the ground domain and the image domain (min row, max row,
min column, max column). -/
structure Context where
  domain : GroundDomain
  minRow : Int
  maxRow : Int
  minCol : Int
  maxCol : Int

/-- `rsm_sensor_model_builder.py` L203-215 -/
noncomputable def buildContext (earth : Earth) (c : Conv) (t : Xml) : Except PyErr Context := do
  let domain ← buildGroundDomain earth c t
  let minRow ← fieldValue t "MINR" c.int
  let maxRow ← fieldValue t "MAXR" c.int
  let minCol ← fieldValue t "MINC" c.int
  let maxCol ← fieldValue t "MAXC" c.int
  pure ⟨domain, minRow, maxRow, minCol, maxCol⟩

/-- rsm_sensor_model_builder.py L217-236 (the prefix is always one of the four). -/
def buildPolynomial (c : Conv) (t : Xml) (pre : String) : Except PyErr (RsmPoly ℝ) := do
  let px ← fieldValue t (pre ++ "PWRX") c.int
  let py ← fieldValue t (pre ++ "PWRY") c.int
  let pz ← fieldValue t (pre ++ "PWRZ") c.int
  let cs ← parseCoefficients c t (pre ++ "PCF")
  polynomial px py pz cs

/-- rsm_sensor_model_builder.py L238-266 -/
noncomputable def buildPolyModel (c : Conv) (ctx : Context) (t : Xml) : Except PyErr PolyModel := do
  let rowSection ← fieldValue t "RSN" c.int
  let colSection ← fieldValue t "CSN" c.int
  let rowOff ← fieldValue t "RNRMO" c.float
  let colOff ← fieldValue t "CNRMO" c.float
  let xOff ← fieldValue t "XNRMO" c.float
  let yOff ← fieldValue t "YNRMO" c.float
  let zOff ← fieldValue t "ZNRMO" c.float
  let rowScale ← fieldValue t "RNRMSF" c.float
  let colScale ← fieldValue t "CNRMSF" c.float
  let xScale ← fieldValue t "XNRMSF" c.float
  let yScale ← fieldValue t "YNRMSF" c.float
  let zScale ← fieldValue t "ZNRMSF" c.float
  let rowNum ← buildPolynomial c t "RN"
  let rowDen ← buildPolynomial c t "RD"
  let colNum ← buildPolynomial c t "CN"
  let colDen ← buildPolynomial c t "CD"
  pure { domain := ctx.domain, rowSection, colSection, rowOff, colOff, xOff, yOff, zOff, rowScale, colScale, xScale, yScale,
         zScale, rowNum, rowDen, colNum, colDen }

/-- rsm_sensor_model_builder.py L268-286 -/
def buildLowOrder (c : Conv) (t : Xml) (pre : String) : Except PyErr (List ℝ) := do
  let cs ← ["0", "X", "Y", "Z", "XX", "XY", "XZ", "YY", "YZ", "ZZ"].mapM (fun s => fieldValue t (pre ++ s) c.float)
  lowOrderPolynomial cs

/-- rsm_sensor_model_builder.py L306-308: the dictionary, newest entry first. -/
def gridMap {M : Type} (models : List (Int × Int × M)) : List ((Int × Int) × M) :=
  models.foldl (fun d m => ((m.1, m.2.1), m.2.2) :: d) []

/-- `range(1, n + 1)`.  `rsm_sensor_model_builder.py` L141, L311-313. -/
def range1 (n : Int) : List Int := (List.range n.toNat).map (fun (i : Nat) => (i : Int) + 1)

/-- `sensor_model_map[(r, c)]`.  `rsm_sensor_model_builder.py` L306-314. -/
def sectionAt {M : Type} (models : List (Int × Int × M)) (r c : Int) : Except PyErr M :=
  match (gridMap models).lookup (r, c) with
  | none => .error .keyError
  | some m => .ok m

/-- rsm_sensor_model_builder.py L310-315 -/
def sectionGrid {M : Type} (models : List (Int × Int × M)) (rows cols : Int) : Except PyErr (List (List M)) :=
  (range1 rows).mapM (fun r => (range1 cols).mapM (fun c => sectionAt models r c))

/-- What the RSM builder can return.  `rsm_sensor_model_builder.py` L91-105. -/
inductive RsmResult
  | single (m : PolyModel)
  | sectioned (frame : Frame) (minRow minCol rows cols : Int) (rowSize colSize : ℝ) (rowPoly colPoly : List ℝ)
      (grid : List (List PolyModel))

/-- rsm_sensor_model_builder.py L288-326 -/
noncomputable def buildSectioned (c : Conv) (t : Xml) (ctx : Context) (models : List PolyModel) : Except PyErr RsmResult := do
  let rows ← fieldValue t "RNIS" c.int
  let cols ← fieldValue t "CNIS" c.int
  let grid ← sectionGrid (models.map (fun m => (m.rowSection, m.colSection, m))) rows cols
  let rowSize ← fieldValue t "RSSIZ" c.float
  let colSize ← fieldValue t "CSSIZ" c.float
  let rowPoly ← buildLowOrder c t "R"
  let colPoly ← buildLowOrder c t "C"
  pure (.sectioned ctx.domain.frame ctx.minRow ctx.minCol rows cols rowSize colSize rowPoly colPoly grid)

/-- rsm_sensor_model_builder.py L59-117 -/
noncomputable def buildRsm (earth : Earth) (c : Conv) (tres : Xml) : Except PyErr (Option RsmResult) :=
  match tres.find "tre" "RSMIDA" with
  | none => .ok none
  | some t => orNone (do
      let ctx ← buildContext earth c t
      let models ← (tres.findall "tre" "RSMPCA").mapM (buildPolyModel c ctx)
      match models with
      | [] => pure none
      | [m] => pure (some (.single m))
      | ms =>
        match tres.find "tre" "RSMPIA" with
        | none => pure none
        | some p => some <$> buildSectioned c p ctx ms)

/-- The sensor model object that a result stands for.  `rsm_sensor_model_builder.py` L91-105. -/
noncomputable def RsmResult.model (earth : Earth) (minimise : Minimiser) : RsmResult → SensorModel ℝ (Dict ℝ)
  | .single m => m.model earth minimise
  | .sectioned frame minRow minCol rows cols rowSize colSize rowPoly colPoly grid =>
    Sectioned.model earth ⟨frame, minRow, minCol, rows, cols, rowSize, colSize, rowPoly, colPoly,
      grid.map (fun l => l.map (fun m => m.model earth minimise))⟩

/-! ## CSCRNA -/

/-- projective_sensor_model_builder.py L71-80 (also the height goes through `radians`) -/
noncomputable def cornerCoordinates (c : Conv) (t : Xml) : Except PyErr (List (Geo ℝ)) :=
  ["UL", "UR", "LR", "LL"].mapM (fun k => do
    let lon ← fieldValue t (k ++ "CNR_LONG") c.float
    let lat ← fieldValue t (k ++ "CNR_LAT") c.float
    let z ← fieldValue t (k ++ "CNR_HT") c.float
    pure ⟨radians lon, radians lat, radians z⟩)

/-- projective_sensor_model_builder.py L38-87: the control points of the model. -/
noncomputable def buildCorners (c : Conv) (tres : Xml) (width height : ℝ) :
    Except PyErr (Option (List (Geo ℝ) × List (ℝ × ℝ))) :=
  match tres.find "tre" "CSCRNA" with
  | none => .ok none
  | some t => do
    let world ← cornerCoordinates c t
    pure (some (world, [(0, 0), (width, 0), (width, height), (0, height)]))

end Verif.Tre
