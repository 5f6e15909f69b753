import Verif.Model.Tre

/-! # Independent statements about TREs -/

namespace Verif.Spec.Tre

open Verif.Tre Verif.Rpc Verif.Rsm

/-- `e` is a `<tag name="...">` element. -/
def Named (e : Xml) (tag name : String) : Prop := e.tag = tag ∧ e.get "name" = some name

/-- `e` is the first such element below `x`. -/
def IsFirst (x : Xml) (tag name : String) (e : Xml) : Prop :=
  ∃ pre post, x.children = pre ++ e :: post ∧ Named e tag name ∧ ∀ p ∈ pre, ¬ Named p tag name

/-- There is no such element below `x`. -/
def Absent (x : Xml) (tag name : String) : Prop := ∀ e ∈ x.children, ¬ Named e tag name

/-- The field `name` of the TRE has a value that reads as `v`. -/
def HasField {α : Type} (t : Xml) (name : String) (read : String → Option α) (v : α) : Prop :=
  ∃ e s, IsFirst t "field" name e ∧ e.get "value" = some s ∧ read s = some v

/-- A group of a coefficient list says: at index `e.1` there is the value `e.2`. -/
def Says (c : Conv) (g : Xml) (e : Int × ℝ) : Prop :=
  ∃ s first rest u, g.get "index" = some s ∧ c.int s = some e.1 ∧ g.children = first :: rest ∧
    first.get "value" = some u ∧ c.float u = some e.2

/-- `v` is the last value given for an index with the property `P`, or 0 when there is none. -/
def LastValue (es : List (Int × ℝ)) (P : Int → Prop) (v : ℝ) : Prop :=
  (∃ pre e post, es = pre ++ e :: post ∧ P e.1 ∧ v = e.2 ∧ ∀ q ∈ post, ¬ P q.1) ∨ ((∀ e ∈ es, ¬ P e.1) ∧ v = 0)

/-- The coefficient list `name` declares `n` coefficients, and its groups say `es`. -/
def Declares (c : Conv) (t : Xml) (name : String) (n : Int) (es : List (Int × ℝ)) : Prop :=
  ∃ r s, IsFirst t "repeated" name r ∧ r.get "number" = some s ∧ c.int s = some n ∧
    List.Forall₂ (Says c) r.children es

/-- The coefficients that a list of declarations stands for; Python also takes the indices -n ... -1
for the positions counted from the end. -/
def Stored (n : Int) (es : List (Int × ℝ)) (l : List ℝ) : Prop :=
  l.length = n.toNat ∧ (∀ e ∈ es, -n ≤ e.1 ∧ e.1 < n) ∧
    ∀ (j : Nat) (v : ℝ), l[j]? = some v → LastValue es (fun i => i = (j : Int) ∨ i = (j : Int) - n) v

/-- The coefficients named `name` are `l`. -/
def Coefficients (c : Conv) (t : Xml) (name : String) (l : List ℝ) : Prop :=
  ∃ n es, Declares c t name n es ∧ Stored n es l

/-! ## RPC -/

/-- The number fields of an RPC00B TRE and the model parameters they give. -/
def rpcFields : List (String × (RpcModel → ℝ)) :=
  [("LINE_OFF", (·.lineOff)), ("SAMP_OFF", (·.sampOff)), ("LAT_OFF", (·.latOff)), ("LONG_OFF", (·.longOff)),
   ("HEIGHT_OFF", (·.heightOff)), ("LINE_SCALE", (·.lineScale)), ("SAMP_SCALE", (·.sampScale)),
   ("LAT_SCALE", (·.latScale)), ("LONG_SCALE", (·.longScale)), ("HEIGHT_SCALE", (·.heightScale))]

def rpcLists : List (String × (RpcModel → List ℝ)) :=
  [("LINE_NUM_COEFF", (·.lineNum)), ("LINE_DEN_COEFF", (·.lineDen)), ("SAMP_NUM_COEFF", (·.sampNum)),
   ("SAMP_DEN_COEFF", (·.sampDen))]

/-- The TRE describes this RPC model. -/
def DescribesRpc (c : Conv) (t : Xml) (m : RpcModel) : Prop :=
  HasField t "SUCCESS" c.int 1 ∧ (∃ v, HasField t "ERR_BIAS" c.float v) ∧ (∃ v, HasField t "ERR_RAND" c.float v) ∧
    (∀ p ∈ rpcFields, HasField t p.1 c.float (p.2 m)) ∧ ∀ p ∈ rpcLists, Coefficients c t p.1 (p.2 m)

/-! ## RSM -/

def rsmInts : List (String × (PolyModel → Int)) := [("RSN", (·.rowSection)), ("CSN", (·.colSection))]

def rsmFields : List (String × (PolyModel → ℝ)) :=
  [("RNRMO", (·.rowOff)), ("CNRMO", (·.colOff)), ("XNRMO", (·.xOff)), ("YNRMO", (·.yOff)), ("ZNRMO", (·.zOff)),
   ("RNRMSF", (·.rowScale)), ("CNRMSF", (·.colScale)), ("XNRMSF", (·.xScale)), ("YNRMSF", (·.yScale)),
   ("ZNRMSF", (·.zScale))]

/-- Row numerator and denominator, column numerator and denominator. -/
def rsmPolys : List (String × (PolyModel → RsmPoly ℝ)) :=
  [("RN", (·.rowNum)), ("RD", (·.rowDen)), ("CN", (·.colNum)), ("CD", (·.colDen))]

/-- The polynomial with the given field prefix: three powers and the right number of coefficients. -/
def DescribesPoly (c : Conv) (t : Xml) (pre : String) (p : RsmPoly ℝ) : Prop :=
  HasField t (pre ++ "PWRX") c.int p.px ∧ HasField t (pre ++ "PWRY") c.int p.py ∧ HasField t (pre ++ "PWRZ") c.int p.pz ∧
    Coefficients c t (pre ++ "PCF") p.coefficients ∧
    (p.coefficients.length : Int) = (p.px + 1) * (p.py + 1) * (p.pz + 1)

/-- An RSMPCA TRE describes this polynomial model. -/
def DescribesRsm (c : Conv) (d : GroundDomain) (t : Xml) (m : PolyModel) : Prop :=
  m.domain = d ∧ (∀ p ∈ rsmInts, HasField t p.1 c.int (p.2 m)) ∧ (∀ p ∈ rsmFields, HasField t p.1 c.float (p.2 m)) ∧
    ∀ p ∈ rsmPolys, DescribesPoly c t p.1 (p.2 m)

/-- Three fields are the components of a vector. -/
def Field3 (c : Conv) (t : Xml) (a b d : String) (v : Vec) : Prop :=
  HasField t a c.float (v 0) ∧ HasField t b c.float (v 1) ∧ HasField t d c.float (v 2)

def vertexNames : List (String × String × String) :=
  [("V1X", "V1Y", "V1Z"), ("V2X", "V2Y", "V2Z"), ("V3X", "V3Y", "V3Z"), ("V4X", "V4Y", "V4Z"),
   ("V5X", "V5Y", "V5Z"), ("V6X", "V6Y", "V6Z"), ("V7X", "V7Y", "V7Z"), ("V8X", "V8Y", "V8Z")]

def formLetter : Form → String
  | .geodetic => "G"
  | .geodetic2pi => "H"
  | .rectangular => "R"

/-- The arguments of the ground domain that an RSMIDA TRE stands for. -/
structure DomainFields (c : Conv) (t : Xml) (form : Form) (vertices : List Vec) (origin : Option Vec)
    (units : Option Mat) (reference : Option Vec) : Prop where
  letter : HasField t "GRNDD" some (formLetter form)
  corners : List.Forall₂ (fun n v => Field3 c t n.1 n.2.1 n.2.2 v) vertexNames vertices
  axes : form = Form.rectangular → ∃ o u, origin = some o ∧ units = some u ∧
    Field3 c t "XUOR" "YUOR" "ZUOR" o ∧
    Field3 c t "XUXR" "YUXR" "ZUXR" (fun j => u 0 j) ∧
    Field3 c t "XUYR" "YUYR" "ZUYR" (fun j => u 1 j) ∧
    Field3 c t "XUZR" "YUZR" "ZUZR" (fun j => u 2 j)
  noAxes : form ≠ Form.rectangular → origin = none ∧ units = none
  centre : match reference with
    | some v => Field3 c t "GRPX" "GRPY" "GRPZ" v
    | none => ∀ v, ¬ Field3 c t "GRPX" "GRPY" "GRPZ" v

/-! ## Section grids -/

/-- `m` is the last of the models with the section numbers `(r, c)`. -/
def IsSection {M : Type} (models : List (Int × Int × M)) (r c : Int) (m : M) : Prop :=
  ∃ pre post, models = pre ++ (r, c, m) :: post ∧ ∀ q ∈ post, ¬ (q.1 = r ∧ q.2.1 = c)

/-- A complete grid: row `r`, column `k` (from 0) holds the model of section `(r + 1, k + 1)`. -/
def GridOf {M : Type} (models : List (Int × Int × M)) (rows cols : Int) (grid : List (List M)) : Prop :=
  grid.length = rows.toNat ∧ ∀ (r : Nat) line', grid[r]? = some line' → line'.length = cols.toNat ∧
    ∀ (k : Nat) m, line'[k]? = some m → IsSection models (r + 1) (k + 1) m

open Classical in
/-- All such elements below `x`, in document order. -/
noncomputable def allNamed (x : Xml) (tag name : String) : List Xml := x.children.filter (fun e => Named e tag name)

/-- An RSMIDA TRE describes this ground domain and image domain. -/
def DescribesContext (earth : Earth) (c : Conv) (t : Xml) (d : GroundDomain) (minRow maxRow minCol maxCol : Int) : Prop :=
  (∃ form vertices origin units reference, DomainFields c t form vertices origin units reference ∧
    groundDomain earth form vertices origin units reference = .ok d) ∧
  HasField t "MINR" c.int minRow ∧ HasField t "MAXR" c.int maxRow ∧ HasField t "MINC" c.int minCol ∧ HasField t "MAXC" c.int maxCol

/-- The fields of an RSMPIA TRE. -/
structure SectionFields (c : Conv) (t : Xml) (rows cols : Int) (rowSize colSize : ℝ) (rowPoly colPoly : List ℝ) : Prop where
  rows : HasField t "RNIS" c.int rows
  cols : HasField t "CNIS" c.int cols
  rowSize : HasField t "RSSIZ" c.float rowSize
  colSize : HasField t "CSSIZ" c.float colSize
  rowPoly : List.Forall₂ (fun n v => HasField t n c.float v) ["R0", "RX", "RY", "RZ", "RXX", "RXY", "RXZ", "RYY", "RYZ", "RZZ"] rowPoly
  colPoly : List.Forall₂ (fun n v => HasField t n c.float v) ["C0", "CX", "CY", "CZ", "CXX", "CXY", "CXZ", "CYY", "CYZ", "CZZ"] colPoly

end Verif.Spec.Tre
