import Verif.Model.Py
import Verif.Model.Des

/-!
# Dataclasses and XML

Model of what xsdata (23.8) does with the dataclasses of `formats/sicd/models` and `formats/sidd/models`: `XmlSerializer.render` turns an object into a tree of elements,
`XmlParser.from_string` turns a tree into an object.  The dataclasses are data (`Verif.Model.Schema`).  xsdata is not part of the repository; the calls are
`sicd_updater.py` L27-28, L70-72, `sidd_updater.py` L25-27, L143-145, `sicd_sensor_model_builder.py` L108-109 and `sidd_sensor_model_builder.py` L56-57, all with the default configuration.

* The text of numbers, dates and enumerations is a parameter (`Codec`); a text that cannot be converted is no error in xsdata, it stays a string.
* The text of a document is a parameter too (`Verif.Model.SarXml`); prefixes are part of it, so names are pairs of a namespace and a local name.
* Values that do not fit the type of their field are not rendered (xsdata writes `str(value)` or raises).
-/

namespace Verif.Xsdata

/-- A name (of a class, a field, an element, a namespace or a type), as the number whose digits to the base 256 are its characters, so that names can be compared quickly; `n!"Row"` is the
name with the characters `Row`.  Names in `formats/`. -/
abbrev Name := Nat

/-- The name with the given characters.  Names in `formats/`. -/
macro:max "n!" s:str : term => do
  let n := s.getString.foldl (fun n c => n * 256 + c.toNat) 0
  `(($(Lean.Syntax.mkNumLit (toString n)) : Name))

/-- A qualified name: namespace and local name.  Metadata of the fields, e.g. `sicd_v1_2_1.py` L3497-3504. -/
abbrev QName := Name × Name

namespace Namespace

/-- `sicd_v1_2_1.py` L14 -/
def sicd121 : Name := n!"urn:SICD:1.2.1"
/-- `sicd_v1_3_0.py` L14 -/
def sicd130 : Name := n!"urn:SICD:1.3.0"
/-- `sicommon_types.py` L14 -/
def sicommon01 : Name := n!"urn:SICommon:0.1"
/-- `sicommon_types_v1_0.py` L14 -/
def sicommon10 : Name := n!"urn:SICommon:1.0"
/-- `sfa.py` L11 -/
def sfa : Name := n!"urn:SFA:1.2.0"
/-- `sidd_v1_0_0.py` L54 -/
def sidd100 : Name := n!"urn:SIDD:1.0.0"
/-- `sidd_v2_0_0.py` L55 -/
def sidd200 : Name := n!"urn:SIDD:2.0.0"
/-- `sidd_v3_0_0.py` L55 -/
def sidd300 : Name := n!"urn:SIDD:3.0.0"
/-- Attributes of security markings in `sidd_v1_0_0.py`. -/
def ism : Name := n!"urn:us:gov:ic:ism"
/-- Attributes of security markings in `sidd_v2_0_0.py` and `sidd_v3_0_0.py`. -/
def ism13 : Name := n!"urn:us:gov:ic:ism:13"

end Namespace

/-- Where a field is in the XML (`type` in its metadata; none is text).  E.g. `sicd_v1_2_1.py` L17-31. -/
inductive Kind where
  | attribute | element | text
deriving DecidableEq

/-- The type of a field or of the entries of its list: types of text, or another dataclass.  The annotations in `formats/`. -/
inductive Ty where
  | plain (types : List Name)
  | cls (name : Name)
deriving DecidableEq

/-- A field of a dataclass.  `sicd_v1_2_1.py` L17-31, `sidd_v1_0_0.py` L613-621. -/
structure Field where
  /-- name of the Python attribute -/
  py : Name
  kind : Kind
  ns : Name
  xml : Name
  ty : Ty
  /-- a list; of an attribute or text, the words of it (`tokens`) -/
  many : Bool
  /-- text of the default value -/
  default : Option String
  /-- whether it is a parameter of the constructor -/
  init : Bool
deriving DecidableEq

/-- The name in the XML.  `formats/`, `name` and `namespace` of the metadata. -/
def Field.tag (f : Field) : QName := (f.ns, f.xml)

namespace Field

/-- An element with fields of its own.  E.g. `sicd_v1_2_1.py` L3497-3504. -/
def el (py ns xml cls : Name) : Field := ⟨py, .element, ns, xml, .cls cls, false, none, true⟩
/-- A list of elements with fields of their own.  E.g. `sicd_v1_2_1.py`, `Poly1DType.coef`. -/
def els (py ns xml cls : Name) : Field := ⟨py, .element, ns, xml, .cls cls, true, none, true⟩
/-- An element with a text.  E.g. `sicd_v1_2_1.py` L39-58. -/
def val (py ns xml : Name) (types : List Name) : Field := ⟨py, .element, ns, xml, .plain types, false, none, true⟩
/-- A list of elements with texts.  E.g. `sicd_v1_2_1.py`, `GeoInfoType.desc`. -/
def vals (py ns xml : Name) (types : List Name) : Field := ⟨py, .element, ns, xml, .plain types, true, none, true⟩
/-- An attribute.  E.g. `sicd_v1_2_1.py` L17-31. -/
def att (py ns xml : Name) (types : List Name) : Field := ⟨py, .attribute, ns, xml, .plain types, false, none, true⟩
/-- An attribute with several words.  E.g. `sidd_v1_0_0.py`, `ProductClassificationType.owner_producer`. -/
def atts (py ns xml : Name) (types : List Name) : Field := ⟨py, .attribute, ns, xml, .plain types, true, none, true⟩
/-- An attribute that always has the same value.  E.g. `sidd_v1_0_0.py`, `ProductClassificationType.desversion`. -/
def fixed (py ns xml : Name) (types : List Name) (value : String) : Field := ⟨py, .attribute, ns, xml, .plain types, false, some value, false⟩
/-- The text of an element.  E.g. `sicd_v1_2_1.py` L17-31. -/
def text (py : Name) (types : List Name) (default : Option String) : Field := ⟨py, .text, 0, py, .plain types, false, default, true⟩
/-- The words of the text of an element.  E.g. `sidd_v1_0_0.py`, `LUTType`. -/
def texts (py : Name) (types : List Name) : Field := ⟨py, .text, 0, py, .plain types, true, none, true⟩

end Field

/-- A dataclass: its name, those of its bases, the namespace and name that it has as an element, and its fields, inherited ones first.  `formats/`. -/
structure Class where
  name : Name
  bases : List Name
  ns : Name
  xml : Name
  fields : List Field
deriving DecidableEq

/-- The name as an element (`Meta.namespace` or `__NAMESPACE__`).  E.g. `sicd_v1_2_1.py` L14, L3493-3495. -/
def Class.qname (c : Class) : QName := (c.ns, c.xml)

/-- The classes that are imported.  The imports of `sicd_sensor_model_builder.py` L9-10 and `sidd_sensor_model_builder.py` L8-10. -/
abbrev Schema := List Class

/-- An element: its name, the type in `xsi:type`, attributes, text, and elements in it.  What `sicd_updater.py` L70-72 writes. -/
inductive Tree where
  | node (tag : QName) (xsi : Option QName) (attrs : List (QName × String)) (text : String) (kids : List Tree)

/-- The name of an element.  `sicd_updater.py` L70-72. -/
def Tree.tag : Tree → QName
  | .node tag _ _ _ _ => tag

/-- The value of a field: `None`, a value with a text, a list of those (`tokens`), an object with its class, or a list.  What `sicd_updater.py` L27-28 reads. -/
inductive Val (P : Type) where
  | null
  | plain (p : P)
  | words (l : List P)
  | obj (cls : Name) (fields : List (Val P))
  | many (l : List (Val P))

/-- Texts of values: what is read from a text that is not empty with the given types, the empty string, and how a value is written.
xsdata's converters, in `sicd_updater.py` L27-28 and L70-72. -/
structure Codec (P : Type) where
  decode : List Name → String → P
  empty : P
  encode : P → String

/-- A text cut at every white space.  `str.split()` in xsdata's `ParserUtils.parse_value`, `sicd_updater.py` L27-28. -/
def cut : List Char → List (List Char)
  | [] => [[]]
  | c :: s => if Verif.Des.isSpace c then [] :: cut s else match cut s with
    | [] => [[c]]
    | w :: ws => (c :: w) :: ws

/-- The words of a text, `str.split()`: the pieces that are not empty.  `sicd_updater.py` L27-28. -/
def words (s : String) : List String := ((cut s.toList).filter (fun w => !w.isEmpty)).map String.ofList

variable {P : Type}

/-- What is read from a text.  `sicd_updater.py` L27-28. -/
def Codec.read (K : Codec P) (types : List Name) (s : String) : P := if s = "" then K.empty else K.decode types s

/-- How a list of values is written.  `sidd_updater.py` L143-145. -/
def Codec.join (K : Codec P) (l : List P) : String := " ".intercalate (l.map K.encode)

/-- The types of a text; a class has none.  `formats/`. -/
def Field.types (f : Field) : List Name :=
  match f.ty with
  | .plain ts => ts
  | .cls _ => []

/-- The class with a name.  `formats/`. -/
def Schema.find (S : Schema) (name : Name) : Option Class := List.find? (fun c => c.name = name) S

/-- The fields of the class with a name.  `formats/`. -/
def Schema.fields (S : Schema) (name : Name) : List Field := ((S.find name).map Class.fields).getD []

/-- The element field with a name.  `sicd_updater.py` L27-28. -/
def Class.element (c : Class) (tag : QName) : Option Field := c.fields.find? (fun f => f.kind = .element ∧ f.tag = tag)

/-- Whether two classes are the same or have a base in common (with themselves).  Inheritance in `formats/`. -/
def Class.related (a b : Class) : Bool := (a.name :: a.bases).any (fun n => n ∈ b.name :: b.bases)

/-- The class of an element: the declared one, or the one that `xsi:type` names if it is related.  `sicd_updater.py` L27-28. -/
def Schema.target (S : Schema) (declared : Name) (xsi : Option QName) : Option Class :=
  match S.find declared with
  | none => none
  | some c =>
    match xsi with
    | none => some c
    | some q => if q = c.qname then some c else some ((List.find? (fun t => t.qname = q ∧ t.related c) S).getD c)

/-- The class of a document: the last of those whose name is that of the root element, or the type that is given there.  `sicd_updater.py` L27-28. -/
def Schema.root (S : Schema) (q : QName) : Option Class := (List.filter (fun c => c.qname = q) S).getLast?

/-! ## Writing -/

/-- The attribute of a field; `None` and empty lists have none.  `sicd_updater.py` L70-72. -/
def attr (K : Codec P) (f : Field) (v : Val P) : List (QName × String) :=
  if f.kind = .attribute then
    match v with
    | .plain p => [(f.tag, K.encode p)]
    | .words (p :: l) => [(f.tag, K.join (p :: l))]
    | _ => []
  else []

/-- The text of a value.  `sicd_updater.py` L70-72. -/
def content (K : Codec P) : Val P → String
  | .plain p => K.encode p
  | .words l => K.join l
  | _ => ""

/-- The attributes of an object.  `sicd_updater.py` L70-72. -/
def attrs (K : Codec P) (l : List (Field × Val P)) : List (QName × String) := l.flatMap (fun p => attr K p.1 p.2)

/-- The text of an object.  `sicd_updater.py` L70-72. -/
def textOf (K : Codec P) (l : List (Field × Val P)) : String :=
  match l.find? (fun p => p.1.kind = .text) with
  | some p => content K p.2
  | none => ""

/-- The type that is written for an object whose class is not the declared one.  `sicd_updater.py` L70-72. -/
def Schema.xsi (S : Schema) (f : Field) (cls : Name) : Option QName :=
  if f.ty = .cls cls then none else (S.find cls).map Class.qname

mutual

/-- The elements of a field: none for `None`.  `sicd_updater.py` L70-72. -/
def kids (S : Schema) (K : Codec P) (f : Field) : Val P → List Tree
  | .null => []
  | .plain p => [.node f.tag none [] (K.encode p) []]
  | .words _ => []
  | .obj cls vs => [.node f.tag (S.xsi f cls) (attrs K ((S.fields cls).zip vs)) (textOf K ((S.fields cls).zip vs)) (kidsAll S K (S.fields cls) vs)]
  | .many l => kidsMany S K f l

/-- The elements of a list, in order.  `sicd_updater.py` L70-72. -/
def kidsMany (S : Schema) (K : Codec P) (f : Field) : List (Val P) → List Tree
  | [] => []
  | v :: vs => kids S K f v ++ kidsMany S K f vs

/-- The elements of an object, in the order of its fields.  `sicd_updater.py` L70-72. -/
def kidsAll (S : Schema) (K : Codec P) : List Field → List (Val P) → List Tree
  | f :: fs, v :: vs => (if f.kind = .element then kids S K f v else []) ++ kidsAll S K fs vs
  | _, [] => []
  | [], _ :: _ => []

end

/-- `XmlSerializer(...).render` of an object, before it becomes text.  `sicd_updater.py` L70-72, `sidd_updater.py` L143-145. -/
def render (S : Schema) (K : Codec P) (c : Class) (vs : List (Val P)) : Tree :=
  .node c.qname none (attrs K ((S.fields c.name).zip vs)) (textOf K ((S.fields c.name).zip vs)) (kidsAll S K (S.fields c.name) vs)

/-! ## Reading -/

/-- The value that a field has when the XML says nothing about it.  `default` and `default_factory` in `formats/`. -/
def Field.initial (K : Codec P) (f : Field) : Val P :=
  if f.many then (if f.kind = .element then .many [] else .words [])
  else match f.default with
    | none => .null
    | some s => .plain (K.read f.types s)

/-- The value of an attribute or a text.  `sicd_updater.py` L27-28. -/
def Field.value (K : Codec P) (f : Field) (s : String) : Val P :=
  if f.many then .words ((words s).map (K.read f.types)) else .plain (K.read f.types s)

/-- A field of an object, from the attributes, the text and the values of the elements.  A fixed attribute must have its value.  `sicd_updater.py` L27-28. -/
def Field.bind [DecidableEq P] (K : Codec P) (ats : List (QName × String)) (txt : String) (ks : List (QName × Val P)) (f : Field) : Except PyErr (Val P) :=
  match f.kind with
  | .attribute =>
    match ats.find? (fun a => a.1 = f.tag) with
    | none => .ok (f.initial K)
    | some a =>
      if f.init then .ok (f.value K a.2)
      else if f.default.map (K.read f.types) = some (K.read f.types a.2) then .ok (f.initial K) else .error .valueError
  | .text => .ok (if txt = "" then f.initial K else f.value K txt)
  | .element =>
    let own := (ks.filter (fun k => k.1 = f.tag)).map Prod.snd
    if f.many then .ok (.many own)
    else match own with
      | [] => .ok (f.initial K)
      | [v] => .ok v
      | _ => .error .valueError

/-- An object from its parts.  `sicd_updater.py` L27-28. -/
def assemble [DecidableEq P] (K : Codec P) (c : Class) (ats : List (QName × String)) (txt : String) (ks : List (QName × Val P)) : Except PyErr (Val P) := do
  pure (.obj c.name (← c.fields.mapM (Field.bind K ats txt ks)))

mutual

/-- The value of an element of an object of class `c`; an unknown element is an error, and so is an element in one that only has text.  `sicd_updater.py` L27-28. -/
def bindKid [DecidableEq P] (S : Schema) (K : Codec P) (c : Class) : Tree → Except PyErr (Val P)
  | .node tag xsi ats txt ts =>
    match c.element tag with
    | none => .error .valueError
    | some f =>
      match f.ty with
      | .plain types => if ts.isEmpty then .ok (.plain (K.read types txt)) else .error .valueError
      | .cls d =>
        match S.target d xsi with
        | none => .error .valueError
        | some c' => do assemble K c' ats txt (← bindKids S K c' ts)

/-- The values of the elements of an object of class `c`.  `sicd_updater.py` L27-28. -/
def bindKids [DecidableEq P] (S : Schema) (K : Codec P) (c : Class) : List Tree → Except PyErr (List (QName × Val P))
  | [] => .ok []
  | t :: ts => do
    let v ← bindKid S K c t
    let vs ← bindKids S K c ts
    pure ((t.tag, v) :: vs)

end

/-- `XmlParser().from_string` of a document that is well-formed.  `sicd_updater.py` L27-28, `sidd_updater.py` L25-27, `sicd_sensor_model_builder.py` L108-109,
`sidd_sensor_model_builder.py` L56-57. -/
def parse [DecidableEq P] (S : Schema) (K : Codec P) : Tree → Except PyErr (Val P)
  | .node tag xsi ats txt ts =>
    match S.root (xsi.getD tag) with
    | none => .error .valueError
    | some c => do assemble K c ats txt (← bindKids S K c ts)

/-! ## Objects in Python -/

/-- The place of a field.  `formats/`. -/
def Schema.place (S : Schema) (cls py : Name) : Option Nat := (S.fields cls).findIdx? (fun f => f.py = py)

/-- `v.py`.  E.g. `sicd_sensor_model_builder.py` L125-128. -/
def Val.get (S : Schema) (py : Name) : Val P → Except PyErr (Val P)
  | .obj cls vs =>
    match (S.place cls py).bind (fun i => vs[i]?) with
    | some v => .ok v
    | none => .error .attributeError
  | _ => .error .attributeError

/-- `v.a.b.c`.  E.g. `sicd_sensor_model_builder.py` L125-128. -/
def Val.path (S : Schema) (v : Val P) (names : List Name) : Except PyErr (Val P) := names.foldlM (fun v n => v.get S n) v

/-- `v.py = x`.  (For a name that is no field, Python would add an attribute, which xsdata does not write.)  `sicd_updater.py` L59-62, `sidd_updater.py` L121-135. -/
def Val.set (S : Schema) (v : Val P) (py : Name) (x : Val P) : Except PyErr (Val P) :=
  match v with
  | .obj cls vs =>
    match S.place cls py with
    | some i => .ok (.obj cls (vs.set i x))
    | none => .ok (.obj cls vs)
  | _ => .error .attributeError

/-- `C(a=x, b=y)`: the other fields have their default values.  `sidd_updater.py` L66-82, L119-135. -/
def Schema.construct (S : Schema) (K : Codec P) (cls : Name) (args : List (Name × Val P)) : Val P :=
  .obj cls ((S.fields cls).map (fun f => (args.lookup f.py).getD (f.initial K)))

end Verif.Xsdata
