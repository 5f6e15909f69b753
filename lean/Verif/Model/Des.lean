import Verif.Model.Tre
import Verif.Model.Coordinates

/-!
# Model of `nitf_des_accessor.py`

Texts are lists of characters.  `re.sub(r"<\?xml.*?\?>", "", s)` is modelled by the scan that the
pattern stands for; the XML parser, base64 and `ET.tostring` are parameters.
-/

namespace Verif.Des

open Verif.Tre
open Verif.Coordinates (fmt0d)

/-- `.*?\?>` at the start of the text: what follows the first `?>`, if no line break comes before
it (`.` does not match a line break).  `nitf_des_accessor.py` L39. -/
def closeProlog : List Char → Option (List Char)
  | '?' :: '>' :: rest => some rest
  | c :: rest => if c = '\n' then none else closeProlog rest
  | [] => none

theorem closeProlog_length (s r : List Char) (h : closeProlog s = some r) : r.length < s.length := by
  fun_induction closeProlog s with
  | case1 rest => simp only [Option.some.injEq] at h; subst h; simp
  | case2 rest => simp at h
  | case3 c rest hx hc ih => have := ih h; simp; omega
  | case4 => simp at h

/-- `<\?xml.*?\?>` at the start of the text: what follows the match.  `nitf_des_accessor.py` L39. -/
def openProlog (s : List Char) : Option (List Char) :=
  if ("<?xml".toList).isPrefixOf s then closeProlog (s.drop 5) else none

theorem openProlog_length (s r : List Char) (h : openProlog s = some r) : r.length < s.length := by
  unfold openProlog at h
  split at h
  · have := closeProlog_length _ _ h
    simp only [List.length_drop] at this
    omega
  · simp at h

/-- nitf_des_accessor.py L39: `re.sub(r"<\?xml.*?\?>", "", s)`, left to right, no rescanning. -/
def removeProlog : List Char → List Char
  | [] => []
  | c :: rest =>
    match h : openProlog (c :: rest) with
    | some after => removeProlog after
    | none => c :: removeProlog rest
  termination_by s => s.length
  decreasing_by
    · exact openProlog_length _ _ h
    · simp

/-- The characters that `str.strip` removes.  `nitf_des_accessor.py` L39. -/
def isSpace (c : Char) : Bool :=
  [0x9, 0xa, 0xb, 0xc, 0xd, 0x1c, 0x1d, 0x1e, 0x1f, 0x20, 0x85, 0xa0, 0x1680, 0x2000, 0x2001, 0x2002, 0x2003, 0x2004, 0x2005,
   0x2006, 0x2007, 0x2008, 0x2009, 0x200a, 0x2028, 0x2029, 0x202f, 0x205f, 0x3000].contains c.toNat

/-- `s.strip()`.  `nitf_des_accessor.py` L39. -/
def strip (s : List Char) : List Char := ((s.dropWhile isSpace).reverse.dropWhile isSpace).reverse

/-- nitf_des_accessor.py L32-40: the parsed lists.  `parse` is `defusedxml.ElementTree.fromstring`. -/
def parsedLists (parse : List Char → Except PyErr Xml) (metadata : List (List Char)) : Except PyErr (List Xml) :=
  metadata.mapM (fun s => parse (strip (removeProlog s)))

/-- nitf_des_accessor.py L43-54 -/
def segments (lists : List Xml) (name : String) : List Xml :=
  lists.foldl (fun acc l => acc ++ l.findall "des" name) []

/-- `format(s, ">n")`.  `nitf_des_accessor.py` L68-96. -/
def padLeft (n : Nat) (s : List Char) : List Char := List.replicate (n - s.length) ' ' ++ s

/-- nitf_des_accessor.py L68-84: the text fields between DESVER and DESSHL, with their widths. -/
def textFields : List (String × Nat) :=
  [("DECLAS", 1), ("DESCLSY", 2), ("DESCODE", 11), ("DESCTLH", 2), ("DESREL", 20), ("DESDCTP", 2), ("DESDCDT", 8), ("DESDCXM", 4),
   ("DESDG", 1), ("DESDGDT", 8), ("DESCLTX", 43), ("DESCATP", 1), ("DESCAUT", 40), ("DESCRSN", 1), ("DESSRDT", 8), ("DESCTLN", 15)]

/-- `format(parse_field_value(des, name, str), ">n")`; `parse_field_value` (L131-151) is the same
function as `get_tre_field_value`. -/
def textField (des : Xml) (f : String × Nat) : Except PyErr (List Char) := do
  let s ← fieldValue des f.1 some
  pure (padLeft f.2 s.toList)

/-- nitf_des_accessor.py L56-98 -/
def header (c : Conv) (des : Xml) : Except PyErr (List Char) := do
  let ver ← fieldValue des "DESVER" c.int
  let texts ← textFields.mapM (textField des)
  let n ← fieldValue des "DESSHL" c.int
  let user ← (if n > 0 then textField des ("DESSHF", n.toNat) else pure [])
  pure (fmt0d 2 ver ++ texts.flatten ++ fmt0d 4 n ++ user)

/-- Decoders used by `extract_desdata_xml`: base64 with UTF-8 and `ET.tostring`.  `nitf_des_accessor.py` L118-125. -/
structure Codec where
  b64 : String → Except PyErr String
  tostring : Xml → String

/-- nitf_des_accessor.py L100-129; an element without children is false. -/
def extractXml (k : Codec) (des : Xml) : Except PyErr (Option String) :=
  match des.find "field" "DESDATA" with
  | none => .ok none
  | some d =>
    match d.get "value" with
    | some v => if v ≠ "" then some <$> k.b64 v else extractContent k d
    | none => extractContent k d
where
  extractContent (k : Codec) (d : Xml) : Except PyErr (Option String) :=
    match d.children.find? (fun x => x.tag = "xml_content") with
    | none => .ok none
    | some x =>
      match x.children with
      | [] => .ok none
      | y :: _ => .ok (some (k.tostring y))

end Verif.Des
