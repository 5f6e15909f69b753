import Verif.Model.Des
import Verif.Spec.Tre
import Mathlib.Data.List.Infix

/-! # Independent statements about data extension segments -/

namespace Verif.Spec.Des

open Verif.Tre Verif.Des

/-- The fixed part of the DES subheader after DESID (MIL-STD-2500C, table A-8): field and number of
columns. -/
def columns : List (String × Nat) :=
  [("DESVER", 2), ("DECLAS", 1), ("DESCLSY", 2), ("DESCODE", 11), ("DESCTLH", 2), ("DESREL", 20), ("DESDCTP", 2), ("DESDCDT", 8),
   ("DESDCXM", 4), ("DESDG", 1), ("DESDGDT", 8), ("DESCLTX", 43), ("DESCATP", 1), ("DESCAUT", 40), ("DESCRSN", 1), ("DESSRDT", 8),
   ("DESCTLN", 15), ("DESSHL", 4)]

/-- Cut a text into pieces of the given widths; the last piece is what is left. -/
def cut : List Nat → List Char → List (List Char)
  | [], s => [s]
  | w :: ws, s => s.take w :: cut ws (s.drop w)

/-- `out` is the value `v`, filled with blanks on the left up to `w` columns. -/
def RightJustified (w : Nat) (v out : List Char) : Prop := out.length = w ∧ ∃ k, out = List.replicate k ' ' ++ v

/-- `out` is the value `v`, filled with blanks on the right up to `w` columns. -/
def LeftJustified (w : Nat) (v out : List Char) : Prop := out.length = w ∧ ∃ k, out = v ++ List.replicate k ' '

/-- The decimal number `n` in `w` columns. -/
def Decimal (w n : Nat) (out : List Char) : Prop :=
  out.length = w ∧ (∀ c ∈ out, c.isDigit) ∧ Nat.ofDigitChars 10 out 0 = n

/-- The text contains the start of an XML declaration. -/
def HasDeclaration (s : List Char) : Prop := "<?xml".toList <:+: s

/-- An XML declaration on one line: `<?xml`, anything without a line break and without `?>`, `?>`. -/
def IsDeclaration (d : List Char) : Prop :=
  ∃ body, d = "<?xml".toList ++ body ++ "?>".toList ∧ '\n' ∉ body ∧ ¬ "?>".toList <:+: body ++ ['?']

/-- Text without a declaration and without a beginning of one at its end. -/
def Plain (t : List Char) : Prop :=
  ∀ a b, t = a ++ b → b ≠ [] → ¬ "<?xml".toList <+: b ∧ ¬ b <+: "<?xml".toList

/-- `out` is `s` without the white space around it. -/
def Trimmed (s out : List Char) : Prop :=
  (∃ a b, s = a ++ out ++ b ∧ (∀ c ∈ a, isSpace c = true) ∧ ∀ c ∈ b, isSpace c = true) ∧
    (∀ c, out.head? = some c → isSpace c = false) ∧ ∀ c, out.getLast? = some c → isSpace c = false

/-- The content of the DESDATA field `d` is the element `y`: the first child of the first `xml_content` element. -/
def IsContent (d y : Xml) : Prop :=
  ∃ pre x post rest, d.children = pre ++ x :: post ∧ x.tag = "xml_content" ∧ (∀ p ∈ pre, p.tag ≠ "xml_content") ∧
    x.children = y :: rest

end Verif.Spec.Des
