import Verif.Model.Xsdata
import Mathlib.Data.Real.Basic

/-!
# Elements of a document by their names

What it says for a number to be "the text of the element /SICD/Grid/Row/SS" of a document, without any mention of dataclasses: each name on the way is that of exactly one element.
-/

namespace Verif.Spec.XmlPath

open Verif.Xsdata

/-- The elements in an element. -/
def inside : Tree → List Tree
  | .node _ _ _ _ ts => ts

/-- The text of an element. -/
def textIn : Tree → String
  | .node _ _ _ txt _ => txt

/-- An attribute of an element, without a namespace. -/
def attrIn (n : Name) : Tree → Option String
  | .node _ _ ats _ _ => (ats.find? (fun a => a.1 = (0, n))).map Prod.snd

/-- The elements in an element that have the local name. -/
def named (n : Name) (t : Tree) : List Tree := (inside t).filter (fun k => k.tag.2 = n)

/-- The element at the end of a path of local names; on the way, each name is that of exactly one element. -/
inductive At : Tree → List Name → Tree → Prop
  | here (t : Tree) : At t [] t
  | down (t k u : Tree) (n : Name) (ns : List Name) : named n t = [k] → At k ns u → At t (n :: ns) u

/-- How texts are understood: `real` and `int` are the numbers and `word` the member of an enumeration that a text stands for, if it stands for one. -/
structure Reader where
  real : Name → String → Option ℝ
  int : String → Option Int
  word : Name → String → Option String

/-- The element at the path has no elements in it and its text is the number. -/
def NumberAt (R : Reader) (type : Name) (t : Tree) (path : List Name) (x : ℝ) : Prop := ∃ u, At t path u ∧ inside u = [] ∧ R.real type (textIn u) = some x

/-- The element at the path has no elements in it and its text is the whole number. -/
def WholeAt (R : Reader) (t : Tree) (path : List Name) (x : Int) : Prop := ∃ u, At t path u ∧ inside u = [] ∧ R.int (textIn u) = some x

/-- The element at the path has no elements in it and its text is the word. -/
def WordAt (R : Reader) (type : Name) (t : Tree) (path : List Name) (w : String) : Prop := ∃ u, At t path u ∧ inside u = [] ∧ R.word type (textIn u) = some w

/-- A polynomial in one variable: the order and, for each `Coef` in order, the exponent and the value. -/
def Poly1In (R : Reader) (u : Tree) (order : Int) (coef : List (Int × ℝ)) : Prop :=
  (attrIn n!"order1" u).bind R.int = some order ∧
  List.Forall₂ (fun k c => (attrIn n!"exponent1" k).bind R.int = some c.1 ∧ R.real n!"float" (textIn k) = some c.2) (named n!"Coef" u) coef

/-- A polynomial in two variables. -/
def Poly2In (R : Reader) (u : Tree) (order1 order2 : Int) (coef : List (Int × Int × ℝ)) : Prop :=
  (attrIn n!"order1" u).bind R.int = some order1 ∧ (attrIn n!"order2" u).bind R.int = some order2 ∧
  List.Forall₂ (fun k c => (attrIn n!"exponent1" k).bind R.int = some c.1 ∧ (attrIn n!"exponent2" k).bind R.int = some c.2.1 ∧ R.real n!"float" (textIn k) = some c.2.2)
    (named n!"Coef" u) coef

/-- The element at the path is the polynomial in one variable. -/
def Poly1At (R : Reader) (t : Tree) (path : List Name) (order : Int) (coef : List (Int × ℝ)) : Prop := ∃ u, At t path u ∧ Poly1In R u order coef

/-- The element at the path is the polynomial in two variables. -/
def Poly2At (R : Reader) (t : Tree) (path : List Name) (order1 order2 : Int) (coef : List (Int × Int × ℝ)) : Prop := ∃ u, At t path u ∧ Poly2In R u order1 order2 coef

end Verif.Spec.XmlPath
