import Verif.Model.Factory
import Verif.Spec.Des

/-! # Independent statement of the sensor model selection -/

namespace Verif.Spec.Factory

open Verif.Tre Verif.Des Verif.Factory Verif.Spec.Tre

/-- The caller asked for this type (no selection asks for all). -/
def Selected (md : Metadata) (k : Kind) : Prop := md.selected = none ∨ ∃ l, md.selected = some l ∧ k ∈ l

/-- The ICHIPB TRE says this. -/
def DescribesChip (c : Conv) (t : Xml) (i : ChipInfo) : Prop :=
  List.Forall₂ (fun (n : String × String) p => HasField t n.1 c.float p.1 ∧ HasField t n.2 c.float p.2)
    [("FI_COL_11", "FI_ROW_11"), ("FI_COL_12", "FI_ROW_12"), ("FI_COL_21", "FI_ROW_21"), ("FI_COL_22", "FI_ROW_22")] i.full ∧
  List.Forall₂ (fun (n : String × String) p => HasField t n.1 c.float p.1 ∧ HasField t n.2 c.float p.2)
    [("OP_COL_11", "OP_ROW_11"), ("OP_COL_12", "OP_ROW_12"), ("OP_COL_21", "OP_ROW_21"), ("OP_COL_22", "OP_ROW_22")] i.chip ∧
  HasField t "FI_COL" c.int i.width ∧ HasField t "FI_ROW" c.int i.height

/-- The image is a chip as described, or not a chip. -/
def IsChip (c : Conv) (tres : Xml) : Option ChipInfo → Prop
  | none => Absent tres "tre" "ICHIPB"
  | some i => ∃ t, IsFirst tres "tre" "ICHIPB" t ∧ DescribesChip c t i

/-- A model of the full image, adapted to the chip. -/
def Adapted {M : Type} (b : Builders M) (info : Option ChipInfo) : Option M → Option M → Prop
  | none, m' => m' = none
  | some m, m' =>
    match info with
    | none => m' = some m
    | some i => ∃ w, b.chip i.full i.chip m = .ok w ∧ m' = some w

/-- The model made from each source, if the source is there, asked for and usable.  `des` is there
when a data extension segment decides about the precision model. -/
structure Candidates (M : Type) where
  affine : Option M
  gcps : Option M
  corners : Option M
  rsm : Option M
  rpc : Option M
  des : Option (Option M)

/-- This DES text decides: it mentions SIDD, or it mentions SICD and that type is asked for. -/
def Decides (md : Metadata) (xml : String) : Prop :=
  "SIDD".toList <:+: xml.toList ∨ ("SICD".toList <:+: xml.toList ∧ Selected md .sicd)

/-- The precision model according to the DES: from the first segment that decides. -/
def FromDes {M : Type} (b : Builders M) (k : Codec) (md : Metadata) (segs : List Xml) (r : Option (Option M)) : Prop :=
  (∃ pre s post xml, segs = pre ++ s :: post ∧ extractXml k s = .ok (some xml) ∧ Decides md xml ∧
    (∀ p ∈ pre, ∃ y, extractXml k p = .ok y ∧ ∀ x, y = some x → ¬ Decides md x) ∧
    (("SIDD".toList <:+: xml.toList → r = some (b.sidd xml)) ∧ (¬ "SIDD".toList <:+: xml.toList → r = some (b.sicd xml)))) ∨
  ((∀ p ∈ segs, ∃ y, extractXml k p = .ok y ∧ ∀ x, y = some x → ¬ Decides md x) ∧ r = none)

/-- The candidates for the given metadata; no builder that is used raises. -/
structure IsCandidates {M : Type} (b : Builders M) (lib : Lib) (md : Metadata) (k : Candidates M) : Prop where
  affine : ∀ g, Selected md .affine → md.geo = some g → ∃ m, b.affine g = .ok m ∧ k.affine = some m
  noAffine : (¬ Selected md .affine ∨ md.geo = none) → k.affine = none
  gcps : ∀ l, Selected md .projective → md.gcps = some l → 4 ≤ l.length → ∃ m, b.gcps l = .ok m ∧ k.gcps = some m
  noGcps : (¬ Selected md .projective ∨ ∀ l, md.gcps = some l → l.length < 4) → k.gcps = none
  noTres : md.tres = none → k.corners = none ∧ k.rsm = none ∧ k.rpc = none
  tres : ∀ t, md.tres = some t → ∃ info rsm rpc, IsChip lib.conv t info ∧
    (Selected md .rsm → b.rsm t = .ok rsm) ∧ (¬ Selected md .rsm → rsm = none) ∧ Adapted b info rsm k.rsm ∧
    (rsm = none → (Selected md .rpc → b.rpc t = .ok rpc) ∧ (¬ Selected md .rpc → rpc = none) ∧ Adapted b info rpc k.rpc) ∧
    (Selected md .projective → ¬ Absent t "tre" "CSCRNA" → ∃ m, b.corners t (info.elim md.width (·.width)) (info.elim md.height (·.height)) = .ok (some m) ∧
      Adapted b info (some m) k.corners) ∧
    ((¬ Selected md .projective ∨ Absent t "tre" "CSCRNA") → k.corners = none)
  noDes : md.dess.elim True (· = []) → k.des = none
  des : ∀ l, md.dess = some l → l ≠ [] → ∃ lists, parsedLists lib.parse (l.map String.toList) = .ok lists ∧
    FromDes b lib.codec md (lists.flatMap (fun x => allNamed x "des" "XML_DATA_CONTENT")) k.des

/-- The data extension segments are readable and none of their XML documents is about SAR: none mentions "SIDD" or "SICD". -/
def NoSar (lib : Lib) (dess : List String) : Prop :=
  dess = [] ∨ ∃ lists, parsedLists lib.parse (dess.map String.toList) = .ok lists ∧
    ∀ s ∈ lists.flatMap (fun x => allNamed x "des" "XML_DATA_CONTENT"), ∃ y, extractXml lib.codec s = .ok y ∧
      ∀ x, y = some x → ¬ "SIDD".toList <:+: x.toList ∧ ¬ "SICD".toList <:+: x.toList

/-- The approximate model: corner coordinates, else control points, else geo transform. -/
def Candidates.approximate {M : Type} (k : Candidates M) : Option M :=
  match k.corners, k.gcps, k.affine with
  | some m, _, _ => some m
  | none, some m, _ => some m
  | none, none, m => m

/-- The precision model: what the DES says, else RSM, else RPC. -/
def Candidates.precision {M : Type} (k : Candidates M) : Option M :=
  match k.des, k.rsm, k.rpc with
  | some r, _, _ => r
  | none, some m, _ => some m
  | none, none, m => m

/-- Both models give a composite; otherwise the one that is there. -/
def combined {M : Type} (composite : M → M → M) : Option M → Option M → Option M
  | some a, some p => some (composite a p)
  | none, some p => some p
  | a, none => a

end Verif.Spec.Factory
