import Verif.Model.SarXml
import Verif.Props.Schemas
import Verif.Props.SicdFiles
import Verif.Props.SiddFiles

/-!
# SAR metadata that is read, changed, written and read again
-/

namespace Verif.Props.SarXml

open Verif Verif.Xsdata Verif.Schema Verif.SarXml Verif.Props.Xsdata Verif.Props.Objects Verif.Props.Schemas
open Verif.Xsdata.Namespace Verif.Sensors Verif.Loading Verif.SarTiles Verif.Factory
open Verif.Updaters (ImageData Chip Request Window)
open Verif.TileFactory (Call Config State createEncodedTile serve)
open Verif.Props.SarTiles (Mentions)
open Verif.Props.SicdFiles (IsApproximate Answers ReadBack)

variable {P : Type} [DecidableEq P]

set_option linter.unusedSectionVars false

/-! ## Assignments -/

/-- Values that fit fields and that writing and reading do not change. -/
def Stable (S : Schema) (K : Codec P) (f : Field) (v : Val P) : Prop := FitsOne S K f v ∧ rereadOne S K f v = v

theorem stable_iff (S : Schema) (K : Codec P) (fs : List Field) (vs : List (Val P)) :
    List.Forall₂ (Stable S K) fs vs ↔ FitsAll S K fs vs ∧ rereadAll S K fs vs = vs := by
  rw [fitsAll_iff, rereadAll_eq]
  constructor
  · intro h
    induction h with
    | nil => exact ⟨.nil, rfl⟩
    | cons h1 _ ih => exact ⟨.cons h1.1 ih.1, by rw [List.zipWith_cons_cons, h1.2, ih.2]⟩
  · rintro ⟨h1, h2⟩
    induction h1 with
    | nil => exact .nil
    | cons h _ ih =>
      rw [List.zipWith_cons_cons, List.cons.injEq] at h2
      exact .cons ⟨h, h2.1⟩ (ih h2.2)

theorem get_stable (S : Schema) (K : Codec P) (c : Class) (hc : S.find c.name = some c) (vs : List (Val P)) (hv : List.Forall₂ (Stable S K) c.fields vs) (n : Name) (f : Field)
    (hf : c.fields.find? (fun f => Nat.beq f.py n) = some f) : ∃ v, (Val.obj c.name vs).get S n = .ok v ∧ Stable S K f v := by
  simp only [beq_eq] at hf
  obtain ⟨i, v, h1, _, h3, h4, _⟩ := forall₂_place _ _ _ _ hv f hf
  refine ⟨v, ?_, h4⟩
  rw [Val.get, Schema.place, fields_find S _ c hc, h1]
  simp [h3]

/-- An assignment of a stable value. -/
theorem set_stable (S : Schema) (K : Codec P) (c : Class) (hc : S.find c.name = some c) (vs : List (Val P)) (hv : List.Forall₂ (Stable S K) c.fields vs) (n : Name) (f : Field)
    (hf : c.fields.find? (fun f => Nat.beq f.py n) = some f) (x : Val P) (hx : Stable S K f x) :
    ∃ vs', (Val.obj c.name vs).set S n x = .ok (.obj c.name vs') ∧ List.Forall₂ (Stable S K) c.fields vs' ∧ (Val.obj c.name vs').get S n = .ok x ∧
      ∀ m, m ≠ n → (Val.obj c.name vs').get S m = (Val.obj c.name vs).get S m := by
  simp only [beq_eq] at hf
  obtain ⟨i, v, h1, _, h3, _, h5⟩ := forall₂_place _ _ _ _ hv f hf
  have hi : i < vs.length := (List.getElem?_eq_some_iff.mp h3).1
  have hs : (Val.obj c.name vs).set S n x = .ok (.obj c.name (vs.set i x)) := by
    rw [Val.set]
    simp only [Schema.place, fields_find S _ c hc, h1]
  refine ⟨_, hs, h5 x hx, ?_, fun m hm => get_set_ne S _ _ m n hm x hs⟩
  rw [Val.get, Schema.place, fields_find S _ c hc, h1]
  simp [hi]

/-- An attribute that is an object: it has a class that is possible, and any stable content of this class can take its place. -/
theorem object_stable (S : Schema) (K : Codec P) (f : Field) (d : Name) (hd : f.ty = .cls d) (hk : f.kind = .element) (cls : Name) (ws : List (Val P))
    (h : Stable S K f (.obj cls ws)) : ∃ k ∈ possible S d, k.name = cls ∧ S.find k.name = some k ∧ List.Forall₂ (Stable S K) k.fields ws ∧
      ∀ ws', List.Forall₂ (Stable S K) k.fields ws' → Stable S K f (.obj k.name ws') := by
  obtain ⟨h1, h2⟩ := h
  simp only [FitsOne, hk, if_true] at h1
  simp only [rereadOne, hk, if_true] at h2
  rw [Fits] at h1
  rw [reread] at h2
  obtain ⟨hm, d', k, e, hf, ht, hw⟩ := h1
  rw [hd] at e
  cases e
  have hn := (find_name S _ k hf).2
  subst hn
  injection h2 with _ h2
  rw [fields_find S _ k hf] at h2
  refine ⟨k, fits_possible S d _ k ht, rfl, hf, (stable_iff S K _ _).mpr ⟨hw, h2⟩, fun ws' hw' => ?_⟩
  obtain ⟨h3, h4⟩ := (stable_iff S K _ _).mp hw'
  refine ⟨?_, ?_⟩
  · simp only [FitsOne, hk, if_true]
    rw [Fits]
    exact ⟨hm, d, k, hd, hf, ht, h3⟩
  · simp only [rereadOne, hk, if_true]
    rw [reread, fields_find S _ k hf, h4]

/-- What is assumed of whole numbers: they are written so that they are read as the same number, and they are numbers. -/
structure Wholes (K : Codec P) (N : Numbers P) : Prop where
  again : ∀ n, K.read [n!"int"] (K.encode (N.ofInt n)) = N.ofInt n
  int : ∀ n, N.int (N.ofInt n) = some n

theorem int_stable (S : Schema) (K : Codec P) (N : Numbers P) (hN : Wholes K N) (f : Field) (hf : isA n!"int" f = true) (n : Int) : Stable S K f (.plain (N.ofInt n)) := by
  simp only [isA, Bool.and_eq_true, decide_eq_true_eq, Bool.not_eq_true'] at hf
  obtain ⟨⟨hk, hm⟩, ht⟩ := hf
  refine ⟨?_, ?_⟩
  · simp only [FitsOne, hk, if_true]
    rw [Fits]
    exact ⟨hm.symm, _, ht⟩
  · simp only [rereadOne, hk, if_true]
    rw [reread, Field.types, ht]
    simp only [hN.again]

theorem leads_one (S : Schema) (good : Field → Bool) (cs : List Class) (n : Name) (h : leads S good cs [n] = true) (c : Class) (hc : c ∈ cs) :
    ∃ f, c.fields.find? (fun f => Nat.beq f.py n) = some f ∧ good f = true := by
  rw [leads, List.all_eq_true] at h
  have := h c hc
  cases hf : c.fields.find? (fun f => Nat.beq f.py n) with
  | none => rw [hf] at this; cases this
  | some f => rw [hf] at this; exact ⟨f, rfl, this⟩

theorem leads_two (S : Schema) (good : Field → Bool) (cs : List Class) (n m : Name) (ns : List Name) (h : leads S good cs (n :: m :: ns) = true) (c : Class) (hc : c ∈ cs) :
    ∃ f d, c.fields.find? (fun f => Nat.beq f.py n) = some f ∧ f.ty = .cls d ∧ f.kind = .element ∧ f.many = false ∧ leads S good (possible S d) (m :: ns) = true := by
  rw [leads, List.all_eq_true] at h
  have := h c hc
  cases hf : c.fields.find? (fun f => Nat.beq f.py n) with
  | none => rw [hf] at this; cases this
  | some f =>
    rw [hf] at this
    cases hty : f.ty with
    | plain _ => simp [hty] at this
    | cls d =>
      simp only [hty, Bool.and_eq_true, decide_eq_true_eq, Bool.not_eq_true'] at this
      exact ⟨f, d, rfl, hty, this.1.1, this.1.2, this.2⟩

/-! ## SICD -/

theorem bind_eq_ok {α β : Type} {x : Except PyErr α} {g : α → Except PyErr β} {b : β} (h : x.bind g = .ok b) : ∃ a, x = .ok a ∧ g a = .ok b := by
  cases x with
  | error e => cases h
  | ok a => exact ⟨a, rfl, h⟩

theorem get_object (S : Schema) (v : Val P) (n : Name) (w : Val P) (h : v.get S n = .ok w) : ∃ cls ws, v = .obj cls ws := by
  cases v with
  | obj cls ws => exact ⟨cls, ws, rfl⟩
  | _ => cases h

/-- The assignments of the updater, in an object of either version: the result still is an object that writing and reading do not change, its `ImageData` is the given one, and
the other attributes, also those of `ImageData`, are the same. -/
theorem set_image (K : Codec P) (N : Numbers P) (hN : Wholes K N) (c : Class) (hc : c ∈ [Sicd121.SICD, Sicd130.SICD]) (hf : all.find c.name = some c) (vs : List (Val P))
    (hv : List.Forall₂ (Stable all K) c.fields vs) (d : Val P) (hd : (Val.obj c.name vs).get all n!"image_data" = .ok d) (hnn : d ≠ .null) (im : ImageData) :
    ∃ vs' d', setImage all N im (.obj c.name vs) = .ok (.obj c.name vs') ∧ List.Forall₂ (Stable all K) c.fields vs' ∧
      (∀ n, n ≠ n!"image_data" → (Val.obj c.name vs').get all n = (Val.obj c.name vs).get all n) ∧
      (Val.obj c.name vs').get all n!"image_data" = .ok d' ∧
      (∀ n, n ≠ n!"first_row" → n ≠ n!"first_col" → n ≠ n!"num_rows" → n ≠ n!"num_cols" → d'.get all n = d.get all n) ∧
      d'.get all n!"first_row" = .ok (.plain (N.ofInt im.firstRow)) ∧ d'.get all n!"first_col" = .ok (.plain (N.ofInt im.firstCol)) ∧
      d'.get all n!"num_rows" = .ok (.plain (N.ofInt im.numRows)) ∧ d'.get all n!"num_cols" = .ok (.plain (N.ofInt im.numCols)) := by
  have hl := sicd_leads
  rw [List.all_eq_true] at hl
  have hl := hl c hc
  rw [List.all_eq_true] at hl
  have l1 := hl ([n!"image_data", n!"first_row"], isA n!"int") (by simp [sicdPaths])
  have l2 := hl ([n!"image_data", n!"first_col"], isA n!"int") (by simp [sicdPaths])
  have l3 := hl ([n!"image_data", n!"num_rows"], isA n!"int") (by simp [sicdPaths])
  have l4 := hl ([n!"image_data", n!"num_cols"], isA n!"int") (by simp [sicdPaths])
  obtain ⟨f, e, hfd, hty, hk, hm, l1⟩ := leads_two _ _ _ _ _ _ l1 c (by simp)
  obtain ⟨f2, e2, hfd2, hty2, _, _, l2⟩ := leads_two _ _ _ _ _ _ l2 c (by simp)
  obtain ⟨f3, e3, hfd3, hty3, _, _, l3⟩ := leads_two _ _ _ _ _ _ l3 c (by simp)
  obtain ⟨f4, e4, hfd4, hty4, _, _, l4⟩ := leads_two _ _ _ _ _ _ l4 c (by simp)
  rw [hfd] at hfd2 hfd3 hfd4
  cases hfd2
  cases hfd3
  cases hfd4
  rw [hty] at hty2 hty3 hty4
  cases hty2
  cases hty3
  cases hty4
  obtain ⟨d₀, hd₀, hst⟩ := get_stable all K c hf vs hv _ f hfd
  rw [hd] at hd₀
  cases hd₀
  have hobj : ∃ cls ws, d = .obj cls ws := by
    have h1 := hst.1
    simp only [FitsOne, hk, if_true] at h1
    cases d with
    | null => exact absurd rfl hnn
    | plain p => rw [Fits] at h1; obtain ⟨_, ts, h⟩ := h1; rw [hty] at h; cases h
    | words l => rw [Fits] at h1; exact h1.elim
    | many l => rw [Fits, hm] at h1; exact absurd h1.2.1 (by simp)
    | obj cls ws => exact ⟨cls, ws, rfl⟩
  obtain ⟨cls, ws, rfl⟩ := hobj
  obtain ⟨k, hkp, rfl, hkf, hws, hput⟩ := object_stable all K f e hty hk cls ws hst
  obtain ⟨g1, hg1, i1⟩ := leads_one _ _ _ _ l1 k hkp
  obtain ⟨g2, hg2, i2⟩ := leads_one _ _ _ _ l2 k hkp
  obtain ⟨g3, hg3, i3⟩ := leads_one _ _ _ _ l3 k hkp
  obtain ⟨g4, hg4, i4⟩ := leads_one _ _ _ _ l4 k hkp
  obtain ⟨w1, s1, t1, u1, r1⟩ := set_stable all K k hkf ws hws _ g1 hg1 _ (int_stable all K N hN g1 i1 im.firstRow)
  obtain ⟨w2, s2, t2, u2, r2⟩ := set_stable all K k hkf w1 t1 _ g2 hg2 _ (int_stable all K N hN g2 i2 im.firstCol)
  obtain ⟨w3, s3, t3, u3, r3⟩ := set_stable all K k hkf w2 t2 _ g3 hg3 _ (int_stable all K N hN g3 i3 im.numRows)
  obtain ⟨w4, s4, t4, u4, r4⟩ := set_stable all K k hkf w3 t3 _ g4 hg4 _ (int_stable all K N hN g4 i4 im.numCols)
  obtain ⟨vs', s5, t5, u5, r5⟩ := set_stable all K c hf vs hv _ f hfd _ (hput w4 t4)
  refine ⟨vs', .obj k.name w4, ?_, t5, r5, u5, ?_, ?_, ?_, ?_, u4⟩
  · simp only [setImage, hd, bind, Except.bind, s1, s2, s3, s4, s5]
  · intro n h1 h2 h3 h4
    rw [r4 n h4, r3 n h3, r2 n h2, r1 n h1]
  · rw [r4 _ (by decide), r3 _ (by decide), r2 _ (by decide), u1]
  · rw [r4 _ (by decide), r3 _ (by decide), u2]
  · rw [r4 _ (by decide), u3]

/-- What the builder reads besides the first row and column does not depend on what the updater assigns. -/
theorem rest_congr (S : Schema) (N : Numbers P) (o o' d d' : Val P) (h : ∀ n, n ≠ n!"image_data" → o'.get S n = o.get S n) (hd : o.get S n!"image_data" = .ok d)
    (hd' : o'.get S n!"image_data" = .ok d') (hs : d'.get S n!"scppixel" = d.get S n!"scppixel") : sicdRest S N o' = sicdRest S N o := by
  unfold sicdRest
  simp only [path_cons, hd, hd', h n!"geo_data" (by decide), h n!"grid" (by decide), h n!"position" (by decide), h n!"image_formation" (by decide), h n!"pfa" (by decide),
    h n!"rg_az_comp" (by decide), h n!"rma" (by decide), h n!"scpcoa" (by decide), bind, Except.bind, hs]

/-- **C154**: the object of a tile's document.  A SICD document that was read is changed by the updater, written and read again: everything that the sensor model builder reads is as
before, except that `ImageData` has the first row, first column and size that the updater assigned. -/
theorem sicd_document (K : Codec P) (hK : Faithful K) (N : Numbers P) (hN : Wholes K N) (ns : Name) (ats : List (QName × String)) (txt : String) (ts : List Tree) (o : Val P)
    (h : parse all K (.node (ns, n!"SICD") none ats txt ts) = .ok o) (d : Verif.SicdFiles.Doc) (hd : sicdDoc all N o = .ok d) (im : ImageData) :
    ∃ t o', (do renderObject all K (← setImage all N im o)) = .ok t ∧ parse all K t = .ok o' ∧ sicdDoc all N o' = .ok { d with image := im } := by
  obtain ⟨c, hc, hf, hr, vs, rfl, hv, hrr⟩ := sicd_root K hK ns ats txt ts o h
  have hst := (stable_iff all K _ _).mpr ⟨hv, hrr⟩
  obtain ⟨rest, h1, h2⟩ := bind_eq_ok hd
  obtain ⟨image, h3, h4⟩ := bind_eq_ok h2
  cases h4
  obtain ⟨_, h5, _⟩ := bind_eq_ok h3
  rw [path_cons] at h5
  obtain ⟨w, hw, h5⟩ := bind_eq_ok h5
  rw [path_cons] at h5
  obtain ⟨_, h5, _⟩ := bind_eq_ok h5
  have hnn : w ≠ .null := by
    rintro rfl
    cases h5
  obtain ⟨vs', w', e1, e2, e3, e4, e5, e6, e7, e8, e9⟩ := set_image K N hN c hc hf vs hst w hw hnn im
  obtain ⟨h6, h7⟩ := (stable_iff all K _ _).mp e2
  refine ⟨render all K c vs', .obj c.name vs', ?_, ?_, ?_⟩
  · simp only [e1, bind, Except.bind, renderObject, hf]
  · rw [parse_render all K all_sound c hf hr vs' h6, h7]
  · have hrest := rest_congr all N _ _ w w' e3 hw e4 (e5 _ (by decide) (by decide) (by decide) (by decide))
    simp only [sicdDoc, hrest, h1, bind, Except.bind, imageOf, path_cons, e4, e6, e7, e8, e9, path_nil, whole, hN.int]
    rfl

/-- What is assumed of the text of a document: it is read as the document, and it mentions what it is. -/
structure Written (W : Text) (this other : String) (t : Tree) : Prop where
  again : W.read (W.write t) = .ok t
  this : Mentions (W.write t) this
  other : ¬ Mentions (W.write t) other

/-- **C154**: what `Verif.Props.SicdFiles` assumes of xsdata, for a document that was read, if the texts that are written are read as what they say. -/
theorem sicd_renders (K : Codec P) (hK : Faithful K) (N : Numbers P) (hN : Wholes K N) (W : Text) (ns : Name) (ats : List (QName × String)) (txt : String) (ts : List Tree) (o : Val P)
    (h : parse all K (.node (ns, n!"SICD") none ats txt ts) = .ok o)
    (hW : ∀ im t, (do renderObject all K (← setImage all N im o)) = .ok t → Written W "SICD" "SIDD" t) (d : Verif.SicdFiles.Doc) (hd : sicdDoc all N o = .ok d) :
    Verif.Props.SicdFiles.Renders (sicdXsdata all K N W o) d := by
  intro im
  obtain ⟨t, o', h1, h2, h3⟩ := sicd_document K hK N hN ns ats txt ts o h d hd im
  have hw := hW im t h1
  have hr : (sicdXsdata all K N W o).render { d with image := im } = W.write t := by
    simp only [sicdXsdata, h1]
  rw [hr]
  refine ⟨?_, hw.this, hw.other⟩
  simp only [sicdXsdata, hw.again, bind, Except.bind, h2, h3]

/-- **C154**: the tiles of a SICD image, without assumptions about xsdata.  The document of the image's segment is read as an object of the dataclasses; the tile's segment has this
object with the updater's `ImageData`; and the model of the tile, read from this, locates its pixels where the image's model does. -/
theorem sicd_tile_reloads_xml (K : Codec P) (hK : Faithful K) (N : Numbers P) (hN : Wholes K N) (W : Text) (ns : Name) (ats : List (QName × String)) (txt : String) (ts : List Tree)
    (o : Val P) (hparse : parse all K (.node (ns, n!"SICD") none ats txt ts) = .ok o)
    (hW : ∀ im t, (do renderObject all K (← setImage all N im o)) = .ok t → Written W "SICD" "SIDD" t)
    (env : Env) (G : Verif.SicdFiles.Ground) (henv : env.sicd = Verif.SicdFiles.sicdBuilder (sicdXsdata all K N W o) G) (parses : Product → String → Except PyErr Unit) (i : Image)
    (sel : Selected) (hsel : newFactory env.lib parses "NITF" (some i.dess) = .ok (some sel)) (hp : sel.product = .sicd)
    (hread : W.read sel.xml = .ok (.node (ns, n!"SICD") none ats txt ts)) (d : Verif.SicdFiles.Doc) (hd : sicdDoc all N o = .ok d) (hb : d.content.build G.geo ≠ none)
    (igeolo : Option (Window → Except PyErr String)) (c : Config Updaters.Sicd) (s₀ : Updaters.Sicd)
    (hc : Verif.SicdFiles.sicdTiles (sicdXsdata all K N W o) sel .nitf igeolo = .ok (c, s₀)) (st : State Updaters.Sicd) (hst : st.sar = s₀) (base : List String)
    (hbase : st.heap[st.defaults.creationOptions]? = some base) (history : List (String × (Call → Bool × Except PyErr Bool) × Request))
    (translate : Call → Bool × Except PyErr Bool) (name : String) (q : Request) (hq : q.out = none ∨ q.out = some (q.win.w, q.win.h)) (call : Call)
    (hcall : (createEncodedTile c translate name q (serve c st history)).2.2 = some call) (t : Image)
    (ht : ReadBack env.lib (sicdXsdata all K N W o).parse (String.ofList sel.header) call t)
    (ri rt : Image × Option Model) (hi : load env (.image i) = .ok ri) (hload : load env (.image t) = .ok rt) :
    ∃ M M' a a', ri = (i, some M) ∧ rt = (t, some M') ∧ IsApproximate env i a ∧ IsApproximate env t a' ∧
      (∀ p e o o', Answers a (p.1 + q.win.x, p.2 + q.win.y) e o → Answers a' p e o' →
        M'.imageToWorld p e o' = M.imageToWorld (p.1 + q.win.x, p.2 + q.win.y) e o) ∧
      ∀ g, M'.worldToImage g = (M.worldToImage g).map (fun p : ℝ × ℝ => (p.1 - q.win.x, p.2 - q.win.y)) := by
  have hdoc : (sicdXsdata all K N W o).parse sel.xml = .ok d := by
    simp only [sicdXsdata, hread, bind, Except.bind, hparse, hd]
  exact Verif.Props.SicdFiles.sicd_tile_reloads env _ G henv parses i sel hsel hp d hdoc (sicd_renders K hK N hN W ns ats txt ts o hparse hW d hd) hb igeolo c s₀ hc st hst base hbase
    history translate name q hq call hcall t ht ri rt hi hload

/-! ### An example -/

/-- Values are texts. -/
def demoCodec : Codec String := ⟨fun _ s => s, "", id⟩

theorem demo_faithful : Faithful demoCodec := by
  have e : ∀ ts s, demoCodec.read ts s = s := by
    intro ts s
    unfold Codec.read
    split
    · next h => exact h.symm
    · rfl
  refine ⟨fun ts s => ?_, fun ts s h => ?_, fun ts s _ h => ?_⟩
  · rw [e, e]; rfl
  · rw [e]; exact h
  · rw [e]; exact h

/-- A whole number is a text with as many ones, or minus as many zeros. -/
def demoInt (s : String) : Int := (s.toList.count '1' : Int) - s.toList.count '0'

def demoDigits (n : Int) : String := String.ofList (List.replicate n.toNat '1' ++ List.replicate (-n).toNat '0')

theorem demo_digits (n : Int) : demoInt (demoDigits n) = n := by
  simp only [demoInt, demoDigits, String.toList_ofList, List.count_append, List.count_replicate]
  simp

noncomputable def demoNumbers : Numbers String where
  real := fun s => some (demoInt s : ℝ)
  int := fun s => some (demoInt s)
  enum := some
  ofInt := demoDigits
  ofReal := fun x => demoDigits ⌊x⌋

theorem demo_wholes : Wholes demoCodec demoNumbers where
  again := fun n => by
    unfold Codec.read
    split
    · next h => exact h.symm
    · rfl
  int := fun n => by simp [demoNumbers, demo_digits]

/-- An element with a text. -/
def leaf (ns n : Name) (s : String) : Tree := .node (ns, n) none [] s []
/-- An element with elements. -/
def branch (ns n : Name) (l : List Tree) : Tree := .node (ns, n) none [] "" l
def vector (ns inner n : Name) (x y z : String) : Tree := branch ns n [leaf inner n!"X" x, leaf inner n!"Y" y, leaf inner n!"Z" z]
def poly (ns inner n : Name) (order : String) (l : List (String × String)) : Tree :=
  .node (ns, n) none [((0, n!"order1"), order)] "" (l.map (fun c => .node (inner, n!"Coef") none [((0, n!"exponent1"), c.1)] c.2 []))

/-- The elements of a SICD document, of version 1.2.1. -/
def demoKids : List Tree := [
  branch sicd121 n!"ImageData" [leaf sicd121 n!"NumRows" "11111", leaf sicd121 n!"NumCols" "111111", leaf sicd121 n!"FirstRow" "1", leaf sicd121 n!"FirstCol" "11",
    branch sicd121 n!"SCPPixel" [leaf sicd121 n!"Row" "1111111111", leaf sicd121 n!"Col" "11111111111111111111"]],
  branch sicd121 n!"GeoData" [branch sicd121 n!"SCP" [vector sicd121 sicd121 n!"ECF" "" "1111" ""]],
  branch sicd121 n!"Grid" [leaf sicd121 n!"Type" "RGAZIM",
    .node (sicd121, n!"TimeCOAPoly") none [((0, n!"order1"), ""), ((0, n!"order2"), "")] "" [
      .node (sicd121, n!"Coef") none [((0, n!"exponent1"), ""), ((0, n!"exponent2"), "")] "10" []],
    branch sicd121 n!"Row" [vector sicd121 sicd121 n!"UVectECF" "1" "" "", leaf sicd121 n!"SS" "1"],
    branch sicd121 n!"Col" [vector sicd121 sicd121 n!"UVectECF" "" "1" "", leaf sicd121 n!"SS" "1"]],
  branch sicd121 n!"Position" [branch sicd121 n!"ARPPoly" [poly sicd121 sicd121 n!"X" "1" [("1", "1")], poly sicd121 sicd121 n!"Y" "" [], poly sicd121 sicd121 n!"Z" "" [("", "111")]]],
  branch sicd121 n!"ImageFormation" [leaf sicd121 n!"ImageFormAlgo" "PFA"],
  branch sicd121 n!"SCPCOA" [vector sicd121 sicd121 n!"ARPPos" "" "" "111", vector sicd121 sicd121 n!"ARPVel" "1" "" "", leaf sicd121 n!"SideOfTrack" "L"],
  branch sicd121 n!"PFA" [vector sicd121 sicd121 n!"FPN" "" "" "1", poly sicd121 sicd121 n!"PolarAngPoly" "" [], poly sicd121 sicd121 n!"SpatialFreqSFPoly" "" [("", "11")]]]

/-- A SICD document. -/
def demoTree : Tree := .node (sicd121, n!"SICD") none [] "" demoKids

def demoObject : Val String := match parse all demoCodec demoTree with | .ok o => o | .error _ => .null

def demoImage : ImageData := ⟨1, 2, 5, 6⟩

set_option maxRecDepth 100000 in
theorem demo_parses : parse all demoCodec demoTree = .ok demoObject := by rfl

set_option maxRecDepth 100000 in
theorem demo_read : sicdDoc all demoNumbers demoObject = .ok ⟨⟨⟨(0 : Int), (4 : Int), (0 : Int)⟩, (10 : Int), (20 : Int), 0, 0, ⟨(1 : Int), (0 : Int), (0 : Int)⟩,
    ⟨(0 : Int), (1 : Int), (0 : Int)⟩, (1 : Int), (1 : Int), ⟨0, 0, [(0, 0, (0 : Int))]⟩, ⟨⟨1, [(1, (1 : Int))]⟩, ⟨0, []⟩, ⟨0, [(0, (3 : Int))]⟩⟩, .rgazim, .pfa,
    some (⟨(0 : Int), (0 : Int), (1 : Int)⟩, ⟨0, []⟩, ⟨0, [(0, (2 : Int))]⟩), none, none, ⟨(0 : Int), (0 : Int), (3 : Int)⟩, ⟨(1 : Int), (0 : Int), (0 : Int)⟩,
    decide ("L" = "R")⟩, demoImage⟩ := by rfl

theorem demo_doc : sicdDoc all demoNumbers demoObject = .ok (Verif.Props.SicdFiles.demoDoc demoImage) := by
  rw [demo_read]
  simp [Verif.Props.SicdFiles.demoDoc, Verif.Props.SicdBuilder.exMeta]

set_option maxRecDepth 100000 in
theorem demo_written : (do renderObject all demoCodec (← setImage all demoNumbers demoImage demoObject)) = .ok demoTree := by rfl

attribute [local irreducible] demoObject demoKids

/-- The document is written and read again. -/
example : ∃ c vs, all.find c.name = some c ∧ demoObject = .obj c.name vs ∧ parse all demoCodec (render all demoCodec c vs) = .ok demoObject :=
  parse_render_parse all demoCodec all_sound demo_faithful _ _ demo_parses

/-- Its attributes can be read. -/
example : Readable demoCodec sicdPaths demoObject := sicd_attributes demoCodec demo_faithful sicd121 _ _ _ _ demo_parses

/-- The document with another `ImageData`. -/
noncomputable def demoOther (im : ImageData) : Except PyErr Tree := do renderObject all demoCodec (← setImage all demoNumbers im demoObject)

open Classical in
/-- A text says which of the documents it is. -/
noncomputable def demoText : Text where
  write := fun t => if h : ∃ im, demoOther im = .ok t then Verif.Props.SicdFiles.demoText (Verif.Props.SicdFiles.demoCode h.choose) else ""
  read := fun s => if h : ∃ im, Verif.Props.SicdFiles.demoText (Verif.Props.SicdFiles.demoCode im) = s then demoOther h.choose else .error .valueError

theorem demo_text_inj (a b : ImageData) (h : Verif.Props.SicdFiles.demoText (Verif.Props.SicdFiles.demoCode a) = Verif.Props.SicdFiles.demoText (Verif.Props.SicdFiles.demoCode b)) : a = b := by
  have h1 := congrArg (fun s => s.toList.length) h
  simp only [Verif.Props.SicdFiles.demoText_toList, List.length_append, List.length_replicate, Nat.add_left_cancel_iff] at h1
  have h2 := Encodable.encode_injective h1
  cases a
  cases b
  simp only [Prod.mk.injEq] at h2
  obtain ⟨rfl, rfl, rfl, rfl⟩ := h2
  rfl

theorem demo_write (im : ImageData) (t : Tree) (h : demoOther im = .ok t) : ∃ i, demoOther i = .ok t ∧ demoText.write t = Verif.Props.SicdFiles.demoText (Verif.Props.SicdFiles.demoCode i) := by
  have h' : ∃ im, demoOther im = .ok t := ⟨im, h⟩
  exact ⟨h'.choose, h'.choose_spec, by simp only [demoText, dif_pos h']⟩

theorem demo_texts (im : ImageData) (t : Tree) (h : demoOther im = .ok t) : Written demoText "SICD" "SIDD" t := by
  obtain ⟨i, h1, h2⟩ := demo_write im t h
  refine ⟨?_, ?_, ?_⟩
  · rw [h2]
    have h3 : ∃ im, Verif.Props.SicdFiles.demoText (Verif.Props.SicdFiles.demoCode im) = Verif.Props.SicdFiles.demoText (Verif.Props.SicdFiles.demoCode i) := ⟨i, rfl⟩
    simp only [demoText, dif_pos h3]
    rw [demo_text_inj _ _ h3.choose_spec, h1]
  · rw [h2]; exact Verif.Props.SicdFiles.demo_sicd _
  · rw [h2]; exact Verif.Props.SicdFiles.demo_not_sidd _

noncomputable def demoLib : Verif.SicdFiles.Xsdata := sicdXsdata all demoCodec demoNumbers demoText demoObject

theorem demo_renders : Verif.Props.SicdFiles.Renders demoLib (Verif.Props.SicdFiles.demoDoc demoImage) :=
  sicd_renders demoCodec demo_faithful demoNumbers demo_wholes demoText sicd121 _ _ _ demoObject demo_parses demo_texts _ demo_doc

theorem renders_at (x : Verif.SicdFiles.Xsdata) (d : Verif.SicdFiles.Doc) (h : Verif.Props.SicdFiles.Renders x d) (i : ImageData) (d' : Verif.SicdFiles.Doc)
    (e : d' = { d with image := i }) : x.parse (x.render d') = .ok d' ∧ Mentions (x.render d') "SICD" ∧ ¬ Mentions (x.render d') "SIDD" := by
  subst e
  exact h i

theorem demo_lib : Verif.Props.SicdFiles.Demo demoLib := by
  have hall := fun i => renders_at demoLib _ demo_renders i (Verif.Props.SicdFiles.demoDoc i) rfl
  refine ⟨fun i => (hall i).1, fun i => (hall i).2.1, fun i => (hall i).2.2, fun i c h => ?_⟩
  obtain ⟨t, _, h1, _⟩ := sicd_document demoCodec demo_faithful demoNumbers demo_wholes sicd121 _ _ _ demoObject demo_parses _ demo_doc i
  have hr : demoLib.render (Verif.Props.SicdFiles.demoDoc i) = demoText.write t := by
    simp only [demoLib, sicdXsdata, Verif.Props.SicdFiles.demoDoc, h1]
  rw [hr] at h
  obtain ⟨j, _, h2⟩ := demo_write i t h1
  rw [h2] at h
  exact Verif.Props.SicdFiles.demo_char _ c h

/-- A tile of 5 by 6 pixels at (10, 20) of an image with this document, after another request. -/
example (lstsq : List (Verif.Transforms.Row ℝ) → Verif.Transforms.Projective ℝ) : ∃ (env : Env) (i t : Image) (M M' : Model),
    load env (.image i) = .ok (i, some M) ∧ load env (.image t) = .ok (t, some M') ∧
      ∀ g, M'.worldToImage g = (M.worldToImage g).map (fun p : ℝ × ℝ => (p.1 - (10 : Int), p.2 - (20 : Int))) := by
  obtain ⟨h, ri, rt, h1, h2, h3, h4, h5, h6, h7, h8, h9, h10⟩ :=
    Verif.Props.SicdFiles.demo_premises demoLib demo_lib lstsq demoImage ⟨10, 20, 5, 6⟩ [("a", fun _ => (true, .ok true), ⟨⟨1, 2, 3, 4⟩, none⟩)]
  have hread : demoText.read (demoLib.render (Verif.Props.SicdFiles.demoDoc demoImage)) = .ok demoTree := by
    have hr : demoLib.render (Verif.Props.SicdFiles.demoDoc demoImage) = demoText.write demoTree := by
      simp only [demoLib, sicdXsdata, Verif.Props.SicdFiles.demoDoc, demo_written]
    rw [hr]
    exact (demo_texts _ _ demo_written).again
  obtain ⟨M, M', a, a', rfl, rfl, k3, k4, -, k5⟩ := sicd_tile_reloads_xml demoCodec demo_faithful demoNumbers demo_wholes demoText sicd121 _ _ _ demoObject demo_parses demo_texts
    (Verif.Props.SicdFiles.demoEnv demoLib lstsq) Verif.Props.SicdFiles.demoGround rfl _ _ _ h1 rfl hread _ demo_doc h4 none _ _ h5 _ rfl _ h6 _ _ _ _ (.inl rfl) _ h7 _ h8
    ri rt h9 h10
  exact ⟨Verif.Props.SicdFiles.demoEnv demoLib lstsq, _, _, M, M', h9, h10, k5⟩

end Verif.Props.SarXml
