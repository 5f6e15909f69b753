import Verif.Props.SarXml

/-!
# SIDD metadata that is read, changed, written and read again
-/

namespace Verif.Props.SiddXml

open Verif Verif.Xsdata Verif.Schema Verif.SarXml Verif.Props.Xsdata Verif.Props.Objects Verif.Props.Schemas Verif.Props.SarXml
open Verif.Xsdata.Namespace Verif.Sensors Verif.Loading Verif.SarTiles Verif.Factory
open Verif.Updaters (Chip Request Window)
open Verif.Props.Updaters (cropChip)
open Verif.TileFactory (Call Config State createEncodedTile serve)
open Verif.Props.SarTiles (Mentions)
open Verif.Props.SicdFiles (IsApproximate Answers)
open Verif.Xsdata.Field (el els val)

variable {P : Type} [DecidableEq P]

set_option linter.unusedSectionVars false

/-! ## Assignments of values that reading changes -/

/-- An assignment of a value that fits: after writing and reading, the attribute is the value as it is read, and the others are the same. -/
theorem set_fits (S : Schema) (K : Codec P) (c : Class) (hc : S.find c.name = some c) (vs : List (Val P)) (hv : List.Forall₂ (Stable S K) c.fields vs) (n : Name) (f : Field)
    (hf : c.fields.find? (fun f => Nat.beq f.py n) = some f) (x : Val P) (hx : FitsOne S K f x) :
    ∃ vs', (Val.obj c.name vs).set S n x = .ok (.obj c.name vs') ∧ FitsAll S K c.fields vs' ∧
      (Val.obj c.name (rereadAll S K c.fields vs')).get S n = .ok (rereadOne S K f x) ∧
      ∀ m, m ≠ n → (Val.obj c.name (rereadAll S K c.fields vs')).get S m = (Val.obj c.name vs).get S m := by
  have hv' := (stable_iff S K _ _).mp hv
  simp only [beq_eq] at hf
  obtain ⟨i, v, h1, h2, h3, _, _⟩ := forall₂_place _ _ _ _ hv f hf
  obtain ⟨j, w, g1, _, _, _, g5⟩ := forall₂_place _ _ _ _ ((fitsAll_iff S K _ _).mp hv'.1) f hf
  rw [h1] at g1
  cases g1
  have hi : i < vs.length := (List.getElem?_eq_some_iff.mp h3).1
  have hs : ∀ y, (Val.obj c.name vs).set S n y = .ok (.obj c.name (vs.set i y)) := by
    intro y
    rw [Val.set]
    simp only [Schema.place, fields_find S _ c hc, h1]
  refine ⟨vs.set i x, hs x, (fitsAll_iff S K _ _).mpr (g5 x hx), ?_⟩
  rw [reread_set S K c.fields vs i f h2 x, hv'.2]
  refine ⟨?_, fun m hm => get_set_ne S _ _ m n hm _ (hs _)⟩
  rw [Val.get, Schema.place, fields_find S _ c hc, h1]
  simp [hi]

/-! ## The classes of a chip -/

/-- The classes that the updater constructs for an object of class `c`: they are the ones that the fields declare, and have the attributes that it sets. -/
structure ChipClasses (c D G I R : Class) (s i : Name) : Prop where
  findD : all.find D.name = some D
  findG : all.find G.name = some G
  findI : all.find I.name = some I
  findR : all.find R.name = some R
  classes : siddClasses c.name = (D.name, G.name, I.name, R.name)
  down : c.fields.find? (fun f => Nat.beq f.py n!"downstream_reprocessing") = some (el n!"downstream_reprocessing" s n!"DownstreamReprocessing" D.name)
  only : possible all D.name = [D, D]
  fieldsD : D.fields = [el n!"geometric_chip" s n!"GeometricChip" G.name, (D.fields[1]?).getD (els n!"processing_event" s n!"ProcessingEvent" 0)]
  event : (D.fields[1]?).map (fun f => (f.kind, f.many)) = some (.element, true)
  fieldsG : G.fields = [el n!"chip_size" s n!"ChipSize" I.name, el n!"original_upper_left_coordinate" s n!"OriginalUpperLeftCoordinate" R.name,
    el n!"original_upper_right_coordinate" s n!"OriginalUpperRightCoordinate" R.name, el n!"original_lower_left_coordinate" s n!"OriginalLowerLeftCoordinate" R.name,
    el n!"original_lower_right_coordinate" s n!"OriginalLowerRightCoordinate" R.name]
  fieldsI : I.fields = [val n!"row" i n!"Row" [n!"int"], val n!"col" i n!"Col" [n!"int"]]
  fieldsR : R.fields = [val n!"row" i n!"Row" [n!"float"], val n!"col" i n!"Col" [n!"float"]]

set_option maxRecDepth 100000 in
theorem chip100 : ChipClasses Sidd100.SIDD Sidd100.DownstreamReprocessingType Sidd100.GeometricChipType SiCommon01.RowColIntType SiCommon01.RowColDoubleType sidd100 sicommon01 := by
  constructor <;> decide +kernel

set_option maxRecDepth 100000 in
theorem chip200 : ChipClasses Sidd200.SIDD Sidd200.DownstreamReprocessingType Sidd200.GeometricChipType SiCommon10.RowColIntType SiCommon10.RowColDoubleType sidd200 sicommon10 := by
  constructor <;> decide +kernel

set_option maxRecDepth 100000 in
theorem chip300 : ChipClasses Sidd300.SIDD Sidd300.DownstreamReprocessingType Sidd300.GeometricChipType SiCommon10.RowColIntType SiCommon10.RowColDoubleType sidd300 sicommon10 := by
  constructor <;> decide +kernel

/-- A chip as an object. -/
def chipObject (G I R : Name) (int : Int → P) (real : ℝ → P) (g : Chip ℝ) : Val P :=
  let point (p : ℝ × ℝ) : Val P := .obj R [.plain (real p.2), .plain (real p.1)]
  .obj G [.obj I [.plain (int g.rows), .plain (int g.cols)], point g.ul, point g.ur, point g.ll, point g.lr]

variable {c D G I R : Class} {s i : Name}

theorem newChip_eq (h : ChipClasses c D G I R s i) (K : Codec P) (N : Numbers P) (g : Chip ℝ) :
    newChip all K N g (D.name, G.name, I.name, R.name) = chipObject G.name I.name R.name N.ofInt N.ofReal g := by
  simp only [newChip, Schema.construct, fields_find all _ _ h.findG, fields_find all _ _ h.findI, fields_find all _ _ h.findR, h.fieldsG, h.fieldsI, h.fieldsR, List.map_cons,
    List.map_nil, chipObject]
  rfl

theorem obj_fits (S : Schema) (K : Codec P) (k : Class) (hk : S.find k.name = some k) (py ns xml : Name) (vs : List (Val P)) (h : FitsAll S K k.fields vs) :
    FitsOne S K (el py ns xml k.name) (.obj k.name vs) := by
  simp only [FitsOne, el, if_true]
  rw [Fits]
  refine ⟨rfl, k.name, k, rfl, hk, ?_, h⟩
  simp [Schema.xsi, Schema.target, hk]

theorem obj_reread (S : Schema) (K : Codec P) (k : Class) (hk : S.find k.name = some k) (py ns xml d : Name) (vs : List (Val P)) :
    rereadOne S K (el py ns xml d) (.obj k.name vs) = .obj k.name (rereadAll S K k.fields vs) := by
  simp only [rereadOne, el, if_true]
  rw [reread, fields_find S _ k hk]

theorem plain_fits (S : Schema) (K : Codec P) (py ns xml : Name) (ts : List Name) (p : P) : FitsOne S K (val py ns xml ts) (.plain p) := by
  simp only [FitsOne, val, if_true]
  rw [Fits]
  exact ⟨rfl, ts, rfl⟩

theorem plain_reread (S : Schema) (K : Codec P) (py ns xml : Name) (ts : List Name) (p : P) :
    rereadOne S K (val py ns xml ts) (.plain p) = .plain (K.read ts (K.encode p)) := by
  simp only [rereadOne, val, if_true]
  rw [reread]
  rfl

theorem chip_fits (h : ChipClasses c D G I R s i) (K : Codec P) (int : Int → P) (real : ℝ → P) (g : Chip ℝ) :
    FitsOne all K (el n!"geometric_chip" s n!"GeometricChip" G.name) (chipObject G.name I.name R.name int real g) := by
  have hI : ∀ a b : P, FitsAll all K I.fields [.plain a, .plain b] := fun a b => by
    rw [h.fieldsI, fitsAll_iff]
    exact .cons (plain_fits ..) (.cons (plain_fits ..) .nil)
  have hR : ∀ a b : P, FitsAll all K R.fields [.plain a, .plain b] := fun a b => by
    rw [h.fieldsR, fitsAll_iff]
    exact .cons (plain_fits ..) (.cons (plain_fits ..) .nil)
  refine obj_fits all K G h.findG _ _ _ _ ?_
  rw [h.fieldsG, fitsAll_iff]
  exact .cons (obj_fits all K I h.findI _ _ _ _ (hI _ _)) (.cons (obj_fits all K R h.findR _ _ _ _ (hR _ _)) (.cons (obj_fits all K R h.findR _ _ _ _ (hR _ _))
    (.cons (obj_fits all K R h.findR _ _ _ _ (hR _ _)) (.cons (obj_fits all K R h.findR _ _ _ _ (hR _ _)) .nil))))

/-- The chip after writing and reading: whole numbers and numbers as they are read. -/
theorem chip_reread (h : ChipClasses c D G I R s i) (K : Codec P) (int : Int → P) (real : ℝ → P) (g : Chip ℝ) :
    rereadOne all K (el n!"geometric_chip" s n!"GeometricChip" G.name) (chipObject G.name I.name R.name int real g) =
      chipObject G.name I.name R.name (fun n => K.read [n!"int"] (K.encode (int n))) (fun x => K.read [n!"float"] (K.encode (real x))) g := by
  unfold chipObject
  rw [obj_reread all K G h.findG, rereadAll_eq, h.fieldsG]
  simp only [List.zipWith_cons_cons, List.zipWith_nil_left, obj_reread all K I h.findI, obj_reread all K R h.findR, rereadAll_eq, h.fieldsI, h.fieldsR, plain_reread]

/-- What is assumed of whole numbers in fields for numbers with a fraction: they are read as the same number. -/
def Reals (K : Codec P) (N : Numbers P) : Prop := ∀ n : Int, N.real (K.read [n!"float"] (K.encode (N.ofReal n))) = some (n : ℝ)

/-- Assigning a chip to an object of class `c` that was read, whether or not it had one. -/
theorem set_chip (h : ChipClasses c D G I R s i) (K : Codec P) (N : Numbers P) (hc : all.find c.name = some c) (vs : List (Val P))
    (hv : List.Forall₂ (Stable all K) c.fields vs) (g : Chip ℝ) : ∃ vs' d, setChip all K N g (.obj c.name vs) = .ok (.obj c.name vs') ∧ FitsAll all K c.fields vs' ∧
      (∀ n, n ≠ n!"downstream_reprocessing" → (Val.obj c.name (rereadAll all K c.fields vs')).get all n = (Val.obj c.name vs).get all n) ∧
      (Val.obj c.name (rereadAll all K c.fields vs')).get all n!"downstream_reprocessing" = .ok (.obj D.name d) ∧
      (Val.obj D.name d).get all n!"geometric_chip" =
        .ok (chipObject G.name I.name R.name (fun n => K.read [n!"int"] (K.encode (N.ofInt n))) (fun x => K.read [n!"float"] (K.encode (N.ofReal x))) g) := by
  obtain ⟨old, hold, hst⟩ := get_stable all K c hc vs hv _ _ h.down
  have hset : ∃ ws, List.Forall₂ (Stable all K) D.fields ws ∧ setChip all K N g (.obj c.name vs) =
      (do
        let d ← (Val.obj D.name ws).set all n!"geometric_chip" (chipObject G.name I.name R.name N.ofInt N.ofReal g)
        (Val.obj c.name vs).set all n!"downstream_reprocessing" d) := by
    unfold setChip
    simp only [classOf, h.classes, hold, newChip_eq h, bind, Except.bind]
    have hold' := hst.1
    simp only [FitsOne, el, if_true] at hold'
    cases old with
    | null =>
      have he := h.event
      obtain ⟨ev, hev, hk⟩ := Option.map_eq_some_iff.mp he
      rw [Prod.mk.injEq] at hk
      have hD := h.fieldsD
      rw [hev, Option.getD_some] at hD
      refine ⟨[.null, .many []], ?_, ?_⟩
      · rw [hD]
        refine .cons ⟨?_, ?_⟩ (.cons ⟨?_, ?_⟩ .nil)
        · simp only [FitsOne, el, if_true]; rw [Fits]; exact ⟨rfl, rfl⟩
        · simp only [rereadOne, el, if_true]; rw [reread]
        · simp only [FitsOne, hk.1, if_true]; rw [Fits]; exact ⟨rfl, hk.2, trivial⟩
        · simp only [rereadOne, hk.1, if_true]; rw [reread, rereadMany]
      · have : all.construct K D.name [] = .obj D.name [.null, .many []] := by
          simp only [Schema.construct, fields_find all _ _ h.findD]
          rw [hD]
          simp [Field.initial, el, hk.1, hk.2]
        simp only [this]
        rfl
    | plain p => rw [Fits] at hold'; obtain ⟨_, ts, e⟩ := hold'; cases e
    | words l => rw [Fits] at hold'; exact hold'.elim
    | many l => rw [Fits] at hold'; exact absurd hold'.2.1 (by simp)
    | obj cls ws =>
      obtain ⟨k, hkp, hkn, _, hws, _⟩ := object_stable all K _ D.name rfl rfl cls ws hst
      rw [h.only] at hkp
      simp only [List.mem_cons, List.not_mem_nil, or_false, or_self] at hkp
      subst hkp
      subst hkn
      exact ⟨ws, hws, rfl⟩
  obtain ⟨ws, hstw, hset⟩ := hset
  have hfind : D.fields.find? (fun f => Nat.beq f.py n!"geometric_chip") = some (el n!"geometric_chip" s n!"GeometricChip" G.name) := by
    rw [h.fieldsD]; rfl
  obtain ⟨ws', e1, e2, e3, e4⟩ := set_fits all K D h.findD ws hstw _ _ hfind _ (chip_fits h K N.ofInt N.ofReal g)
  obtain ⟨vs', f1, f2, f3, f4⟩ := set_fits all K c hc vs hv _ _ h.down _ (obj_fits all K D h.findD _ _ _ ws' e2)
  refine ⟨vs', rereadAll all K D.fields ws', ?_, f2, f4, ?_, ?_⟩
  · rw [hset]
    simp only [bind, Except.bind, e1, f1]
  · rw [f3, obj_reread all K D h.findD]
  · rw [e3, chip_reread h]

theorem get_at (S : Schema) (k : Class) (hk : S.find k.name = some k) (vs : List (Val P)) (n : Name) (j : Nat) (v : Val P) (hj : k.fields.findIdx? (fun f => f.py = n) = some j)
    (hvj : vs[j]? = some v) : (Val.obj k.name vs).get S n = .ok v := by
  rw [Val.get, Schema.place, fields_find S _ k hk, hj]
  simp [hvj]

/-- What is read of an object with a chip. -/
theorem chip_of (h : ChipClasses c D G I R s i) (N : Numbers P) (o : Val P) (d : List (Val P)) (int : Int → P) (real : ℝ → P) (g : Chip ℝ)
    (ho : o.get all n!"downstream_reprocessing" = .ok (.obj D.name d)) (hd : (Val.obj D.name d).get all n!"geometric_chip" = .ok (chipObject G.name I.name R.name int real g))
    (hint : ∀ n, N.int (int n) = some n)
    (hreal : ∀ p ∈ [g.ul, g.ur, g.lr, g.ll], N.real (real p.1) = some p.1 ∧ N.real (real p.2) = some p.2) : chipOf all N o = .ok (some g) := by
  have iI : ∀ a b : Val P, (Val.obj I.name [a, b]).get all n!"row" = .ok a ∧ (Val.obj I.name [a, b]).get all n!"col" = .ok b := fun a b =>
    ⟨get_at all I h.findI _ _ 0 _ (by rw [h.fieldsI]; rfl) rfl, get_at all I h.findI _ _ 1 _ (by rw [h.fieldsI]; rfl) rfl⟩
  have iR : ∀ a b : Val P, (Val.obj R.name [a, b]).get all n!"row" = .ok a ∧ (Val.obj R.name [a, b]).get all n!"col" = .ok b := fun a b =>
    ⟨get_at all R h.findR _ _ 0 _ (by rw [h.fieldsR]; rfl) rfl, get_at all R h.findR _ _ 1 _ (by rw [h.fieldsR]; rfl) rfl⟩
  have iG : ∀ a b e f k : Val P, (Val.obj G.name [a, b, e, f, k]).get all n!"chip_size" = .ok a ∧ (Val.obj G.name [a, b, e, f, k]).get all n!"original_upper_left_coordinate" = .ok b ∧
      (Val.obj G.name [a, b, e, f, k]).get all n!"original_upper_right_coordinate" = .ok e ∧
      (Val.obj G.name [a, b, e, f, k]).get all n!"original_lower_left_coordinate" = .ok f ∧
      (Val.obj G.name [a, b, e, f, k]).get all n!"original_lower_right_coordinate" = .ok k := fun a b e f k =>
    ⟨get_at all G h.findG _ _ 0 _ (by rw [h.fieldsG]; rfl) rfl, get_at all G h.findG _ _ 1 _ (by rw [h.fieldsG]; rfl) rfl, get_at all G h.findG _ _ 2 _ (by rw [h.fieldsG]; rfl) rfl,
      get_at all G h.findG _ _ 3 _ (by rw [h.fieldsG]; rfl) rfl, get_at all G h.findG _ _ 4 _ (by rw [h.fieldsG]; rfl) rfl⟩
  have r1 := hreal g.ul (by simp)
  have r2 := hreal g.ur (by simp)
  have r3 := hreal g.lr (by simp)
  have r4 := hreal g.ll (by simp)
  unfold chipObject at hd
  simp only at hd
  unfold chipOf
  simp only [ho, hd, bind, Except.bind, path_cons, path_nil, iG, iI, iR, whole, hint, corner, num, r1, r2, r3, r4, pure, Except.pure]

/-- **C155**: the object of a tile's document.  A SIDD document that was read is changed by the updater, written and read again: everything that the sensor model builder reads is as
before, except that the chip is the one that the updater assigned. -/
theorem sidd_document (K : Codec P) (hK : Faithful K) (N : Numbers P) (hN : Wholes K N) (hR : Reals K N) (ns : Name) (ats : List (QName × String)) (txt : String) (ts : List Tree)
    (o : Val P) (h : parse all K (.node (ns, n!"SIDD") none ats txt ts) = .ok o) (d : Verif.SiddFiles.Doc) (hd : siddDoc all N o = .ok d) (g : Chip ℝ)
    (hg : ∀ p ∈ [g.ul, g.ur, g.lr, g.ll], ∃ a b : Int, p = ((a : ℝ), (b : ℝ))) :
    ∃ t o', (do renderObject all K (← setChip all K N g o)) = .ok t ∧ parse all K t = .ok o' ∧ siddDoc all N o' = .ok { d with chip := some g } := by
  obtain ⟨c, hc, hf, hr, vs, rfl, hv, hrr⟩ := sidd_root K hK ns ats txt ts o h
  have hst := (stable_iff all K _ _).mpr ⟨hv, hrr⟩
  have hcls : ∃ D G I R s i, ChipClasses c D G I R s i := by
    simp only [List.mem_cons, List.not_mem_nil, or_false] at hc
    rcases hc with rfl | rfl | rfl
    · exact ⟨_, _, _, _, _, _, chip100⟩
    · exact ⟨_, _, _, _, _, _, chip200⟩
    · exact ⟨_, _, _, _, _, _, chip300⟩
  obtain ⟨D, G, I, R, s, i, hcls⟩ := hcls
  obtain ⟨vs', w, e1, e2, e3, e4, e5⟩ := set_chip hcls K N hf vs hst g
  refine ⟨render all K c vs', .obj c.name (rereadAll all K c.fields vs'), ?_, parse_render all K all_sound c hf hr vs' e2, ?_⟩
  · simp only [e1, bind, Except.bind, renderObject, hf]
  · obtain ⟨rest, h1, h2⟩ := bind_eq_ok hd
    obtain ⟨chip, h3, h4⟩ := bind_eq_ok h2
    cases h4
    have hrest : siddRest all N (.obj c.name (rereadAll all K c.fields vs')) = siddRest all N (.obj c.name vs) := by
      unfold siddRest
      simp only [path_cons, e3 n!"measurement" (by decide)]
    have hchip := chip_of hcls N _ w _ _ g e4 e5 (fun n => by rw [hN.again, hN.int]) (by
      intro p hp
      obtain ⟨a, b, rfl⟩ := hg p hp
      exact ⟨hR a, hR b⟩)
    simp only [siddDoc, hrest, h1, hchip, bind, Except.bind]
    rfl

theorem crop_whole (X Y w h : Int) : ∀ p ∈ [(cropChip (X : ℝ) Y w h).ul, (cropChip (X : ℝ) Y w h).ur, (cropChip (X : ℝ) Y w h).lr, (cropChip (X : ℝ) Y w h).ll],
    ∃ a b : Int, p = ((a : ℝ), (b : ℝ)) := by
  intro p hp
  simp only [cropChip, List.mem_cons, List.not_mem_nil, or_false] at hp
  rcases hp with rfl | rfl | rfl | rfl
  · exact ⟨X, Y, rfl⟩
  · exact ⟨X + (w - 1), Y, by push_cast; rfl⟩
  · exact ⟨X + (w - 1), Y + (h - 1), by push_cast; rfl⟩
  · exact ⟨X, Y + (h - 1), by push_cast; rfl⟩

/-- **C155**: what `Verif.Props.SiddFiles` assumes of xsdata, for a document that was read, if the texts that are written are read as what they say. -/
theorem sidd_renders (K : Codec P) (hK : Faithful K) (N : Numbers P) (hN : Wholes K N) (hR : Reals K N) (W : Text) (ns : Name) (ats : List (QName × String)) (txt : String)
    (ts : List Tree) (o : Val P) (h : parse all K (.node (ns, n!"SIDD") none ats txt ts) = .ok o)
    (hW : ∀ X Y w k : Int, ∀ t, (do renderObject all K (← setChip all K N (cropChip X Y w k) o)) = .ok t → W.read (W.write t) = .ok t ∧ Mentions (W.write t) "SIDD")
    (d : Verif.SiddFiles.Doc) (hd : siddDoc all N o = .ok d) : Verif.Props.SiddFiles.Renders (siddXsdata all K N W o) d := by
  intro X Y w k
  obtain ⟨t, o', h1, h2, h3⟩ := sidd_document K hK N hN hR ns ats txt ts o h d hd _ (crop_whole X Y w k)
  have hw := hW X Y w k t h1
  have hr : (siddXsdata all K N W o).render { d with chip := some (cropChip (X : ℝ) Y w k) } = W.write t := by
    simp only [siddXsdata, h1]
  rw [hr]
  refine ⟨?_, hw.2⟩
  simp only [siddXsdata, hw.1, bind, Except.bind, h2, h3]

/-- **C155**: the tiles of a SIDD image (C128), without assumptions about xsdata.  Missing, as there: the pixel should be (x + c, y + r). -/
theorem sidd_tile_reloads_xml_partial (K : Codec P) (hK : Faithful K) (N : Numbers P) (hN : Wholes K N) (hR : Reals K N) (W : Text) (ns : Name) (ats : List (QName × String))
    (txt : String) (ts : List Tree) (o : Val P) (hparse : parse all K (.node (ns, n!"SIDD") none ats txt ts) = .ok o)
    (hW : ∀ X Y w k : Int, ∀ t, (do renderObject all K (← setChip all K N (cropChip X Y w k) o)) = .ok t → W.read (W.write t) = .ok t ∧ Mentions (W.write t) "SIDD")
    (d : Verif.SiddFiles.Doc) (hd : siddDoc all N o = .ok d) (env : Env) (G : Verif.SicdFiles.Ground)
    (henv : env.sidd = Verif.SiddFiles.siddBuilder (siddXsdata all K N W o) G env.lstsq)
    (hlstsq : ∀ rows, Verif.Transforms.IsLstsq rows (env.lstsq rows)) (i t : Image) (hchip : d.chip = none)
    (history : List (String × (Call → Bool × Except PyErr Bool) × Request)) (hh : ∀ r ∈ history, Verif.Props.SiddFiles.Plain r.2.2) (q : Request)
    (hq : Verif.Props.SiddFiles.Plain q) (done : List Window)
    (htile : Verif.Props.SiddFiles.IsTile env (siddXsdata all K N W o) i t d history q done) (ri rt : Image × Option Model) (hi : load env (.image i) = .ok ri)
    (hload : load env (.image t) = .ok rt) :
    ∃ M M' a a', ri = (i, some M) ∧ rt = (t, some M') ∧ IsApproximate env i a ∧ IsApproximate env t a' ∧
      (∀ p p' e o o', p' = ((Verif.Props.SiddFiles.skippedColumns done : ℝ) + q.win.x + p.1 * (q.win.w - 1) / q.win.w,
          (Verif.Props.SiddFiles.skippedRows done : ℝ) + q.win.y + p.2 * (q.win.h - 1) / q.win.h) →
        Answers a p' e o → Answers a' p e o' → M'.imageToWorld p e o' = M.imageToWorld p' e o) := by
  obtain ⟨M, M', a, a', h1, h2, h3, h4, h5, _⟩ := Verif.Props.SiddFiles.sidd_tile_reloads_partial env _ G henv hlstsq i t d hchip
    (sidd_renders K hK N hN hR W ns ats txt ts o hparse hW d hd) history hh q hq done htile ri rt hi hload
  exact ⟨M, M', a, a', h1, h2, h3, h4, h5⟩

/-! ### An example -/

theorem demo_reals : Reals demoCodec demoNumbers := by
  intro n
  have e : demoCodec.read [n!"float"] (demoCodec.encode (demoNumbers.ofReal n)) = demoDigits n := by
    have h1 : demoCodec.encode (demoNumbers.ofReal n) = demoDigits n := by simp [demoCodec, demoNumbers]
    rw [h1]
    unfold Codec.read
    split
    · next h => exact h.symm
    · rfl
  rw [e]
  simp [demoNumbers, demo_digits]

/-- The elements of a SIDD document, of version 2.0.0. -/
def demoKids : List Tree := [
  branch sidd200 n!"Measurement" [
    branch sidd200 n!"PlaneProjection" [
      branch sidd200 n!"ReferencePoint" [vector sicommon10 sicommon10 n!"ECEF" "" "1111" "",
        branch sicommon10 n!"Point" [leaf sicommon10 n!"Row" "1111111111", leaf sicommon10 n!"Col" "11111111111111111111"]],
      branch sidd200 n!"SampleSpacing" [leaf sicommon10 n!"Row" "1", leaf sicommon10 n!"Col" "1"],
      .node (sidd200, n!"TimeCOAPoly") none [((0, n!"order1"), ""), ((0, n!"order2"), "")] "" [
        .node (sicommon10, n!"Coef") none [((0, n!"exponent1"), ""), ((0, n!"exponent2"), "")] "10" []],
      branch sidd200 n!"ProductPlane" [vector sidd200 sicommon10 n!"RowUnitVector" "1" "" "", vector sidd200 sicommon10 n!"ColUnitVector" "" "1" ""]],
    branch sidd200 n!"ARPPoly" [poly sicommon10 sicommon10 n!"X" "1" [("1", "1")], poly sicommon10 sicommon10 n!"Y" "" [], poly sicommon10 sicommon10 n!"Z" "" [("", "111")]]]]

/-- A SIDD document. -/
def demoTree : Tree := .node (sidd200, n!"SIDD") none [] "" demoKids

def demoObject : Val String := match parse all demoCodec demoTree with | .ok o => o | .error _ => .null

set_option maxRecDepth 100000 in
theorem demo_parses : parse all demoCodec demoTree = .ok demoObject := by rfl

set_option maxRecDepth 100000 in
theorem demo_read : siddDoc all demoNumbers demoObject = .ok ⟨⟨⟨(0 : Int), (4 : Int), (0 : Int)⟩, (10 : Int), (20 : Int), [[(0 : Int)]], ⟨[0, (1 : Int)], [0], [(3 : Int)]⟩,
    ⟨(1 : Int), (0 : Int), (0 : Int)⟩, ⟨(0 : Int), (1 : Int), (0 : Int)⟩, (1 : Int), (1 : Int)⟩, none⟩ := by rfl

theorem demo_doc : siddDoc all demoNumbers demoObject = .ok (Verif.Props.SiddFiles.demoDoc none) := by
  rw [demo_read]
  simp [Verif.Props.SiddFiles.demoDoc, Verif.Props.Sicd.exSidd]

set_option maxRecDepth 100000 in
theorem demo_written : renderObject all demoCodec demoObject = .ok demoTree := by rfl

attribute [local irreducible] demoObject demoKids

/-- Its attributes can be read. -/
example : Readable demoCodec siddPaths demoObject := (sidd_attributes demoCodec demo_faithful sidd200 _ _ _ _ demo_parses).1

/-- The document with a chip. -/
noncomputable def demoOther (v : Option (Int × Int × Int × Int)) : Except PyErr Tree :=
  match v with
  | none => renderObject all demoCodec demoObject
  | some (X, Y, w, k) => do renderObject all demoCodec (← setChip all demoCodec demoNumbers (cropChip X Y w k) demoObject)

/-- A text for every chip. -/
def demoCode (v : Option (Int × Int × Int × Int)) : String := Verif.Props.SiddFiles.demoText (Verif.Props.SiddFiles.demoCode v)

theorem demo_code_inj (a b : Option (Int × Int × Int × Int)) (h : demoCode a = demoCode b) : a = b := by
  have h1 := congrArg (fun s => s.toList.length) h
  simp only [demoCode, Verif.Props.SiddFiles.demoText_toList, List.length_append, List.length_replicate, Nat.add_left_cancel_iff] at h1
  exact Encodable.encode_injective h1

theorem demo_code_char (v : Option (Int × Int × Int × Int)) (c : Char) (h : c ∈ (demoCode v).toList) : c = 'S' ∨ c = 'I' ∨ c = 'D' ∨ c = 'x' := by
  rw [demoCode, Verif.Props.SiddFiles.demoText_toList] at h
  simp only [List.cons_append, List.nil_append, List.mem_cons, List.mem_replicate] at h
  tauto

open Classical in
/-- A text says which of the documents it is. -/
noncomputable def demoText : Text where
  write := fun t => if h : ∃ v, demoOther v = .ok t then demoCode h.choose else ""
  read := fun s => if h : ∃ v, demoCode v = s then demoOther h.choose else .error .valueError

theorem demo_write (v : Option (Int × Int × Int × Int)) (t : Tree) (h : demoOther v = .ok t) : ∃ u, demoOther u = .ok t ∧ demoText.write t = demoCode u := by
  have h' : ∃ v, demoOther v = .ok t := ⟨v, h⟩
  exact ⟨h'.choose, h'.choose_spec, by simp only [demoText, dif_pos h']⟩

theorem demo_texts (v : Option (Int × Int × Int × Int)) (t : Tree) (h : demoOther v = .ok t) : demoText.read (demoText.write t) = .ok t ∧ Mentions (demoText.write t) "SIDD" := by
  obtain ⟨u, h1, h2⟩ := demo_write v t h
  rw [h2]
  constructor
  · have h3 : ∃ v, demoCode v = demoCode u := ⟨u, rfl⟩
    simp only [demoText, dif_pos h3]
    rw [demo_code_inj _ _ h3.choose_spec, h1]
  · unfold Mentions demoCode
    rw [Verif.Props.SiddFiles.demoText_toList]
    exact (List.prefix_append _ _).isInfix

noncomputable def demoLib : Verif.SiddFiles.Xsdata := siddXsdata all demoCodec demoNumbers demoText demoObject

theorem demo_renders : Verif.Props.SiddFiles.Renders demoLib (Verif.Props.SiddFiles.demoDoc none) :=
  sidd_renders demoCodec demo_faithful demoNumbers demo_wholes demo_reals demoText sidd200 _ _ _ demoObject demo_parses (fun X Y w k t h => demo_texts (some (X, Y, w, k)) t h) _ demo_doc

/-- What is written is one of the documents. -/
theorem demo_rendered (g : Option (Chip ℝ)) (hg : Verif.Props.SiddFiles.Written g) :
    ∃ v t, demoOther v = .ok t ∧ demoLib.render (Verif.Props.SiddFiles.demoDoc g) = demoText.write t := by
  rcases hg with rfl | ⟨X, Y, w, k, rfl⟩
  · refine ⟨none, demoTree, demo_written, ?_⟩
    have e : (do renderObject all demoCodec (← (pure demoObject : Except PyErr _))) = Except.ok demoTree := demo_written
    simp only [demoLib, siddXsdata, Verif.Props.SiddFiles.demoDoc, e]
  · obtain ⟨t, _, h1, _⟩ := sidd_document demoCodec demo_faithful demoNumbers demo_wholes demo_reals sidd200 _ _ _ demoObject demo_parses _ demo_doc _ (crop_whole X Y w k)
    refine ⟨some (X, Y, w, k), t, h1, ?_⟩
    simp only [demoLib, siddXsdata, Verif.Props.SiddFiles.demoDoc, h1]

theorem renders_at (x : Verif.SiddFiles.Xsdata) (d : Verif.SiddFiles.Doc) (h : Verif.Props.SiddFiles.Renders x d) (X Y w k : Int) (d' : Verif.SiddFiles.Doc)
    (e : d' = { d with chip := some (cropChip (X : ℝ) Y w k) }) : x.parse (x.render d') = .ok d' := by
  subst e
  exact (h X Y w k).1

theorem demo_lib : Verif.Props.SiddFiles.Demo demoLib := by
  refine ⟨fun g hg => ?_, fun g hg => ?_, fun g hg c h => ?_⟩
  · rcases hg with rfl | ⟨X, Y, w, k, rfl⟩
    · have e : (do renderObject all demoCodec (← (pure demoObject : Except PyErr _))) = Except.ok demoTree := demo_written
      have hr : demoLib.render (Verif.Props.SiddFiles.demoDoc none) = demoText.write demoTree := by
        simp only [demoLib, siddXsdata, Verif.Props.SiddFiles.demoDoc, e]
      rw [hr]
      simp only [demoLib, siddXsdata, (demo_texts none _ demo_written).1, bind, Except.bind, demo_parses, demo_doc]
    · exact renders_at demoLib _ demo_renders X Y w k _ rfl
  · obtain ⟨v, t, h1, h2⟩ := demo_rendered g hg
    rw [h2]
    exact (demo_texts v t h1).2
  · obtain ⟨v, t, h1, h2⟩ := demo_rendered g hg
    obtain ⟨u, _, h3⟩ := demo_write v t h1
    rw [h2, h3] at h
    exact demo_code_char u c h

/-- The first tile of 8 by 8 pixels at (20, 0) of an image with this document. -/
example : ∃ (env : Env) (i t : Image) (M M' : Model), load env (.image i) = .ok (i, some M) ∧ load env (.image t) = .ok (t, some M') ∧
    M'.imageToWorld (0, 0) none none = M.imageToWorld (20, 0) none none := by
  obtain ⟨lstsq, hl, -⟩ := Verif.Transforms.lstsq_function (K := ℝ)
  obtain ⟨g, hg, ht⟩ := Verif.Props.SiddFiles.demo_tile demoLib demo_lib lstsq ⟨20, 0, 8, 8⟩ [] (by simp)
  have l1 := Verif.Props.SiddFiles.demo_load demoLib demo_lib lstsq none (.inl rfl)
  have l2 := Verif.Props.SiddFiles.demo_load demoLib demo_lib lstsq g hg
  obtain ⟨M, M', a, a', k1, k2, k3, k4, k⟩ := sidd_tile_reloads_xml_partial demoCodec demo_faithful demoNumbers demo_wholes demo_reals demoText sidd200 _ _ _ demoObject demo_parses
    (fun X Y w k t h => demo_texts (some (X, Y, w, k)) t h) _ demo_doc (Verif.Props.SiddFiles.demoEnv demoLib lstsq) Verif.Props.SicdFiles.demoGround rfl hl _ _ rfl _ (by simp) _
    (by simp [Verif.Props.SiddFiles.Plain]) _ ht _ _ l1 l2
  obtain rfl := Verif.Props.SiddFiles.demo_approximate demoLib lstsq none a k3
  obtain rfl := Verif.Props.SiddFiles.demo_approximate demoLib lstsq g a' k4
  refine ⟨Verif.Props.SiddFiles.demoEnv demoLib lstsq, _, _, M, M', l1.trans (congrArg _ k1), l2.trans (congrArg _ k2), ?_⟩
  refine k (0, 0) (20, 0) none none none ?_ (fun m h => by cases h) (fun m h => by cases h)
  simp [Verif.Props.SiddFiles.skippedColumns, Verif.Props.SiddFiles.skippedRows]

end Verif.Props.SiddXml
