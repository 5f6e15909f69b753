import Verif.Spec.Factory
import Verif.Props.Des

/-!
# Theorems about the choice of the sensor model
-/

namespace Verif.Props.Factory

open Verif.Tre Verif.Des Verif.Factory Verif.Spec.Tre Verif.Spec.Factory Verif.Props.Tre

theorem isSelected_iff (md : Metadata) (k : Kind) : md.isSelected k = true ↔ Selected md k := by
  unfold Metadata.isSelected Selected
  cases md.selected <;> simp

theorem isSelected_false (md : Metadata) (k : Kind) : md.isSelected k = false ↔ ¬ Selected md k := by
  rw [← isSelected_iff]; simp

theorem readChip_ok (c : Conv) (t : Xml) (i : ChipInfo) : readChip c t = .ok i ↔ DescribesChip c t i := by
  unfold readChip DescribesChip
  simp only [bind_ok, pure_ok, fieldValue_ok, mapM_ok]
  have h1 : [("FI_COL_11", "FI_ROW_11"), ("FI_COL_12", "FI_ROW_12"), ("FI_COL_21", "FI_ROW_21"), ("FI_COL_22", "FI_ROW_22")] =
      ["11", "12", "21", "22"].map (fun g => ("FI_COL_" ++ g, "FI_ROW_" ++ g)) := by decide +kernel
  have h2 : [("OP_COL_11", "OP_ROW_11"), ("OP_COL_12", "OP_ROW_12"), ("OP_COL_21", "OP_ROW_21"), ("OP_COL_22", "OP_ROW_22")] =
      ["11", "12", "21", "22"].map (fun g => ("OP_COL_" ++ g, "OP_ROW_" ++ g)) := by decide +kernel
  rw [h1, h2, List.forall₂_map_left_iff, List.forall₂_map_left_iff]
  generalize ["11", "12", "21", "22"] = gs
  constructor
  · rintro ⟨points, hp, w, hw, h, hh, rfl⟩
    simp only [List.forall₂_map_right_iff]
    refine ⟨hp.imp ?_, hp.imp ?_, hw, hh⟩
    · rintro g p ⟨_, a1, _, a2, _, a3, _, a4, rfl⟩; exact ⟨a3, a4⟩
    · rintro g p ⟨_, a1, _, a2, _, a3, _, a4, rfl⟩; exact ⟨a1, a2⟩
  · rintro ⟨hf, ho, hw, hh⟩
    obtain ⟨full, chip, w, h⟩ := i
    refine ⟨full.zip chip, ?_, w, hw, h, hh, ?_⟩
    · clear hw hh
      simp only at hf ho
      induction hf generalizing chip with
      | nil => cases ho; exact .nil
      | cons a _ ih =>
        cases ho with
        | cons b bs => exact .cons ⟨_, b.1, _, b.2, _, a.1, _, a.2, rfl⟩ (ih _ bs)
    · have hl : full.length = chip.length := hf.length_eq.symm.trans ho.length_eq
      simp only [ChipInfo.mk.injEq, and_true]
      exact ⟨List.map_fst_zip hl.le, List.map_snd_zip hl.ge⟩

theorem readChip_error (c : Conv) (t : Xml) (e : PyErr) (h : readChip c t = .error e) : e = .valueError := by
  unfold readChip at h
  simp only [bind_error, pure_error, and_false, exists_false, or_false] at h
  rcases h with h | ⟨_, -, h | ⟨_, -, h⟩⟩
  · obtain ⟨g, -, h⟩ := mapM_error_of _ _ _ h
    simp only [bind_error, pure_error, and_false, exists_false, or_false] at h
    rcases h with h | ⟨_, -, h | ⟨_, -, h | ⟨_, -, h⟩⟩⟩ <;> exact fieldValue_error _ _ _ _ h
  · exact fieldValue_error _ _ _ _ h
  · exact fieldValue_error _ _ _ _ h

theorem chipInfo_ok (c : Conv) (tres : Xml) (info : Option ChipInfo) : chipInfo c tres = .ok info ↔ IsChip c tres info := by
  unfold chipInfo
  rcases hf : tres.find "tre" "ICHIPB" with _ | t
  · cases info with
    | none => simpa [IsChip] using (find_none ..).1 hf
    | some i =>
      simp only [IsChip, Except.ok.injEq, reduceCtorEq, false_iff]
      rintro ⟨t, ht, _⟩
      rw [← find_some, hf] at ht
      simp at ht
  · cases info with
    | none =>
      have h1 : ¬ Absent tres "tre" "ICHIPB" := by
        rw [← find_none, hf]; simp
      simp only [IsChip, h1, iff_false]
      rcases hr : readChip c t with e | i
      · cases e <;> simp
      · simp
    | some j =>
      simp only [IsChip, ← find_some, hf, Option.some.injEq, exists_eq_left', ← readChip_ok]
      rcases hr : readChip c t with e | i
      · cases e <;> simp
      · simp

variable {M : Type}

theorem wrap_ok (b : Builders M) (info : Option ChipInfo) (m m' : Option M) (h : Adapted b info m m') : wrap b info m = .ok m' := by
  cases m with
  | none => simp only [Adapted] at h; subst h; cases info <;> rfl
  | some m =>
    cases info with
    | none => simp only [Adapted] at h; subst h; rfl
    | some i =>
      obtain ⟨w, hw, rfl⟩ := h
      simp [wrap, hw, Functor.map, Except.map]

theorem decides_iff (md : Metadata) (xml : String) :
    Decides md xml ↔ contains xml "SIDD" = true ∨ (contains xml "SICD" && md.isSelected .sicd) = true := by
  simp only [Decides, contains, decide_eq_true_eq, Bool.and_eq_true, isSelected_iff]

theorem not_decides_empty (md : Metadata) : ¬ Decides md "" := by
  rintro (h | ⟨h, _⟩)
  · exact absurd h (by decide)
  · exact absurd h (by decide)

theorem segments_skip (b : Builders M) (k : Codec) (md : Metadata) (p : Option M) (pre rest : List Xml)
    (h : ∀ s ∈ pre, ∃ y, extractXml k s = .ok y ∧ ∀ x, y = some x → ¬ Decides md x) :
    fromSegments b k (md.isSelected .sicd) p (pre ++ rest) = fromSegments b k (md.isSelected .sicd) p rest := by
  induction pre with
  | nil => rfl
  | cons s pre ih =>
    obtain ⟨y, hy, hd⟩ := h s (by simp)
    have ih := ih (fun q hq => h q (by simp [hq]))
    rw [List.cons_append, fromSegments, hy]
    simp only [bind, Except.bind]
    cases y with
    | none => exact ih
    | some x =>
      simp only
      by_cases hx : x = ""
      · rw [if_pos hx]; exact ih
      · have hnd := hd x rfl
        rw [decides_iff] at hnd
        push Not at hnd
        rw [if_neg hx, if_neg hnd.1, if_neg hnd.2]
        exact ih

theorem fromSegments_ok (b : Builders M) (k : Codec) (md : Metadata) (p : Option M) (segs : List Xml) (r : Option (Option M))
    (h : FromDes b k md segs r) : fromSegments b k (md.isSelected .sicd) p segs = .ok (r.getD p) := by
  rcases h with ⟨pre, s, post, xml, rfl, hx, hd, hpre, h1, h2⟩ | ⟨hall, rfl⟩
  · rw [segments_skip b k md p pre (s :: post) hpre, fromSegments, hx]
    simp only [bind, Except.bind]
    have hne : xml ≠ "" := by rintro rfl; exact not_decides_empty md hd
    rw [if_neg hne]
    by_cases hs : "SIDD".toList <:+: xml.toList
    · rw [if_pos (by simpa [contains] using hs), h1 hs]; rfl
    · rw [decides_iff] at hd
      have hc : ¬ contains xml "SIDD" = true := by simpa [contains] using hs
      rw [if_neg hc, if_pos (hd.resolve_left hc), h2 hs]
      rfl
  · have := segments_skip b k md p segs [] hall
    rw [List.append_nil] at this
    rw [this]
    rfl

theorem approximate_ok (b : Builders M) (lib : Lib) (md : Metadata) (k : Candidates M) (h : IsCandidates b lib md k) :
    Verif.Factory.approximate b md = .ok (k.gcps.or k.affine) := by
  have ha : fromGeo b md = Except.ok k.affine := by
    unfold fromGeo
    by_cases hs : Selected md .affine
    · rw [(isSelected_iff ..).2 hs]
      cases hg : md.geo with
      | none => simp [h.noAffine (.inr hg), pure, Except.pure]
      | some g =>
        obtain ⟨m, hm, hk⟩ := h.affine g hs hg
        simp [hm, hk, Functor.map, Except.map]
    · rw [(isSelected_false ..).2 hs, h.noAffine (.inl hs)]
      rfl
  unfold Verif.Factory.approximate
  rw [ha]
  simp only [bind, Except.bind]
  by_cases hs : Selected md .projective
  · rw [(isSelected_iff ..).2 hs]
    cases hg : md.gcps with
    | none =>
      rw [h.noGcps (.inr (by simp [hg]))]
      rfl
    | some l =>
      by_cases hl : 4 ≤ l.length
      · obtain ⟨m, hm, hk⟩ := h.gcps l hs hg hl
        simp only
        rw [if_pos (by omega), hm, hk]
        rfl
      · rw [h.noGcps (.inr (by intro l' hl'; rw [hg] at hl'; simp only [Option.some.injEq] at hl'; subst hl'; omega))]
        simp only
        rw [if_neg (by omega)]
        rfl
  · rw [(isSelected_false ..).2 hs, h.noGcps (.inl hs)]
    rfl

theorem adapted_isSome (b : Builders M) (info : Option ChipInfo) (m : M) (m' : Option M) (h : Adapted b info (some m) m') :
    ∃ w, m' = some w := by
  cases info with
  | none => exact ⟨m, h⟩
  | some i => obtain ⟨w, _, hw⟩ := h; exact ⟨w, hw⟩

theorem fromTres_ok (b : Builders M) (lib : Lib) (md : Metadata) (k : Candidates M) (h : IsCandidates b lib md k) (t : Xml)
    (ht : md.tres = some t) (a : Option M) :
    fromTres b lib md a t = .ok (k.corners.or a, k.rsm.or k.rpc) := by
  obtain ⟨info, rsm, rpc, h1, h2, h3, h4, h5, h6, h7⟩ := h.tres t ht
  unfold fromTres
  rw [(chipInfo_ok ..).2 h1]
  simp only [bind, Except.bind]
  have hp : ∃ p, rsmOrRpc b md t = .ok p ∧ wrap b info p = .ok (k.rsm.or k.rpc) := by
    unfold rsmOrRpc
    have hr : (if md.isSelected .rsm then b.rsm t else pure none) = Except.ok rsm := by
      by_cases hs : Selected md .rsm
      · rw [if_pos ((isSelected_iff ..).2 hs), h2 hs]
      · rw [if_neg (by rw [isSelected_iff]; exact hs), h3 hs]; rfl
    rw [hr]
    simp only [bind, Except.bind]
    cases rsm with
    | some m =>
      obtain ⟨w, hw⟩ := adapted_isSome b info m _ h4
      refine ⟨some m, rfl, ?_⟩
      rw [wrap_ok b info _ _ h4, hw]
      rfl
    | none =>
      obtain ⟨g1, g2, g3⟩ := h5 rfl
      simp only [Adapted] at h4
      rw [h4]
      by_cases hs : Selected md .rpc
      · exact ⟨rpc, by rw [if_pos ((isSelected_iff ..).2 hs), g1 hs], wrap_ok b info _ _ g3⟩
      · exact ⟨rpc, by rw [if_neg (by rw [isSelected_iff]; exact hs), g2 hs]; rfl, wrap_ok b info _ _ g3⟩
  obtain ⟨p, hp1, hp2⟩ := hp
  rw [hp1]
  simp only
  rw [hp2]
  simp only
  by_cases hs : Selected md .projective ∧ ¬ Absent t "tre" "CSCRNA"
  · obtain ⟨m, hm1, hm2⟩ := h6 hs.1 hs.2
    have hfind : (t.find "tre" "CSCRNA").isSome = true := by
      rw [← find_none] at hs
      exact Option.isSome_iff_ne_none.2 hs.2
    rw [(isSelected_iff ..).2 hs.1, hfind]
    obtain ⟨w, hw⟩ := adapted_isSome b info m _ hm2
    simp only [Bool.and_self, if_true, hm1]
    rw [wrap_ok b info _ _ hm2, hw]
    rfl
  · have hneg : (md.isSelected .projective && (t.find "tre" "CSCRNA").isSome) ≠ true := by
      intro hb
      simp only [Bool.and_eq_true, isSelected_iff, Option.isSome_iff_ne_none, ne_eq, find_none] at hb
      exact hs hb
    rw [if_neg hneg, h7 (by tauto)]
    rfl

/-- **C35** (in part): when the builders that are used do not raise, `build` returns the
combination of the best approximate and the best precision model: corner coordinates before control
points before the geo transform; SIDD or SICD before RSM before RPC; models from TREs adapted to the
chip; types that are not asked for are left out.  Missing: a SIDD is used although the SICD type is not
asked for, see `sidd_ignores_selection`; builders that raise, see C36. -/
theorem factory_precedence_partial (b : Builders M) (lib : Lib) (md : Metadata) (k : Candidates M) (h : IsCandidates b lib md k) :
    build b lib md = .ok (combined b.composite k.approximate k.precision) := by
  unfold build
  rw [approximate_ok b lib md k h]
  simp only [bind, Except.bind]
  have htres : treModels b lib md (k.gcps.or k.affine) = Except.ok (k.approximate, k.rsm.or k.rpc) := by
    unfold treModels
    cases ht : md.tres with
    | none =>
      obtain ⟨h1, h2, h3⟩ := h.noTres ht
      simp only [Candidates.approximate, h1, h2, h3, pure, Except.pure]
      cases k.gcps <;> rfl
    | some t =>
      simp only
      rw [fromTres_ok b lib md k h t ht]
      simp only [Candidates.approximate]
      cases k.corners <;> cases k.gcps <;> rfl
  rw [htres]
  simp only
  have hdes : ∀ p : Option M, desModel b lib md p = Except.ok (k.des.getD p) := by
    intro p
    unfold desModel
    cases hd : md.dess with
    | none => simp [h.noDes (by rw [hd]; trivial), pure, Except.pure]
    | some l =>
      cases l with
      | nil => simp [h.noDes (by rw [hd]; rfl), pure, Except.pure]
      | cons x xs =>
        obtain ⟨lists, h1, h2⟩ := h.des _ hd (by simp)
        simp only [bind, Except.bind]
        rw [h1]
        simp only
        rw [Verif.Props.Des.segments_in_order]
        exact fromSegments_ok b lib.codec md p _ _ h2
  rw [hdes]
  simp only
  have hp : k.des.getD (k.rsm.or k.rpc) = k.precision := by
    unfold Candidates.precision
    cases k.des <;> cases k.rsm <;> rfl
  rw [hp]
  cases k.approximate <;> cases k.precision <;> rfl

/-! ### Examples -/

/-- Builders that name what they build. -/
def demoBuilders (rsm : Except PyErr (Option String)) (sidd : Option String) : Builders String where
  affine := fun _ => .ok "affine"
  gcps := fun _ => .ok "gcps"
  rsm := fun _ => rsm
  rpc := fun _ => .ok (some "rpc")
  corners := fun _ _ _ => .ok (some "corners")
  chip := fun _ _ m => .ok ("chip of " ++ m)
  sidd := fun _ => sidd
  sicd := fun _ => some "sicd"
  composite := fun a p => a ++ " and " ++ p

def demoSegment (text : String) : Xml :=
  .node "des_list" [] [.node "des" [("name", "XML_DATA_CONTENT")] [.node "field" [("name", "DESDATA"), ("value", text)] []]]

/-- Every DES parses to a segment with the given text. -/
noncomputable def demoLib (text : String) : Lib := ⟨demoReal, fun _ => .ok (demoSegment text), ⟨fun v => .ok v, fun _ => ""⟩⟩

def demoChip : Xml := tre "ICHIPB"
  (["OP_COL_11", "OP_ROW_11", "FI_COL_11", "FI_ROW_11", "OP_COL_12", "OP_ROW_12", "FI_COL_12", "FI_ROW_12",
    "OP_COL_21", "OP_ROW_21", "FI_COL_21", "FI_ROW_21", "OP_COL_22", "OP_ROW_22", "FI_COL_22", "FI_ROW_22", "FI_COL", "FI_ROW"].map (field · "1"))

/-- The chip of the examples, from the TRE. -/
theorem demoChip_isChip (rest : List Xml) : ∃ i, IsChip demoReal (.node "tres" [] (demoChip :: rest)) (some i) ∧ i.width = 1 := by
  refine ⟨_, (chipInfo_ok ..).1 rfl, rfl⟩

/-- The premises of `factory_precedence_partial` can be met with every kind of metadata present. -/
example : ∃ k, IsCandidates (demoBuilders (.ok none) none) (demoLib "") ⟨5, 5, some (.node "tres" [] [demoChip, tre "CSCRNA" []]), some ["d"],
      some [], some [], none⟩ k ∧ k.affine = some "affine" ∧ k.gcps = none ∧ k.corners = some "chip of corners" ∧
      k.rsm = none ∧ k.rpc = some "chip of rpc" ∧ k.des = none := by
  refine ⟨⟨some "affine", none, some "chip of corners", none, some "chip of rpc", none⟩, ?_, rfl, rfl, rfl, rfl, rfl, rfl⟩
  have hsel : ∀ t d g l k, Selected ⟨5, 5, t, d, g, l, none⟩ k := fun _ _ _ _ _ => .inl rfl
  refine ⟨?_, ?_, ?_, ?_, ?_, ?_, ?_, ?_⟩
  · intro g _ _; exact ⟨_, rfl, rfl⟩
  · rintro (h | h)
    · exact absurd (hsel ..) h
    · simp at h
  · intro l _ hl h4
    simp only [Option.some.injEq] at hl
    subst hl
    simp at h4
  · intro _; rfl
  · intro h; simp at h
  · intro t ht
    simp only [Option.some.injEq] at ht
    subst ht
    obtain ⟨i, hi, -⟩ := demoChip_isChip [tre "CSCRNA" []]
    refine ⟨some i, none, some "rpc", hi, fun _ => rfl, fun _ => rfl, rfl, fun _ => ⟨fun _ => rfl, fun h => absurd (hsel ..) h, _, rfl, rfl⟩,
      fun _ _ => ⟨_, rfl, _, rfl, rfl⟩, ?_⟩
    rintro (h | h)
    · exact absurd (hsel ..) h
    · rw [← find_none] at h
      exact absurd h (by decide +kernel)
  · intro h; simp at h
  · intro l hl _
    simp only [Option.some.injEq] at hl
    subst hl
    refine ⟨_, rfl, .inr ⟨?_, rfl⟩⟩
    intro p hp
    have : p = .node "des" [("name", "XML_DATA_CONTENT")] [.node "field" [("name", "DESDATA"), ("value", "")] []] := by
      rw [← Verif.Props.Des.segments_in_order] at hp
      exact List.mem_singleton.1 hp
    subst this
    exact ⟨none, rfl, fun x hx => by simp at hx⟩

/-- With these the model is a composite. -/
example : build (demoBuilders (.ok none) none) (demoLib "") ⟨5, 5, some (.node "tres" [] [demoChip, tre "CSCRNA" []]), some ["d"],
    some [], some [], none⟩ = .ok (some "chip of corners and chip of rpc") := by rfl

/-! ## The selection (C35) -/

/-- Two sets of builders that agree on the types asked for. -/
structure AgreeOn (md : Metadata) (b b' : Builders M) : Prop where
  affine : Selected md .affine → b.affine = b'.affine
  gcps : Selected md .projective → b.gcps = b'.gcps
  corners : Selected md .projective → b.corners = b'.corners
  rsm : Selected md .rsm → b.rsm = b'.rsm
  rpc : Selected md .rpc → b.rpc = b'.rpc
  sicd : Selected md .sicd → b.sicd = b'.sicd
  sidd : b.sidd = b'.sidd
  chip : b.chip = b'.chip
  composite : b.composite = b'.composite

theorem wrap_congr (b b' : Builders M) (h : b.chip = b'.chip) (info : Option ChipInfo) (m : Option M) : wrap b info m = wrap b' info m := by
  unfold wrap; rw [h]

theorem fromSegments_congr (b b' : Builders M) (k : Codec) (md : Metadata) (h : AgreeOn md b b') (p : Option M) (segs : List Xml) :
    fromSegments b k (md.isSelected .sicd) p segs = fromSegments b' k (md.isSelected .sicd) p segs := by
  induction segs with
  | nil => rfl
  | cons s rest ih =>
    simp only [fromSegments, ih, h.sidd]
    by_cases hs : Selected md .sicd
    · rw [h.sicd hs]
    · rw [(isSelected_false ..).2 hs]; simp

/-- **C35** (in part): the builders of types that are not asked for have no influence.  Missing: the SIDD
builder, which is used whatever is asked for, see `sidd_ignores_selection`. -/
theorem unselected_unused_partial (b b' : Builders M) (lib : Lib) (md : Metadata) (h : AgreeOn md b b') : build b lib md = build b' lib md := by
  have h1 : fromGeo b md = fromGeo b' md := by
    unfold fromGeo
    by_cases hs : Selected md .affine
    · rw [h.affine hs]
    · rw [(isSelected_false ..).2 hs]
  have h2 : Verif.Factory.approximate b md = Verif.Factory.approximate b' md := by
    unfold Verif.Factory.approximate
    rw [h1]
    by_cases hs : Selected md .projective
    · rw [h.gcps hs]
    · rw [(isSelected_false ..).2 hs]
  have h3 : ∀ t, rsmOrRpc b md t = rsmOrRpc b' md t := by
    intro t
    unfold rsmOrRpc
    have e1 : (if md.isSelected .rsm then b.rsm t else pure none) = (if md.isSelected .rsm then b'.rsm t else pure none) := by
      by_cases hs : Selected md .rsm
      · rw [h.rsm hs]
      · rw [(isSelected_false ..).2 hs]; simp
    have e2 : (if md.isSelected .rpc then b.rpc t else pure none) = (if md.isSelected .rpc then b'.rpc t else pure none) := by
      by_cases hs : Selected md .rpc
      · rw [h.rpc hs]
      · rw [(isSelected_false ..).2 hs]; simp
    rw [e1, e2]
  have h4 : ∀ a t, fromTres b lib md a t = fromTres b' lib md a t := by
    intro a t
    unfold fromTres
    have hw : ∀ info m, wrap b info m = wrap b' info m := wrap_congr b b' h.chip
    simp only [h3, hw]
    by_cases hs : Selected md .projective
    · rw [h.corners hs]
    · rw [(isSelected_false ..).2 hs]; simp
  have h5 : ∀ a, treModels b lib md a = treModels b' lib md a := by
    intro a
    unfold treModels
    simp only [h4]
  have h6 : ∀ p, desModel b lib md p = desModel b' lib md p := by
    intro p
    unfold desModel
    simp only [fromSegments_congr b b' lib.codec md h]
  have h7 : ∀ a p, combine b a p = combine b' a p := by
    intro a p
    cases a <;> cases p <;> simp [combine, h.composite]
  unfold build
  simp only [h2, h5, h6, h7]

/-- The premises can be met by builders that differ: RSM is not asked for. -/
example : AgreeOn ⟨5, 5, none, none, none, none, some [.rpc]⟩ (demoBuilders (.ok none) none) (demoBuilders (.error .keyError) none) := by
  refine ⟨fun _ => rfl, fun _ => rfl, fun _ => rfl, ?_, fun _ => rfl, fun _ => rfl, rfl, rfl, rfl⟩
  rintro (h | ⟨l, hl, hm⟩)
  · simp at h
  · simp only [Option.some.injEq] at hl
    subst hl
    simp at hm

/-- **C35** is false as stated: asking for no type at all still gives the SIDD model. -/
theorem sidd_ignores_selection (b : Builders M) (lib : Lib) (md : Metadata) (l : List String) (lists pre post : List Xml) (s : Xml) (xml : String)
    (hsel : md.selected = some []) (htres : md.tres = none) (hd : md.dess = some l) (hl : l ≠ [])
    (hp : parsedLists lib.parse (l.map String.toList) = .ok lists)
    (hs : lists.flatMap (fun x => allNamed x "des" "XML_DATA_CONTENT") = pre ++ s :: post)
    (hpre : ∀ p ∈ pre, ∃ y, extractXml lib.codec p = .ok y ∧ ∀ x, y = some x → ¬ Decides md x)
    (hx : extractXml lib.codec s = .ok (some xml)) (hsidd : "SIDD".toList <:+: xml.toList) :
    build b lib md = .ok (b.sidd xml) := by
  have hn : ∀ k, ¬ Selected md k := by
    rintro k (h | ⟨l, h, hk⟩)
    · rw [hsel] at h; simp at h
    · rw [hsel] at h; simp only [Option.some.injEq] at h; subst h; simp at hk
  have hc : IsCandidates b lib md ⟨none, none, none, none, none, some (b.sidd xml)⟩ := by
    refine ⟨fun g h => absurd h (hn _), fun _ => rfl, fun g h => absurd h (hn _), fun _ => rfl, fun _ => ⟨rfl, rfl, rfl⟩, ?_, ?_, ?_⟩
    · intro t ht; rw [htres] at ht; simp at ht
    · intro h
      rw [hd] at h
      exact absurd h hl
    · intro l' hl' _
      rw [hd] at hl'
      simp only [Option.some.injEq] at hl'
      subst hl'
      exact ⟨lists, hp, .inl ⟨pre, s, post, xml, hs, hx, .inl hsidd, hpre, fun _ => rfl, fun h => absurd hsidd h⟩⟩
  rw [factory_precedence_partial b lib md _ hc]
  simp only [Candidates.approximate, Candidates.precision]
  cases b.sidd xml <;> rfl

example : build (demoBuilders (.ok none) (some "sidd")) (demoLib "<SIDD/>") ⟨5, 5, none, some ["d"], none, none, some []⟩ = .ok (some "sidd") := by
  rfl

/-! ## Unusable metadata (C36) -/

/-- **C36** (in part): as long as the builders report failure by returning no model, any usable source gives a model,
unless a SIDD or SICD segment that cannot be converted is there.  Missing: the failures below. -/
theorem usable_source_kept_partial (b : Builders M) (lib : Lib) (md : Metadata) (k : Candidates M) (h : IsCandidates b lib md k)
    (hdes : k.des ≠ some none) (hany : (∃ m, some m ∈ [k.affine, k.gcps, k.corners, k.rsm, k.rpc]) ∨ k.des ≠ none) :
    ∃ m, build b lib md = .ok (some m) := by
  rw [factory_precedence_partial b lib md k h]
  obtain ⟨a, g, c, r, p, d⟩ := k
  rcases d with _ | _ | d
  · rcases a with _ | a <;> rcases g with _ | g <;> rcases c with _ | c <;> rcases r with _ | r <;> rcases p with _ | p <;>
      simp [Candidates.approximate, Candidates.precision, combined] at hany ⊢
  · exact absurd rfl hdes
  · rcases a with _ | a <;> rcases g with _ | g <;> rcases c with _ | c <;>
      simp [Candidates.approximate, Candidates.precision, combined]

/-- Only a geo transform. -/
example : ∃ m, build (demoBuilders (.ok none) none) (demoLib "") ⟨5, 5, none, none, some [], none, none⟩ = .ok (some m) := ⟨_, rfl⟩

/-- **C36** fails: a SIDD or SICD that cannot be converted discards a usable RSM or RPC model. -/
theorem failed_des_discards_tre_model (b : Builders M) (lib : Lib) (md : Metadata) (k : Candidates M) (h : IsCandidates b lib md k)
    (hdes : k.des = some none) : build b lib md = .ok k.approximate := by
  rw [factory_precedence_partial b lib md k h]
  unfold Candidates.precision
  rw [hdes]
  cases k.approximate <;> rfl

/-- An image with a usable RPC and a bad SIDD gets no model; without the SIDD it gets one. -/
example : build (demoBuilders (.ok none) none) (demoLib "<SIDD/>") ⟨5, 5, some (.node "tres" [] []), some ["d"], none, none, none⟩ = .ok none ∧
    build (demoBuilders (.ok none) none) (demoLib "<SIDD/>") ⟨5, 5, some (.node "tres" [] []), none, none, none, none⟩ = .ok (some "rpc") :=
  ⟨rfl, rfl⟩

/-- **C36** fails: with a malformed ICHIPB TRE `build` raises `AttributeError`, whatever else there is. -/
theorem malformed_ichipb_raises (b : Builders M) (lib : Lib) (md : Metadata) (tres t : Xml) (a : Option M)
    (ha : Verif.Factory.approximate b md = .ok a) (ht : md.tres = some tres) (hi : IsFirst tres "tre" "ICHIPB" t)
    (hbad : ∀ i, ¬ DescribesChip lib.conv t i) : build b lib md = .error .attributeError := by
  unfold build
  rw [ha]
  simp only [bind, Except.bind]
  have hc : chipInfo lib.conv tres = .error .attributeError := by
    unfold chipInfo
    rw [(find_some ..).2 hi]
    simp only
    rcases hr : readChip lib.conv t with e | i
    · rw [readChip_error _ _ _ hr]
    · exact absurd ((readChip_ok ..).1 hr) (hbad i)
  unfold treModels
  rw [ht]
  simp only [fromTres, hc, bind, Except.bind]

/-- A usable RPC model and a chip TRE without fields. -/
example : build (demoBuilders (.ok none) none) (demoLib "") ⟨5, 5, some (.node "tres" [] [tre "ICHIPB" []]), none, some [], none, none⟩ =
    .error .attributeError := by rfl

/-- **C36** fails: an exception of the geo transform builder (a singular transform raises `ValueError`) escapes. -/
theorem bad_geo_transform_raises (b : Builders M) (lib : Lib) (md : Metadata) (g : List ℝ) (e : PyErr)
    (hs : Selected md .affine) (hg : md.geo = some g) (he : b.affine g = .error e) : build b lib md = .error e := by
  have h1 : fromGeo b md = .error e := by
    unfold fromGeo
    rw [(isSelected_iff ..).2 hs, hg]
    simp [he, Functor.map, Except.map]
  unfold build Verif.Factory.approximate
  rw [h1]
  rfl

example : build { demoBuilders (.ok none) none with affine := fun _ => .error .valueError } (demoLib "") ⟨5, 5, none, none, some [], none, none⟩ =
    .error .valueError := bad_geo_transform_raises _ _ _ [] _ (.inl rfl) rfl rfl

/-- **C36** fails: an exception of the RSM builder (a missing section raises `KeyError`) escapes, although an RPC may be there. -/
theorem bad_rsm_raises (b : Builders M) (lib : Lib) (md : Metadata) (tres : Xml) (info : Option ChipInfo) (a : Option M) (e : PyErr)
    (ha : Verif.Factory.approximate b md = .ok a) (ht : md.tres = some tres) (hi : IsChip lib.conv tres info)
    (hs : Selected md .rsm) (he : b.rsm tres = .error e) : build b lib md = .error e := by
  unfold build
  rw [ha]
  simp only [bind, Except.bind]
  unfold treModels
  rw [ht]
  simp only [fromTres, (chipInfo_ok ..).2 hi, bind, Except.bind, rsmOrRpc, (isSelected_iff ..).2 hs, if_true, he]

example : build (demoBuilders (.error .keyError) none) (demoLib "") ⟨5, 5, some (.node "tres" [] []), none, some [], none, none⟩ =
    .error .keyError := by rfl

/-- **C36** fails: an exception of the CSCRNA builder (a missing or malformed field raises `ValueError`) escapes. -/
theorem bad_corners_raises (b : Builders M) (lib : Lib) (md : Metadata) (tres : Xml) (info : Option ChipInfo) (a p p' : Option M) (e : PyErr)
    (ha : Verif.Factory.approximate b md = .ok a) (ht : md.tres = some tres) (hi : IsChip lib.conv tres info)
    (hp : rsmOrRpc b md tres = .ok p) (hw : Adapted b info p p') (hs : Selected md .projective) (hc : ¬ Absent tres "tre" "CSCRNA")
    (he : ∀ w h, b.corners tres w h = .error e) : build b lib md = .error e := by
  unfold build
  rw [ha]
  simp only [bind, Except.bind]
  unfold treModels
  rw [ht]
  have hfind : (tres.find "tre" "CSCRNA").isSome = true := by
    rw [← find_none] at hc
    exact Option.isSome_iff_ne_none.2 hc
  simp only [fromTres, (chipInfo_ok ..).2 hi, bind, Except.bind, hp, wrap_ok b info p p' hw, (isSelected_iff ..).2 hs, hfind,
    Bool.and_self, if_true, he]

/-- An image with a usable RPC and a CSCRNA the builder rejects. -/
example : build { demoBuilders (.ok none) none with corners := fun _ _ _ => .error .valueError } (demoLib "")
    ⟨5, 5, some (.node "tres" [] [tre "CSCRNA" []]), none, some [], none, none⟩ = .error .valueError := by rfl

/-! ## ICHIPB (C78) -/

/-- **C78** (ICHIPB part): reading the TRE gives exactly the four point pairs and the full image size it states, and otherwise
raises `AttributeError`. -/
theorem ichipb_reader (c : Conv) (tres : Xml) :
    (∀ info, chipInfo c tres = .ok info ↔ IsChip c tres info) ∧ ∀ e, chipInfo c tres = .error e → e = .attributeError := by
  refine ⟨chipInfo_ok c tres, fun e he => ?_⟩
  unfold chipInfo at he
  rcases hf : tres.find "tre" "ICHIPB" with _ | t
  · rw [hf] at he; simp at he
  · rw [hf] at he
    simp only at he
    rcases hr : readChip c t with e' | i
    · rw [hr, readChip_error _ _ _ hr] at he
      simpa using he.symm
    · rw [hr] at he; simp at he

example : ∃ i, chipInfo demoReal (.node "tres" [] [demoChip]) = .ok (some i) ∧ i.full = [(1, 1), (1, 1), (1, 1), (1, 1)] := ⟨_, rfl, rfl⟩

end Verif.Props.Factory
