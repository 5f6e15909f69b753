import Verif.Model.Xsdata
import Mathlib.Data.List.Basic
import Mathlib.Data.List.Forall2

/-!
# What is written is read back
-/

namespace Verif.Props.Xsdata

open Verif Verif.Xsdata

variable {P : Type} [DecidableEq P]

set_option linter.unusedSectionVars false

/-! ## Schemas -/

/-- No name occurs twice. -/
def distinct : List Name → Bool
  | [] => true
  | a :: l => l.all (fun b => !Nat.beq a b) && distinct l

theorem distinct_nodup : ∀ l : List Name, distinct l = true → l.Nodup
  | [], _ => List.nodup_nil
  | a :: l, h => by
    rw [distinct, Bool.and_eq_true, List.all_eq_true] at h
    refine List.nodup_cons.2 ⟨fun ha => ?_, distinct_nodup l h.2⟩
    have := h.1 a ha
    simp at this

/-- No two different fields of a class can be confused, elements have no defaults, and attributes and texts are plain. -/
def SoundClass (c : Class) : Bool :=
  decide (((c.fields.filter (fun f => f.kind = .attribute)).map Field.tag).Nodup) && decide (((c.fields.filter (fun f => f.kind = .element)).map Field.tag).Nodup) &&
  decide ((c.fields.filter (fun f => f.kind = .text)).length ≤ 1) && decide ((c.fields.map Field.py).Nodup) &&
  c.fields.all (fun f => if f.kind = .element then f.default = none && f.init else (match f.ty with | .plain _ => true | .cls _ => false) &&
    (f.init || (f.kind = .attribute && f.default.isSome && !f.many)))

/-- Class names are different, classes are sound, and the classes of elements are there. -/
def Sound (S : Schema) : Bool :=
  distinct (List.map Class.name S) && List.all S SoundClass &&
  List.all S (fun c => c.fields.all (fun f => match f.ty with | .plain _ => true | .cls d => List.any S (fun c => Nat.beq c.name d)))

/-! ## Objects that fit -/

/-- A value that fits an attribute or a text.  A fixed attribute has its value. -/
def Simple (K : Codec P) (f : Field) (v : Val P) : Prop :=
  if f.init then
    match v with
    | .null => f.many = false ∧ f.default = none
    | .plain _ => f.many = false
    | .words _ => f.many = true
    | _ => False
  else v = f.initial K ∧ ∀ s, f.default = some s → K.read f.types (K.encode (K.read f.types s)) = K.read f.types s

mutual

/-- A value that fits an element field; `inside` says that it is an entry of its list. -/
def Fits (S : Schema) (K : Codec P) (f : Field) (inside : Bool) : Val P → Prop
  | .null => inside = false ∧ f.many = false
  | .plain _ => inside = f.many ∧ ∃ ts, f.ty = .plain ts
  | .words _ => False
  | .obj cls vs => inside = f.many ∧ ∃ d k, f.ty = .cls d ∧ S.find cls = some k ∧ S.target d (S.xsi f cls) = some k ∧ FitsAll S K k.fields vs
  | .many l => inside = false ∧ f.many = true ∧ FitsMany S K f l

/-- Entries that fit. -/
def FitsMany (S : Schema) (K : Codec P) (f : Field) : List (Val P) → Prop
  | [] => True
  | v :: vs => Fits S K f true v ∧ FitsMany S K f vs

/-- Values that fit fields. -/
def FitsAll (S : Schema) (K : Codec P) : List Field → List (Val P) → Prop
  | f :: fs, v :: vs => (if f.kind = .element then Fits S K f false v else Simple K f v) ∧ FitsAll S K fs vs
  | [], [] => True
  | [], _ :: _ => False
  | _ :: _, [] => False

end

/-- What an attribute or a text is after it was written and read. -/
def rereadSimple (K : Codec P) (f : Field) (v : Val P) : Val P :=
  match f.init, v with
  | true, .plain p => if f.kind = .text ∧ K.encode p = "" then f.initial K else .plain (K.read f.types (K.encode p))
  | true, .words l => if l = [] ∨ K.join l = "" ∧ f.kind = .text then .words [] else .words ((words (K.join l)).map (K.read f.types))
  | _, v => v

mutual

/-- What an element is after it was written and read: every text in it is read anew. -/
def reread (S : Schema) (K : Codec P) (f : Field) : Val P → Val P
  | .null => .null
  | .plain p => .plain (K.read f.types (K.encode p))
  | .words l => .words l
  | .obj cls vs => .obj cls (rereadAll S K (S.fields cls) vs)
  | .many l => .many (rereadMany S K f l)

/-- Entries of a list, written and read. -/
def rereadMany (S : Schema) (K : Codec P) (f : Field) : List (Val P) → List (Val P)
  | [] => []
  | v :: vs => reread S K f v :: rereadMany S K f vs

/-- The fields of an object, written and read. -/
def rereadAll (S : Schema) (K : Codec P) : List Field → List (Val P) → List (Val P)
  | f :: fs, v :: vs => (if f.kind = .element then reread S K f v else rereadSimple K f v) :: rereadAll S K fs vs
  | _, [] => []
  | [], _ :: _ => []

end

/-! ## Lists -/

theorem mapM_of_forall₂ {α β : Type} (g : α → Except PyErr β) : ∀ (l : List α) (m : List β), List.Forall₂ (fun a b => g a = .ok b) l m → l.mapM g = .ok m
  | [], [], _ => rfl
  | a :: l, b :: m, .cons h t => by
    rw [List.mapM_cons, h, mapM_of_forall₂ g l m t]
    rfl

/-- With different tags, what a field gives is found by its tag. -/
theorem pick {A V : Type} (k : Kind) (g : Field × V → List (QName × A)) (hg : ∀ p, ∀ e ∈ g p, e.1 = p.1.tag ∧ p.1.kind = k) :
    ∀ (l : List (Field × V)), (((l.map Prod.fst).filter (fun f => f.kind = k)).map Field.tag).Nodup → ∀ p ∈ l, p.1.kind = k →
      (l.flatMap g).filter (fun e => e.1 = p.1.tag) = g p
  | [], _, p, hp, _ => by simp at hp
  | q :: l, nd, p, hp, hk => by
    have hown : ∀ r : Field × V, r.1.kind = k → r.1.tag = p.1.tag → (g r).filter (fun e => e.1 = p.1.tag) = g r := by
      intro r _ ht
      rw [List.filter_eq_self]
      intro e he
      simp [(hg r e he).1, ht]
    have hother : ∀ r : Field × V, (r.1.kind = k → r.1.tag ≠ p.1.tag) → (g r).filter (fun e => e.1 = p.1.tag) = [] := by
      intro r hr
      rw [List.filter_eq_nil_iff]
      intro e he
      have := hg r e he
      simp only [decide_eq_true_eq, this.1]
      exact hr this.2
    rw [List.flatMap_cons, List.filter_append]
    rcases List.mem_cons.1 hp with rfl | hp'
    · rw [hown p hk rfl]
      have : (l.flatMap g).filter (fun e => e.1 = p.1.tag) = [] := by
        rw [List.filter_eq_nil_iff]
        intro e he
        obtain ⟨r, hr, her⟩ := List.mem_flatMap.1 he
        have h1 := hg r e her
        simp only [decide_eq_true_eq, h1.1]
        intro h2
        rw [List.map_cons, List.filter_cons_of_pos (by simpa using hk), List.map_cons, List.nodup_cons] at nd
        refine nd.1 (List.mem_map.2 ⟨r.1, ?_, h2⟩)
        rw [List.mem_filter]
        exact ⟨List.mem_map_of_mem hr, by simpa using h1.2⟩
      rw [this, List.append_nil]
    · have nd' : (((l.map Prod.fst).filter (fun f => f.kind = k)).map Field.tag).Nodup := by
        refine List.Sublist.nodup ?_ nd
        exact (List.Sublist.filter _ (List.sublist_cons_self _ _)).map _
      rw [pick k g hg l nd' p hp' hk, hother q, List.nil_append]
      intro hq ht
      rw [List.map_cons, List.filter_cons_of_pos (by simpa using hq), List.map_cons, List.nodup_cons] at nd
      refine nd.1 ?_
      rw [ht]
      refine List.mem_map.2 ⟨p.1, ?_, rfl⟩
      rw [List.mem_filter]
      exact ⟨List.mem_map_of_mem hp', by simpa using hk⟩

theorem find_text {V : Type} : ∀ (l : List (Field × V)), ((l.map Prod.fst).filter (fun f => f.kind = .text)).length ≤ 1 → ∀ p ∈ l, p.1.kind = .text →
    l.find? (fun q => q.1.kind = .text) = some p
  | [], _, p, hp, _ => by simp at hp
  | q :: l, h, p, hp, hk => by
    by_cases hq : q.1.kind = .text
    · rw [List.find?_cons_of_pos (by simpa using hq)]
      rcases List.mem_cons.1 hp with rfl | hp'
      · rfl
      · exfalso
        rw [List.map_cons, List.filter_cons_of_pos (by simpa using hq), List.length_cons] at h
        have : p.1 ∈ (l.map Prod.fst).filter (fun f => f.kind = .text) := by
          rw [List.mem_filter]
          exact ⟨List.mem_map_of_mem hp', by simpa using hk⟩
        have := List.length_pos_of_mem this
        omega
    · rw [List.find?_cons_of_neg (by simpa using hq)]
      rcases List.mem_cons.1 hp with rfl | hp'
      · exact absurd hk hq
      · refine find_text l ?_ p hp' hk
        rw [List.map_cons, List.filter_cons_of_neg (by simpa using hq)] at h
        exact h

/-! ## One object -/

/-- The values of the elements of a field. -/
def items : Val P → List (Val P)
  | .null => []
  | .many l => l
  | v => [v]

/-- What reading the elements of a field gives. -/
def own (p : Field × Val P) : List (QName × Val P) := if p.1.kind = .element then (items p.2).map (Prod.mk p.1.tag) else []

theorem sound_class (c : Class) (h : SoundClass c = true) :
    ((c.fields.filter (fun f => f.kind = .attribute)).map Field.tag).Nodup ∧ ((c.fields.filter (fun f => f.kind = .element)).map Field.tag).Nodup ∧
    (c.fields.filter (fun f => f.kind = .text)).length ≤ 1 ∧ (c.fields.map Field.py).Nodup ∧
    ∀ f ∈ c.fields, (f.kind = .element → f.default = none) ∧ (f.kind ≠ .element → (∃ ts, f.ty = .plain ts) ∧
      (f.init = false → f.kind = .attribute ∧ f.many = false ∧ ∃ s, f.default = some s)) := by
  unfold SoundClass at h
  simp only [Bool.and_eq_true, decide_eq_true_eq, List.all_eq_true] at h
  obtain ⟨⟨⟨⟨h1, h2⟩, h3⟩, h4⟩, h5⟩ := h
  refine ⟨h1, h2, h3, h4, fun f hf => ⟨fun hk => ?_, fun hk => ?_⟩⟩
  · have := h5 f hf
    rw [if_pos hk] at this
    simp only [Bool.and_eq_true, decide_eq_true_eq] at this
    exact this.1
  · have := h5 f hf
    rw [if_neg hk] at this
    simp only [Bool.and_eq_true, Bool.or_eq_true, decide_eq_true_eq] at this
    refine ⟨?_, fun hi => ?_⟩
    · cases ht : f.ty with
      | plain ts => exact ⟨ts, rfl⟩
      | cls d => rw [ht] at this; simp at this
    · rcases this.2 with h | ⟨⟨ha, hd⟩, hm⟩
      · rw [hi] at h; cases h
      · exact ⟨ha, by simpa using hm, Option.isSome_iff_exists.1 hd⟩

theorem element_self (c : Class) (h : SoundClass c = true) (f : Field) (hf : f ∈ c.fields) (hk : f.kind = .element) : c.element f.tag = some f := by
  obtain ⟨-, nd, -⟩ := sound_class c h
  unfold Class.element
  have : ∀ l : List Field, ((l.filter (fun f => f.kind = .element)).map Field.tag).Nodup → f ∈ l → l.find? (fun g => decide (g.kind = .element ∧ g.tag = f.tag)) = some f := by
    intro l
    induction l with
    | nil => intro _ h; simp at h
    | cons g l ih =>
      intro nd hf
      by_cases hg : g.kind = .element
      · rw [List.filter_cons_of_pos (by simpa using hg), List.map_cons, List.nodup_cons] at nd
        rcases List.mem_cons.1 hf with rfl | hf'
        · rw [List.find?_cons_of_pos (by simp [hk])]
        · have : g.tag ≠ f.tag := by
            intro he
            refine nd.1 (he ▸ List.mem_map_of_mem ?_)
            rw [List.mem_filter]
            exact ⟨hf', by simpa using hk⟩
          rw [List.find?_cons_of_neg (by simp [this])]
          exact ih nd.2 hf'
      · rw [List.filter_cons_of_neg (by simpa using hg)] at nd
        rw [List.find?_cons_of_neg (by simp [hg])]
        rcases List.mem_cons.1 hf with rfl | hf'
        · exact absurd hk hg
        · exact ih nd hf'
  exact this c.fields nd hf

/-- What a field of an object is after writing and reading. -/
def rereadOne (S : Schema) (K : Codec P) (f : Field) (v : Val P) : Val P := if f.kind = .element then reread S K f v else rereadSimple K f v

/-- A value that fits a field. -/
def FitsOne (S : Schema) (K : Codec P) (f : Field) (v : Val P) : Prop := if f.kind = .element then Fits S K f false v else Simple K f v

theorem fitsAll_iff (S : Schema) (K : Codec P) : ∀ (fs : List Field) (vs : List (Val P)), FitsAll S K fs vs ↔ List.Forall₂ (FitsOne S K) fs vs
  | [], [] => by simp [FitsAll]
  | [], _ :: _ => by simp [FitsAll]
  | _ :: _, [] => by simp [FitsAll]
  | f :: fs, v :: vs => by
    rw [FitsAll, fitsAll_iff S K fs vs, List.forall₂_cons]
    rfl

theorem rereadAll_eq (S : Schema) (K : Codec P) : ∀ (fs : List Field) (vs : List (Val P)), rereadAll S K fs vs = List.zipWith (rereadOne S K) fs vs
  | [], [] => by simp [rereadAll]
  | [], _ :: _ => by simp [rereadAll]
  | _ :: _, [] => by simp [rereadAll]
  | f :: fs, v :: vs => by
    rw [rereadAll, rereadAll_eq S K fs vs, List.zipWith_cons_cons]
    rfl

theorem zip_zipWith {α β γ : Type} (g : α → β → γ) : ∀ (l : List α) (m : List β), l.zip (List.zipWith g l m) = (l.zip m).map (fun p => (p.1, g p.1 p.2))
  | [], _ => by simp
  | _ :: _, [] => by simp
  | a :: l, b :: m => by simp [zip_zipWith g l m]

theorem forall₂_zipWith {α β γ : Type} (g : α → β → γ) (R : α → γ → Prop) : ∀ (l : List α) (m : List β), l.length = m.length → (∀ p ∈ l.zip m, R p.1 (g p.1 p.2)) →
    List.Forall₂ R l (List.zipWith g l m)
  | [], [], _, _ => by simp
  | [], _ :: _, h, _ => by simp at h
  | _ :: _, [], h, _ => by simp at h
  | a :: l, b :: m, h, hp => by
    rw [List.zipWith_cons_cons, List.forall₂_cons]
    refine ⟨hp (a, b) (by simp), forall₂_zipWith g R l m (by simpa using h) fun p hp' => hp p (by simp [hp'])⟩

theorem zip_fst {α β : Type} : ∀ (l : List α) (m : List β), l.length = m.length → (l.zip m).map Prod.fst = l
  | [], [], _ => rfl
  | [], _ :: _, h => by simp at h
  | _ :: _, [], h => by simp at h
  | a :: l, b :: m, h => by simp [zip_fst l m (by simpa using h)]

theorem find_head {A : Type} (l : List (QName × A)) (t : QName) : l.find? (fun a => decide (a.1 = t)) = (l.filter (fun a => decide (a.1 = t))).head? := by
  induction l with
  | nil => rfl
  | cons a l ih =>
    by_cases h : a.1 = t
    · rw [List.find?_cons_of_pos (by simpa using h), List.filter_cons_of_pos (by simpa using h), List.head?_cons]
    · rw [List.find?_cons_of_neg (by simpa using h), List.filter_cons_of_neg (by simpa using h), ih]

/-- An object is put together as it was taken apart. -/
theorem assemble_ok (S : Schema) (K : Codec P) (c : Class) (hc : SoundClass c = true) (vs : List (Val P)) (hv : FitsAll S K c.fields vs) :
    assemble K c (attrs K (c.fields.zip vs)) (textOf K (c.fields.zip vs)) ((c.fields.zip (rereadAll S K c.fields vs)).flatMap own)
      = .ok (.obj c.name (rereadAll S K c.fields vs)) := by
  obtain ⟨nda, nde, nt, -, hf⟩ := sound_class c hc
  rw [fitsAll_iff] at hv
  have hl := hv.length_eq
  have hfit : ∀ p ∈ c.fields.zip vs, FitsOne S K p.1 p.2 := fun p hp => (List.forall₂_iff_zip.1 hv).2 hp
  unfold assemble
  rw [rereadAll_eq, mapM_of_forall₂ _ _ (List.zipWith (rereadOne S K) c.fields vs)]
  · rfl
  refine forall₂_zipWith _ _ _ _ hl fun p hp => ?_
  have hmem : p.1 ∈ c.fields := (List.of_mem_zip hp).1
  have hfit := hfit p hp
  unfold FitsOne at hfit
  cases hk : p.1.kind with
  | «attribute» =>
    have hne : p.1.kind ≠ .element := by rw [hk]; simp
    rw [if_neg hne] at hfit
    rw [show rereadOne S K p.1 p.2 = rereadSimple K p.1 p.2 from if_neg hne]
    obtain ⟨⟨ts, hts⟩, hfix⟩ := (hf p.1 hmem).2 hne
    have hpick := pick Kind.attribute (fun p : Field × Val P => attr K p.1 p.2) (by
      intro q e he
      unfold attr at he
      split at he
      · next h =>
        split at he
        · simp at he; exact ⟨by rw [he], h⟩
        · simp at he; exact ⟨by rw [he], h⟩
        · simp at he
      · simp at he) (c.fields.zip vs) (by rw [zip_fst _ _ hl]; exact nda) p hp hk
    unfold Field.bind
    simp only [hk, find_head]
    unfold attrs
    rw [hpick]
    unfold attr
    rw [if_pos hk]
    obtain ⟨f, v⟩ := p
    simp only at hk hfit hts hfix ⊢
    cases hi : f.init with
    | false =>
      obtain ⟨-, hm, s, hs⟩ := hfix hi
      simp only [Simple, hi, Bool.false_eq_true, if_false] at hfit
      obtain ⟨rfl, hr⟩ := hfit
      simp [rereadSimple, hi, Field.initial, hm, hs, hr s hs]
    | true =>
      simp only [Simple, hi, if_true] at hfit
      cases v with
      | null => simp [rereadSimple, Field.initial, hfit.1, hfit.2]
      | plain x => simp [rereadSimple, hi, Field.value, hfit, hk]
      | words l =>
        cases l with
        | nil => simp [rereadSimple, hi, Field.initial, hfit, hk]
        | cons x l => simp [rereadSimple, hi, Field.value, hfit, hk]
      | obj _ _ => simp at hfit
      | many _ => simp at hfit
  | text =>
    have hne : p.1.kind ≠ .element := by rw [hk]; simp
    rw [if_neg hne] at hfit
    rw [show rereadOne S K p.1 p.2 = rereadSimple K p.1 p.2 from if_neg hne]
    obtain ⟨⟨ts, hts⟩, hfix⟩ := (hf p.1 hmem).2 hne
    have hfind := find_text (c.fields.zip vs) (by rw [zip_fst _ _ hl]; exact nt) p hp hk
    unfold Field.bind textOf
    simp only [hk, hfind]
    obtain ⟨f, v⟩ := p
    simp only at hk hfit hts hfix ⊢
    cases hi : f.init with
    | false =>
      have := (hfix hi).1
      rw [hk] at this
      cases this
    | true =>
      simp only [Simple, hi, if_true] at hfit
      cases v with
      | null => simp [rereadSimple, Field.initial, hfit.1, hfit.2, content]
      | plain x => by_cases he : K.encode x = "" <;> simp [rereadSimple, hi, Field.value, hfit, hk, he, content]
      | words l =>
        by_cases hl : l = []
        · subst hl
          have : K.join ([] : List P) = "" := rfl
          simp [rereadSimple, hi, Field.initial, hfit, hk, content, this]
        · by_cases he : K.join l = "" <;> simp [rereadSimple, hi, Field.value, Field.initial, hfit, hk, he, hl, content]
      | obj _ _ => simp at hfit
      | many _ => simp at hfit
  | element =>
    rw [if_pos hk] at hfit
    rw [show rereadOne S K p.1 p.2 = reread S K p.1 p.2 from if_pos hk]
    have hd := (hf p.1 hmem).1 hk
    have hpick := pick .element (own (P := P)) (by
      intro q e he
      unfold own at he
      split at he
      · next h =>
        obtain ⟨x, -, rfl⟩ := List.mem_map.1 he
        exact ⟨rfl, h⟩
      · simp at he) ((c.fields.zip vs).map (fun p => (p.1, rereadOne S K p.1 p.2))) (by
        rw [List.map_map]
        have : (Prod.fst ∘ fun p : Field × Val P => (p.1, rereadOne S K p.1 p.2)) = Prod.fst := rfl
        rw [this, zip_fst _ _ hl]; exact nde) (p.1, rereadOne S K p.1 p.2) (List.mem_map_of_mem hp) hk
    unfold Field.bind
    simp only [hk]
    rw [zip_zipWith]
    simp only at hpick
    rw [hpick]
    unfold own
    rw [if_pos hk, List.map_map]
    have : (Prod.snd ∘ Prod.mk p.1.tag) = (id : Val P → Val P) := rfl
    rw [this, List.map_id, show rereadOne S K p.1 p.2 = reread S K p.1 p.2 from if_pos hk]
    obtain ⟨f, v⟩ := p
    simp only at hk hfit hd ⊢
    cases v with
    | null => rw [Fits] at hfit; simp [reread, items, Field.initial, hfit.2, hd]
    | plain x => rw [Fits] at hfit; simp [reread, items, ← hfit.1]
    | words l => rw [Fits] at hfit; exact hfit.elim
    | obj cls ws => rw [Fits] at hfit; simp [reread, items, ← hfit.1]
    | many l => rw [Fits] at hfit; simp [reread, items, hfit.2.1]

/-! ## Documents -/

theorem bindKids_append (S : Schema) (K : Codec P) (c : Class) : ∀ (a b : List Tree) (l m : List (QName × Val P)), bindKids S K c a = .ok l → bindKids S K c b = .ok m →
    bindKids S K c (a ++ b) = .ok (l ++ m)
  | [], b, l, m, ha, hb => by
    rw [bindKids] at ha
    cases ha
    exact hb
  | t :: a, b, l, m, ha, hb => by
    rw [bindKids] at ha
    rw [List.cons_append, bindKids]
    cases hv : bindKid S K c t with
    | error e => rw [hv] at ha; cases ha
    | ok v =>
      rw [hv] at ha
      cases hr : bindKids S K c a with
      | error e => rw [hr] at ha; cases ha
      | ok r =>
        rw [hr] at ha
        cases ha
        simp only [bind, Except.bind, bindKids_append S K c a b r m hr hb]
        rfl

theorem find_name (S : Schema) (n : Name) (c : Class) (h : S.find n = some c) : c ∈ S ∧ c.name = n := by
  unfold Schema.find at h
  exact ⟨List.mem_of_find?_eq_some h, by simpa using List.find?_some h⟩

theorem fields_find (S : Schema) (n : Name) (c : Class) (h : S.find n = some c) : S.fields n = c.fields := by simp [Schema.fields, h]

theorem sound_mem (S : Schema) (hS : Sound S = true) (c : Class) (hc : c ∈ S) : SoundClass c = true := by
  unfold Sound at hS
  simp only [Bool.and_eq_true, List.all_eq_true] at hS
  exact hS.1.2 c hc

theorem items_inside (S : Schema) (K : Codec P) (f : Field) (v : Val P) (h : Fits S K f true v) : items (reread S K f v) = [reread S K f v] := by
  cases v <;> simp [Fits, reread, items] at h ⊢

mutual

/-- Reading the elements of a field gives its values again. -/
theorem bind_kids (S : Schema) (K : Codec P) (hS : Sound S = true) (f : Field) (c : Class) (hc : c.element f.tag = some f) (b : Bool) :
    ∀ v : Val P, Fits S K f b v → bindKids S K c (kids S K f v) = .ok ((items (reread S K f v)).map (Prod.mk f.tag))
  | .null, _ => by simp [kids, bindKids, reread, items]
  | .plain p, h => by
    rw [Fits] at h
    obtain ⟨-, ts, hts⟩ := h
    simp [kids, bindKids, bindKid, hc, hts, reread, items, Field.types, Tree.tag, bind, Except.bind, pure, Except.pure]
  | .words l, h => by rw [Fits] at h; exact h.elim
  | .obj cls vs, h => by
    rw [Fits] at h
    obtain ⟨-, d, k, hd, hk, ht, hv⟩ := h
    obtain ⟨hmem, hname⟩ := find_name S cls k hk
    have hsound := sound_mem S hS k hmem
    have hall := bind_kidsAll S K hS k k.fields (fun g hg hge => element_self k hsound g hg hge) vs hv
    have hasm := assemble_ok S K k hsound vs hv
    rw [kids, bindKids, bindKid]
    simp only [hc, hd, ht, fields_find S cls k hk, hall, bind, Except.bind, hasm, bindKids, pure, Except.pure, reread, items, Tree.tag, hname, List.map_cons, List.map_nil]
  | .many l, h => by
    rw [Fits] at h
    rw [kids, reread, items]
    exact bind_kidsMany S K hS f c hc l h.2.2

/-- The same for the entries of a list. -/
theorem bind_kidsMany (S : Schema) (K : Codec P) (hS : Sound S = true) (f : Field) (c : Class) (hc : c.element f.tag = some f) :
    ∀ l : List (Val P), FitsMany S K f l → bindKids S K c (kidsMany S K f l) = .ok ((rereadMany S K f l).map (Prod.mk f.tag))
  | [], _ => by simp [kidsMany, bindKids, rereadMany]
  | v :: l, h => by
    rw [FitsMany] at h
    have h1 := bind_kids S K hS f c hc true v h.1
    rw [items_inside S K f v h.1] at h1
    rw [kidsMany, rereadMany, bindKids_append S K c _ _ _ _ h1 (bind_kidsMany S K hS f c hc l h.2)]
    rfl

/-- The same for the fields of an object. -/
theorem bind_kidsAll (S : Schema) (K : Codec P) (hS : Sound S = true) (c : Class) (fs : List Field) (hc : ∀ f ∈ fs, f.kind = .element → c.element f.tag = some f) :
    ∀ vs : List (Val P), FitsAll S K fs vs → bindKids S K c (kidsAll S K fs vs) = .ok ((fs.zip (rereadAll S K fs vs)).flatMap own)
  | [], h => by
    cases fs with
    | nil => simp [kidsAll, bindKids, rereadAll]
    | cons f fs => simp [FitsAll] at h
  | v :: vs, h => by
    cases fs with
    | nil => simp [FitsAll] at h
    | cons f fs =>
      rw [FitsAll] at h
      have h2 := bind_kidsAll S K hS c fs (fun g hg => hc g (by simp [hg])) vs h.2
      rw [kidsAll, rereadAll, List.zip_cons_cons, List.flatMap_cons]
      refine bindKids_append S K c _ _ _ _ ?_ h2
      unfold own
      by_cases hk : f.kind = .element
      · simp only [hk, if_true] at h ⊢
        exact bind_kids S K hS f c (hc f (by simp) hk) false v h.1
      · simp only [hk, if_false]
        rfl

end

/-- **C152**: a document that was written is read as the object that it was written from, with every text read anew. -/
theorem parse_render (S : Schema) (K : Codec P) (hS : Sound S = true) (c : Class) (hc : S.find c.name = some c) (hroot : S.root c.qname = some c)
    (vs : List (Val P)) (hv : FitsAll S K c.fields vs) : parse S K (render S K c vs) = .ok (.obj c.name (rereadAll S K c.fields vs)) := by
  have hsound := sound_mem S hS c (find_name S _ c hc).1
  have hall := bind_kidsAll S K hS c c.fields (fun g hg hge => element_self c hsound g hg hge) vs hv
  have hasm := assemble_ok S K c hsound vs hv
  unfold render parse
  simp only [Option.getD_none, hroot, fields_find S _ c hc, hall, bind, Except.bind, hasm]

/-! ## Objects that were read -/

/-- What is assumed of the texts of values: what was read is written as a text that is read as the same again, and what was read from a word is written as a word. -/
structure Faithful (K : Codec P) : Prop where
  again : ∀ ts s, K.read ts (K.encode (K.read ts s)) = K.read ts s
  nonempty : ∀ ts s, s ≠ "" → K.encode (K.read ts s) ≠ ""
  word : ∀ ts s, s ≠ "" → (∀ c ∈ s.toList, Verif.Des.isSpace c = false) → ∀ c ∈ (K.encode (K.read ts s)).toList, Verif.Des.isSpace c = false

/-! ### Words -/

theorem cut_word (w : List Char) (hw : ∀ c ∈ w, Verif.Des.isSpace c = false) : cut w = [w] := by
  induction w with
  | nil => rfl
  | cons c w ih =>
    rw [cut, hw c (by simp), ih (fun c h => hw c (by simp [h]))]
    rfl

theorem cut_append (w s : List Char) (c : Char) (hc : Verif.Des.isSpace c = true) (hw : ∀ c ∈ w, Verif.Des.isSpace c = false) : cut (w ++ c :: s) = w :: cut s := by
  induction w with
  | nil => rw [List.nil_append, cut, hc]; rfl
  | cons d w ih =>
    rw [List.cons_append, cut, hw d (by simp), ih (fun c h => hw c (by simp [h]))]
    rfl

theorem cut_pieces (s : List Char) : ∀ w ∈ cut s, ∀ c ∈ w, Verif.Des.isSpace c = false := by
  induction s with
  | nil => simp [cut]
  | cons d s ih =>
    rw [cut]
    split
    · intro w hw
      rcases List.mem_cons.1 hw with rfl | hw
      · simp
      · exact ih w hw
    · next hd =>
      split
      · intro w hw c hc
        obtain rfl := List.mem_singleton.1 hw
        obtain rfl := List.mem_singleton.1 hc
        simpa using hd
      · next v vs e =>
        rw [e] at ih
        intro w hw c hc
        rcases List.mem_cons.1 hw with rfl | hw
        · rcases List.mem_cons.1 hc with rfl | hc
          · simpa using hd
          · exact ih v (by simp) c hc
        · exact ih w (by simp [hw]) c hc

/-- The words of a text are not empty and have no white space in them. -/
theorem words_are_words (s w : String) (hw : w ∈ words s) : w ≠ "" ∧ ∀ c ∈ w.toList, Verif.Des.isSpace c = false := by
  obtain ⟨v, hv, rfl⟩ := List.mem_map.1 hw
  obtain ⟨h1, h2⟩ := List.mem_filter.1 hv
  refine ⟨fun h => ?_, ?_⟩
  · have := congrArg String.toList h
    rw [String.toList_ofList] at this
    simp [this] at h2
  · rw [String.toList_ofList]
    exact cut_pieces _ v h1

/-- Words with spaces between them are the words of the text that they make. -/
theorem words_join (l : List String) (hl : ∀ w ∈ l, w ≠ "" ∧ ∀ c ∈ w.toList, Verif.Des.isSpace c = false) : words (" ".intercalate l) = l := by
  have key : ∀ l : List String, (∀ w ∈ l, w ≠ "" ∧ ∀ c ∈ w.toList, Verif.Des.isSpace c = false) → l ≠ [] → cut ([' '].intercalate (l.map String.toList)) = l.map String.toList := by
    intro l hl hne
    induction l with
    | nil => exact absurd rfl hne
    | cons w l ih =>
      cases l with
      | nil =>
        simp only [List.map_cons, List.map_nil, List.intercalate, List.intersperse, List.flatten_cons, List.flatten_nil, List.append_nil]
        exact cut_word _ (hl w (by simp)).2
      | cons v l =>
        have := ih (fun u hu => hl u (by simp [hu])) (by simp)
        have e : [' '].intercalate ((w :: v :: l).map String.toList) = w.toList ++ ' ' :: [' '].intercalate ((v :: l).map String.toList) := by
          simp [List.intercalate]
        rw [e, cut_append _ _ _ (by decide) (hl w (by simp)).2, this]
        rfl
  rcases eq_or_ne l [] with rfl | hne
  · rfl
  · have e : (" ".intercalate l).toList = [' '].intercalate (l.map String.toList) := by
      rw [String.toList_intercalate]
      rfl
    rw [words, e, key l hl hne, List.filter_eq_self.2, List.map_map]
    · conv_rhs => rw [← List.map_id l]
      exact List.map_congr_left fun w _ => String.ofList_toList
    · intro v hv
      obtain ⟨w, hw, rfl⟩ := List.mem_map.1 hv
      have := (hl w hw).1
      cases h : w.toList with
      | nil => exact absurd (String.toList_inj.1 (h.trans rfl)) this
      | cons _ _ => rfl

example : words " 1.5\n\t-2  x " = ["1.5", "-2", "x"] := by decide +kernel

theorem Faithful.words {K : Codec P} (hK : Faithful K) (ts : List Name) (s : String) :
    Verif.Xsdata.words (K.join ((Verif.Xsdata.words s).map (K.read ts))) = ((Verif.Xsdata.words s).map (K.read ts)).map K.encode := by
  refine words_join _ fun w hw => ?_
  simp only [List.map_map, List.mem_map, Function.comp] at hw
  obtain ⟨v, hv, rfl⟩ := hw
  obtain ⟨h1, h2⟩ := words_are_words s v hv
  exact ⟨hK.nonempty ts v h1, hK.word ts v h1 h2⟩

theorem forall₂_of_mapM {α β : Type} (g : α → Except PyErr β) : ∀ (l : List α) (m : List β), l.mapM g = .ok m → List.Forall₂ (fun a b => g a = .ok b) l m
  | [], m, h => by
    cases h
    exact .nil
  | a :: l, m, h => by
    rw [List.mapM_cons] at h
    cases ha : g a with
    | error e => rw [ha] at h; cases h
    | ok b =>
      rw [ha] at h
      cases hl : l.mapM g with
      | error e => rw [hl] at h; cases h
      | ok t =>
        rw [hl] at h
        cases h
        exact .cons ha (forall₂_of_mapM g l t hl)

theorem find_self (S : Schema) (hS : Sound S = true) (c : Class) (hc : c ∈ S) : S.find c.name = some c := by
  unfold Sound at hS
  simp only [Bool.and_eq_true] at hS
  have nd := distinct_nodup _ hS.1.1
  unfold Schema.find
  clear hS
  induction S with
  | nil => simp at hc
  | cons d S ih =>
    rw [List.map_cons, List.nodup_cons] at nd
    rcases List.mem_cons.1 hc with rfl | hc'
    · simp
    · have : d.name ≠ c.name := fun h => nd.1 (h ▸ List.mem_map_of_mem hc')
      rw [List.find?_cons_of_neg (by simpa using this)]
      exact ih hc' nd.2

theorem target_again (S : Schema) (hS : Sound S = true) (f : Field) (d : Name) (hd : f.ty = .cls d) (x : Option QName) (c : Class) (h : S.target d x = some c) :
    S.find c.name = some c ∧ S.target d (S.xsi f c.name) = some c := by
  have hmem : c ∈ S := by
    unfold Schema.target at h
    split at h
    · cases h
    · next c₀ hc₀ =>
      have h₀ := (find_name S d c₀ hc₀).1
      split at h
      · cases h; exact h₀
      · split at h
        · cases h; exact h₀
        · cases hf : List.find? (fun t => decide (t.qname = _ ∧ t.related c₀)) S with
          | none => rw [hf] at h; cases h; exact h₀
          | some t => rw [hf] at h; cases h; exact List.mem_of_find?_eq_some hf
  have hself := find_self S hS c hmem
  refine ⟨hself, ?_⟩
  by_cases hn : d = c.name
  · subst hn
    simp [Schema.xsi, hd, Schema.target, hself]
  · have hx : S.xsi f c.name = some c.qname := by
      unfold Schema.xsi
      rw [if_neg (by rw [hd]; simpa using hn), hself]
      rfl
    rw [hx]
    unfold Schema.target at h ⊢
    cases hc₀ : S.find d with
    | none => rw [hc₀] at h; cases h
    | some c₀ =>
      have hn₀ : c ≠ c₀ := by
        rintro rfl
        exact hn (find_name S d c hc₀).2.symm
      rw [hc₀] at h
      cases x with
      | none => cases h; exact absurd rfl hn₀
      | some q =>
        simp only at h ⊢
        split at h
        · cases h; exact absurd rfl hn₀
        · next hq =>
          cases hf : List.find? (fun t => decide (t.qname = q ∧ t.related c₀)) S with
          | none => rw [hf] at h; cases h; exact absurd rfl hn₀
          | some t =>
            rw [hf] at h
            cases h
            have hc := List.find?_some hf
            simp only [decide_eq_true_eq] at hc
            simp only [Option.getD_some] at hc hq ⊢
            simp only [hc.1, if_neg hq, hf, Option.getD_some]

/-- A value that was read: it fits, and writing and reading it changes nothing. -/
def Settled (S : Schema) (K : Codec P) (f : Field) (v : Val P) : Prop := Fits S K f f.many v ∧ reread S K f v = v

theorem settled_many (S : Schema) (K : Codec P) (f : Field) (hm : f.many = true) : ∀ l : List (Val P), (∀ v ∈ l, Settled S K f v) → FitsMany S K f l ∧ rereadMany S K f l = l
  | [], _ => by simp [FitsMany, rereadMany]
  | v :: l, h => by
    obtain ⟨h1, h2⟩ := settled_many S K f hm l (fun w hw => h w (by simp [hw]))
    obtain ⟨h3, h4⟩ := h v (by simp)
    rw [hm] at h3
    rw [FitsMany, rereadMany, h2, h4]
    exact ⟨⟨h3, h1⟩, rfl⟩

theorem initial_settled (K : Codec P) (hK : Faithful K) (f : Field) (hk : f.kind ≠ .element) :
    Simple K f (f.initial K) ∧ rereadSimple K f (f.initial K) = f.initial K := by
  cases hi : f.init with
  | false =>
    simp only [Simple, rereadSimple, hi, Bool.false_eq_true, if_false]
    exact ⟨⟨trivial, fun s _ => hK.again _ _⟩, trivial⟩
  | true =>
    unfold Field.initial
    cases hm : f.many with
    | true => simp [Simple, rereadSimple, hi, hm, hk]
    | false =>
      cases hs : f.default with
      | none => simp [Simple, rereadSimple, hi, hm, hs]
      | some s =>
        simp only [Simple, rereadSimple, hi, hm, hs, if_true, Bool.false_eq_true, if_false, hK.again, true_and]
        split
        · unfold Field.initial
          simp [hm, hs]
        · rfl

theorem value_settled (K : Codec P) (hK : Faithful K) (f : Field) (s : String) (hs : f.kind = .text → s ≠ "") (hi : f.init = true) :
    Simple K f (f.value K s) ∧ rereadSimple K f (f.value K s) = f.value K s := by
  unfold Field.value
  cases hm : f.many with
  | true =>
    simp only [Simple, rereadSimple, hi, hm, if_true]
    refine ⟨trivial, ?_⟩
    have hw := hK.words f.types s
    split
    · next h =>
      rcases h with h | ⟨h, -⟩
      · rw [h]
      · rw [h] at hw
        replace hw : ([] : List String) = _ := hw
        rw [List.map_eq_nil_iff.1 hw.symm]
    · rw [hw, List.map_map, List.map_map]
      congr 1
      refine List.map_congr_left fun w _ => ?_
      exact hK.again _ _
  | false =>
    simp only [Simple, rereadSimple, hi, hm, if_true, Bool.false_eq_true, if_false, hK.again, true_and]
    split
    · next h => exact absurd h.2 (hK.nonempty _ _ (hs h.1))
    · rfl

theorem zipWith_self {α β : Type} (g : α → β → β) : ∀ (l : List α) (m : List β), List.Forall₂ (fun a b => g a b = b) l m → List.zipWith g l m = m
  | [], [], _ => rfl
  | a :: l, b :: m, .cons h t => by rw [List.zipWith_cons_cons, h, zipWith_self g l m t]

/-- The fields of an object that was read. -/
theorem assemble_settled (S : Schema) (K : Codec P) (hK : Faithful K) (c : Class) (hc : SoundClass c = true) (ats : List (QName × String)) (txt : String)
    (ks : List (QName × Val P)) (hks : ∀ k ∈ ks, ∃ f, c.element k.1 = some f ∧ Settled S K f k.2) (o : Val P) (h : assemble K c ats txt ks = .ok o) :
    ∃ vs, o = .obj c.name vs ∧ FitsAll S K c.fields vs ∧ rereadAll S K c.fields vs = vs := by
  obtain ⟨-, -, -, -, hf⟩ := sound_class c hc
  unfold assemble at h
  cases hm : c.fields.mapM (Field.bind K ats txt ks) with
  | error e => rw [hm] at h; cases h
  | ok vs =>
    rw [hm] at h
    cases h
    refine ⟨vs, rfl, ?_⟩
    have h2 := forall₂_of_mapM _ _ _ hm
    have hone : ∀ f ∈ c.fields, ∀ v, Field.bind K ats txt ks f = .ok v → FitsOne S K f v ∧ rereadOne S K f v = v := by
      intro f hmem v hb
      obtain ⟨hf1, hf2⟩ := hf f hmem
      unfold Field.bind at hb
      unfold FitsOne rereadOne
      cases hk : f.kind with
      | «attribute» =>
        have hne : f.kind ≠ .element := by rw [hk]; simp
        rw [if_neg (by simp), if_neg (by simp)]
        simp only [hk] at hb
        split at hb
        · cases hb; exact initial_settled K hK f hne
        · split at hb
          · next hi => cases hb; exact value_settled K hK f _ (by rw [hk]; simp) hi
          · split at hb
            · cases hb; exact initial_settled K hK f hne
            · cases hb
      | text =>
        have hne : f.kind ≠ .element := by rw [hk]; simp
        rw [if_neg (by simp), if_neg (by simp)]
        simp only [hk, Except.ok.injEq] at hb
        subst hb
        split
        · exact initial_settled K hK f hne
        · next ht =>
          refine value_settled K hK f _ (fun _ => ht) ?_
          cases hi : f.init with
          | true => rfl
          | false =>
            have := ((hf2 hne).2 hi).1
            rw [hk] at this
            cases this
      | element =>
        rw [if_pos rfl, if_pos rfl]
        simp only [hk] at hb
        have hown : ∀ v ∈ (ks.filter (fun k => decide (k.1 = f.tag))).map Prod.snd, Settled S K f v := by
          intro v hv
          obtain ⟨k, hk', rfl⟩ := List.mem_map.1 hv
          rw [List.mem_filter, decide_eq_true_eq] at hk'
          obtain ⟨g, hg, hs⟩ := hks k hk'.1
          rw [hk'.2, element_self c hc f hmem hk] at hg
          cases hg
          exact hs
        cases hmany : f.many with
        | true =>
          simp only [hmany, if_true, Except.ok.injEq] at hb
          subst hb
          rw [Fits, reread]
          obtain ⟨h3, h4⟩ := settled_many S K f hmany _ hown
          exact ⟨⟨rfl, hmany, h3⟩, by rw [h4]⟩
        | false =>
          simp only [hmany, Bool.false_eq_true, if_false] at hb
          split at hb
          · cases hb
            have : f.initial K = .null := by simp [Field.initial, hmany, hf1 hk]
            rw [this, Fits, reread]
            exact ⟨⟨rfl, hmany⟩, rfl⟩
          · next w hw =>
            cases hb
            obtain ⟨h3, h4⟩ := hown v (by rw [hw]; simp)
            rw [hmany] at h3
            exact ⟨h3, h4⟩
          · cases hb
    have h3 : List.Forall₂ (fun f v => FitsOne S K f v ∧ rereadOne S K f v = v) c.fields vs := by
      rw [List.forall₂_iff_zip] at h2 ⊢
      exact ⟨h2.1, fun {f v} hp => hone f (List.of_mem_zip hp).1 v (h2.2 hp)⟩
    rw [fitsAll_iff, rereadAll_eq]
    refine ⟨h3.imp fun _ _ h => h.1, ?_⟩
    exact zipWith_self _ _ _ (h3.imp fun _ _ h => h.2)

mutual

/-- An element that was read. -/
theorem bindKid_settled (S : Schema) (K : Codec P) (hS : Sound S = true) (hK : Faithful K) (c : Class) :
    ∀ (t : Tree) (v : Val P), bindKid S K c t = .ok v → ∃ f, c.element t.tag = some f ∧ Settled S K f v
  | .node tag x ats txt ts, v, h => by
    rw [bindKid] at h
    rw [Tree.tag]
    cases he : c.element tag with
    | none => rw [he] at h; cases h
    | some f =>
      refine ⟨f, rfl, ?_⟩
      simp only [he] at h
      cases ht : f.ty with
      | plain types =>
        simp only [ht] at h
        split at h
        · cases h
          unfold Settled
          rw [Fits, reread, Field.types, ht]
          exact ⟨⟨rfl, types, rfl⟩, by rw [hK.again]⟩
        · cases h
      | cls d =>
        simp only [ht] at h
        cases htg : S.target d x with
        | none => rw [htg] at h; cases h
        | some c' =>
          simp only [htg] at h
          cases hks : bindKids S K c' ts with
          | error e => rw [hks] at h; cases h
          | ok ks =>
            rw [hks] at h
            obtain ⟨h1, h2⟩ := target_again S hS f d ht x c' htg
            obtain ⟨vs, rfl, h3, h4⟩ := assemble_settled S K hK c' (sound_mem S hS c' (find_name S _ _ h1).1) ats txt ks (bindKids_settled S K hS hK c' ts ks hks) v h
            unfold Settled
            rw [Fits, reread, fields_find S _ _ h1, h4]
            exact ⟨⟨rfl, d, c', ht, h1, h2, h3⟩, rfl⟩

/-- The elements that were read. -/
theorem bindKids_settled (S : Schema) (K : Codec P) (hS : Sound S = true) (hK : Faithful K) (c : Class) :
    ∀ (ts : List Tree) (ks : List (QName × Val P)), bindKids S K c ts = .ok ks → ∀ k ∈ ks, ∃ f, c.element k.1 = some f ∧ Settled S K f k.2
  | [], ks, h => by
    rw [bindKids] at h
    cases h
    simp
  | t :: ts, ks, h => by
    rw [bindKids] at h
    cases hv : bindKid S K c t with
    | error e => rw [hv] at h; cases h
    | ok v =>
      rw [hv] at h
      cases hr : bindKids S K c ts with
      | error e => rw [hr] at h; cases h
      | ok r =>
        rw [hr] at h
        cases h
        intro k hk
        rcases List.mem_cons.1 hk with rfl | hk
        · exact bindKid_settled S K hS hK c t v hv
        · exact bindKids_settled S K hS hK c ts r hr k hk

end

theorem root_again (S : Schema) (q : QName) (c : Class) (h : S.root q = some c) : c ∈ S ∧ c.qname = q := by
  unfold Schema.root at h
  have := List.mem_of_getLast? h
  rw [List.mem_filter] at this
  exact ⟨this.1, by simpa using this.2⟩

/-- What was read is an object of a class of the schema, with values that fit and that writing and reading do not change. -/
theorem parse_settled (S : Schema) (K : Codec P) (hS : Sound S = true) (hK : Faithful K) (t : Tree) (o : Val P) (h : parse S K t = .ok o) :
    ∃ c vs, S.find c.name = some c ∧ S.root c.qname = some c ∧ o = .obj c.name vs ∧ FitsAll S K c.fields vs ∧ rereadAll S K c.fields vs = vs := by
  cases t with
  | node tag x ats txt ts =>
    rw [parse] at h
    cases hr : S.root (x.getD tag) with
    | none => rw [hr] at h; cases h
    | some c =>
      simp only [hr] at h
      obtain ⟨hmem, hq⟩ := root_again S _ c hr
      cases hks : bindKids S K c ts with
      | error e => rw [hks] at h; cases h
      | ok ks =>
        rw [hks] at h
        obtain ⟨vs, rfl, h3, h4⟩ := assemble_settled S K hK c (sound_mem S hS c hmem) ats txt ks (bindKids_settled S K hS hK c ts ks hks) o h
        exact ⟨c, vs, find_self S hS c hmem, by rw [hq, hr], rfl, h3, h4⟩

/-- **C152**: any document that can be read can be written and read again, and gives the same object. -/
theorem parse_render_parse (S : Schema) (K : Codec P) (hS : Sound S = true) (hK : Faithful K) (t : Tree) (o : Val P) (h : parse S K t = .ok o) :
    ∃ c vs, S.find c.name = some c ∧ o = .obj c.name vs ∧ parse S K (render S K c vs) = .ok o := by
  obtain ⟨c, vs, h1, h2, rfl, h3, h4⟩ := parse_settled S K hS hK t o h
  exact ⟨c, vs, h1, rfl, by rw [parse_render S K hS c h1 h2 vs h3, h4]⟩

end Verif.Props.Xsdata
