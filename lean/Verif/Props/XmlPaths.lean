import Verif.Props.SiddXml
import Verif.Spec.XmlPath

/-!
# Which elements of a document the sensor models are built from
-/

namespace Verif.Props.XmlPaths

open Verif Verif.Xsdata Verif.SarXml Verif.Props.Xsdata Verif.Props.Objects Verif.Spec.XmlPath

variable {P : Type} [DecidableEq P]

set_option linter.unusedSectionVars false

/-! ## Objects and the elements that they are read from -/

theorem bind_ok {α β : Type} {x : Except PyErr α} {g : α → Except PyErr β} {b : β} (h : x >>= g = .ok b) : ∃ a, x = .ok a ∧ g a = .ok b := by
  cases x with
  | error e => cases h
  | ok a => exact ⟨a, rfl, h⟩

/-- The object is read from the element as one of the class. -/
def Binds (S : Schema) (K : Codec P) (c : Class) (t : Tree) (v : Val P) : Prop :=
  ∃ tag xsi ats txt ts ks, t = .node tag xsi ats txt ts ∧ bindKids S K c ts = .ok ks ∧ assemble K c ats txt ks = .ok v

theorem kids_bound (S : Schema) (K : Codec P) (c : Class) : ∀ (ts : List Tree) (ks : List (QName × Val P)), bindKids S K c ts = .ok ks →
    List.Forall₂ (fun t k => k.1 = t.tag ∧ bindKid S K c t = .ok k.2) ts ks
  | [], ks, h => by rw [bindKids] at h; cases h; exact .nil
  | t :: ts, ks, h => by
    rw [bindKids] at h
    cases h1 : bindKid S K c t with
    | error e => rw [h1] at h; cases h
    | ok v =>
      rw [h1] at h
      cases h2 : bindKids S K c ts with
      | error e => rw [h2] at h; cases h
      | ok vs =>
        rw [h2] at h
        cases h
        exact .cons ⟨rfl, h1⟩ (kids_bound S K c ts vs h2)

theorem forall₂_filter {α β : Type} (R : α → β → Prop) (p : α → Bool) (q : β → Bool) (h : ∀ a b, R a b → p a = q b) : ∀ (l : List α) (m : List β), List.Forall₂ R l m →
    List.Forall₂ R (l.filter p) (m.filter q)
  | [], [], .nil => .nil
  | a :: l, b :: m, .cons h1 h2 => by
    have hpq := h a b h1
    cases hp : p a with
    | true =>
      rw [List.filter_cons_of_pos hp, List.filter_cons_of_pos (by rw [← hpq, hp])]
      exact .cons h1 (forall₂_filter R p q h l m h2)
    | false =>
      rw [List.filter_cons_of_neg (by simp [hp]), List.filter_cons_of_neg (by simp [← hpq, hp])]
      exact forall₂_filter R p q h l m h2

/-- No other element field has the local name. -/
def sole (c : Class) (f : Field) : Bool := c.fields.all (fun g => !(g.kind = .element) || !Nat.beq g.xml f.xml || decide (g = f))

/-- The values of an element field are those of the elements with its local name. -/
theorem own_named (S : Schema) (K : Codec P) (c : Class) (f : Field) (hs : sole c f = true) (tag : QName) (xsi : Option QName) (ats : List (QName × String)) (txt : String)
    (ts : List Tree) (ks : List (QName × Val P)) (h : bindKids S K c ts = .ok ks) :
    List.Forall₂ (fun t v => bindKid S K c t = .ok v ∧ t.tag = f.tag) (named f.xml (.node tag xsi ats txt ts)) ((ks.filter (fun k => k.1 = f.tag)).map Prod.snd) := by
  have h1 := forall₂_filter (fun (t : Tree) (k : QName × Val P) => k.1 = t.tag ∧ bindKid S K c t = .ok k.2) (fun t => decide (t.tag.2 = f.xml)) (fun k => decide (k.1 = f.tag)) (by
    intro t k ⟨h1, h2⟩
    rw [h1, decide_eq_decide]
    refine ⟨fun hx => ?_, fun hx => by rw [hx]; rfl⟩
    obtain ⟨tg, x, a, s, l⟩ := t
    rw [bindKid] at h2
    cases he : c.element tg with
    | none => rw [he] at h2; cases h2
    | some g =>
      have hg := List.find?_some he
      simp only [decide_eq_true_eq] at hg
      have hm := List.mem_of_find?_eq_some he
      unfold sole at hs
      rw [List.all_eq_true] at hs
      have := hs g hm
      have hx' : g.xml = f.xml := by
        have : g.tag.2 = f.xml := by rw [hg.2]; exact hx
        exact this
      rw [hg.1, hx', beq_eq] at this
      simp only [decide_true, Bool.not_true, Bool.false_or, decide_eq_true_eq] at this
      show tg = f.tag
      rw [← hg.2, this]) ts ks (kids_bound S K c ts ks h)
  rw [List.forall₂_map_right_iff]
  have h2 : ∀ (l : List Tree) (m : List (QName × Val P)), List.Forall₂ (fun t k => k.1 = t.tag ∧ bindKid S K c t = .ok k.2) l m → (∀ k ∈ m, k.1 = f.tag) →
      List.Forall₂ (fun t k => bindKid S K c t = .ok k.2 ∧ t.tag = f.tag) l m := by
    intro l m h
    induction h with
    | nil => exact fun _ => .nil
    | cons h _ ih => exact fun hm => .cons ⟨h.2, h.1.symm.trans (hm _ (by simp))⟩ (ih fun k hk => hm k (by simp [hk]))
  refine h2 _ _ h1 ?_
  intro k hk
  simpa using (List.mem_filter.1 hk).2

/-- A field of an object that has been read. -/
theorem get_bound (S : Schema) (K : Codec P) (c : Class) (hc : S.find c.name = some c) (ats : List (QName × String)) (txt : String) (ks : List (QName × Val P)) (v : Val P)
    (h : assemble K c ats txt ks = .ok v) (n : Name) (f : Field) (hf : c.fields.find? (fun f => Nat.beq f.py n) = some f) (w : Val P) (hw : v.get S n = .ok w) :
    f.bind K ats txt ks = .ok w := by
  unfold assemble at h
  cases hm : c.fields.mapM (Field.bind K ats txt ks) with
  | error e => rw [hm] at h; cases h
  | ok vs =>
    rw [hm] at h
    cases h
    simp only [beq_eq] at hf
    obtain ⟨i, b, h1, _, h3, h4, _⟩ := forall₂_place _ _ _ _ (forall₂_of_mapM _ _ _ hm) f hf
    rw [Val.get, Schema.place, fields_find S _ c hc, h1] at hw
    simp only [Option.bind_some, h3] at hw
    cases hw
    exact h4

/-- What an element is read as. -/
def Read (S : Schema) (K : Codec P) (f : Field) (u : Tree) (w : Val P) : Prop :=
  (∃ types, f.ty = .plain types ∧ inside u = [] ∧ w = .plain (K.read types (textIn u))) ∨
  (∃ d c, f.ty = .cls d ∧ c ∈ possible S d ∧ S.find c.name = some c ∧ Binds S K c u w)

theorem kid_read (S : Schema) (hS : Sound S = true) (K : Codec P) (c : Class) (hc : c ∈ S) (f : Field) (hf : f ∈ c.fields) (hk : f.kind = .element) (u : Tree) (w : Val P)
    (ht : u.tag = f.tag) (h : bindKid S K c u = .ok w) : Read S K f u w := by
  obtain ⟨tg, x, a, s, l⟩ := u
  have ht : tg = f.tag := ht
  subst ht
  rw [bindKid, element_self c (sound_mem S hS c hc) f hf hk] at h
  cases hty : f.ty with
  | plain types =>
    simp only [hty] at h
    cases l with
    | nil => simp only [List.isEmpty_nil, if_true] at h; cases h; exact Or.inl ⟨types, hty, rfl, rfl⟩
    | cons _ _ => cases h
  | cls d =>
    simp only [hty] at h
    cases hx : S.target d x with
    | none => rw [hx] at h; cases h
    | some c' =>
      rw [hx] at h
      simp only at h
      cases hb : bindKids S K c' l with
      | error e => rw [hb] at h; cases h
      | ok ks =>
        rw [hb] at h
        exact Or.inr ⟨d, c', hty, fits_possible S d x c' hx, (target_again S hS f d hty x c' hx).1, _, _, _, _, _, _, rfl, hb, h⟩

/-- One step of a path: an element field that is no list, with the local name. -/
def step (c : Class) (n x : Name) : Option Field :=
  match c.fields.find? (fun f => Nat.beq f.py n) with
  | some f => if f.kind = .element && !f.many && Nat.beq f.xml x && sole c f then some f else none
  | none => none

theorem step_at (S : Schema) (hS : Sound S = true) (K : Codec P) (c : Class) (hc : S.find c.name = some c) (t : Tree) (v : Val P) (h : Binds S K c t v) (n x : Name) (f : Field)
    (hf : step c n x = some f) (w : Val P) (hw : v.get S n = .ok w) : (w = .null ∧ named x t = []) ∨ ∃ k, named x t = [k] ∧ Read S K f k w := by
  obtain ⟨tag, xsi, ats, txt, ts, ks, rfl, hb, ha⟩ := h
  unfold step at hf
  cases hg : c.fields.find? (fun f => Nat.beq f.py n) with
  | none => rw [hg] at hf; cases hf
  | some g =>
    rw [hg] at hf
    simp only at hf
    split at hf
    · next hcond =>
      cases hf
      simp only [Bool.and_eq_true, decide_eq_true_eq, Bool.not_eq_true', beq_eq] at hcond
      obtain ⟨⟨⟨hk, hm⟩, rfl⟩, hs⟩ := hcond
      have hmem := (find_name S _ c hc).1
      have hfm := List.mem_of_find?_eq_some hg
      have hown := own_named S K c f hs tag xsi ats txt ts ks hb
      have hbind := get_bound S K c hc ats txt ks v ha n f hg w hw
      have hdef := ((sound_class c (sound_mem S hS c hmem)).2.2.2.2 f hfm).1 hk
      unfold Field.bind at hbind
      simp only [hk, hm] at hbind
      revert hbind hown
      generalize (ks.filter (fun k => decide (k.1 = f.tag))).map Prod.snd = own
      generalize named f.xml (.node tag xsi ats txt ts) = l
      intro hown hbind
      cases hown with
      | nil =>
        simp only [Bool.false_eq_true, if_false, Field.initial, hm, hdef] at hbind
        cases hbind
        exact Or.inl ⟨rfl, rfl⟩
      | cons h1 h2 =>
        cases h2 with
        | nil =>
          simp only [Bool.false_eq_true, if_false] at hbind
          cases hbind
          exact Or.inr ⟨_, rfl, kid_read S hS K c hmem f hfm hk _ _ h1.2 h1.1⟩
        | cons _ _ => simp at hbind
    · cases hf

/-- The class has no such attribute. -/
def lacks (c : Class) (n : Name) : Bool := (c.fields.find? (fun f => Nat.beq f.py n)).isNone

theorem lacks_get (S : Schema) (K : Codec P) (c : Class) (hc : S.find c.name = some c) (t : Tree) (v : Val P) (h : Binds S K c t v) (n : Name) (hn : lacks c n = true) (w : Val P) :
    v.get S n ≠ .ok w := by
  intro hw
  obtain ⟨tag, xsi, ats, txt, ts, ks, rfl, hb, ha⟩ := h
  obtain ⟨vs, _, ha⟩ := bind_ok ha
  cases ha
  unfold lacks at hn
  simp only [beq_eq, Option.isNone_iff_eq_none, List.find?_eq_none, decide_eq_true_eq] at hn
  have : S.place c.name n = none := by
    rw [Schema.place, fields_find S _ c hc, List.findIdx?_eq_none_iff]
    simpa using hn
  rw [Val.get, this] at hw
  cases hw

/-- Where objects of the given classes have the attributes of the path, the elements have the given local names. -/
def follows (S : Schema) (good : Field → Bool) : List Class → List (Name × Name) → Bool
  | _, [] => false
  | cs, [s] => cs.all (fun c => lacks c s.1 || match step c s.1 s.2 with | some f => good f | none => false)
  | cs, s :: r :: ss => cs.all (fun c => lacks c s.1 || match step c s.1 s.2 with
    | some f => (match f.ty with | .cls d => follows S good (possible S d) (r :: ss) | .plain _ => false)
    | none => false)

/-- **C164**: the value of a path of attributes is read from the element at the path of local names. -/
theorem path_at (S : Schema) (hS : Sound S = true) (K : Codec P) (good : Field → Bool) : ∀ (ss : List (Name × Name)) (cs : List Class), follows S good cs ss = true → ∀ c ∈ cs,
    S.find c.name = some c → ∀ (t : Tree) (v w : Val P), Binds S K c t v → v.path S (ss.map Prod.fst) = .ok w → w ≠ .null →
    ∃ u f, At t (ss.map Prod.snd) u ∧ good f = true ∧ Read S K f u w
  | [], _, h, _, _, _, _, _, _, _, _, _ => by simp [follows] at h
  | [s], cs, h, c, hc, hfind, t, v, w, hb, hp, hn => by
    rw [follows, List.all_eq_true] at h
    have := h c hc
    rw [Bool.or_eq_true] at this
    have := this.resolve_left (fun hl => by
      rw [List.map_cons, path_cons] at hp
      obtain ⟨x, hx, _⟩ := bind_ok hp
      exact lacks_get S K c hfind t v hb _ hl x hx)
    cases hf : step c s.1 s.2 with
    | none => rw [hf] at this; cases this
    | some f =>
      rw [hf] at this
      rw [List.map_cons, List.map_nil, path_cons] at hp
      cases hg : v.get S s.1 with
      | error e => rw [hg] at hp; cases hp
      | ok x =>
        rw [hg] at hp
        cases hp
        rcases step_at S hS K c hfind t v hb s.1 s.2 f hf _ hg with ⟨h1, _⟩ | ⟨k, h1, h2⟩
        · exact absurd h1 hn
        · exact ⟨k, f, .down t k k s.2 [] h1 (.here k), this, h2⟩
  | s :: r :: ss, cs, h, c, hc, hfind, t, v, w, hb, hp, hn => by
    rw [follows, List.all_eq_true] at h
    have := h c hc
    rw [Bool.or_eq_true] at this
    have := this.resolve_left (fun hl => by
      rw [List.map_cons, path_cons] at hp
      obtain ⟨x, hx, _⟩ := bind_ok hp
      exact lacks_get S K c hfind t v hb _ hl x hx)
    cases hf : step c s.1 s.2 with
    | none => rw [hf] at this; cases this
    | some f =>
      rw [hf] at this
      rw [List.map_cons, path_cons] at hp
      cases hg : v.get S s.1 with
      | error e => rw [hg] at hp; cases hp
      | ok x =>
        rw [hg] at hp
        cases hty : f.ty with
        | plain _ => simp [hty] at this
        | cls d =>
          simp only [hty] at this
          rcases step_at S hS K c hfind t v hb s.1 s.2 f hf _ hg with ⟨h1, _⟩ | ⟨k, h1, h2⟩
          · subst h1; cases hp
          · rcases h2 with ⟨types, e, _⟩ | ⟨d', c', e, hpos, hfind', hb'⟩
            · rw [hty] at e; cases e
            · rw [hty] at e
              cases e
              obtain ⟨u, g, h3, h4, h5⟩ := path_at S hS K good (r :: ss) _ this c' hpos hfind' k x w hb' hp hn
              exact ⟨u, g, .down t k u s.2 _ h1 h3, h4, h5⟩

theorem path_append (S : Schema) (v w : Val P) : ∀ (ns ms : List Name), v.path S ns = .ok w → v.path S (ns ++ ms) = w.path S ms
  | ns, ms, h => by
    induction ns generalizing v with
    | nil => rw [path_nil] at h; cases h; rfl
    | cons n ns ih =>
      rw [List.cons_append, path_cons]
      rw [path_cons] at h
      cases hg : v.get S n with
      | error e => rw [hg] at h; cases h
      | ok x => rw [hg] at h; exact ih x h

theorem path_snoc (S : Schema) (v w x : Val P) (ns : List Name) (n : Name) (h : v.path S ns = .ok w) (hx : w.get S n = .ok x) : v.path S (ns ++ [n]) = .ok x := by
  rw [path_append S v w ns [n] h, path_cons, hx]
  rfl

/-! ## Numbers, vectors and polynomials -/

/-- What the texts stand for, as the codec reads them. -/
def reader (K : Codec P) (N : Numbers P) : Reader where
  real := fun type s => N.real (K.read [type] s)
  int := fun s => N.int (K.read [n!"int"] s)
  word := fun type s => N.enum (K.read [type] s)

/-- A text of the given type. -/
def holds (type : Name) (f : Field) : Bool := match f.ty with | .plain [τ] => Nat.beq τ type | _ => false

theorem holds_ty (type : Name) (f : Field) (h : holds type f = true) : f.ty = .plain [type] := by
  unfold holds at h
  split at h
  · next τ e => rw [e, Nat.eq_of_beq_eq_true h]
  · cases h

theorem num_ok (N : Numbers P) (w : Val P) (x : ℝ) (h : num N w = .ok x) : ∃ p, w = .plain p ∧ N.real p = some x := by
  unfold num at h
  split at h
  · next p =>
    split at h
    · next y e => cases h; exact ⟨p, rfl, e⟩
    · cases h
  · cases h

theorem whole_ok (N : Numbers P) (w : Val P) (x : Int) (h : whole N w = .ok x) : ∃ p, w = .plain p ∧ N.int p = some x := by
  unfold whole at h
  split at h
  · next p =>
    split at h
    · next y e => cases h; exact ⟨p, rfl, e⟩
    · cases h
  · cases h

theorem member_ok (N : Numbers P) (w : Val P) (x : String) (h : member N w = .ok x) : ∃ p, w = .plain p ∧ N.enum p = some x := by
  unfold member at h
  split at h
  · next p =>
    split at h
    · next y e => cases h; exact ⟨p, rfl, e⟩
    · cases h
  · cases h

theorem binds_obj (S : Schema) (K : Codec P) (c : Class) (t : Tree) (p : P) : ¬ Binds S K c t (.plain p) := by
  rintro ⟨tag, xsi, ats, txt, ts, ks, _, _, h⟩
  unfold assemble at h
  cases hm : c.fields.mapM (Field.bind K ats txt ks) with
  | error e => rw [hm] at h; cases h
  | ok vs => rw [hm] at h; cases h

theorem plain_at (S : Schema) (hS : Sound S = true) (K : Codec P) (type : Name) (ss : List (Name × Name)) (cs : List Class) (h : follows S (holds type) cs ss = true) (c : Class)
    (hc : c ∈ cs) (hfind : S.find c.name = some c) (t : Tree) (v : Val P) (p : P) (hb : Binds S K c t v) (hp : v.path S (ss.map Prod.fst) = .ok (.plain p)) :
    ∃ u, At t (ss.map Prod.snd) u ∧ inside u = [] ∧ p = K.read [type] (textIn u) := by
  obtain ⟨u, f, h1, h2, h3⟩ := path_at S hS K _ ss cs h c hc hfind t v _ hb hp (by simp)
  have hty := holds_ty type f h2
  rcases h3 with ⟨types, e, h4, h5⟩ | ⟨d, c', e, _, _, h5⟩
  · rw [hty] at e
    cases e
    cases h5
    exact ⟨u, h1, h4, rfl⟩
  · exact absurd h5 (binds_obj S K c' u p)

/-- Where an object of a class has been read from, as the start of paths. -/
structure Here (S : Schema) (K : Codec P) (cs : List Class) (t : Tree) (v : Val P) : Prop where
  sound : Sound S = true
  read : ∃ c ∈ cs, S.find c.name = some c ∧ Binds S K c t v

variable {S : Schema} {K : Codec P} {N : Numbers P} {cs : List Class} {t : Tree} {v : Val P}

theorem Here.number (H : Here S K cs t v) (type : Name) (ss : List (Name × Name)) (h : follows S (holds type) cs ss = true) {w : Val P} {x : ℝ}
    (hp : v.path S (ss.map Prod.fst) = .ok w) (hx : num N w = .ok x) : NumberAt (reader K N) type t (ss.map Prod.snd) x := by
  obtain ⟨p, rfl, hp'⟩ := num_ok N w x hx
  obtain ⟨c, hc, hfind, hb⟩ := H.read
  obtain ⟨u, h1, h2, rfl⟩ := plain_at S H.sound K type ss cs h c hc hfind t v p hb hp
  exact ⟨u, h1, h2, hp'⟩

theorem Here.whole (H : Here S K cs t v) (ss : List (Name × Name)) (h : follows S (holds n!"int") cs ss = true) {w : Val P} {x : Int}
    (hp : v.path S (ss.map Prod.fst) = .ok w) (hx : SarXml.whole N w = .ok x) : WholeAt (reader K N) t (ss.map Prod.snd) x := by
  obtain ⟨p, rfl, hp'⟩ := whole_ok N w x hx
  obtain ⟨c, hc, hfind, hb⟩ := H.read
  obtain ⟨u, h1, h2, rfl⟩ := plain_at S H.sound K n!"int" ss cs h c hc hfind t v p hb hp
  exact ⟨u, h1, h2, hp'⟩

theorem Here.word (H : Here S K cs t v) (type : Name) (ss : List (Name × Name)) (h : follows S (holds type) cs ss = true) {w : Val P} {x : String}
    (hp : v.path S (ss.map Prod.fst) = .ok w) (hx : member N w = .ok x) : WordAt (reader K N) type t (ss.map Prod.snd) x := by
  obtain ⟨p, rfl, hp'⟩ := member_ok N w x hx
  obtain ⟨c, hc, hfind, hb⟩ := H.read
  obtain ⟨u, h1, h2, rfl⟩ := plain_at S H.sound K type ss cs h c hc hfind t v p hb hp
  exact ⟨u, h1, h2, hp'⟩

/-- The three numbers of a vector. -/
def VectorAt (R : Reader) (t : Tree) (path : List Name) (p : Verif.Sicd.V3) : Prop :=
  NumberAt R n!"float" t (path ++ [n!"X"]) p.x ∧ NumberAt R n!"float" t (path ++ [n!"Y"]) p.y ∧ NumberAt R n!"float" t (path ++ [n!"Z"]) p.z

/-- The paths of a vector. -/
def followsXyz (S : Schema) (cs : List Class) (ss : List (Name × Name)) : Bool :=
  follows S (holds n!"float") cs (ss ++ [(n!"x", n!"X")]) && follows S (holds n!"float") cs (ss ++ [(n!"y", n!"Y")]) && follows S (holds n!"float") cs (ss ++ [(n!"z", n!"Z")])

theorem Here.vector (H : Here S K cs t v) (ss : List (Name × Name)) (h : followsXyz S cs ss = true) {w : Val P} {p : Verif.Sicd.V3}
    (hp : v.path S (ss.map Prod.fst) = .ok w) (hx : xyz S N w = .ok p) : VectorAt (reader K N) t (ss.map Prod.snd) p := by
  unfold followsXyz at h
  simp only [Bool.and_eq_true] at h
  obtain ⟨⟨h1, h2⟩, h3⟩ := h
  unfold xyz at hx
  obtain ⟨vx, gx, hx⟩ := bind_ok hx
  obtain ⟨x, nx, hx⟩ := bind_ok hx
  obtain ⟨vy, gy, hx⟩ := bind_ok hx
  obtain ⟨y, ny, hx⟩ := bind_ok hx
  obtain ⟨vz, gz, hx⟩ := bind_ok hx
  obtain ⟨z, nz, hx⟩ := bind_ok hx
  cases hx
  have e1 := H.number n!"float" _ h1 (by rw [List.map_append]; exact path_snoc S v w vx _ _ hp gx) nx
  have e2 := H.number n!"float" _ h2 (by rw [List.map_append]; exact path_snoc S v w vy _ _ hp gy) ny
  have e3 := H.number n!"float" _ h3 (by rw [List.map_append]; exact path_snoc S v w vz _ _ hp gz) nz
  rw [List.map_append] at e1 e2 e3
  exact ⟨e1, e2, e3⟩

/-- An attribute without a namespace, a whole number. -/
def wholeAttribute (c : Class) (n : Name) : Bool :=
  match c.fields.find? (fun f => Nat.beq f.py n) with
  | some f => f.kind = .attribute && !f.many && f.default.isNone && f.init && Nat.beq f.ns 0 && Nat.beq f.xml n && holds n!"int" f
  | none => false

theorem attribute_ok (c : Class) (hfind : S.find c.name = some c) (hb : Binds S K c t v) (n : Name) (ha : wholeAttribute c n = true) {w : Val P} {x : Int}
    (hg : v.get S n = .ok w) (hx : SarXml.whole N w = .ok x) : (attrIn n t).bind (reader K N).int = some x := by
  obtain ⟨tag, xsi, ats, txt, ts, ks, rfl, hb, has⟩ := hb
  unfold wholeAttribute at ha
  cases hf : c.fields.find? (fun f => Nat.beq f.py n) with
  | none => rw [hf] at ha; cases ha
  | some f =>
    rw [hf] at ha
    simp only [Bool.and_eq_true, decide_eq_true_eq, Bool.not_eq_true', beq_eq, Option.isNone_iff_eq_none] at ha
    obtain ⟨⟨⟨⟨⟨⟨hk, hm⟩, hd⟩, hi⟩, hns⟩, hxml⟩, hty⟩ := ha
    have hty := holds_ty _ f hty
    have hbind := get_bound S K c hfind ats txt ks v has n f hf w hg
    unfold Field.bind at hbind
    have htag : f.tag = (0, n) := by unfold Field.tag; rw [hns, hxml]
    simp only [hk, htag, hi, if_true] at hbind
    obtain ⟨p, rfl, hp⟩ := whole_ok N w x hx
    show (Option.map Prod.snd (ats.find? (fun a => decide (a.1 = (0, n))))).bind _ = _
    cases hfa : ats.find? (fun a => decide (a.1 = (0, n))) with
    | none =>
      rw [hfa] at hbind
      simp [Field.initial, hm, hd] at hbind
    | some a =>
      rw [hfa] at hbind
      simp only [Field.value, hm, Field.types, hty, Bool.false_eq_true, if_false] at hbind
      cases hbind
      exact hp

/-- The text of an element, a number. -/
def numberText (c : Class) (n : Name) : Bool :=
  match c.fields.find? (fun f => Nat.beq f.py n) with
  | some f => f.kind = .text && !f.many && f.default.isNone && holds n!"float" f
  | none => false

theorem text_ok (c : Class) (hfind : S.find c.name = some c) (hb : Binds S K c t v) (n : Name) (ha : numberText c n = true) {w : Val P} {x : ℝ}
    (hg : v.get S n = .ok w) (hx : num N w = .ok x) : (reader K N).real n!"float" (textIn t) = some x := by
  obtain ⟨tag, xsi, ats, txt, ts, ks, rfl, hb, has⟩ := hb
  unfold numberText at ha
  cases hf : c.fields.find? (fun f => Nat.beq f.py n) with
  | none => rw [hf] at ha; cases ha
  | some f =>
    rw [hf] at ha
    simp only [Bool.and_eq_true, decide_eq_true_eq, Bool.not_eq_true', Option.isNone_iff_eq_none] at ha
    obtain ⟨⟨⟨hk, hm⟩, hd⟩, hty⟩ := ha
    have hty := holds_ty _ f hty
    have hbind := get_bound S K c hfind ats txt ks v has n f hf w hg
    unfold Field.bind at hbind
    simp only [hk] at hbind
    obtain ⟨p, rfl, hp⟩ := num_ok N w x hx
    split at hbind
    · simp [Field.initial, hm, hd] at hbind
    · simp only [Field.value, hm, Field.types, hty, Bool.false_eq_true, if_false] at hbind
      cases hbind
      exact hp

/-- The list of coefficients, each of a class as required. -/
def coefList (S : Schema) (good : Class → Bool) (c : Class) : Bool :=
  match c.fields.find? (fun f => Nat.beq f.py n!"coef") with
  | some f => f.kind = .element && f.many && Nat.beq f.xml n!"Coef" && sole c f && (match f.ty with | .cls d => (possible S d).all good | .plain _ => false)
  | none => false

theorem coef_ok (hS : Sound S = true) (good : Class → Bool) (c : Class) (hfind : S.find c.name = some c) (hb : Binds S K c t v) (ha : coefList S good c = true) {w : Val P}
    {l : List (Val P)} (hg : v.get S n!"coef" = .ok w) (hx : entries w = .ok l) :
    List.Forall₂ (fun k x => ∃ c', good c' = true ∧ S.find c'.name = some c' ∧ Binds S K c' k x) (named n!"Coef" t) l := by
  obtain ⟨tag, xsi, ats, txt, ts, ks, rfl, hb, has⟩ := hb
  unfold coefList at ha
  cases hf : c.fields.find? (fun f => Nat.beq f.py n!"coef") with
  | none => rw [hf] at ha; cases ha
  | some f =>
    rw [hf] at ha
    simp only [Bool.and_eq_true, decide_eq_true_eq] at ha
    obtain ⟨⟨⟨⟨hk, hm⟩, hxml⟩, hs⟩, hty⟩ := ha
    have hxml := Nat.eq_of_beq_eq_true hxml
    have hbind := get_bound S K c hfind ats txt ks v has _ f hf w hg
    have hown := own_named S K c f hs tag xsi ats txt ts ks hb
    rw [hxml] at hown
    unfold Field.bind at hbind
    simp only [hk, hm, if_true] at hbind
    cases hbind
    cases hx
    have hmem := (find_name S _ c hfind).1
    refine hown.imp fun k x ⟨h1, h2⟩ => ?_
    rcases kid_read S hS K c hmem f (List.mem_of_find?_eq_some hf) hk k x h2 h1 with ⟨types, e, _⟩ | ⟨d, c', e, h3, h4, h5⟩
    · rw [e] at hty; cases hty
    · rw [e] at hty
      simp only [List.all_eq_true] at hty
      exact ⟨c', hty c' h3, h4, h5⟩

theorem forall₂_comp {α β γ : Type} (R : α → β → Prop) (Q : β → γ → Prop) (T : α → γ → Prop) (h : ∀ a b c, R a b → Q b c → T a c) : ∀ (l : List α) (m : List β) (n : List γ),
    List.Forall₂ R l m → List.Forall₂ Q m n → List.Forall₂ T l n
  | [], [], [], .nil, .nil => .nil
  | a :: l, b :: m, c :: n, .cons h1 h2, .cons h3 h4 => .cons (h a b c h1 h3) (forall₂_comp R Q T h l m n h2 h4)

/-- A class of polynomials in one variable. -/
def isPoly1 (S : Schema) (c : Class) : Bool := wholeAttribute c n!"order1" && coefList S (fun c => wholeAttribute c n!"exponent1" && numberText c n!"value") c

/-- A class of polynomials in two variables. -/
def isPoly2 (S : Schema) (c : Class) : Bool :=
  wholeAttribute c n!"order1" && wholeAttribute c n!"order2" && coefList S (fun c => wholeAttribute c n!"exponent1" && wholeAttribute c n!"exponent2" && numberText c n!"value") c

/-- An element of a class as required. -/
def ofClass (S : Schema) (good : Class → Bool) (f : Field) : Bool := match f.ty with | .cls d => (possible S d).all good | .plain _ => false

theorem poly1_in (hS : Sound S = true) (c : Class) (hfind : S.find c.name = some c) (hb : Binds S K c t v) (ha : isPoly1 S c = true) {p : Verif.Sicd.Poly1}
    (hx : poly1 S N v = .ok p) : Poly1In (reader K N) t p.order p.coef := by
  unfold isPoly1 at ha
  simp only [Bool.and_eq_true] at ha
  unfold poly1 at hx
  obtain ⟨v1, g1, hx⟩ := bind_ok hx
  obtain ⟨o1, n1, hx⟩ := bind_ok hx
  obtain ⟨v2, g2, hx⟩ := bind_ok hx
  obtain ⟨l, n2, hx⟩ := bind_ok hx
  obtain ⟨m, n3, hx⟩ := bind_ok hx
  cases hx
  refine ⟨attribute_ok c hfind hb _ ha.1 g1 n1, ?_⟩
  refine forall₂_comp _ _ _ ?_ _ _ _ (coef_ok hS _ c hfind hb ha.2 g2 n2) (forall₂_of_mapM _ _ _ n3)
  rintro k x e ⟨c', h1, h2, h3⟩ he
  simp only [Bool.and_eq_true] at h1
  obtain ⟨w1, g1, he⟩ := bind_ok he
  obtain ⟨e1, n1, he⟩ := bind_ok he
  obtain ⟨w2, g2, he⟩ := bind_ok he
  obtain ⟨e2, n2, he⟩ := bind_ok he
  cases he
  exact ⟨attribute_ok c' h2 h3 _ h1.1 g1 n1, text_ok c' h2 h3 _ h1.2 g2 n2⟩

theorem poly2_in (hS : Sound S = true) (c : Class) (hfind : S.find c.name = some c) (hb : Binds S K c t v) (ha : isPoly2 S c = true) {p : Verif.Sicd.Poly2}
    (hx : poly2 S N v = .ok p) : Poly2In (reader K N) t p.order1 p.order2 p.coef := by
  unfold isPoly2 at ha
  simp only [Bool.and_eq_true] at ha
  unfold poly2 at hx
  obtain ⟨v1, g1, hx⟩ := bind_ok hx
  obtain ⟨o1, n1, hx⟩ := bind_ok hx
  obtain ⟨v3, g3, hx⟩ := bind_ok hx
  obtain ⟨o3, n4, hx⟩ := bind_ok hx
  obtain ⟨v2, g2, hx⟩ := bind_ok hx
  obtain ⟨l, n2, hx⟩ := bind_ok hx
  obtain ⟨m, n3, hx⟩ := bind_ok hx
  cases hx
  refine ⟨attribute_ok c hfind hb _ ha.1.1 g1 n1, attribute_ok c hfind hb _ ha.1.2 g3 n4, ?_⟩
  refine forall₂_comp _ _ _ ?_ _ _ _ (coef_ok hS _ c hfind hb ha.2 g2 n2) (forall₂_of_mapM _ _ _ n3)
  rintro k x e ⟨c', h1, h2, h3⟩ he
  simp only [Bool.and_eq_true] at h1
  obtain ⟨w1, g1, he⟩ := bind_ok he
  obtain ⟨e1, n1, he⟩ := bind_ok he
  obtain ⟨w3, g3, he⟩ := bind_ok he
  obtain ⟨e3, n3, he⟩ := bind_ok he
  obtain ⟨w2, g2, he⟩ := bind_ok he
  obtain ⟨e2, n2, he⟩ := bind_ok he
  cases he
  exact ⟨attribute_ok c' h2 h3 _ h1.1.1 g1 n1, attribute_ok c' h2 h3 _ h1.1.2 g3 n3, text_ok c' h2 h3 _ h1.2 g2 n2⟩

theorem Here.object (H : Here S K cs t v) (good : Class → Bool) (ss : List (Name × Name)) (h : follows S (ofClass S good) cs ss = true) {w : Val P}
    (hp : v.path S (ss.map Prod.fst) = .ok w) (hw : w ≠ .null) : ∃ u c, At t (ss.map Prod.snd) u ∧ good c = true ∧ S.find c.name = some c ∧ Binds S K c u w := by
  obtain ⟨c, hc, hfind, hb⟩ := H.read
  obtain ⟨u, f, h1, h2, h3⟩ := path_at S H.sound K _ ss cs h c hc hfind t v w hb hp hw
  unfold ofClass at h2
  rcases h3 with ⟨types, e, _⟩ | ⟨d, c', e, h4, h5, h6⟩
  · rw [e] at h2; cases h2
  · rw [e] at h2
    simp only [List.all_eq_true] at h2
    exact ⟨u, c', h1, h2 c' h4, h5, h6⟩

theorem Here.poly1 (H : Here S K cs t v) (ss : List (Name × Name)) (h : follows S (ofClass S (isPoly1 S)) cs ss = true) {w : Val P} {p : Verif.Sicd.Poly1}
    (hp : v.path S (ss.map Prod.fst) = .ok w) (hx : SarXml.poly1 S N w = .ok p) : Poly1At (reader K N) t (ss.map Prod.snd) p.order p.coef := by
  obtain ⟨u, c, h1, h2, h3, h4⟩ := H.object _ ss h hp (by rintro rfl; cases hx)
  exact ⟨u, h1, poly1_in H.sound c h3 h4 h2 hx⟩

theorem Here.poly2 (H : Here S K cs t v) (ss : List (Name × Name)) (h : follows S (ofClass S (isPoly2 S)) cs ss = true) {w : Val P} {p : Verif.Sicd.Poly2}
    (hp : v.path S (ss.map Prod.fst) = .ok w) (hx : SarXml.poly2 S N w = .ok p) : Poly2At (reader K N) t (ss.map Prod.snd) p.order1 p.order2 p.coef := by
  obtain ⟨u, c, h1, h2, h3, h4⟩ := H.object _ ss h hp (by rintro rfl; cases hx)
  exact ⟨u, h1, poly2_in H.sound c h3 h4 h2 hx⟩

/-- The three polynomials of a curve. -/
def CurveAt (R : Reader) (t : Tree) (path : List Name) (p : Verif.Sicd.XyzPoly) : Prop :=
  Poly1At R t (path ++ [n!"X"]) p.x.order p.x.coef ∧ Poly1At R t (path ++ [n!"Y"]) p.y.order p.y.coef ∧ Poly1At R t (path ++ [n!"Z"]) p.z.order p.z.coef

/-- The paths of a curve. -/
def followsCurve (S : Schema) (cs : List Class) (ss : List (Name × Name)) : Bool :=
  follows S (ofClass S (isPoly1 S)) cs (ss ++ [(n!"x", n!"X")]) && follows S (ofClass S (isPoly1 S)) cs (ss ++ [(n!"y", n!"Y")]) &&
  follows S (ofClass S (isPoly1 S)) cs (ss ++ [(n!"z", n!"Z")])

theorem Here.curve (H : Here S K cs t v) (ss : List (Name × Name)) (h : followsCurve S cs ss = true) {w : Val P} {p : Verif.Sicd.XyzPoly}
    (hp : v.path S (ss.map Prod.fst) = .ok w) (hx : xyzPoly S N w = .ok p) : CurveAt (reader K N) t (ss.map Prod.snd) p := by
  unfold followsCurve at h
  simp only [Bool.and_eq_true] at h
  obtain ⟨⟨h1, h2⟩, h3⟩ := h
  unfold xyzPoly at hx
  obtain ⟨vx, gx, hx⟩ := bind_ok hx
  obtain ⟨x, nx, hx⟩ := bind_ok hx
  obtain ⟨vy, gy, hx⟩ := bind_ok hx
  obtain ⟨y, ny, hx⟩ := bind_ok hx
  obtain ⟨vz, gz, hx⟩ := bind_ok hx
  obtain ⟨z, nz, hx⟩ := bind_ok hx
  cases hx
  have e1 := H.poly1 _ h1 (by rw [List.map_append]; exact path_snoc S v w vx _ _ hp gx) nx
  have e2 := H.poly1 _ h2 (by rw [List.map_append]; exact path_snoc S v w vy _ _ hp gy) ny
  have e3 := H.poly1 _ h3 (by rw [List.map_append]; exact path_snoc S v w vz _ _ hp gz) nz
  rw [List.map_append] at e1 e2 e3
  exact ⟨e1, e2, e3⟩

/-! ## SICD -/

/-- A document is read as an object of the class of its root. -/
theorem parse_here (S : Schema) (hS : Sound S = true) (K : Codec P) (cs : List Class) (t : Tree) (o : Val P) (h : parse S K t = .ok o)
    (hr : ∀ tag xsi ats txt ts c, t = .node tag xsi ats txt ts → S.root (xsi.getD tag) = some c → c ∈ cs) : Here S K cs t o := by
  obtain ⟨tag, xsi, ats, txt, ts⟩ := t
  rw [parse] at h
  cases hc : S.root (xsi.getD tag) with
  | none => rw [hc] at h; cases h
  | some c =>
    rw [hc] at h
    obtain ⟨ks, hk, ha⟩ := bind_ok h
    exact ⟨hS, c, hr _ _ _ _ _ c rfl hc, find_self S hS c (root_again S _ c hc).1, _, _, _, _, _, _, rfl, hk, ha⟩

/-- The SICD classes. -/
def sicds : List Class := [Verif.Schema.Sicd121.SICD, Verif.Schema.Sicd130.SICD]

/-- The paths of vectors in SICD documents. -/
def sicdVectors : List (List (Name × Name)) := [
  [(n!"geo_data", n!"GeoData"), (n!"scp", n!"SCP"), (n!"ecf", n!"ECF")], [(n!"grid", n!"Grid"), (n!"row", n!"Row"), (n!"uvect_ecf", n!"UVectECF")],
  [(n!"grid", n!"Grid"), (n!"col", n!"Col"), (n!"uvect_ecf", n!"UVectECF")], [(n!"pfa", n!"PFA"), (n!"fpn", n!"FPN")], [(n!"scpcoa", n!"SCPCOA"), (n!"arppos", n!"ARPPos")],
  [(n!"scpcoa", n!"SCPCOA"), (n!"arpvel", n!"ARPVel")]]

/-- The paths of polynomials in one variable in SICD documents. -/
def sicdPoly1s : List (List (Name × Name)) := [
  [(n!"pfa", n!"PFA"), (n!"polar_ang_poly", n!"PolarAngPoly")], [(n!"pfa", n!"PFA"), (n!"spatial_freq_sfpoly", n!"SpatialFreqSFPoly")],
  [(n!"rma", n!"RMA"), (n!"inca", n!"INCA"), (n!"time_capoly", n!"TimeCAPoly")]]

/-- The paths of polynomials in two variables in SICD documents. -/
def sicdPoly2s : List (List (Name × Name)) := [
  [(n!"grid", n!"Grid"), (n!"time_coapoly", n!"TimeCOAPoly")], [(n!"rma", n!"RMA"), (n!"inca", n!"INCA"), (n!"drate_sfpoly", n!"DRateSFPoly")]]

/-- The paths of single values in SICD documents, with their types. -/
def sicdPlain : List (List (Name × Name) × Name) := [
  ([(n!"image_data", n!"ImageData"), (n!"scppixel", n!"SCPPixel"), (n!"row", n!"Row")], n!"int"), ([(n!"image_data", n!"ImageData"), (n!"scppixel", n!"SCPPixel"), (n!"col", n!"Col")], n!"int"),
  ([(n!"image_data", n!"ImageData"), (n!"first_row", n!"FirstRow")], n!"int"), ([(n!"image_data", n!"ImageData"), (n!"first_col", n!"FirstCol")], n!"int"),
  ([(n!"grid", n!"Grid"), (n!"row", n!"Row"), (n!"ss", n!"SS")], n!"float"), ([(n!"grid", n!"Grid"), (n!"col", n!"Col"), (n!"ss", n!"SS")], n!"float"),
  ([(n!"grid", n!"Grid"), (n!"type_value", n!"Type")], n!"ImageGridType"), ([(n!"image_formation", n!"ImageFormation"), (n!"image_form_algo", n!"ImageFormAlgo")], n!"ImageFormAlgo"),
  ([(n!"rg_az_comp", n!"RgAzComp"), (n!"az_sf", n!"AzSF")], n!"float"), ([(n!"rma", n!"RMA"), (n!"inca", n!"INCA"), (n!"r_ca_scp", n!"R_CA_SCP")], n!"float"),
  ([(n!"scpcoa", n!"SCPCOA"), (n!"side_of_track", n!"SideOfTrack")], n!"SideOfTrack")]

set_option maxRecDepth 100000 in
theorem sicd_follows : (sicdVectors.all (followsXyz Verif.Schema.all sicds) && sicdPoly1s.all (follows Verif.Schema.all (ofClass Verif.Schema.all (isPoly1 Verif.Schema.all)) sicds) &&
    sicdPoly2s.all (follows Verif.Schema.all (ofClass Verif.Schema.all (isPoly2 Verif.Schema.all)) sicds) && sicdPlain.all (fun p => follows Verif.Schema.all (holds p.2) sicds p.1) &&
    followsCurve Verif.Schema.all sicds [(n!"position", n!"Position"), (n!"arppoly", n!"ARPPoly")]) = true := by decide +kernel

/-- The content of a SICD document, element by element. -/
structure SicdFrom (R : Reader) (t : Tree) (m : Verif.Sicd.Meta) : Prop where
  scp : VectorAt R t [n!"GeoData", n!"SCP", n!"ECF"] m.scp
  scpRow : NumberAt R n!"int" t [n!"ImageData", n!"SCPPixel", n!"Row"] m.scpRow
  scpCol : NumberAt R n!"int" t [n!"ImageData", n!"SCPPixel", n!"Col"] m.scpCol
  time : Poly2At R t [n!"Grid", n!"TimeCOAPoly"] m.timeCoa.order1 m.timeCoa.order2 m.timeCoa.coef
  arp : CurveAt R t [n!"Position", n!"ARPPoly"] m.arp
  uRow : VectorAt R t [n!"Grid", n!"Row", n!"UVectECF"] m.uRow
  uCol : VectorAt R t [n!"Grid", n!"Col", n!"UVectECF"] m.uCol
  rowSS : NumberAt R n!"float" t [n!"Grid", n!"Row", n!"SS"] m.rowSS
  colSS : NumberAt R n!"float" t [n!"Grid", n!"Col", n!"SS"] m.colSS
  grid : ∃ w, WordAt R n!"ImageGridType" t [n!"Grid", n!"Type"] w ∧ (m.gridType = .rgazim ↔ w = "RGAZIM") ∧ (m.gridType = .rgzero ↔ w = "RGZERO") ∧
    (m.gridType = .xrgycr ↔ w = "XRGYCR") ∧ (m.gridType = .xctyat ↔ w = "XCTYAT") ∧ (m.gridType = .plane ↔ w = "PLANE")
  algo : m.gridType = .rgazim → ∃ w, WordAt R n!"ImageFormAlgo" t [n!"ImageFormation", n!"ImageFormAlgo"] w ∧ (m.algo = .pfa ↔ w = "PFA") ∧ (m.algo = .rma ↔ w = "RMA") ∧
    (m.algo = .rgazcomp ↔ w = "RGAZCOMP")
  pfa : ∀ n a k, m.pfa = some (n, a, k) → VectorAt R t [n!"PFA", n!"FPN"] n ∧ Poly1At R t [n!"PFA", n!"PolarAngPoly"] a.order a.coef ∧
    Poly1At R t [n!"PFA", n!"SpatialFreqSFPoly"] k.order k.coef
  rgAzComp : ∀ a, m.rgAzComp = some a → NumberAt R n!"float" t [n!"RgAzComp", n!"AzSF"] a
  inca : ∀ r c d, m.inca = some (r, c, d) → NumberAt R n!"float" t [n!"RMA", n!"INCA", n!"R_CA_SCP"] r ∧ Poly1At R t [n!"RMA", n!"INCA", n!"TimeCAPoly"] c.order c.coef ∧
    Poly2At R t [n!"RMA", n!"INCA", n!"DRateSFPoly"] d.order1 d.order2 d.coef
  arpPos : VectorAt R t [n!"SCPCOA", n!"ARPPos"] m.arpPos
  arpVel : VectorAt R t [n!"SCPCOA", n!"ARPVel"] m.arpVel
  side : ∃ w, WordAt R n!"SideOfTrack" t [n!"SCPCOA", n!"SideOfTrack"] w ∧ (m.right = true ↔ w = "R")

theorem toOption_some {α : Type} {x : Except PyErr α} {a : α} (h : x.toOption = some a) : x = .ok a := by
  cases x with
  | error e => cases h
  | ok b => cases h; rfl

theorem grid_types (w : String) : (gridType w = .rgazim ↔ w = "RGAZIM") ∧ (gridType w = .rgzero ↔ w = "RGZERO") ∧ (gridType w = .xrgycr ↔ w = "XRGYCR") ∧
    (gridType w = .xctyat ↔ w = "XCTYAT") ∧ (gridType w = .plane ↔ w = "PLANE") := by
  unfold gridType
  refine ⟨?_, ?_, ?_, ?_, ?_⟩ <;> split <;> (try split) <;> (try split) <;> (try split) <;> (try split) <;> simp_all

theorem algos (w : String) : (algo w = .pfa ↔ w = "PFA") ∧ (algo w = .rma ↔ w = "RMA") ∧ (algo w = .rgazcomp ↔ w = "RGAZCOMP") := by
  unfold algo
  refine ⟨?_, ?_, ?_⟩ <;> split <;> (try split) <;> (try split) <;> simp_all

open Verif.Schema in
theorem sicd_here (K : Codec P) (ns : Name) (ats : List (QName × String)) (txt : String) (ts : List Tree) (o : Val P)
    (h : parse all K (.node (ns, n!"SICD") none ats txt ts) = .ok o) : Here all K sicds (.node (ns, n!"SICD") none ats txt ts) o := by
  refine parse_here all Verif.Props.Schemas.all_sound K sicds _ o h ?_
  rintro tag xsi ats' txt' ts' c e hc
  cases e
  have hv := (Verif.Props.Schemas.other_versions K ns ats txt ts).1
  rw [h] at hv
  simp only [Option.getD_none] at hc
  by_cases h1 : ns = Namespace.sicd121
  · subst h1
    rw [Verif.Props.Schemas.roots.1] at hc
    cases hc
    simp [sicds]
  · by_cases h2 : ns = Namespace.sicd130
    · subst h2
      rw [Verif.Props.Schemas.roots.2.1] at hc
      cases hc
      simp [sicds]
    · exact absurd (hv h1 h2) (by simp)

open Verif.Schema in
/-- **C164**: the first row and column of the image are those of the document. -/
theorem sicd_image_reads (K : Codec P) (N : Numbers P) (ns : Name) (ats : List (QName × String)) (txt : String) (ts : List Tree) (o : Val P)
    (h : parse all K (.node (ns, n!"SICD") none ats txt ts) = .ok o) (im : Verif.Updaters.ImageData) (hm : imageOf all N o = .ok im) :
    WholeAt (reader K N) (.node (ns, n!"SICD") none ats txt ts) [n!"ImageData", n!"FirstRow"] im.firstRow ∧
    WholeAt (reader K N) (.node (ns, n!"SICD") none ats txt ts) [n!"ImageData", n!"FirstCol"] im.firstCol := by
  have H := sicd_here K ns ats txt ts o h
  have hf := sicd_follows
  simp only [Bool.and_eq_true, List.all_eq_true] at hf
  obtain ⟨⟨_, hP⟩, _⟩ := hf
  unfold imageOf at hm
  obtain ⟨v1, p1, hm⟩ := bind_ok hm
  obtain ⟨x1, r1, hm⟩ := bind_ok hm
  obtain ⟨v2, p2, hm⟩ := bind_ok hm
  obtain ⟨x2, r2, hm⟩ := bind_ok hm
  cases hm
  exact ⟨H.whole _ (hP ([(n!"image_data", n!"ImageData"), (n!"first_row", n!"FirstRow")], n!"int") (by simp [sicdPlain])) p1 r1,
    H.whole _ (hP ([(n!"image_data", n!"ImageData"), (n!"first_col", n!"FirstCol")], n!"int") (by simp [sicdPlain])) p2 r2⟩

open Verif.Schema in
/-- **C164**: what the builder reads from a SICD document is in the document where the standard says, and nothing stands in for what is missing. -/
theorem sicd_reads (K : Codec P) (N : Numbers P) (ns : Name) (ats : List (QName × String)) (txt : String) (ts : List Tree) (o : Val P)
    (h : parse all K (.node (ns, n!"SICD") none ats txt ts) = .ok o) (m : Verif.Sicd.Meta) (hm : sicdRest all N o = .ok m) :
    SicdFrom (reader K N) (.node (ns, n!"SICD") none ats txt ts) m := by
  have H := sicd_here K ns ats txt ts o h
  have hf := sicd_follows
  simp only [Bool.and_eq_true, List.all_eq_true] at hf
  obtain ⟨⟨⟨⟨hV, h1⟩, h2⟩, hP⟩, hC⟩ := hf
  generalize Xsdata.Tree.node (ns, n!"SICD") none ats txt ts = t at H ⊢
  unfold sicdRest at hm
  obtain ⟨v1, p1, hm⟩ := bind_ok hm
  obtain ⟨x1, r1, hm⟩ := bind_ok hm
  obtain ⟨v2, p2, hm⟩ := bind_ok hm
  obtain ⟨x2, r2, hm⟩ := bind_ok hm
  obtain ⟨v3, p3, hm⟩ := bind_ok hm
  obtain ⟨x3, r3, hm⟩ := bind_ok hm
  obtain ⟨v4, p4, hm⟩ := bind_ok hm
  obtain ⟨x4, r4, hm⟩ := bind_ok hm
  obtain ⟨v5, p5, hm⟩ := bind_ok hm
  obtain ⟨x5, r5, hm⟩ := bind_ok hm
  obtain ⟨v6, p6, hm⟩ := bind_ok hm
  obtain ⟨x6, r6, hm⟩ := bind_ok hm
  obtain ⟨v7, p7, hm⟩ := bind_ok hm
  obtain ⟨x7, r7, hm⟩ := bind_ok hm
  obtain ⟨v8, p8, hm⟩ := bind_ok hm
  obtain ⟨x8, r8, hm⟩ := bind_ok hm
  obtain ⟨v9, p9, hm⟩ := bind_ok hm
  obtain ⟨x9, r9, hm⟩ := bind_ok hm
  obtain ⟨v10, p10, hm⟩ := bind_ok hm
  obtain ⟨x10, r10, hm⟩ := bind_ok hm
  have hform : ∃ form, (x10 = "RGAZIM" → ∃ w, WordAt (reader K N) n!"ImageFormAlgo" t [n!"ImageFormation", n!"ImageFormAlgo"] w ∧ form = w) ∧ ∃ v11 x11 v12 x12 v13 x13,
      o.path all [n!"scpcoa", n!"arppos"] = .ok v11 ∧ xyz all N v11 = .ok x11 ∧ o.path all [n!"scpcoa", n!"arpvel"] = .ok v12 ∧ xyz all N v12 = .ok x12 ∧
      o.path all [n!"scpcoa", n!"side_of_track"] = .ok v13 ∧ member N v13 = .ok x13 ∧
      m = ⟨x1, x3, x2, 0, 0, x6, x7, x8, x9, x4, x5, gridType x10, algo form,
        (do pure (← xyz all N (← o.path all [n!"pfa", n!"fpn"]), ← SarXml.poly1 all N (← o.path all [n!"pfa", n!"polar_ang_poly"]),
          ← SarXml.poly1 all N (← o.path all [n!"pfa", n!"spatial_freq_sfpoly"])) : Except PyErr _).toOption,
        (do num N (← o.path all [n!"rg_az_comp", n!"az_sf"]) : Except PyErr _).toOption,
        (do pure (← num N (← o.path all [n!"rma", n!"inca", n!"r_ca_scp"]), ← SarXml.poly1 all N (← o.path all [n!"rma", n!"inca", n!"time_capoly"]),
          ← SarXml.poly2 all N (← o.path all [n!"rma", n!"inca", n!"drate_sfpoly"])) : Except PyErr _).toOption, x11, x12, x13 = "R"⟩ := by
    by_cases hg : x10 = "RGAZIM"
    · rw [if_pos hg] at hm
      obtain ⟨x14, r14, hm⟩ := bind_ok hm
      obtain ⟨v14, p14, r14⟩ := bind_ok r14
      obtain ⟨v11, p11, hm⟩ := bind_ok hm
      obtain ⟨x11, r11, hm⟩ := bind_ok hm
      obtain ⟨v12, p12, hm⟩ := bind_ok hm
      obtain ⟨x12, r12, hm⟩ := bind_ok hm
      obtain ⟨v13, p13, hm⟩ := bind_ok hm
      obtain ⟨x13, r13, hm⟩ := bind_ok hm
      cases hm
      refine ⟨x14, fun _ => ⟨x14, H.word _ _ (hP ([(n!"image_formation", n!"ImageFormation"), (n!"image_form_algo", n!"ImageFormAlgo")], n!"ImageFormAlgo") (by simp [sicdPlain])) p14 r14, rfl⟩,
        v11, x11, v12, x12, v13, x13, p11, r11, p12, r12, p13, r13, rfl⟩
    · rw [if_neg hg] at hm
      obtain ⟨x14, r14, hm⟩ := bind_ok hm
      obtain ⟨v11, p11, hm⟩ := bind_ok hm
      obtain ⟨x11, r11, hm⟩ := bind_ok hm
      obtain ⟨v12, p12, hm⟩ := bind_ok hm
      obtain ⟨x12, r12, hm⟩ := bind_ok hm
      obtain ⟨v13, p13, hm⟩ := bind_ok hm
      obtain ⟨x13, r13, hm⟩ := bind_ok hm
      cases hm
      exact ⟨x14, fun h => absurd h hg, v11, x11, v12, x12, v13, x13, p11, r11, p12, r12, p13, r13, rfl⟩
  obtain ⟨form, hform, v11, x11, v12, x12, v13, x13, p11, r11, p12, r12, p13, r13, rfl⟩ := hform
  constructor
  case scp => exact H.vector [(n!"geo_data", n!"GeoData"), (n!"scp", n!"SCP"), (n!"ecf", n!"ECF")] (hV _ (by simp [sicdVectors])) p1 r1
  case scpRow => exact H.number _ _ (hP ([(n!"image_data", n!"ImageData"), (n!"scppixel", n!"SCPPixel"), (n!"row", n!"Row")], n!"int") (by simp [sicdPlain])) p3 r3
  case scpCol => exact H.number _ _ (hP ([(n!"image_data", n!"ImageData"), (n!"scppixel", n!"SCPPixel"), (n!"col", n!"Col")], n!"int") (by simp [sicdPlain])) p2 r2
  case time => exact H.poly2 [(n!"grid", n!"Grid"), (n!"time_coapoly", n!"TimeCOAPoly")] (h2 _ (by simp [sicdPoly2s])) p4 r4
  case arp => exact H.curve [(n!"position", n!"Position"), (n!"arppoly", n!"ARPPoly")] hC p5 r5
  case uRow => exact H.vector [(n!"grid", n!"Grid"), (n!"row", n!"Row"), (n!"uvect_ecf", n!"UVectECF")] (hV _ (by simp [sicdVectors])) p6 r6
  case uCol => exact H.vector [(n!"grid", n!"Grid"), (n!"col", n!"Col"), (n!"uvect_ecf", n!"UVectECF")] (hV _ (by simp [sicdVectors])) p7 r7
  case rowSS => exact H.number _ _ (hP ([(n!"grid", n!"Grid"), (n!"row", n!"Row"), (n!"ss", n!"SS")], n!"float") (by simp [sicdPlain])) p8 r8
  case colSS => exact H.number _ _ (hP ([(n!"grid", n!"Grid"), (n!"col", n!"Col"), (n!"ss", n!"SS")], n!"float") (by simp [sicdPlain])) p9 r9
  case grid => exact ⟨x10, H.word _ _ (hP ([(n!"grid", n!"Grid"), (n!"type_value", n!"Type")], n!"ImageGridType") (by simp [sicdPlain])) p10 r10, grid_types x10⟩
  case algo =>
    intro hg
    obtain ⟨w, hw, rfl⟩ := hform ((grid_types x10).1.1 hg)
    exact ⟨_, hw, algos _⟩
  case pfa =>
    intro n a k hs
    have hs := toOption_some hs
    obtain ⟨w1, q1, hs⟩ := bind_ok hs
    obtain ⟨y1, s1, hs⟩ := bind_ok hs
    obtain ⟨w2, q2, hs⟩ := bind_ok hs
    obtain ⟨y2, s2, hs⟩ := bind_ok hs
    obtain ⟨w3, q3, hs⟩ := bind_ok hs
    obtain ⟨y3, s3, hs⟩ := bind_ok hs
    cases hs
    exact ⟨H.vector [(n!"pfa", n!"PFA"), (n!"fpn", n!"FPN")] (hV _ (by simp [sicdVectors])) q1 s1,
      H.poly1 [(n!"pfa", n!"PFA"), (n!"polar_ang_poly", n!"PolarAngPoly")] (h1 _ (by simp [sicdPoly1s])) q2 s2,
      H.poly1 [(n!"pfa", n!"PFA"), (n!"spatial_freq_sfpoly", n!"SpatialFreqSFPoly")] (h1 _ (by simp [sicdPoly1s])) q3 s3⟩
  case rgAzComp =>
    intro a hs
    have hs := toOption_some hs
    obtain ⟨w1, q1, hs⟩ := bind_ok hs
    exact H.number _ _ (hP ([(n!"rg_az_comp", n!"RgAzComp"), (n!"az_sf", n!"AzSF")], n!"float") (by simp [sicdPlain])) q1 hs
  case inca =>
    intro r c d hs
    have hs := toOption_some hs
    obtain ⟨w1, q1, hs⟩ := bind_ok hs
    obtain ⟨y1, s1, hs⟩ := bind_ok hs
    obtain ⟨w2, q2, hs⟩ := bind_ok hs
    obtain ⟨y2, s2, hs⟩ := bind_ok hs
    obtain ⟨w3, q3, hs⟩ := bind_ok hs
    obtain ⟨y3, s3, hs⟩ := bind_ok hs
    cases hs
    exact ⟨H.number _ _ (hP ([(n!"rma", n!"RMA"), (n!"inca", n!"INCA"), (n!"r_ca_scp", n!"R_CA_SCP")], n!"float") (by simp [sicdPlain])) q1 s1,
      H.poly1 [(n!"rma", n!"RMA"), (n!"inca", n!"INCA"), (n!"time_capoly", n!"TimeCAPoly")] (h1 _ (by simp [sicdPoly1s])) q2 s2,
      H.poly2 [(n!"rma", n!"RMA"), (n!"inca", n!"INCA"), (n!"drate_sfpoly", n!"DRateSFPoly")] (h2 _ (by simp [sicdPoly2s])) q3 s3⟩
  case arpPos => exact H.vector [(n!"scpcoa", n!"SCPCOA"), (n!"arppos", n!"ARPPos")] (hV _ (by simp [sicdVectors])) p11 r11
  case arpVel => exact H.vector [(n!"scpcoa", n!"SCPCOA"), (n!"arpvel", n!"ARPVel")] (hV _ (by simp [sicdVectors])) p12 r12
  case side =>
    exact ⟨x13, H.word _ _ (hP ([(n!"scpcoa", n!"SCPCOA"), (n!"side_of_track", n!"SideOfTrack")], n!"SideOfTrack") (by simp [sicdPlain])) p13 r13, by simp⟩

/-! ## SIDD -/

/-- The SIDD classes. -/
def sidds : List Class := [Verif.Schema.Sidd100.SIDD, Verif.Schema.Sidd200.SIDD, Verif.Schema.Sidd300.SIDD]

/-- A path in the plane projection. -/
def inPlane (l : List (Name × Name)) : List (Name × Name) := (n!"measurement", n!"Measurement") :: (n!"plane_projection", n!"PlaneProjection") :: l

/-- A path in the chip. -/
def inChip (l : List (Name × Name)) : List (Name × Name) := (n!"downstream_reprocessing", n!"DownstreamReprocessing") :: (n!"geometric_chip", n!"GeometricChip") :: l

/-- The paths of vectors in SIDD documents. -/
def siddVectors : List (List (Name × Name)) := [inPlane [(n!"reference_point", n!"ReferencePoint"), (n!"ecef", n!"ECEF")],
  inPlane [(n!"product_plane", n!"ProductPlane"), (n!"row_unit_vector", n!"RowUnitVector")], inPlane [(n!"product_plane", n!"ProductPlane"), (n!"col_unit_vector", n!"ColUnitVector")]]

/-- The paths of single numbers in SIDD documents. -/
def siddNumbers : List (List (Name × Name)) := [
  inPlane [(n!"reference_point", n!"ReferencePoint"), (n!"point", n!"Point"), (n!"row", n!"Row")], inPlane [(n!"reference_point", n!"ReferencePoint"), (n!"point", n!"Point"), (n!"col", n!"Col")],
  inPlane [(n!"sample_spacing", n!"SampleSpacing"), (n!"row", n!"Row")], inPlane [(n!"sample_spacing", n!"SampleSpacing"), (n!"col", n!"Col")],
  inChip [(n!"original_upper_left_coordinate", n!"OriginalUpperLeftCoordinate"), (n!"row", n!"Row")], inChip [(n!"original_upper_left_coordinate", n!"OriginalUpperLeftCoordinate"), (n!"col", n!"Col")],
  inChip [(n!"original_upper_right_coordinate", n!"OriginalUpperRightCoordinate"), (n!"row", n!"Row")], inChip [(n!"original_upper_right_coordinate", n!"OriginalUpperRightCoordinate"), (n!"col", n!"Col")],
  inChip [(n!"original_lower_right_coordinate", n!"OriginalLowerRightCoordinate"), (n!"row", n!"Row")], inChip [(n!"original_lower_right_coordinate", n!"OriginalLowerRightCoordinate"), (n!"col", n!"Col")],
  inChip [(n!"original_lower_left_coordinate", n!"OriginalLowerLeftCoordinate"), (n!"row", n!"Row")], inChip [(n!"original_lower_left_coordinate", n!"OriginalLowerLeftCoordinate"), (n!"col", n!"Col")]]

set_option maxRecDepth 100000 in
theorem sidd_follows : (siddVectors.all (followsXyz Verif.Schema.all sidds) && siddNumbers.all (follows Verif.Schema.all (holds n!"float") sidds) &&
    follows Verif.Schema.all (ofClass Verif.Schema.all (isPoly2 Verif.Schema.all)) sidds (inPlane [(n!"time_coapoly", n!"TimeCOAPoly")]) &&
    followsCurve Verif.Schema.all sidds [(n!"measurement", n!"Measurement"), (n!"arppoly", n!"ARPPoly")] &&
    follows Verif.Schema.all (holds n!"int") sidds (inChip [(n!"chip_size", n!"ChipSize"), (n!"row", n!"Row")]) &&
    follows Verif.Schema.all (holds n!"int") sidds (inChip [(n!"chip_size", n!"ChipSize"), (n!"col", n!"Col")]) &&
    follows Verif.Schema.all (ofClass Verif.Schema.all (fun c => (step c n!"geometric_chip" n!"GeometricChip").isSome)) sidds [(n!"downstream_reprocessing", n!"DownstreamReprocessing")] &&
    sidds.all (fun c => (step c n!"downstream_reprocessing" n!"DownstreamReprocessing").isSome)) = true := by decide +kernel

open Verif.Schema in
theorem sidd_here (K : Codec P) (ns : Name) (ats : List (QName × String)) (txt : String) (ts : List Tree) (o : Val P)
    (h : parse all K (.node (ns, n!"SIDD") none ats txt ts) = .ok o) : Here all K sidds (.node (ns, n!"SIDD") none ats txt ts) o := by
  refine parse_here all Verif.Props.Schemas.all_sound K sidds _ o h ?_
  rintro tag xsi ats' txt' ts' c e hc
  cases e
  have hv := (Verif.Props.Schemas.other_versions K ns ats txt ts).2
  rw [h] at hv
  simp only [Option.getD_none] at hc
  by_cases h1 : ns = Namespace.sidd100
  · subst h1
    rw [Verif.Props.Schemas.roots.2.2.1] at hc
    cases hc
    simp [sidds]
  · by_cases h2 : ns = Namespace.sidd200
    · subst h2
      rw [Verif.Props.Schemas.roots.2.2.2.1] at hc
      cases hc
      simp [sidds]
    · by_cases h3 : ns = Namespace.sidd300
      · subst h3
        rw [Verif.Props.Schemas.roots.2.2.2.2] at hc
        cases hc
        simp [sidds]
      · exact absurd (hv h1 h2 h3) (by simp)

/-- The content of a SIDD document, element by element. -/
structure SiddFrom (R : Reader) (t : Tree) (s : Verif.Sicd.Sidd) : Prop where
  scp : VectorAt R t [n!"Measurement", n!"PlaneProjection", n!"ReferencePoint", n!"ECEF"] s.scp
  scpRow : NumberAt R n!"float" t [n!"Measurement", n!"PlaneProjection", n!"ReferencePoint", n!"Point", n!"Row"] s.scpRow
  scpCol : NumberAt R n!"float" t [n!"Measurement", n!"PlaneProjection", n!"ReferencePoint", n!"Point", n!"Col"] s.scpCol
  time : ∃ p : Verif.Sicd.Poly2, Poly2At R t [n!"Measurement", n!"PlaneProjection", n!"TimeCOAPoly"] p.order1 p.order2 p.coef ∧ p.native = .ok s.time
  arp : ∃ p : Verif.Sicd.XyzPoly, CurveAt R t [n!"Measurement", n!"ARPPoly"] p ∧ p.native = .ok s.arp
  uRow : VectorAt R t [n!"Measurement", n!"PlaneProjection", n!"ProductPlane", n!"RowUnitVector"] s.uRow
  uCol : VectorAt R t [n!"Measurement", n!"PlaneProjection", n!"ProductPlane", n!"ColUnitVector"] s.uCol
  rowSS : NumberAt R n!"float" t [n!"Measurement", n!"PlaneProjection", n!"SampleSpacing", n!"Row"] s.rowSS
  colSS : NumberAt R n!"float" t [n!"Measurement", n!"PlaneProjection", n!"SampleSpacing", n!"Col"] s.colSS

open Verif.Schema in
/-- **C164**: what the builder reads from a SIDD document is in the document where the standard says. -/
theorem sidd_reads (K : Codec P) (N : Numbers P) (ns : Name) (ats : List (QName × String)) (txt : String) (ts : List Tree) (o : Val P)
    (h : parse all K (.node (ns, n!"SIDD") none ats txt ts) = .ok o) (m : Verif.Sicd.Sidd) (hm : siddRest all N o = .ok m) :
    SiddFrom (reader K N) (.node (ns, n!"SIDD") none ats txt ts) m := by
  have H := sidd_here K ns ats txt ts o h
  have hf := sidd_follows
  simp only [Bool.and_eq_true, List.all_eq_true] at hf
  obtain ⟨⟨⟨⟨⟨⟨⟨hV, hN⟩, hT⟩, hC⟩, _⟩, _⟩, _⟩, _⟩ := hf
  generalize Xsdata.Tree.node (ns, n!"SIDD") none ats txt ts = t at H ⊢
  unfold siddRest at hm
  obtain ⟨pl, p0, hm⟩ := bind_ok hm
  obtain ⟨v1, p1, hm⟩ := bind_ok hm
  obtain ⟨x1, r1, hm⟩ := bind_ok hm
  obtain ⟨v2, p2, hm⟩ := bind_ok hm
  obtain ⟨x2, r2, hm⟩ := bind_ok hm
  obtain ⟨v3, p3, hm⟩ := bind_ok hm
  obtain ⟨x3, r3, hm⟩ := bind_ok hm
  obtain ⟨v4, p4, hm⟩ := bind_ok hm
  obtain ⟨x4, r4, hm⟩ := bind_ok hm
  obtain ⟨v5, p5, hm⟩ := bind_ok hm
  obtain ⟨x5, r5, hm⟩ := bind_ok hm
  obtain ⟨v6, p6, hm⟩ := bind_ok hm
  obtain ⟨x6, r6, hm⟩ := bind_ok hm
  obtain ⟨v7, p7, hm⟩ := bind_ok hm
  obtain ⟨x7, r7, hm⟩ := bind_ok hm
  obtain ⟨v8, p8, hm⟩ := bind_ok hm
  obtain ⟨x8, r8, hm⟩ := bind_ok hm
  obtain ⟨v9, p9, hm⟩ := bind_ok hm
  obtain ⟨x9, r9, hm⟩ := bind_ok hm
  obtain ⟨tm, ht, hm⟩ := bind_ok hm
  obtain ⟨ar, ha, hm⟩ := bind_ok hm
  cases hm
  have hp : ∀ (l : List Name) (w : Val P), pl.path all l = .ok w → o.path all (n!"measurement" :: n!"plane_projection" :: l) = .ok w := by
    intro l w hw
    rw [← hw]
    exact path_append all o pl [n!"measurement", n!"plane_projection"] l p0
  constructor
  case scp => exact H.vector (inPlane [(n!"reference_point", n!"ReferencePoint"), (n!"ecef", n!"ECEF")]) (hV _ (by simp [siddVectors])) (hp _ _ p1) r1
  case scpRow =>
    exact H.number _ (inPlane [(n!"reference_point", n!"ReferencePoint"), (n!"point", n!"Point"), (n!"row", n!"Row")]) (hN _ (by simp [siddNumbers])) (hp _ _ p3) r3
  case scpCol =>
    exact H.number _ (inPlane [(n!"reference_point", n!"ReferencePoint"), (n!"point", n!"Point"), (n!"col", n!"Col")]) (hN _ (by simp [siddNumbers])) (hp _ _ p2) r2
  case time => exact ⟨x4, H.poly2 (inPlane [(n!"time_coapoly", n!"TimeCOAPoly")]) hT (hp _ _ p4) r4, ht⟩
  case arp => exact ⟨x5, H.curve [(n!"measurement", n!"Measurement"), (n!"arppoly", n!"ARPPoly")] hC p5 r5, ha⟩
  case uRow => exact H.vector (inPlane [(n!"product_plane", n!"ProductPlane"), (n!"row_unit_vector", n!"RowUnitVector")]) (hV _ (by simp [siddVectors])) (hp _ _ p6) r6
  case uCol => exact H.vector (inPlane [(n!"product_plane", n!"ProductPlane"), (n!"col_unit_vector", n!"ColUnitVector")]) (hV _ (by simp [siddVectors])) (hp _ _ p7) r7
  case rowSS => exact H.number _ (inPlane [(n!"sample_spacing", n!"SampleSpacing"), (n!"row", n!"Row")]) (hN _ (by simp [siddNumbers])) (hp _ _ p8) r8
  case colSS => exact H.number _ (inPlane [(n!"sample_spacing", n!"SampleSpacing"), (n!"col", n!"Col")]) (hN _ (by simp [siddNumbers])) (hp _ _ p9) r9

/-- A corner (column, row) of the original image. -/
def CornerAt (R : Reader) (t : Tree) (name : Name) (p : ℝ × ℝ) : Prop :=
  NumberAt R n!"float" t [n!"DownstreamReprocessing", n!"GeometricChip", name, n!"Col"] p.1 ∧ NumberAt R n!"float" t [n!"DownstreamReprocessing", n!"GeometricChip", name, n!"Row"] p.2

/-- The chip of a SIDD document: its size and corners, or no chip. -/
def ChipFrom (R : Reader) (t : Tree) : Option (Verif.Updaters.Chip ℝ) → Prop
  | none => ∀ u, ¬ At t [n!"DownstreamReprocessing", n!"GeometricChip"] u
  | some g => WholeAt R t [n!"DownstreamReprocessing", n!"GeometricChip", n!"ChipSize", n!"Row"] g.rows ∧
    WholeAt R t [n!"DownstreamReprocessing", n!"GeometricChip", n!"ChipSize", n!"Col"] g.cols ∧ CornerAt R t n!"OriginalUpperLeftCoordinate" g.ul ∧
    CornerAt R t n!"OriginalUpperRightCoordinate" g.ur ∧ CornerAt R t n!"OriginalLowerRightCoordinate" g.lr ∧ CornerAt R t n!"OriginalLowerLeftCoordinate" g.ll

open Verif.Schema in
/-- **C164**: the chip that is read from a SIDD document is the one in the document, and there is none only if the document has none. -/
theorem sidd_chip_reads (K : Codec P) (N : Numbers P) (ns : Name) (ats : List (QName × String)) (txt : String) (ts : List Tree) (o : Val P)
    (h : parse all K (.node (ns, n!"SIDD") none ats txt ts) = .ok o) (g : Option (Verif.Updaters.Chip ℝ)) (hm : chipOf all N o = .ok g) :
    ChipFrom (reader K N) (.node (ns, n!"SIDD") none ats txt ts) g := by
  have H := sidd_here K ns ats txt ts o h
  have hf := sidd_follows
  simp only [Bool.and_eq_true, List.all_eq_true] at hf
  obtain ⟨⟨⟨⟨⟨⟨⟨_, hN⟩, _⟩, _⟩, hR⟩, hL⟩, hD⟩, hS⟩ := hf
  generalize Xsdata.Tree.node (ns, n!"SIDD") none ats txt ts = t at H ⊢
  unfold chipOf at hm
  obtain ⟨d, pd, hm⟩ := bind_ok hm
  have none_d : d = .null → ∀ u, ¬ At t [n!"DownstreamReprocessing", n!"GeometricChip"] u := by
    rintro rfl u hu
    obtain ⟨c, hc, hfind, hb⟩ := H.read
    obtain ⟨f, hf⟩ := Option.isSome_iff_exists.1 (hS c hc)
    cases hu with
    | down _ k _ _ _ hk _ =>
      rcases step_at all H.sound K c hfind t o hb _ _ f hf _ pd with ⟨_, e⟩ | ⟨k', e, hr⟩
      · rw [e] at hk; cases hk
      · rcases hr with ⟨_, _, _, e⟩ | ⟨_, c', _, _, _, hb'⟩
        · cases e
        · obtain ⟨_, _, _, _, _, _, _, _, hb'⟩ := hb'
          obtain ⟨_, _, hb'⟩ := bind_ok hb'
          cases hb'
  by_cases hd : d = .null
  · subst hd
    cases hm
    exact none_d rfl
  · have hm' : (do match ← d.get all n!"geometric_chip" with
      | .null => pure none
      | g =>
        let rows ← SarXml.whole N (← g.path all [n!"chip_size", n!"row"])
        let cols ← SarXml.whole N (← g.path all [n!"chip_size", n!"col"])
        pure (some (⟨cols, rows, ← corner all N (← g.get all n!"original_upper_left_coordinate"), ← corner all N (← g.get all n!"original_upper_right_coordinate"),
          ← corner all N (← g.get all n!"original_lower_right_coordinate"), ← corner all N (← g.get all n!"original_lower_left_coordinate")⟩ : Verif.Updaters.Chip ℝ)) :
        Except PyErr (Option (Verif.Updaters.Chip ℝ))) = .ok g := by
      cases d with
      | null => exact absurd rfl hd
      | _ => exact hm
    obtain ⟨w, pw, hm⟩ := bind_ok hm'
    obtain ⟨u0, c0, hu0, hgood, hfind0, hb0⟩ := H.object _ [(n!"downstream_reprocessing", n!"DownstreamReprocessing")] hD (by
      show o.path all [n!"downstream_reprocessing"] = .ok d
      rw [path_cons, pd]
      rfl) hd
    by_cases hw : w = .null
    · subst hw
      cases hm
      obtain ⟨f, hf⟩ := Option.isSome_iff_exists.1 hgood
      intro u hu
      cases hu with
      | down _ k _ _ _ hk hu =>
        have hk0 : k = u0 := by
          cases hu0 with
          | down _ k0 _ _ _ e hu0 =>
            cases hu0
            rw [hk] at e
            cases e
            rfl
        subst hk0
        cases hu with
        | down _ k2 _ _ _ hk2 _ =>
          rcases step_at all H.sound K c0 hfind0 k d hb0 _ _ f hf _ pw with ⟨_, e⟩ | ⟨k', e, hr⟩
          · rw [e] at hk2; cases hk2
          · rcases hr with ⟨_, _, _, e⟩ | ⟨_, c', _, _, _, hb'⟩
            · cases e
            · obtain ⟨_, _, _, _, _, _, _, _, hb'⟩ := hb'
              obtain ⟨_, _, hb'⟩ := bind_ok hb'
              cases hb'
    · have hm' : (do
          let rows ← SarXml.whole N (← w.path all [n!"chip_size", n!"row"])
          let cols ← SarXml.whole N (← w.path all [n!"chip_size", n!"col"])
          pure (some (⟨cols, rows, ← corner all N (← w.get all n!"original_upper_left_coordinate"), ← corner all N (← w.get all n!"original_upper_right_coordinate"),
            ← corner all N (← w.get all n!"original_lower_right_coordinate"), ← corner all N (← w.get all n!"original_lower_left_coordinate")⟩ : Verif.Updaters.Chip ℝ)) :
          Except PyErr (Option (Verif.Updaters.Chip ℝ))) = .ok g := by
        cases w with
        | null => exact absurd rfl hw
        | _ => exact hm
      clear hm
      obtain ⟨v1, p1, hm⟩ := bind_ok hm'
      obtain ⟨x1, r1, hm⟩ := bind_ok hm
      obtain ⟨v2, p2, hm⟩ := bind_ok hm
      obtain ⟨x2, r2, hm⟩ := bind_ok hm
      obtain ⟨v3, p3, hm⟩ := bind_ok hm
      obtain ⟨x3, r3, hm⟩ := bind_ok hm
      obtain ⟨v4, p4, hm⟩ := bind_ok hm
      obtain ⟨x4, r4, hm⟩ := bind_ok hm
      obtain ⟨v5, p5, hm⟩ := bind_ok hm
      obtain ⟨x5, r5, hm⟩ := bind_ok hm
      obtain ⟨v6, p6, hm⟩ := bind_ok hm
      obtain ⟨x6, r6, hm⟩ := bind_ok hm
      cases hm
      have p0 : o.path all [n!"downstream_reprocessing", n!"geometric_chip"] = .ok w := by
        rw [path_cons, pd]
        show d.path all [n!"geometric_chip"] = .ok w
        rw [path_cons, pw]
        rfl
      have hp : ∀ (l : List Name) (x : Val P), w.path all l = .ok x → o.path all (n!"downstream_reprocessing" :: n!"geometric_chip" :: l) = .ok x := by
        intro l x hx
        rw [← hx]
        exact path_append all o w [n!"downstream_reprocessing", n!"geometric_chip"] l p0
      have hcorner : ∀ (py xml : Name) (v : Val P) (p : ℝ × ℝ), inChip [(py, xml), (n!"row", n!"Row")] ∈ siddNumbers → inChip [(py, xml), (n!"col", n!"Col")] ∈ siddNumbers →
          w.get all py = .ok v → corner all N v = .ok p → CornerAt (reader K N) t xml p := by
        intro py xml v p h1 h2 hv hx
        unfold corner at hx
        obtain ⟨y1, q1, hx⟩ := bind_ok hx
        obtain ⟨z1, s1, hx⟩ := bind_ok hx
        obtain ⟨y2, q2, hx⟩ := bind_ok hx
        obtain ⟨z2, s2, hx⟩ := bind_ok hx
        cases hx
        have e : ∀ n y, v.get all n = .ok y → w.path all [py, n] = .ok y := by
          intro n y hy
          rw [path_cons, hv]
          show v.path all [n] = .ok y
          rw [path_cons, hy]
          rfl
        exact ⟨H.number _ (inChip [(py, xml), (n!"col", n!"Col")]) (hN _ h2) (hp _ _ (e _ _ q1)) s1,
          H.number _ (inChip [(py, xml), (n!"row", n!"Row")]) (hN _ h1) (hp _ _ (e _ _ q2)) s2⟩
      exact ⟨H.whole (inChip [(n!"chip_size", n!"ChipSize"), (n!"row", n!"Row")]) hR (hp _ _ p1) r1,
        H.whole (inChip [(n!"chip_size", n!"ChipSize"), (n!"col", n!"Col")]) hL (hp _ _ p2) r2,
        hcorner _ _ _ _ (by simp [siddNumbers]) (by simp [siddNumbers]) p3 r3, hcorner _ _ _ _ (by simp [siddNumbers]) (by simp [siddNumbers]) p4 r4,
        hcorner _ _ _ _ (by simp [siddNumbers]) (by simp [siddNumbers]) p5 r5, hcorner _ _ _ _ (by simp [siddNumbers]) (by simp [siddNumbers]) p6 r6⟩

/-! ## Example -/

/-- The y coordinate of the scene center point of the SICD document in `Verif.Props.SarXml` is 4, and it is looked at from the left. -/
theorem demo_sicd : NumberAt (reader Verif.Props.SarXml.demoCodec Verif.Props.SarXml.demoNumbers) n!"float" Verif.Props.SarXml.demoTree [n!"GeoData", n!"SCP", n!"ECF", n!"Y"] (4 : Int) ∧
    WordAt (reader Verif.Props.SarXml.demoCodec Verif.Props.SarXml.demoNumbers) n!"ImageGridType" Verif.Props.SarXml.demoTree [n!"Grid", n!"Type"] "RGAZIM" := by
  have h := Verif.Props.SarXml.demo_read
  unfold sicdDoc at h
  obtain ⟨m, h1, h⟩ := bind_ok h
  obtain ⟨im, _, h⟩ := bind_ok h
  cases h
  have := sicd_reads Verif.Props.SarXml.demoCodec Verif.Props.SarXml.demoNumbers _ _ _ _ _ Verif.Props.SarXml.demo_parses _ h1
  refine ⟨this.scp.2.1, ?_⟩
  obtain ⟨w, hw, e, _⟩ := this.grid
  rw [e.1 rfl] at hw
  exact hw

/-- The SIDD document in `Verif.Props.SiddXml` has no chip. -/
theorem demo_sidd (u : Tree) : ¬ At Verif.Props.SiddXml.demoTree [n!"DownstreamReprocessing", n!"GeometricChip"] u := by
  have h := Verif.Props.SiddXml.demo_read
  unfold siddDoc at h
  obtain ⟨m, _, h⟩ := bind_ok h
  obtain ⟨g, h1, h⟩ := bind_ok h
  cases h
  exact sidd_chip_reads Verif.Props.SarXml.demoCodec Verif.Props.SarXml.demoNumbers _ _ _ _ _ Verif.Props.SiddXml.demo_parses _ h1 u

end Verif.Props.XmlPaths
