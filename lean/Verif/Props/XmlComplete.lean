import Verif.Props.XmlPaths

/-!
# Documents load exactly when the elements are there
-/

namespace Verif.Props.XmlComplete

open Verif Verif.Xsdata Verif.SarXml Verif.Props.Xsdata Verif.Props.Objects Verif.Props.XmlPaths Verif.Spec.XmlPath

variable {P : Type} [DecidableEq P]

set_option linter.unusedSectionVars false

/-! ## From elements to attributes -/

/-- The class has neither the attribute nor an element of the local name. -/
def misses (c : Class) (s : Name × Name) : Bool := c.fields.all (fun f => !(f.kind = .element && Nat.beq f.xml s.2))

/-- Objects of the given classes that have the elements of the path also have the attributes. -/
def walks (S : Schema) (good : Field → Bool) : List Class → List (Name × Name) → Bool
  | _, [] => false
  | cs, [s] => cs.all (fun c => misses c s || match step c s.1 s.2 with | some f => good f | none => false)
  | cs, s :: r :: ss => cs.all (fun c => misses c s || match step c s.1 s.2 with
    | some f => (match f.ty with | .cls d => walks S good (possible S d) (r :: ss) | .plain _ => false)
    | none => false)

theorem misses_named (S : Schema) (K : Codec P) (c : Class) (t : Tree) (v : Val P) (h : Binds S K c t v) (s : Name × Name) (hm : misses c s = true) (k : Tree)
    (hk : k ∈ named s.2 t) : False := by
  obtain ⟨tag, xsi, ats, txt, ts, ks, rfl, hb, -⟩ := h
  have hk' := List.mem_filter.1 hk
  have hall := kids_bound S K c ts ks hb
  have hex : ∀ (l : List Tree) (m : List (QName × Val P)), List.Forall₂ (fun t k => k.1 = t.tag ∧ bindKid S K c t = .ok k.2) l m → k ∈ l → ∃ w, bindKid S K c k = .ok w := by
    intro l m h
    induction h with
    | nil => intro h; cases h
    | cons h _ ih =>
      intro hmem
      rcases List.mem_cons.1 hmem with rfl | h'
      · exact ⟨_, h.2⟩
      · exact ih h'
  obtain ⟨w, hw⟩ := hex ts ks hall hk'.1
  have htag := hk'.2
  obtain ⟨tg, x, a, s', l⟩ := k
  have htag : tg.2 = s.2 := of_decide_eq_true htag
  rw [bindKid] at hw
  cases he : c.element tg with
  | none => rw [he] at hw; cases hw
  | some g =>
    have hg := List.find?_some he
    simp only [decide_eq_true_eq] at hg
    have hmem := List.mem_of_find?_eq_some he
    unfold misses at hm
    rw [List.all_eq_true] at hm
    have := hm g hmem
    have hx : g.xml = s.2 := by
      have : g.tag.2 = s.2 := by rw [hg.2]; exact htag
      exact this
    rw [hg.1, hx, beq_eq] at this
    simp at this

/-- An object of a class with the attribute has a value of it. -/
theorem get_some (S : Schema) (K : Codec P) (c : Class) (hc : S.find c.name = some c) (t : Tree) (v : Val P) (h : Binds S K c t v) (n : Name) (f : Field)
    (hf : c.fields.find? (fun f => Nat.beq f.py n) = some f) : ∃ w, v.get S n = .ok w := by
  obtain ⟨tag, xsi, ats, txt, ts, ks, rfl, hb, h⟩ := h
  unfold assemble at h
  cases hm : c.fields.mapM (Field.bind K ats txt ks) with
  | error e => rw [hm] at h; cases h
  | ok vs =>
    rw [hm] at h
    cases h
    simp only [beq_eq] at hf
    obtain ⟨i, b, h1, _, h3, h4, _⟩ := forall₂_place _ _ _ _ (forall₂_of_mapM _ _ _ hm) f hf
    refine ⟨b, ?_⟩
    rw [Val.get, Schema.place, fields_find S _ c hc, h1]
    simp only [Option.bind_some, h3]

theorem step_field (c : Class) (n x : Name) (f : Field) (h : step c n x = some f) : c.fields.find? (fun f => Nat.beq f.py n) = some f := by
  unfold step at h
  split at h
  · next g hg =>
    split at h
    · cases h; exact hg
    · cases h
  · cases h

theorem step_back (S : Schema) (hS : Sound S = true) (K : Codec P) (c : Class) (hc : S.find c.name = some c) (t : Tree) (v : Val P) (h : Binds S K c t v) (n x : Name) (f : Field)
    (hf : step c n x = some f) (k : Tree) (hk : named x t = [k]) : ∃ w, v.get S n = .ok w ∧ Read S K f k w := by
  obtain ⟨w, hw⟩ := get_some S K c hc t v h n f (step_field c n x f hf)
  rcases step_at S hS K c hc t v h n x f hf w hw with ⟨_, e⟩ | ⟨k', e, hr⟩
  · rw [hk] at e; cases e
  · rw [hk] at e; cases e; exact ⟨w, hw, hr⟩

/-- **C165**: where the document has the element, the object has the attribute, read from it. -/
theorem path_of_at (S : Schema) (hS : Sound S = true) (K : Codec P) (good : Field → Bool) : ∀ (ss : List (Name × Name)) (cs : List Class), walks S good cs ss = true → ∀ c ∈ cs,
    S.find c.name = some c → ∀ (t u : Tree) (v : Val P), Binds S K c t v → At t (ss.map Prod.snd) u →
    ∃ w f, v.path S (ss.map Prod.fst) = .ok w ∧ good f = true ∧ Read S K f u w
  | [], _, h, _, _, _, _, _, _, _, _ => by simp [walks] at h
  | [s], cs, h, c, hc, hfind, t, u, v, hb, hat => by
    rw [walks, List.all_eq_true] at h
    have := h c hc
    rw [Bool.or_eq_true] at this
    cases hat with
    | down _ k _ _ _ hk hrest =>
      cases hrest
      have := this.resolve_left (fun hl => misses_named S K c t v hb s hl u (by rw [hk]; simp))
      cases hf : step c s.1 s.2 with
      | none => rw [hf] at this; cases this
      | some f =>
        rw [hf] at this
        obtain ⟨w, hw, hr⟩ := step_back S hS K c hfind t v hb s.1 s.2 f hf u hk
        refine ⟨w, f, ?_, this, hr⟩
        rw [List.map_cons, List.map_nil, path_cons, hw]
        rfl
  | s :: r :: ss, cs, h, c, hc, hfind, t, u, v, hb, hat => by
    rw [walks, List.all_eq_true] at h
    have := h c hc
    rw [Bool.or_eq_true] at this
    cases hat with
    | down _ k _ _ _ hk hrest =>
      have := this.resolve_left (fun hl => misses_named S K c t v hb s hl k (by rw [hk]; simp))
      cases hf : step c s.1 s.2 with
      | none => rw [hf] at this; cases this
      | some f =>
        rw [hf] at this
        obtain ⟨x, hx, hr⟩ := step_back S hS K c hfind t v hb s.1 s.2 f hf k hk
        cases hty : f.ty with
        | plain _ => simp [hty] at this
        | cls d =>
          simp only [hty] at this
          rcases hr with ⟨types, e, _⟩ | ⟨d', c', e, hpos, hfind', hb'⟩
          · rw [hty] at e; cases e
          · rw [hty] at e
            cases e
            obtain ⟨w, g, h3, h4, h5⟩ := path_of_at S hS K good (r :: ss) _ this c' hpos hfind' k u x hb' hrest
            refine ⟨w, g, ?_, h4, h5⟩
            rw [List.map_cons, path_cons, hx]
            exact h3

/-! ## Numbers, vectors and polynomials -/

theorem ok_bind {α β : Type} (a : α) (g : α → Except PyErr β) : (Except.ok a >>= g) = g a := rfl

variable {S : Schema} {K : Codec P} {N : Numbers P} {cs : List Class} {t : Tree} {v : Val P}

theorem plain_of (H : Here S K cs t v) (type : Name) (ss : List (Name × Name)) (h : walks S (holds type) cs ss = true) {u : Tree} (hat : At t (ss.map Prod.snd) u) :
    v.path S (ss.map Prod.fst) = .ok (.plain (K.read [type] (textIn u))) := by
  obtain ⟨c, hc, hfind, hb⟩ := H.read
  obtain ⟨w, f, h1, h2, h3⟩ := path_of_at S H.sound K _ ss cs h c hc hfind t u v hb hat
  have hty := holds_ty type f h2
  rcases h3 with ⟨types, e, _, h5⟩ | ⟨d, c', e, _⟩
  · rw [hty] at e; cases e; rw [h1, h5]
  · rw [hty] at e; cases e

theorem number_of (H : Here S K cs t v) (type : Name) (ss : List (Name × Name)) (h : walks S (holds type) cs ss = true) {x : ℝ}
    (hx : NumberAt (reader K N) type t (ss.map Prod.snd) x) : (do num N (← v.path S (ss.map Prod.fst))) = .ok x := by
  obtain ⟨u, h1, _, h3⟩ := hx
  rw [plain_of H type ss h h1]
  rw [ok_bind]
  unfold num
  have h3 : N.real (K.read [type] (textIn u)) = some x := h3
  simp only [h3]

theorem whole_of (H : Here S K cs t v) (ss : List (Name × Name)) (h : walks S (holds n!"int") cs ss = true) {x : Int}
    (hx : WholeAt (reader K N) t (ss.map Prod.snd) x) : (do whole N (← v.path S (ss.map Prod.fst))) = .ok x := by
  obtain ⟨u, h1, _, h3⟩ := hx
  rw [plain_of H _ ss h h1]
  rw [ok_bind]
  unfold whole
  have h3 : N.int (K.read [n!"int"] (textIn u)) = some x := h3
  simp only [h3]

theorem word_of (H : Here S K cs t v) (type : Name) (ss : List (Name × Name)) (h : walks S (holds type) cs ss = true) {x : String}
    (hx : WordAt (reader K N) type t (ss.map Prod.snd) x) : (do member N (← v.path S (ss.map Prod.fst))) = .ok x := by
  obtain ⟨u, h1, _, h3⟩ := hx
  rw [plain_of H _ ss h h1]
  rw [ok_bind]
  unfold member
  have h3 : N.enum (K.read [type] (textIn u)) = some x := h3
  simp only [h3]

theorem at_append (t u : Tree) : ∀ (p q : List Name), At t (p ++ q) u → ∃ k, At t p k ∧ At k q u := by
  intro p
  induction p generalizing t with
  | nil => exact fun q h => ⟨t, .here t, h⟩
  | cons n p ih =>
    intro q h
    cases h with
    | down _ k _ _ _ hk hr =>
      obtain ⟨x, h1, h2⟩ := ih k q hr
      exact ⟨x, .down t k x n p hk h1, h2⟩

/-- The attribute in front of the last one. -/
theorem path_front (S : Schema) (v x : Val P) : ∀ (ns : List Name) (n : Name), v.path S (ns ++ [n]) = .ok x → ∃ w, v.path S ns = .ok w ∧ w.get S n = .ok x := by
  intro ns
  induction ns generalizing v with
  | nil =>
    intro n h
    rw [List.nil_append, path_cons] at h
    obtain ⟨y, hy, h⟩ := bind_ok h
    rw [path_nil] at h
    cases h
    exact ⟨v, path_nil S v, hy⟩
  | cons m ns ih =>
    intro n h
    rw [List.cons_append, path_cons] at h
    obtain ⟨y, hy, h⟩ := bind_ok h
    obtain ⟨w, h1, h2⟩ := ih y n h
    refine ⟨w, ?_, h2⟩
    rw [path_cons, hy]
    exact h1

theorem path_same {a b : Val P} {ns : List Name} (ha : v.path S ns = .ok a) (hb : v.path S ns = .ok b) : a = b := by
  rw [ha] at hb; cases hb; rfl

/-- The paths of a vector. -/
def walksXyz (S : Schema) (cs : List Class) (ss : List (Name × Name)) : Bool :=
  walks S (holds n!"float") cs (ss ++ [(n!"x", n!"X")]) && walks S (holds n!"float") cs (ss ++ [(n!"y", n!"Y")]) && walks S (holds n!"float") cs (ss ++ [(n!"z", n!"Z")])

theorem num_path {ns : List Name} {x : ℝ} (h : (do num N (← v.path S ns)) = .ok x) : ∃ w, v.path S ns = .ok w ∧ num N w = .ok x := bind_ok h

theorem vector_of (H : Here S K cs t v) (ss : List (Name × Name)) (h : walksXyz S cs ss = true) {p : Verif.Sicd.V3}
    (hx : VectorAt (reader K N) t (ss.map Prod.snd) p) : (do xyz S N (← v.path S (ss.map Prod.fst))) = .ok p := by
  unfold walksXyz at h
  simp only [Bool.and_eq_true] at h
  obtain ⟨⟨h1, h2⟩, h3⟩ := h
  obtain ⟨e1, e2, e3⟩ := hx
  obtain ⟨a1, p1, n1⟩ := num_path (number_of H _ _ h1 (by rw [List.map_append]; exact e1))
  obtain ⟨a2, p2, n2⟩ := num_path (number_of H _ _ h2 (by rw [List.map_append]; exact e2))
  obtain ⟨a3, p3, n3⟩ := num_path (number_of H _ _ h3 (by rw [List.map_append]; exact e3))
  rw [List.map_append] at p1 p2 p3
  obtain ⟨w1, q1, g1⟩ := path_front S v _ _ _ p1
  obtain ⟨w2, q2, g2⟩ := path_front S v _ _ _ p2
  obtain ⟨w3, q3, g3⟩ := path_front S v _ _ _ p3
  cases path_same q1 q2
  cases path_same q1 q3
  rw [q1, ok_bind]
  unfold xyz
  simp only [g1, g2, g3, ok_bind, n1, n2, n3]
  rfl

theorem attribute_of (c : Class) (hfind : S.find c.name = some c) (hb : Binds S K c t v) (n : Name) (ha : wholeAttribute c n = true) {x : Int}
    (hx : (attrIn n t).bind (reader K N).int = some x) : ∃ w, v.get S n = .ok w ∧ whole N w = .ok x := by
  have hb0 := hb
  obtain ⟨tag, xsi, ats, txt, ts, ks, rfl, hb, has⟩ := hb
  unfold wholeAttribute at ha
  cases hf : c.fields.find? (fun f => Nat.beq f.py n) with
  | none => rw [hf] at ha; cases ha
  | some f =>
    rw [hf] at ha
    simp only [Bool.and_eq_true, decide_eq_true_eq, Bool.not_eq_true', beq_eq, Option.isNone_iff_eq_none] at ha
    obtain ⟨⟨⟨⟨⟨⟨hk, hm⟩, hd⟩, hi⟩, hns⟩, hxml⟩, hty⟩ := ha
    have hty := holds_ty _ f hty
    obtain ⟨w, hg⟩ := get_some S K c hfind _ v hb0 n f hf
    refine ⟨w, hg, ?_⟩
    have hbind := get_bound S K c hfind ats txt ks v has n f hf w hg
    unfold Field.bind at hbind
    have htag : f.tag = (0, n) := by unfold Field.tag; rw [hns, hxml]
    simp only [hk, htag, hi, if_true] at hbind
    change (Option.map Prod.snd (ats.find? (fun a => decide (a.1 = (0, n))))).bind _ = _ at hx
    cases hfa : ats.find? (fun a => decide (a.1 = (0, n))) with
    | none => rw [hfa] at hx; cases hx
    | some a =>
      rw [hfa] at hbind hx
      simp only [Field.value, hm, Field.types, hty, Bool.false_eq_true, if_false] at hbind
      cases hbind
      unfold whole
      have hx : N.int (K.read [n!"int"] a.2) = some x := hx
      simp only [hx]

/-- The empty text is no number (Python's `float("")` raises, and xsdata keeps the text). -/
def EmptyIsNoNumber (R : Reader) : Prop := R.real n!"float" "" = none

theorem text_of (he : EmptyIsNoNumber (reader K N)) (c : Class) (hfind : S.find c.name = some c) (hb : Binds S K c t v) (n : Name) (ha : numberText c n = true) {x : ℝ}
    (hx : (reader K N).real n!"float" (textIn t) = some x) : ∃ w, v.get S n = .ok w ∧ num N w = .ok x := by
  have hb0 := hb
  obtain ⟨tag, xsi, ats, txt, ts, ks, rfl, hb, has⟩ := hb
  unfold numberText at ha
  cases hf : c.fields.find? (fun f => Nat.beq f.py n) with
  | none => rw [hf] at ha; cases ha
  | some f =>
    rw [hf] at ha
    simp only [Bool.and_eq_true, decide_eq_true_eq, Bool.not_eq_true', Option.isNone_iff_eq_none] at ha
    obtain ⟨⟨⟨hk, hm⟩, hd⟩, hty⟩ := ha
    have hty := holds_ty _ f hty
    obtain ⟨w, hg⟩ := get_some S K c hfind _ v hb0 n f hf
    refine ⟨w, hg, ?_⟩
    have hbind := get_bound S K c hfind ats txt ks v has n f hf w hg
    unfold Field.bind at hbind
    simp only [hk] at hbind
    change (reader K N).real n!"float" txt = some x at hx
    have hne : txt ≠ "" := by
      rintro rfl
      rw [he] at hx
      cases hx
    rw [if_neg hne] at hbind
    simp only [Field.value, hm, Field.types, hty, Bool.false_eq_true, if_false] at hbind
    cases hbind
    unfold num
    have hx : N.real (K.read [n!"float"] txt) = some x := hx
    simp only [hx]

theorem coef_get (c : Class) (good : Class → Bool) (hfind : S.find c.name = some c) (hb : Binds S K c t v) (ha : coefList S good c = true) :
    ∃ l, v.get S n!"coef" = .ok (.many l) := by
  have hb0 := hb
  obtain ⟨tag, xsi, ats, txt, ts, ks, rfl, hb, has⟩ := hb
  unfold coefList at ha
  cases hf : c.fields.find? (fun f => Nat.beq f.py n!"coef") with
  | none => rw [hf] at ha; cases ha
  | some f =>
    rw [hf] at ha
    simp only [Bool.and_eq_true, decide_eq_true_eq] at ha
    obtain ⟨⟨⟨⟨hk, hm⟩, _⟩, _⟩, _⟩ := ha
    obtain ⟨w, hg⟩ := get_some S K c hfind _ v hb0 _ f hf
    have hbind := get_bound S K c hfind ats txt ks v has _ f hf w hg
    unfold Field.bind at hbind
    simp only [hk, hm, if_true] at hbind
    cases hbind
    exact ⟨_, hg⟩

theorem mapM_of_forall₂ {α β : Type} (g : α → Except PyErr β) : ∀ (l : List α) (m : List β), List.Forall₂ (fun a b => g a = .ok b) l m → l.mapM g = .ok m
  | [], [], .nil => rfl
  | a :: l, b :: m, .cons h1 h2 => by
    rw [List.mapM_cons, h1, mapM_of_forall₂ g l m h2]
    rfl

/-- Lists whose entries correspond to those of a third one. -/
theorem forall₂_join {α β γ : Type} (R : α → β → Prop) (Q : α → γ → Prop) (T : β → γ → Prop) (h : ∀ a b c, R a b → Q a c → T b c) : ∀ (l : List α) (m : List β) (n : List γ),
    List.Forall₂ R l m → List.Forall₂ Q l n → List.Forall₂ T m n
  | [], [], [], .nil, .nil => .nil
  | a :: l, b :: m, c :: n, .cons h1 h2, .cons h3 h4 => .cons (h a b c h1 h3) (forall₂_join R Q T h l m n h2 h4)

theorem poly1_back (hS : Sound S = true) (he : EmptyIsNoNumber (reader K N)) (c : Class) (hfind : S.find c.name = some c) (hb : Binds S K c t v) (ha : isPoly1 S c = true)
    {p : Verif.Sicd.Poly1} (hx : Poly1In (reader K N) t p.order p.coef) : poly1 S N v = .ok p := by
  unfold isPoly1 at ha
  simp only [Bool.and_eq_true] at ha
  obtain ⟨w1, g1, n1⟩ := attribute_of (N := N) c hfind hb _ ha.1 hx.1
  obtain ⟨l, gl⟩ := coef_get c _ hfind hb ha.2
  have hl := coef_ok hS _ c hfind hb ha.2 gl rfl
  have hm : l.mapM (fun c => do pure (← whole N (← c.get S n!"exponent1"), ← num N (← c.get S n!"value"))) = .ok p.coef := by
    refine mapM_of_forall₂ _ _ _ (forall₂_join _ _ _ ?_ _ _ _ hl hx.2)
    rintro k x e ⟨c', h1, h2, h3⟩ ⟨e1, e2⟩
    simp only [Bool.and_eq_true] at h1
    obtain ⟨a1, q1, r1⟩ := attribute_of (N := N) c' h2 h3 _ h1.1 e1
    obtain ⟨a2, q2, r2⟩ := text_of (N := N) he c' h2 h3 _ h1.2 e2
    rw [q1, q2]
    show (do let x ← whole N a1; let y ← num N a2; pure (x, y)) = _
    rw [r1, r2]
    rfl
  unfold poly1
  rw [g1, gl]
  simp only [ok_bind, n1, entries, hm]
  rfl

theorem poly2_back (hS : Sound S = true) (he : EmptyIsNoNumber (reader K N)) (c : Class) (hfind : S.find c.name = some c) (hb : Binds S K c t v) (ha : isPoly2 S c = true)
    {p : Verif.Sicd.Poly2} (hx : Poly2In (reader K N) t p.order1 p.order2 p.coef) : poly2 S N v = .ok p := by
  unfold isPoly2 at ha
  simp only [Bool.and_eq_true] at ha
  obtain ⟨w1, g1, n1⟩ := attribute_of (N := N) c hfind hb _ ha.1.1 hx.1
  obtain ⟨w2, g2, n2⟩ := attribute_of (N := N) c hfind hb _ ha.1.2 hx.2.1
  obtain ⟨l, gl⟩ := coef_get c _ hfind hb ha.2
  have hl := coef_ok hS _ c hfind hb ha.2 gl rfl
  have hm : l.mapM (fun c => do pure (← whole N (← c.get S n!"exponent1"), ← whole N (← c.get S n!"exponent2"), ← num N (← c.get S n!"value"))) = .ok p.coef := by
    refine mapM_of_forall₂ _ _ _ (forall₂_join _ _ _ ?_ _ _ _ hl hx.2.2)
    rintro k x e ⟨c', h1, h2, h3⟩ ⟨e1, e2, e3⟩
    simp only [Bool.and_eq_true] at h1
    obtain ⟨a1, q1, r1⟩ := attribute_of (N := N) c' h2 h3 _ h1.1.1 e1
    obtain ⟨a2, q2, r2⟩ := attribute_of (N := N) c' h2 h3 _ h1.1.2 e2
    obtain ⟨a3, q3, r3⟩ := text_of (N := N) he c' h2 h3 _ h1.2 e3
    rw [q1, q2, q3]
    show (do let x ← whole N a1; let y ← whole N a2; let z ← num N a3; pure (x, y, z)) = _
    rw [r1, r2, r3]
    rfl
  unfold poly2
  rw [g1, g2, gl]
  simp only [ok_bind, n1, n2, entries, hm]
  rfl

theorem object_of (H : Here S K cs t v) (good : Class → Bool) (ss : List (Name × Name)) (h : walks S (ofClass S good) cs ss = true) {u : Tree}
    (hat : At t (ss.map Prod.snd) u) : ∃ w c, v.path S (ss.map Prod.fst) = .ok w ∧ good c = true ∧ S.find c.name = some c ∧ Binds S K c u w := by
  obtain ⟨c, hc, hfind, hb⟩ := H.read
  obtain ⟨w, f, h1, h2, h3⟩ := path_of_at S H.sound K _ ss cs h c hc hfind t u v hb hat
  unfold ofClass at h2
  rcases h3 with ⟨types, e, _⟩ | ⟨d, c', e, h4, h5, h6⟩
  · rw [e] at h2; cases h2
  · rw [e] at h2
    simp only [List.all_eq_true] at h2
    exact ⟨w, c', h1, h2 c' h4, h5, h6⟩

theorem poly1_of (H : Here S K cs t v) (he : EmptyIsNoNumber (reader K N)) (ss : List (Name × Name)) (h : walks S (ofClass S (isPoly1 S)) cs ss = true) {p : Verif.Sicd.Poly1}
    (hx : Poly1At (reader K N) t (ss.map Prod.snd) p.order p.coef) : (do poly1 S N (← v.path S (ss.map Prod.fst))) = .ok p := by
  obtain ⟨u, h1, h2⟩ := hx
  obtain ⟨w, c, h3, h4, h5, h6⟩ := object_of H _ ss h h1
  rw [h3]
  exact poly1_back H.sound he c h5 h6 h4 h2

theorem poly2_of (H : Here S K cs t v) (he : EmptyIsNoNumber (reader K N)) (ss : List (Name × Name)) (h : walks S (ofClass S (isPoly2 S)) cs ss = true) {p : Verif.Sicd.Poly2}
    (hx : Poly2At (reader K N) t (ss.map Prod.snd) p.order1 p.order2 p.coef) : (do poly2 S N (← v.path S (ss.map Prod.fst))) = .ok p := by
  obtain ⟨u, h1, h2⟩ := hx
  obtain ⟨w, c, h3, h4, h5, h6⟩ := object_of H _ ss h h1
  rw [h3]
  exact poly2_back H.sound he c h5 h6 h4 h2

/-- The paths of a curve. -/
def walksCurve (S : Schema) (cs : List Class) (ss : List (Name × Name)) : Bool :=
  walks S (ofClass S (isPoly1 S)) cs (ss ++ [(n!"x", n!"X")]) && walks S (ofClass S (isPoly1 S)) cs (ss ++ [(n!"y", n!"Y")]) &&
  walks S (ofClass S (isPoly1 S)) cs (ss ++ [(n!"z", n!"Z")])

theorem curve_of (H : Here S K cs t v) (he : EmptyIsNoNumber (reader K N)) (ss : List (Name × Name)) (h : walksCurve S cs ss = true) {p : Verif.Sicd.XyzPoly}
    (hx : CurveAt (reader K N) t (ss.map Prod.snd) p) : (do xyzPoly S N (← v.path S (ss.map Prod.fst))) = .ok p := by
  unfold walksCurve at h
  simp only [Bool.and_eq_true] at h
  obtain ⟨⟨h1, h2⟩, h3⟩ := h
  obtain ⟨e1, e2, e3⟩ := hx
  obtain ⟨a1, p1, n1⟩ := bind_ok (poly1_of H he _ h1 (by rw [List.map_append]; exact e1))
  obtain ⟨a2, p2, n2⟩ := bind_ok (poly1_of H he _ h2 (by rw [List.map_append]; exact e2))
  obtain ⟨a3, p3, n3⟩ := bind_ok (poly1_of H he _ h3 (by rw [List.map_append]; exact e3))
  rw [List.map_append] at p1 p2 p3
  obtain ⟨w1, q1, g1⟩ := path_front S v _ _ _ p1
  obtain ⟨w2, q2, g2⟩ := path_front S v _ _ _ p2
  obtain ⟨w3, q3, g3⟩ := path_front S v _ _ _ p3
  cases path_same q1 q2
  cases path_same q1 q3
  rw [q1, ok_bind]
  unfold xyzPoly
  simp only [g1, g2, g3, ok_bind, n1, n2, n3]
  rfl

/-! ## SICD -/

set_option maxRecDepth 100000 in
theorem sicd_walks : (sicdVectors.all (walksXyz Verif.Schema.all sicds) && sicdPoly1s.all (walks Verif.Schema.all (ofClass Verif.Schema.all (isPoly1 Verif.Schema.all)) sicds) &&
    sicdPoly2s.all (walks Verif.Schema.all (ofClass Verif.Schema.all (isPoly2 Verif.Schema.all)) sicds) && sicdPlain.all (fun p => walks Verif.Schema.all (holds p.2) sicds p.1) &&
    walksCurve Verif.Schema.all sicds [(n!"position", n!"Position"), (n!"arppoly", n!"ARPPoly")]) = true := by decide +kernel

set_option maxRecDepth 100000 in
theorem sidd_walks : (siddVectors.all (walksXyz Verif.Schema.all sidds) && siddNumbers.all (walks Verif.Schema.all (holds n!"float") sidds) &&
    walks Verif.Schema.all (ofClass Verif.Schema.all (isPoly2 Verif.Schema.all)) sidds (inPlane [(n!"time_coapoly", n!"TimeCOAPoly")]) &&
    walksCurve Verif.Schema.all sidds [(n!"measurement", n!"Measurement"), (n!"arppoly", n!"ARPPoly")] &&
    walks Verif.Schema.all (holds n!"int") sidds (inChip [(n!"chip_size", n!"ChipSize"), (n!"row", n!"Row")]) &&
    walks Verif.Schema.all (holds n!"int") sidds (inChip [(n!"chip_size", n!"ChipSize"), (n!"col", n!"Col")])) = true := by decide +kernel

/-- What is in a SICD document, and nothing else: with `SicdFrom`, what is there for one kind of projection is taken, the algorithm counts for RGAZIM grids only, and the first
row and column are read apart from the rest. -/
structure SicdIs (R : Reader) (t : Tree) (m : Verif.Sicd.Meta) : Prop where
  from_ : SicdFrom R t m
  firstRow : m.firstRow = 0
  firstCol : m.firstCol = 0
  algo : m.gridType ≠ .rgazim → m.algo = .other
  pfa : ∀ (n : Verif.Sicd.V3) (a k : Verif.Sicd.Poly1), VectorAt R t [n!"PFA", n!"FPN"] n → Poly1At R t [n!"PFA", n!"PolarAngPoly"] a.order a.coef →
    Poly1At R t [n!"PFA", n!"SpatialFreqSFPoly"] k.order k.coef → m.pfa = some (n, a, k)
  rgAzComp : ∀ a, NumberAt R n!"float" t [n!"RgAzComp", n!"AzSF"] a → m.rgAzComp = some a
  inca : ∀ (r : ℝ) (c : Verif.Sicd.Poly1) (d : Verif.Sicd.Poly2), NumberAt R n!"float" t [n!"RMA", n!"INCA", n!"R_CA_SCP"] r →
    Poly1At R t [n!"RMA", n!"INCA", n!"TimeCAPoly"] c.order c.coef → Poly2At R t [n!"RMA", n!"INCA", n!"DRateSFPoly"] d.order1 d.order2 d.coef → m.inca = some (r, c, d)

theorem grid_unique (w : String) (g : Verif.Sicd.GridType) (h : (g = .rgazim ↔ w = "RGAZIM") ∧ (g = .rgzero ↔ w = "RGZERO") ∧ (g = .xrgycr ↔ w = "XRGYCR") ∧
    (g = .xctyat ↔ w = "XCTYAT") ∧ (g = .plane ↔ w = "PLANE")) : gridType w = g := by
  have h' := grid_types w
  rw [← h.1, ← h.2.1, ← h.2.2.1, ← h.2.2.2.1, ← h.2.2.2.2] at h'
  cases g <;> cases hw : gridType w <;> simp_all

theorem algo_unique (w : String) (g : Verif.Sicd.Algo) (h : (g = .pfa ↔ w = "PFA") ∧ (g = .rma ↔ w = "RMA") ∧ (g = .rgazcomp ↔ w = "RGAZCOMP")) : algo w = g := by
  have h' := algos w
  rw [← h.1, ← h.2.1, ← h.2.2] at h'
  cases g <;> cases hw : algo w <;> simp_all

theorem toOption_eq {α : Type} (x : Except PyErr α) (o : Option α) (h : ∀ a, x = .ok a ↔ o = some a) : x.toOption = o := by
  cases x with
  | ok a => exact ((h a).1 rfl).symm
  | error e =>
    cases o with
    | none => rfl
    | some a => exact absurd ((h a).2 rfl) (by simp)

open Verif.Schema in
/-- **C165**: a SICD document that has the elements is read, and gives what they say. -/
theorem sicd_complete (K : Codec P) (N : Numbers P) (he : EmptyIsNoNumber (reader K N)) (ns : Name) (ats : List (QName × String)) (txt : String) (ts : List Tree) (o : Val P)
    (h : parse all K (.node (ns, n!"SICD") none ats txt ts) = .ok o) (m : Verif.Sicd.Meta) (hm : SicdIs (reader K N) (.node (ns, n!"SICD") none ats txt ts) m) :
    sicdRest all N o = .ok m := by
  have H := sicd_here K ns ats txt ts o h
  have hw := sicd_walks
  simp only [Bool.and_eq_true, List.all_eq_true] at hw
  obtain ⟨⟨⟨⟨wV, w1⟩, w2⟩, wP⟩, wC⟩ := hw
  have hf := sicd_follows
  simp only [Bool.and_eq_true, List.all_eq_true] at hf
  obtain ⟨⟨⟨⟨hV, h1⟩, h2⟩, hP⟩, hC⟩ := hf
  generalize Xsdata.Tree.node (ns, n!"SICD") none ats txt ts = t at H hm ⊢
  obtain ⟨hF, e1, e2, eA, ePfa, eAz, eInca⟩ := hm
  obtain ⟨v1, p1, r1⟩ := bind_ok (vector_of H [(n!"geo_data", n!"GeoData"), (n!"scp", n!"SCP"), (n!"ecf", n!"ECF")] (wV _ (by simp [sicdVectors])) hF.scp)
  obtain ⟨v2, p2, r2⟩ := bind_ok (number_of H _ [(n!"image_data", n!"ImageData"), (n!"scppixel", n!"SCPPixel"), (n!"col", n!"Col")]
    (wP ([(n!"image_data", n!"ImageData"), (n!"scppixel", n!"SCPPixel"), (n!"col", n!"Col")], n!"int") (by simp [sicdPlain])) hF.scpCol)
  obtain ⟨v3, p3, r3⟩ := bind_ok (number_of H _ [(n!"image_data", n!"ImageData"), (n!"scppixel", n!"SCPPixel"), (n!"row", n!"Row")]
    (wP ([(n!"image_data", n!"ImageData"), (n!"scppixel", n!"SCPPixel"), (n!"row", n!"Row")], n!"int") (by simp [sicdPlain])) hF.scpRow)
  obtain ⟨v4, p4, r4⟩ := bind_ok (poly2_of H he [(n!"grid", n!"Grid"), (n!"time_coapoly", n!"TimeCOAPoly")] (w2 _ (by simp [sicdPoly2s])) hF.time)
  obtain ⟨v5, p5, r5⟩ := bind_ok (curve_of H he [(n!"position", n!"Position"), (n!"arppoly", n!"ARPPoly")] wC hF.arp)
  obtain ⟨v6, p6, r6⟩ := bind_ok (vector_of H [(n!"grid", n!"Grid"), (n!"row", n!"Row"), (n!"uvect_ecf", n!"UVectECF")] (wV _ (by simp [sicdVectors])) hF.uRow)
  obtain ⟨v7, p7, r7⟩ := bind_ok (vector_of H [(n!"grid", n!"Grid"), (n!"col", n!"Col"), (n!"uvect_ecf", n!"UVectECF")] (wV _ (by simp [sicdVectors])) hF.uCol)
  obtain ⟨v8, p8, r8⟩ := bind_ok (number_of H _ [(n!"grid", n!"Grid"), (n!"row", n!"Row"), (n!"ss", n!"SS")]
    (wP ([(n!"grid", n!"Grid"), (n!"row", n!"Row"), (n!"ss", n!"SS")], n!"float") (by simp [sicdPlain])) hF.rowSS)
  obtain ⟨v9, p9, r9⟩ := bind_ok (number_of H _ [(n!"grid", n!"Grid"), (n!"col", n!"Col"), (n!"ss", n!"SS")]
    (wP ([(n!"grid", n!"Grid"), (n!"col", n!"Col"), (n!"ss", n!"SS")], n!"float") (by simp [sicdPlain])) hF.colSS)
  obtain ⟨g, hg, hgt⟩ := hF.grid
  obtain ⟨v10, p10, r10⟩ := bind_ok (word_of H _ [(n!"grid", n!"Grid"), (n!"type_value", n!"Type")]
    (wP ([(n!"grid", n!"Grid"), (n!"type_value", n!"Type")], n!"ImageGridType") (by simp [sicdPlain])) hg)
  obtain ⟨v11, p11, r11⟩ := bind_ok (vector_of H [(n!"scpcoa", n!"SCPCOA"), (n!"arppos", n!"ARPPos")] (wV _ (by simp [sicdVectors])) hF.arpPos)
  obtain ⟨v12, p12, r12⟩ := bind_ok (vector_of H [(n!"scpcoa", n!"SCPCOA"), (n!"arpvel", n!"ARPVel")] (wV _ (by simp [sicdVectors])) hF.arpVel)
  obtain ⟨sd, hs, hsd⟩ := hF.side
  obtain ⟨v13, p13, r13⟩ := bind_ok (word_of H _ [(n!"scpcoa", n!"SCPCOA"), (n!"side_of_track", n!"SideOfTrack")]
    (wP ([(n!"scpcoa", n!"SCPCOA"), (n!"side_of_track", n!"SideOfTrack")], n!"SideOfTrack") (by simp [sicdPlain])) hs)
  have hpfa : (do pure (← xyz all N (← o.path all [n!"pfa", n!"fpn"]), ← SarXml.poly1 all N (← o.path all [n!"pfa", n!"polar_ang_poly"]),
      ← SarXml.poly1 all N (← o.path all [n!"pfa", n!"spatial_freq_sfpoly"])) : Except PyErr _).toOption = m.pfa := by
    refine toOption_eq _ _ ?_
    rintro ⟨n, a, k⟩
    constructor
    · intro hs
      obtain ⟨z1, q1, hs⟩ := bind_ok hs
      obtain ⟨y1, s1, hs⟩ := bind_ok hs
      obtain ⟨z2, q2, hs⟩ := bind_ok hs
      obtain ⟨y2, s2, hs⟩ := bind_ok hs
      obtain ⟨z3, q3, hs⟩ := bind_ok hs
      obtain ⟨y3, s3, hs⟩ := bind_ok hs
      cases hs
      exact ePfa _ _ _ (H.vector [(n!"pfa", n!"PFA"), (n!"fpn", n!"FPN")] (hV _ (by simp [sicdVectors])) q1 s1)
        (H.poly1 [(n!"pfa", n!"PFA"), (n!"polar_ang_poly", n!"PolarAngPoly")] (h1 _ (by simp [sicdPoly1s])) q2 s2)
        (H.poly1 [(n!"pfa", n!"PFA"), (n!"spatial_freq_sfpoly", n!"SpatialFreqSFPoly")] (h1 _ (by simp [sicdPoly1s])) q3 s3)
    · intro hs
      obtain ⟨f1, f2, f3⟩ := hF.pfa n a k hs
      obtain ⟨z1, q1, s1⟩ := bind_ok (vector_of H [(n!"pfa", n!"PFA"), (n!"fpn", n!"FPN")] (wV _ (by simp [sicdVectors])) f1)
      obtain ⟨z2, q2, s2⟩ := bind_ok (poly1_of H he [(n!"pfa", n!"PFA"), (n!"polar_ang_poly", n!"PolarAngPoly")] (w1 _ (by simp [sicdPoly1s])) f2)
      obtain ⟨z3, q3, s3⟩ := bind_ok (poly1_of H he [(n!"pfa", n!"PFA"), (n!"spatial_freq_sfpoly", n!"SpatialFreqSFPoly")] (w1 _ (by simp [sicdPoly1s])) f3)
      simp only [List.map_cons, List.map_nil] at q1 q2 q3
      simp only [q1, q2, q3, s1, s2, s3, ok_bind]
      rfl
  have haz : (do num N (← o.path all [n!"rg_az_comp", n!"az_sf"]) : Except PyErr _).toOption = m.rgAzComp := by
    refine toOption_eq _ _ ?_
    intro a
    constructor
    · intro hs
      obtain ⟨z1, q1, hs⟩ := bind_ok hs
      exact eAz _ (H.number _ _ (hP ([(n!"rg_az_comp", n!"RgAzComp"), (n!"az_sf", n!"AzSF")], n!"float") (by simp [sicdPlain])) q1 hs)
    · intro hs
      exact number_of H _ [(n!"rg_az_comp", n!"RgAzComp"), (n!"az_sf", n!"AzSF")]
        (wP ([(n!"rg_az_comp", n!"RgAzComp"), (n!"az_sf", n!"AzSF")], n!"float") (by simp [sicdPlain])) (hF.rgAzComp a hs)
  have hinca : (do pure (← num N (← o.path all [n!"rma", n!"inca", n!"r_ca_scp"]), ← SarXml.poly1 all N (← o.path all [n!"rma", n!"inca", n!"time_capoly"]),
      ← SarXml.poly2 all N (← o.path all [n!"rma", n!"inca", n!"drate_sfpoly"])) : Except PyErr _).toOption = m.inca := by
    refine toOption_eq _ _ ?_
    rintro ⟨r, c, d⟩
    constructor
    · intro hs
      obtain ⟨z1, q1, hs⟩ := bind_ok hs
      obtain ⟨y1, s1, hs⟩ := bind_ok hs
      obtain ⟨z2, q2, hs⟩ := bind_ok hs
      obtain ⟨y2, s2, hs⟩ := bind_ok hs
      obtain ⟨z3, q3, hs⟩ := bind_ok hs
      obtain ⟨y3, s3, hs⟩ := bind_ok hs
      cases hs
      exact eInca _ _ _ (H.number _ _ (hP ([(n!"rma", n!"RMA"), (n!"inca", n!"INCA"), (n!"r_ca_scp", n!"R_CA_SCP")], n!"float") (by simp [sicdPlain])) q1 s1)
        (H.poly1 [(n!"rma", n!"RMA"), (n!"inca", n!"INCA"), (n!"time_capoly", n!"TimeCAPoly")] (h1 _ (by simp [sicdPoly1s])) q2 s2)
        (H.poly2 [(n!"rma", n!"RMA"), (n!"inca", n!"INCA"), (n!"drate_sfpoly", n!"DRateSFPoly")] (h2 _ (by simp [sicdPoly2s])) q3 s3)
    · intro hs
      obtain ⟨f1, f2, f3⟩ := hF.inca r c d hs
      obtain ⟨z1, q1, s1⟩ := bind_ok (number_of H _ [(n!"rma", n!"RMA"), (n!"inca", n!"INCA"), (n!"r_ca_scp", n!"R_CA_SCP")]
        (wP ([(n!"rma", n!"RMA"), (n!"inca", n!"INCA"), (n!"r_ca_scp", n!"R_CA_SCP")], n!"float") (by simp [sicdPlain])) f1)
      obtain ⟨z2, q2, s2⟩ := bind_ok (poly1_of H he [(n!"rma", n!"RMA"), (n!"inca", n!"INCA"), (n!"time_capoly", n!"TimeCAPoly")] (w1 _ (by simp [sicdPoly1s])) f2)
      obtain ⟨z3, q3, s3⟩ := bind_ok (poly2_of H he [(n!"rma", n!"RMA"), (n!"inca", n!"INCA"), (n!"drate_sfpoly", n!"DRateSFPoly")] (w2 _ (by simp [sicdPoly2s])) f3)
      simp only [List.map_cons, List.map_nil] at q1 q2 q3
      simp only [q1, q2, q3, s1, s2, s3, ok_bind]
      rfl
  simp only [List.map_cons, List.map_nil] at p1 p2 p3 p4 p5 p6 p7 p8 p9 p10 p11 p12 p13
  have hside : decide (sd = "R") = m.right := by
    rw [Bool.eq_iff_iff, decide_eq_true_eq, hsd]
  unfold sicdRest
  rw [p1, ok_bind, r1, ok_bind, p2, ok_bind, r2, ok_bind, p3, ok_bind, r3, ok_bind, p4, ok_bind, r4, ok_bind, p5, ok_bind, r5, ok_bind, p6, ok_bind, r6, ok_bind, p7, ok_bind, r7, ok_bind,
    p8, ok_bind, r8, ok_bind, p9, ok_bind, r9, ok_bind, p10, ok_bind, r10, ok_bind]
  by_cases hr : g = "RGAZIM"
  · obtain ⟨w, hw, ha⟩ := hF.algo (hgt.1.2 hr)
    obtain ⟨v14, p14, r14⟩ := bind_ok (word_of H _ [(n!"image_formation", n!"ImageFormation"), (n!"image_form_algo", n!"ImageFormAlgo")]
      (wP ([(n!"image_formation", n!"ImageFormation"), (n!"image_form_algo", n!"ImageFormAlgo")], n!"ImageFormAlgo") (by simp [sicdPlain])) hw)
    simp only [List.map_cons, List.map_nil] at p14
    rw [if_pos hr]
    simp only [p11, r11, p12, r12, p13, r13, p14, r14, ok_bind, hpfa, haz, hinca, algo_unique w _ ha, grid_unique g _ hgt, hside]
    rw [show m = ⟨m.scp, m.scpRow, m.scpCol, m.firstRow, m.firstCol, m.uRow, m.uCol, m.rowSS, m.colSS, m.timeCoa, m.arp, m.gridType, m.algo, m.pfa, m.rgAzComp, m.inca, m.arpPos, m.arpVel,
      m.right⟩ from rfl, e1, e2]
    rfl
  · have hfa : algo "" = m.algo := by
      rw [eA (fun h => hr (hgt.1.1 h))]
      rfl
    rw [if_neg hr]
    have hpure : (pure "" : Except PyErr String) = .ok "" := rfl
    simp only [hpure, p11, r11, p12, r12, p13, r13, ok_bind, hpfa, haz, hinca, hfa, grid_unique g _ hgt, hside]
    rw [show m = ⟨m.scp, m.scpRow, m.scpCol, m.firstRow, m.firstCol, m.uRow, m.uCol, m.rowSS, m.colSS, m.timeCoa, m.arp, m.gridType, m.algo, m.pfa, m.rgAzComp, m.inca, m.arpPos, m.arpVel,
      m.right⟩ from rfl, e1, e2]
    rfl

open Verif.Schema in
/-- **C165**: the first row and column are read when they are there. -/
theorem sicd_image_complete (K : Codec P) (N : Numbers P) (ns : Name) (ats : List (QName × String)) (txt : String) (ts : List Tree) (o : Val P)
    (h : parse all K (.node (ns, n!"SICD") none ats txt ts) = .ok o) (row col : Int)
    (hr : WholeAt (reader K N) (.node (ns, n!"SICD") none ats txt ts) [n!"ImageData", n!"FirstRow"] row)
    (hc : WholeAt (reader K N) (.node (ns, n!"SICD") none ats txt ts) [n!"ImageData", n!"FirstCol"] col) :
    ∃ im, imageOf all N o = .ok im ∧ im.firstRow = row ∧ im.firstCol = col := by
  have H := sicd_here K ns ats txt ts o h
  have hw := sicd_walks
  simp only [Bool.and_eq_true, List.all_eq_true] at hw
  obtain ⟨⟨_, wP⟩, _⟩ := hw
  obtain ⟨v1, p1, r1⟩ := bind_ok (whole_of H [(n!"image_data", n!"ImageData"), (n!"first_row", n!"FirstRow")]
    (wP ([(n!"image_data", n!"ImageData"), (n!"first_row", n!"FirstRow")], n!"int") (by simp [sicdPlain])) hr)
  obtain ⟨v2, p2, r2⟩ := bind_ok (whole_of H [(n!"image_data", n!"ImageData"), (n!"first_col", n!"FirstCol")]
    (wP ([(n!"image_data", n!"ImageData"), (n!"first_col", n!"FirstCol")], n!"int") (by simp [sicdPlain])) hc)
  simp only [List.map_cons, List.map_nil] at p1 p2
  unfold imageOf
  rw [p1, ok_bind, r1, ok_bind, p2, ok_bind, r2, ok_bind]
  exact ⟨_, rfl, rfl, rfl⟩

/-! ## SIDD -/

open Verif.Schema in
/-- **C165**: a SIDD document that has the elements is read, and gives what they say. -/
theorem sidd_complete (K : Codec P) (N : Numbers P) (he : EmptyIsNoNumber (reader K N)) (ns : Name) (ats : List (QName × String)) (txt : String) (ts : List Tree) (o : Val P)
    (h : parse all K (.node (ns, n!"SIDD") none ats txt ts) = .ok o) (m : Verif.Sicd.Sidd) (hm : SiddFrom (reader K N) (.node (ns, n!"SIDD") none ats txt ts) m) :
    siddRest all N o = .ok m := by
  have H := sidd_here K ns ats txt ts o h
  have hw := sidd_walks
  simp only [Bool.and_eq_true, List.all_eq_true] at hw
  obtain ⟨⟨⟨⟨⟨wV, wN⟩, wT⟩, wC⟩, _⟩, _⟩ := hw
  generalize Xsdata.Tree.node (ns, n!"SIDD") none ats txt ts = t at H hm ⊢
  obtain ⟨q4, f4, t4⟩ := hm.time
  obtain ⟨q5, f5, t5⟩ := hm.arp
  obtain ⟨v1, p1, r1⟩ := bind_ok (vector_of H (inPlane [(n!"reference_point", n!"ReferencePoint"), (n!"ecef", n!"ECEF")]) (wV _ (by simp [siddVectors])) hm.scp)
  obtain ⟨v2, p2, r2⟩ := bind_ok (number_of H _ (inPlane [(n!"reference_point", n!"ReferencePoint"), (n!"point", n!"Point"), (n!"col", n!"Col")]) (wN _ (by simp [siddNumbers])) hm.scpCol)
  obtain ⟨v3, p3, r3⟩ := bind_ok (number_of H _ (inPlane [(n!"reference_point", n!"ReferencePoint"), (n!"point", n!"Point"), (n!"row", n!"Row")]) (wN _ (by simp [siddNumbers])) hm.scpRow)
  obtain ⟨v4, p4, r4⟩ := bind_ok (poly2_of H he (inPlane [(n!"time_coapoly", n!"TimeCOAPoly")]) wT f4)
  obtain ⟨v5, p5, r5⟩ := bind_ok (curve_of H he [(n!"measurement", n!"Measurement"), (n!"arppoly", n!"ARPPoly")] wC f5)
  obtain ⟨v6, p6, r6⟩ := bind_ok (vector_of H (inPlane [(n!"product_plane", n!"ProductPlane"), (n!"row_unit_vector", n!"RowUnitVector")]) (wV _ (by simp [siddVectors])) hm.uRow)
  obtain ⟨v7, p7, r7⟩ := bind_ok (vector_of H (inPlane [(n!"product_plane", n!"ProductPlane"), (n!"col_unit_vector", n!"ColUnitVector")]) (wV _ (by simp [siddVectors])) hm.uCol)
  obtain ⟨v8, p8, r8⟩ := bind_ok (number_of H _ (inPlane [(n!"sample_spacing", n!"SampleSpacing"), (n!"row", n!"Row")]) (wN _ (by simp [siddNumbers])) hm.rowSS)
  obtain ⟨v9, p9, r9⟩ := bind_ok (number_of H _ (inPlane [(n!"sample_spacing", n!"SampleSpacing"), (n!"col", n!"Col")]) (wN _ (by simp [siddNumbers])) hm.colSS)
  simp only [inPlane, List.map_cons, List.map_nil] at p1 p2 p3 p4 p5 p6 p7 p8 p9
  obtain ⟨pl, p0⟩ : ∃ pl, o.path all [n!"measurement", n!"plane_projection"] = .ok pl := by
    rw [path_cons] at p4
    obtain ⟨a, ha, p4⟩ := bind_ok p4
    rw [path_cons] at p4
    obtain ⟨b, hb, _⟩ := bind_ok p4
    exact ⟨b, by rw [path_cons, ha, ok_bind, path_cons, hb, ok_bind, path_nil]⟩
  have hp : ∀ (l : List Name), o.path all (n!"measurement" :: n!"plane_projection" :: l) = pl.path all l := fun l =>
    path_append all o pl [n!"measurement", n!"plane_projection"] l p0
  rw [hp] at p1 p2 p3 p4 p6 p7 p8 p9
  unfold siddRest
  rw [p0, ok_bind, p1, ok_bind, r1, ok_bind, p2, ok_bind, r2, ok_bind, p3, ok_bind, r3, ok_bind, p4, ok_bind, r4, ok_bind, p5, ok_bind, r5, ok_bind, p6, ok_bind, r6, ok_bind, p7, ok_bind,
    r7, ok_bind, p8, ok_bind, r8, ok_bind, p9, ok_bind, r9, ok_bind, t4, ok_bind, t5, ok_bind]
  rfl

open Verif.Schema in
/-- **C165**: the chip of a SIDD document is read when it is there, and is missing when there is none. -/
theorem sidd_chip_complete (K : Codec P) (N : Numbers P) (ns : Name) (ats : List (QName × String)) (txt : String) (ts : List Tree) (o : Val P)
    (h : parse all K (.node (ns, n!"SIDD") none ats txt ts) = .ok o) (g : Option (Verif.Updaters.Chip ℝ))
    (hg : ChipFrom (reader K N) (.node (ns, n!"SIDD") none ats txt ts) g) : chipOf all N o = .ok g := by
  have H := sidd_here K ns ats txt ts o h
  have hw := sidd_walks
  simp only [Bool.and_eq_true, List.all_eq_true] at hw
  obtain ⟨⟨⟨⟨⟨_, wN⟩, _⟩, _⟩, wR⟩, wL⟩ := hw
  have hf := sidd_follows
  simp only [Bool.and_eq_true, List.all_eq_true] at hf
  obtain ⟨⟨_, hD⟩, hS⟩ := hf
  generalize Xsdata.Tree.node (ns, n!"SIDD") none ats txt ts = t at H hg ⊢
  cases g with
  | none =>
    obtain ⟨c, hc, hfind, hb⟩ := H.read
    obtain ⟨f, hf⟩ := Option.isSome_iff_exists.1 (hS c hc)
    obtain ⟨d, pd⟩ := get_some all K c hfind t o hb _ f (step_field c _ _ f hf)
    unfold chipOf
    rw [pd, ok_bind]
    by_cases hd : d = .null
    · subst hd; rfl
    obtain ⟨u0, c0, hu0, hgood, hfind0, hb0⟩ := H.object _ [(n!"downstream_reprocessing", n!"DownstreamReprocessing")] hD (by
      show o.path all [n!"downstream_reprocessing"] = .ok d
      rw [path_cons, pd]
      rfl) hd
    obtain ⟨f0, hf0⟩ := Option.isSome_iff_exists.1 hgood
    obtain ⟨w, pw⟩ := get_some all K c0 hfind0 u0 d hb0 _ f0 (step_field c0 _ _ f0 hf0)
    have hw : w = .null := by
      rcases step_at all H.sound K c0 hfind0 u0 d hb0 _ _ f0 hf0 w pw with ⟨e, _⟩ | ⟨k, e, _⟩
      · exact e
      · exfalso
        cases hu0 with
        | down _ k0 _ _ _ hk hr =>
          cases hr
          exact hg k (.down t u0 k _ _ hk (.down u0 k k _ _ e (.here k)))
    subst hw
    cases d with
    | null => exact absurd rfl hd
    | _ => simp only [pw, ok_bind]; rfl
  | some g =>
    obtain ⟨hr, hc, hul, hur, hlr, hll⟩ := hg
    obtain ⟨v1, p1, r1⟩ := bind_ok (whole_of H (inChip [(n!"chip_size", n!"ChipSize"), (n!"row", n!"Row")]) wR hr)
    obtain ⟨v2, p2, r2⟩ := bind_ok (whole_of H (inChip [(n!"chip_size", n!"ChipSize"), (n!"col", n!"Col")]) wL hc)
    simp only [inChip, List.map_cons, List.map_nil] at p1 p2
    obtain ⟨d, w, pd, pw⟩ : ∃ d w, o.get all n!"downstream_reprocessing" = .ok d ∧ d.get all n!"geometric_chip" = .ok w := by
      rw [path_cons] at p1
      obtain ⟨a, ha, p1⟩ := bind_ok p1
      rw [path_cons] at p1
      obtain ⟨b, hb, _⟩ := bind_ok p1
      exact ⟨a, b, ha, hb⟩
    have hp : ∀ (l : List Name), o.path all (n!"downstream_reprocessing" :: n!"geometric_chip" :: l) = w.path all l := by
      intro l
      rw [path_cons, pd, ok_bind, path_cons, pw, ok_bind]
    rw [hp] at p1 p2
    have hcorner : ∀ (py xml : Name) (p : ℝ × ℝ), inChip [(py, xml), (n!"row", n!"Row")] ∈ siddNumbers → inChip [(py, xml), (n!"col", n!"Col")] ∈ siddNumbers →
        CornerAt (reader K N) t xml p → ∃ v, w.get all py = .ok v ∧ corner all N v = .ok p := by
      intro py xml p h1 h2 ⟨e1, e2⟩
      obtain ⟨y1, q1, s1⟩ := bind_ok (number_of H _ (inChip [(py, xml), (n!"col", n!"Col")]) (wN _ h2) e1)
      obtain ⟨y2, q2, s2⟩ := bind_ok (number_of H _ (inChip [(py, xml), (n!"row", n!"Row")]) (wN _ h1) e2)
      simp only [inChip, List.map_cons, List.map_nil] at q1 q2
      rw [hp] at q1 q2
      obtain ⟨z1, a1, b1⟩ := path_front all w y1 [py] _ q1
      obtain ⟨z2, a2, b2⟩ := path_front all w y2 [py] _ q2
      cases path_same a1 a2
      rw [path_cons] at a1
      obtain ⟨z, hz, a1⟩ := bind_ok a1
      rw [path_nil] at a1
      cases a1
      refine ⟨_, hz, ?_⟩
      unfold corner
      rw [b1, b2, ok_bind, s1, ok_bind, ok_bind, s2, ok_bind]
      rfl
    obtain ⟨v3, p3, r3⟩ := hcorner n!"original_upper_left_coordinate" _ _ (by simp [siddNumbers]) (by simp [siddNumbers]) hul
    obtain ⟨v4, p4, r4⟩ := hcorner n!"original_upper_right_coordinate" _ _ (by simp [siddNumbers]) (by simp [siddNumbers]) hur
    obtain ⟨v5, p5, r5⟩ := hcorner n!"original_lower_right_coordinate" _ _ (by simp [siddNumbers]) (by simp [siddNumbers]) hlr
    obtain ⟨v6, p6, r6⟩ := hcorner n!"original_lower_left_coordinate" _ _ (by simp [siddNumbers]) (by simp [siddNumbers]) hll
    have hd : d ≠ .null := by rintro rfl; cases pw
    have hw : w ≠ .null := by rintro rfl; cases p3
    unfold chipOf
    rw [pd, ok_bind]
    cases d with
    | null => exact absurd rfl hd
    | _ =>
      simp only [pw, ok_bind]
      cases w with
      | null => exact absurd rfl hw
      | _ =>
        simp only [p1, r1, p2, r2, p3, r3, p4, r4, p5, r5, p6, r6, ok_bind]
        rfl

/-! ## Exactly -/

/-- The parts of the result that are there for one kind of projection only. -/
theorem rest_parts (S : Schema) (N : Numbers P) (o : Val P) (m : Verif.Sicd.Meta) (hm : sicdRest S N o = .ok m) :
    m.firstRow = 0 ∧ m.firstCol = 0 ∧ (m.gridType ≠ .rgazim → m.algo = .other) ∧
    m.pfa = (do pure (← xyz S N (← o.path S [n!"pfa", n!"fpn"]), ← SarXml.poly1 S N (← o.path S [n!"pfa", n!"polar_ang_poly"]),
      ← SarXml.poly1 S N (← o.path S [n!"pfa", n!"spatial_freq_sfpoly"])) : Except PyErr _).toOption ∧
    m.rgAzComp = (do num N (← o.path S [n!"rg_az_comp", n!"az_sf"]) : Except PyErr _).toOption ∧
    m.inca = (do pure (← num N (← o.path S [n!"rma", n!"inca", n!"r_ca_scp"]), ← SarXml.poly1 S N (← o.path S [n!"rma", n!"inca", n!"time_capoly"]),
      ← SarXml.poly2 S N (← o.path S [n!"rma", n!"inca", n!"drate_sfpoly"])) : Except PyErr _).toOption := by
  unfold sicdRest at hm
  iterate 20 obtain ⟨_, -, hm⟩ := bind_ok hm
  split at hm
  · next hg =>
    iterate 7 obtain ⟨_, -, hm⟩ := bind_ok hm
    cases hm
    exact ⟨rfl, rfl, fun hn => absurd ((grid_types _).1.2 hg) hn, rfl, rfl, rfl⟩
  · obtain ⟨f, hf, hm⟩ := bind_ok hm
    cases hf
    iterate 6 obtain ⟨_, -, hm⟩ := bind_ok hm
    cases hm
    exact ⟨rfl, rfl, fun _ => rfl, rfl, rfl, rfl⟩

open Verif.Schema in
/-- **C165**: the numbers of a SICD document are read exactly when its elements say them. -/
theorem sicd_exactly (K : Codec P) (N : Numbers P) (he : EmptyIsNoNumber (reader K N)) (ns : Name) (ats : List (QName × String)) (txt : String) (ts : List Tree) (o : Val P)
    (h : parse all K (.node (ns, n!"SICD") none ats txt ts) = .ok o) (m : Verif.Sicd.Meta) :
    sicdRest all N o = .ok m ↔ SicdIs (reader K N) (.node (ns, n!"SICD") none ats txt ts) m := by
  refine ⟨fun hm => ?_, sicd_complete K N he ns ats txt ts o h m⟩
  have hF := sicd_reads K N ns ats txt ts o h m hm
  obtain ⟨e1, e2, eA, ePfa, eAz, eInca⟩ := rest_parts all N o m hm
  have H := sicd_here K ns ats txt ts o h
  have hw := sicd_walks
  simp only [Bool.and_eq_true, List.all_eq_true] at hw
  obtain ⟨⟨⟨⟨wV, w1⟩, w2⟩, wP⟩, wC⟩ := hw
  generalize Xsdata.Tree.node (ns, n!"SICD") none ats txt ts = t at H hF ⊢
  refine ⟨hF, e1, e2, eA, fun n a k f1 f2 f3 => ?_, fun a f1 => ?_, fun r c d f1 f2 f3 => ?_⟩
  · obtain ⟨z1, q1, s1⟩ := bind_ok (vector_of H [(n!"pfa", n!"PFA"), (n!"fpn", n!"FPN")] (wV _ (by simp [sicdVectors])) f1)
    obtain ⟨z2, q2, s2⟩ := bind_ok (poly1_of H he [(n!"pfa", n!"PFA"), (n!"polar_ang_poly", n!"PolarAngPoly")] (w1 _ (by simp [sicdPoly1s])) f2)
    obtain ⟨z3, q3, s3⟩ := bind_ok (poly1_of H he [(n!"pfa", n!"PFA"), (n!"spatial_freq_sfpoly", n!"SpatialFreqSFPoly")] (w1 _ (by simp [sicdPoly1s])) f3)
    simp only [List.map_cons, List.map_nil] at q1 q2 q3
    rw [ePfa]
    simp only [q1, q2, q3, s1, s2, s3, ok_bind]
    rfl
  · have := number_of H _ [(n!"rg_az_comp", n!"RgAzComp"), (n!"az_sf", n!"AzSF")]
      (wP ([(n!"rg_az_comp", n!"RgAzComp"), (n!"az_sf", n!"AzSF")], n!"float") (by simp [sicdPlain])) f1
    simp only [List.map_cons, List.map_nil] at this
    rw [eAz, this]
    rfl
  · obtain ⟨z1, q1, s1⟩ := bind_ok (number_of H _ [(n!"rma", n!"RMA"), (n!"inca", n!"INCA"), (n!"r_ca_scp", n!"R_CA_SCP")]
      (wP ([(n!"rma", n!"RMA"), (n!"inca", n!"INCA"), (n!"r_ca_scp", n!"R_CA_SCP")], n!"float") (by simp [sicdPlain])) f1)
    obtain ⟨z2, q2, s2⟩ := bind_ok (poly1_of H he [(n!"rma", n!"RMA"), (n!"inca", n!"INCA"), (n!"time_capoly", n!"TimeCAPoly")] (w1 _ (by simp [sicdPoly1s])) f2)
    obtain ⟨z3, q3, s3⟩ := bind_ok (poly2_of H he [(n!"rma", n!"RMA"), (n!"inca", n!"INCA"), (n!"drate_sfpoly", n!"DRateSFPoly")] (w2 _ (by simp [sicdPoly2s])) f3)
    simp only [List.map_cons, List.map_nil] at q1 q2 q3
    rw [eInca]
    simp only [q1, q2, q3, s1, s2, s3, ok_bind]
    rfl

open Verif.Schema in
/-- **C165**: the chip of a SIDD document is what its elements say, or none when there is none. -/
theorem sidd_chip_exactly (K : Codec P) (N : Numbers P) (ns : Name) (ats : List (QName × String)) (txt : String) (ts : List Tree) (o : Val P)
    (h : parse all K (.node (ns, n!"SIDD") none ats txt ts) = .ok o) (g : Option (Verif.Updaters.Chip ℝ)) :
    chipOf all N o = .ok g ↔ ChipFrom (reader K N) (.node (ns, n!"SIDD") none ats txt ts) g :=
  ⟨sidd_chip_reads K N ns ats txt ts o h g, sidd_chip_complete K N ns ats txt ts o h g⟩

open Verif.Schema in
/-- **C165**: the numbers of a SIDD document are read exactly when its elements say them. -/
theorem sidd_exactly (K : Codec P) (N : Numbers P) (he : EmptyIsNoNumber (reader K N)) (ns : Name) (ats : List (QName × String)) (txt : String) (ts : List Tree) (o : Val P)
    (h : parse all K (.node (ns, n!"SIDD") none ats txt ts) = .ok o) (m : Verif.Sicd.Sidd) :
    siddRest all N o = .ok m ↔ SiddFrom (reader K N) (.node (ns, n!"SIDD") none ats txt ts) m :=
  ⟨sidd_reads K N ns ats txt ts o h m, sidd_complete K N he ns ats txt ts o h m⟩

/-! ## Examples -/

open Verif.Schema Verif.Xsdata.Namespace Verif.Props.SarXml in
/-- A SIDD document of version 2.0.0 with a chip of three rows and two columns at column 1 and row 2. -/
def chipTree : Tree := .node (sidd200, n!"SIDD") none [] "" [branch sidd200 n!"DownstreamReprocessing" [branch sidd200 n!"GeometricChip" [
  branch sidd200 n!"ChipSize" [leaf sicommon10 n!"Row" "111", leaf sicommon10 n!"Col" "11"],
  branch sidd200 n!"OriginalUpperLeftCoordinate" [leaf sicommon10 n!"Row" "11", leaf sicommon10 n!"Col" "1"],
  branch sidd200 n!"OriginalUpperRightCoordinate" [leaf sicommon10 n!"Row" "11", leaf sicommon10 n!"Col" "111"],
  branch sidd200 n!"OriginalLowerLeftCoordinate" [leaf sicommon10 n!"Row" "11111", leaf sicommon10 n!"Col" "1"],
  branch sidd200 n!"OriginalLowerRightCoordinate" [leaf sicommon10 n!"Row" "11111", leaf sicommon10 n!"Col" "111"]]]]

def chipObject : Val String := match parse Verif.Schema.all Verif.Props.SarXml.demoCodec chipTree with | .ok o => o | .error _ => .null

set_option maxRecDepth 100000 in
theorem chip_parses : parse Verif.Schema.all Verif.Props.SarXml.demoCodec chipTree = .ok chipObject := by rfl

/-- Texts that are not empty are numbers. -/
noncomputable def strictNumbers : Numbers String :=
  { Verif.Props.SarXml.demoNumbers with real := fun s => if s.toList.isEmpty then none else some (Verif.Props.SarXml.demoInt s : ℝ) }

theorem strict_empty : EmptyIsNoNumber (reader Verif.Props.SarXml.demoCodec strictNumbers) := by rfl

set_option maxRecDepth 100000 in
/-- Its chip is read. -/
example : chipOf Verif.Schema.all strictNumbers chipObject = .ok (some ⟨2, 3, ((1 : Int), (2 : Int)), ((3 : Int), (2 : Int)), ((3 : Int), (5 : Int)), ((1 : Int), (5 : Int))⟩) := by
  refine sidd_chip_complete _ _ _ _ _ _ _ chip_parses _ ?_
  have down : ∀ (t k u : Tree) (n : Name) (ns : List Name), named n t = [k] → At k ns u → At t (n :: ns) u := .down
  refine ⟨⟨_, down _ _ _ _ _ rfl (down _ _ _ _ _ rfl (down _ _ _ _ _ rfl (down _ _ _ _ _ rfl (.here _)))), rfl, rfl⟩,
    ⟨_, down _ _ _ _ _ rfl (down _ _ _ _ _ rfl (down _ _ _ _ _ rfl (down _ _ _ _ _ rfl (.here _)))), rfl, rfl⟩, ?_, ?_, ?_, ?_⟩ <;>
  exact ⟨⟨_, down _ _ _ _ _ rfl (down _ _ _ _ _ rfl (down _ _ _ _ _ rfl (down _ _ _ _ _ rfl (.here _)))), rfl, rfl⟩,
    ⟨_, down _ _ _ _ _ rfl (down _ _ _ _ _ rfl (down _ _ _ _ _ rfl (down _ _ _ _ _ rfl (.here _)))), rfl, rfl⟩⟩

/-- The document has no measurement, so no sensor model is built from it. -/
example (m : Verif.Sicd.Sidd) : siddRest Verif.Schema.all strictNumbers chipObject ≠ .ok m := by
  intro h
  obtain ⟨u, hu, -⟩ := ((sidd_exactly _ _ strict_empty _ _ _ _ _ chip_parses m).1 h).rowSS
  cases hu with
  | down _ k _ _ _ hk _ => exact absurd (hk.symm.trans (rfl : named n!"Measurement" chipTree = [])) (fun e => by cases e)

end Verif.Props.XmlComplete
