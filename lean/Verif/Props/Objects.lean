import Verif.Props.Xsdata

/-!
# Attributes of objects that xsdata has read
-/

namespace Verif.Props.Objects

open Verif Verif.Xsdata Verif.Props.Xsdata

variable {P : Type} [DecidableEq P]

set_option linter.unusedSectionVars false

/-! ## Reading and assigning attributes -/

theorem forall₂_place {α β : Type} (R : α → β → Prop) (p : α → Bool) : ∀ (l : List α) (m : List β), List.Forall₂ R l m → ∀ a, l.find? p = some a →
    ∃ i b, l.findIdx? p = some i ∧ l[i]? = some a ∧ m[i]? = some b ∧ R a b ∧ (∀ x, R a x → List.Forall₂ R l (m.set i x))
  | [], _, .nil, a, h => by simp at h
  | c :: l, d :: m, .cons h1 h2, a, h => by
    rw [List.find?_cons] at h
    cases hc : p c with
    | true =>
      rw [hc] at h
      cases h
      exact ⟨0, d, by simp [List.findIdx?_cons, hc], rfl, rfl, h1, fun x hx => .cons hx h2⟩
    | false =>
      rw [hc] at h
      obtain ⟨i, b, h3, h4, h5, h6, h7⟩ := forall₂_place R p l m h2 a h
      exact ⟨i + 1, b, by simp [List.findIdx?_cons, hc, h3], by simpa using h4, by simpa using h5, h6, fun x hx => .cons h1 (h7 x hx)⟩

theorem beq_eq (a b : Name) : Nat.beq a b = decide (a = b) := by
  by_cases h : a = b
  · subst h; simp
  · simp only [h, decide_false]
    exact Bool.eq_false_iff.mpr (fun e => h (Nat.eq_of_beq_eq_true e))

/-- An attribute of an object that fits, and its field. -/
theorem get_fits (S : Schema) (K : Codec P) (c : Class) (hc : S.find c.name = some c) (vs : List (Val P)) (hv : FitsAll S K c.fields vs) (n : Name) (f : Field)
    (hf : c.fields.find? (fun f => Nat.beq f.py n) = some f) : ∃ v, (Val.obj c.name vs).get S n = .ok v ∧ FitsOne S K f v := by
  simp only [beq_eq] at hf
  obtain ⟨i, v, h1, _, h3, h4, _⟩ := forall₂_place _ _ _ _ ((fitsAll_iff S K _ _).mp hv) f hf
  refine ⟨v, ?_, h4⟩
  rw [Val.get, Schema.place, fields_find S _ c hc, h1]
  simp [h3]

/-- After an assignment, the attribute has the value. -/
theorem get_set_self (S : Schema) (K : Codec P) (c : Class) (hc : S.find c.name = some c) (vs : List (Val P)) (hv : FitsAll S K c.fields vs) (n : Name) (f : Field)
    (hf : c.fields.find? (fun f => Nat.beq f.py n) = some f) (x : Val P) :
    ∃ i, (Val.obj c.name vs).set S n x = .ok (.obj c.name (vs.set i x)) ∧ (Val.obj c.name (vs.set i x)).get S n = .ok x ∧ c.fields[i]? = some f ∧
      (FitsOne S K f x → FitsAll S K c.fields (vs.set i x)) := by
  simp only [beq_eq] at hf
  obtain ⟨i, v, h1, h2, h3, h4, h5⟩ := forall₂_place _ _ _ _ ((fitsAll_iff S K _ _).mp hv) f hf
  have hi : i < vs.length := (List.getElem?_eq_some_iff.mp h3).1
  refine ⟨i, ?_, ?_, h2, fun h => (fitsAll_iff S K _ _).mpr (h5 x h)⟩
  · rw [Val.set, Schema.place, fields_find S _ c hc, h1]
  · rw [Val.get, Schema.place, fields_find S _ c hc, h1]
    simp [hi]

/-- An assignment does not change other attributes. -/
theorem get_set_ne (S : Schema) (o o' : Val P) (n m : Name) (hnm : n ≠ m) (x : Val P) (h : o.set S m x = .ok o') : o'.get S n = o.get S n := by
  cases o with
  | obj cls vs =>
    rw [Val.set] at h
    cases hm : S.place cls m with
    | none => rw [hm] at h; cases h; rfl
    | some i =>
      rw [hm] at h
      cases h
      rw [Val.get, Val.get]
      cases hn : S.place cls n with
      | none => rfl
      | some j =>
        have hij : i ≠ j := by
          rintro rfl
          unfold Schema.place at hm hn
          obtain ⟨h1, h2, _⟩ := List.findIdx?_eq_some_iff_getElem.mp hm
          obtain ⟨h3, h4, _⟩ := List.findIdx?_eq_some_iff_getElem.mp hn
          simp only [decide_eq_true_eq] at h2 h4
          exact hnm (h4.symm.trans h2)
        simp only [Option.bind_some, List.getElem?_set_ne hij]
  | _ => cases h

theorem zipWith_set {α β γ : Type} (g : α → β → γ) : ∀ (l : List α) (m : List β) (i : Nat) (a : α) (x : β), l[i]? = some a →
    List.zipWith g l (m.set i x) = (List.zipWith g l m).set i (g a x)
  | [], _, _, _, _, h => by simp at h
  | b :: l, [], i, a, x, h => by simp
  | b :: l, y :: m, 0, a, x, h => by
    simp only [List.getElem?_cons_zero, Option.some.injEq] at h
    subst h
    simp
  | b :: l, y :: m, i + 1, a, x, h => by
    simp only [List.getElem?_cons_succ] at h
    simp [zipWith_set g l m i a x h]

theorem reread_set (S : Schema) (K : Codec P) (fs : List Field) (vs : List (Val P)) (i : Nat) (f : Field) (hf : fs[i]? = some f) (x : Val P) :
    rereadAll S K fs (vs.set i x) = (rereadAll S K fs vs).set i (rereadOne S K f x) := by
  rw [rereadAll_eq, rereadAll_eq, zipWith_set _ _ _ _ _ _ hf]

theorem path_cons (S : Schema) (o : Val P) (n : Name) (ns : List Name) : o.path S (n :: ns) = (do (← o.get S n).path S ns) := rfl

theorem path_nil (S : Schema) (o : Val P) : o.path S [] = .ok o := rfl

/-! ## Attributes that exist -/

/-- The classes that a value of the declared class can have. -/
def possible (S : Schema) (d : Name) : List Class :=
  match S.find d with
  | some c => c :: List.filter (fun t => t.related c) S
  | none => []

/-- All objects of the given classes have the attributes of the path, one after the other, and the last is as required. -/
def leads (S : Schema) (good : Field → Bool) : List Class → List Name → Bool
  | _, [] => false
  | cs, [n] => cs.all (fun c => match c.fields.find? (fun f => Nat.beq f.py n) with | some f => good f | none => false)
  | cs, n :: m :: ns => cs.all (fun c => match c.fields.find? (fun f => Nat.beq f.py n) with
    | some f => (match f.ty with | .cls d => f.kind = .element && !f.many && leads S good (possible S d) (m :: ns) | .plain _ => false)
    | none => false)

theorem fits_possible (S : Schema) (d : Name) (x : Option QName) (k : Class) (h : S.target d x = some k) : k ∈ possible S d := by
  unfold Schema.target at h
  unfold possible
  cases hd : S.find d with
  | none => rw [hd] at h; cases h
  | some c =>
    rw [hd] at h
    cases x with
    | none => cases h; simp
    | some q =>
      simp only at h
      split at h
      · cases h; simp
      · cases ht : List.find? (fun t => decide (t.qname = q ∧ t.related c)) S with
        | none => rw [ht] at h; cases h; simp
        | some t =>
          rw [ht] at h
          cases h
          have h1 := List.find?_some ht
          simp only [decide_eq_true_eq] at h1
          simp only [Option.getD_some, List.mem_cons, List.mem_filter]
          exact Or.inr ⟨List.mem_of_find?_eq_some ht, h1.2⟩

/-- **C153**: along a path that the classes provide, either every attribute is there and the last value fits its field, or some attribute before the last is `None`. -/
theorem path_fits (S : Schema) (K : Codec P) (good : Field → Bool) : ∀ (ns : List Name) (cs : List Class), leads S good cs ns = true → ∀ c ∈ cs, S.find c.name = some c →
    ∀ vs : List (Val P), FitsAll S K c.fields vs →
      (∃ f v, (Val.obj c.name vs).path S ns = .ok v ∧ good f = true ∧ FitsOne S K f v) ∨
      (∃ p q, p ≠ [] ∧ q ≠ [] ∧ ns = p ++ q ∧ (Val.obj c.name vs).path S p = .ok .null ∧ (Val.obj c.name vs).path S ns = .error .attributeError)
  | [], _, h, _, _, _, _, _ => by simp [leads] at h
  | [n], cs, h, c, hc, hS, vs, hv => by
    rw [leads, List.all_eq_true] at h
    have := h c hc
    cases hf : c.fields.find? (fun f => Nat.beq f.py n) with
    | none => rw [hf] at this; cases this
    | some f =>
      rw [hf] at this
      obtain ⟨v, h1, h2⟩ := get_fits S K c hS vs hv n f hf
      exact Or.inl ⟨f, v, by rw [path_cons, h1]; rfl, this, h2⟩
  | n :: m :: ns, cs, h, c, hc, hS, vs, hv => by
    rw [leads, List.all_eq_true] at h
    have := h c hc
    cases hf : c.fields.find? (fun f => Nat.beq f.py n) with
    | none => rw [hf] at this; cases this
    | some f =>
      rw [hf] at this
      obtain ⟨v, h1, h2⟩ := get_fits S K c hS vs hv n f hf
      cases hty : f.ty with
      | plain _ => simp [hty] at this
      | cls d =>
        simp only [hty, Bool.and_eq_true, decide_eq_true_eq, Bool.not_eq_true'] at this
        obtain ⟨⟨hk, hm⟩, hl⟩ := this
        simp only [FitsOne, hk, if_true] at h2
        cases v with
        | null =>
          refine Or.inr ⟨[n], m :: ns, by simp, by simp, by simp, by rw [path_cons, h1]; rfl, ?_⟩
          rw [path_cons, h1]
          rfl
        | plain p => rw [Fits] at h2; obtain ⟨_, ts, e⟩ := h2; rw [hty] at e; cases e
        | words l => rw [Fits] at h2; exact h2.elim
        | many l => rw [Fits] at h2; rw [hm] at h2; exact absurd h2.2.1 (by simp)
        | obj cls ws =>
          rw [Fits] at h2
          obtain ⟨_, d', k, e, hk1, hk2, hw⟩ := h2
          rw [hty] at e
          cases e
          have hname := (find_name S _ k hk1).2
          subst hname
          rcases path_fits S K good (m :: ns) _ hl k (fits_possible S d _ k hk2) hk1 ws hw with ⟨g, v, h3, h4⟩ | ⟨p, q, h3, h4, h5, h6, h7⟩
          · exact Or.inl ⟨g, v, by rw [path_cons, h1]; exact h3, h4⟩
          · exact Or.inr ⟨n :: p, q, by simp, h4, by rw [h5]; rfl, by rw [path_cons, h1]; exact h6, by rw [path_cons, h1]; exact h7⟩

end Verif.Props.Objects
