import Verif.Spec.Tre
import Verif.Props.RsmModel
import Mathlib.Tactic.Linarith

/-!
# Theorems about TRE parsing and the builders that read TREs
-/

namespace Verif.Props.Tre

open Verif.Tre Verif.Rpc Verif.Rsm Verif.Spec.Tre

/-! ## Fields -/

theorem bind_ok {α β : Type} (x : Except PyErr α) (f : α → Except PyErr β) (b : β) :
    (x >>= f) = .ok b ↔ ∃ a, x = .ok a ∧ f a = .ok b := by
  cases x <;> simp [bind, Except.bind]

theorem pure_ok {α : Type} (a b : α) : (pure a : Except PyErr α) = .ok b ↔ a = b := by
  simp [pure, Except.pure]

theorem conv_ok {α : Type} (f : String → Option α) (s : String) (v : α) : conv f s = .ok v ↔ f s = some v := by
  unfold conv; cases f s <;> simp

theorem find_some (x : Xml) (tag name : String) (e : Xml) : x.find tag name = some e ↔ IsFirst x tag name e := by
  unfold Xml.find Xml.findall IsFirst Named
  rw [List.head?_filter, List.find?_eq_some_iff_append]
  constructor
  · rintro ⟨h, as, bs, h1, h2⟩
    refine ⟨as, bs, h1, by simpa using h, fun p hp => ?_⟩
    have := h2 p hp
    simp only [Bool.decide_and, Bool.not_and, Bool.or_eq_true, Bool.not_eq_true', decide_eq_false_iff_not] at this
    tauto
  · rintro ⟨as, bs, h1, h, h2⟩
    refine ⟨by simpa using h, as, bs, h1, fun p hp => ?_⟩
    have := h2 p hp
    simp only [Bool.decide_and, Bool.not_and, Bool.or_eq_true, Bool.not_eq_true', decide_eq_false_iff_not]
    tauto

theorem find_none (x : Xml) (tag name : String) : x.find tag name = none ↔ Absent x tag name := by
  unfold Xml.find Xml.findall Absent Named
  rw [List.head?_filter, List.find?_eq_none]
  simp

theorem fieldValue_ok {α : Type} (t : Xml) (name : String) (f : String → Option α) (v : α) :
    fieldValue t name f = .ok v ↔ HasField t name f v := by
  unfold fieldValue HasField
  simp only [← find_some]
  cases t.find "field" name with
  | none => simp
  | some e =>
    cases h : e.get "value" with
    | none => simp [h]
    | some s => simp [h, conv_ok]

/-- Reading a field fails with `ValueError` only. -/
theorem fieldValue_error {α : Type} (t : Xml) (name : String) (f : String → Option α) (e : PyErr)
    (h : fieldValue t name f = .error e) : e = .valueError := by
  unfold fieldValue conv at h
  split at h
  · simpa using h.symm
  · split at h
    · simpa using h.symm
    · split at h
      · simpa using h.symm
      · simp at h

/-! ## Coefficient lists (C37) -/

theorem addGroup_says (c : Conv) (g : Xml) (e : Int × ℝ) (l : List ℝ) (h : Says c g e) :
    addGroup c l g = pySet l e.1 e.2 := by
  obtain ⟨s, first, rest, u, h1, h2, h3, h4, h5⟩ := h
  simp [addGroup, h1, h2, h3, h4, h5, conv, bind, Except.bind]

theorem addGroup_ok (c : Conv) (g : Xml) (l l' : List ℝ) (h : addGroup c l g = .ok l') :
    ∃ e, Says c g e ∧ pySet l e.1 e.2 = .ok l' := by
  unfold addGroup at h
  simp only [bind_ok] at h
  obtain ⟨i, hi, v, hv, h⟩ := h
  cases hg : g.get "index" with
  | none => simp [hg] at hi
  | some s =>
    simp only [hg, conv_ok] at hi
    cases hc : g.children with
    | nil => simp [hc] at hv
    | cons first rest =>
      simp only [hc, List.head?_cons] at hv
      cases hu : first.get "value" with
      | none => simp [hu] at hv
      | some u =>
        simp only [hu, conv_ok] at hv
        exact ⟨(i, v), ⟨s, first, rest, u, hg, hi, hc, hu, hv⟩, h⟩

theorem lastValue_concat (es : List (Int × ℝ)) (e : Int × ℝ) (P : Int → Prop) (v : ℝ) :
    LastValue (es ++ [e]) P v ↔ (P e.1 ∧ v = e.2) ∨ (¬ P e.1 ∧ LastValue es P v) := by
  constructor
  · rintro (⟨pre, a, post, h1, h2, h3, h4⟩ | ⟨h1, h2⟩)
    · rcases List.eq_nil_or_concat' post with rfl | ⟨post', b, rfl⟩
      · have := List.append_inj' h1 rfl
        simp only [List.cons.injEq, and_true] at this
        obtain ⟨rfl, rfl⟩ := this
        exact .inl ⟨h2, h3⟩
      · have h1' : es ++ [e] = (pre ++ a :: post') ++ [b] := by simp [h1]
        have := List.append_inj' h1' rfl
        simp only [List.cons.injEq, and_true] at this
        obtain ⟨rfl, rfl⟩ := this
        exact .inr ⟨h4 e (by simp), .inl ⟨pre, a, post', rfl, h2, h3, fun q hq => h4 q (by simp [hq])⟩⟩
    · exact .inr ⟨h1 e (by simp), .inr ⟨fun q hq => h1 q (by simp [hq]), h2⟩⟩
  · rintro (⟨h1, h2⟩ | ⟨h0, (⟨pre, a, post, rfl, h2, h3, h4⟩ | ⟨h1, h2⟩)⟩)
    · exact .inl ⟨es, e, [], rfl, h1, h2, by simp⟩
    · refine .inl ⟨pre, a, post ++ [e], by simp, h2, h3, fun q hq => ?_⟩
      rcases List.mem_append.1 hq with h | h
      · exact h4 q h
      · rw [List.mem_singleton.1 h]; exact h0
    · refine .inr ⟨fun q hq => ?_, h2⟩
      rcases List.mem_append.1 hq with h | h
      · exact h1 q h
      · rw [List.mem_singleton.1 h]; exact h0

theorem lastValue_unique (es : List (Int × ℝ)) (P : Int → Prop) (v w : ℝ) (hv : LastValue es P v) (hw : LastValue es P w) :
    v = w := by
  induction es using List.reverseRecOn with
  | nil =>
    rcases hv with ⟨_, _, _, h, _⟩ | ⟨_, rfl⟩
    · simp at h
    · rcases hw with ⟨_, _, _, h, _⟩ | ⟨_, rfl⟩
      · simp at h
      · rfl
  | append_singleton es e ih =>
    rw [lastValue_concat] at hv hw
    rcases hv with ⟨h1, rfl⟩ | ⟨h1, hv⟩ <;> rcases hw with ⟨h2, rfl⟩ | ⟨h2, hw⟩
    · rfl
    · exact absurd h1 h2
    · exact absurd h2 h1
    · exact ih hv hw

theorem stored_unique (n : Int) (es : List (Int × ℝ)) (l l' : List ℝ) (h : Stored n es l) (h' : Stored n es l') : l = l' := by
  apply List.ext_getElem (h.1.trans h'.1.symm)
  intro j h1 h2
  exact lastValue_unique es _ _ _ (h.2.2 j _ (List.getElem?_eq_getElem h1)) (h'.2.2 j _ (List.getElem?_eq_getElem h2))

theorem stored_nil (n : Int) : Stored n [] (List.replicate n.toNat 0) := by
  refine ⟨by simp, by simp, fun j v h => .inr ⟨by simp, ?_⟩⟩
  rw [List.getElem?_replicate] at h
  split at h <;> simp_all

theorem stored_step (n : Int) (es : List (Int × ℝ)) (l : List ℝ) (e : Int × ℝ) (h : Stored n es l) :
    if -n ≤ e.1 ∧ e.1 < n then ∃ l', pySet l e.1 e.2 = .ok l' ∧ Stored n (es ++ [e]) l'
    else pySet l e.1 e.2 = .error .indexError := by
  obtain ⟨h1, h2, h3⟩ := h
  unfold pySet pyPos
  by_cases hr : -n ≤ e.1 ∧ e.1 < n
  · rw [if_pos hr]
    have hn : (l.length : Int) = n := by rw [h1]; omega
    have hj : ¬ ((if e.1 < 0 then e.1 + (l.length : Int) else e.1) < 0 ∨
        (l.length : Int) ≤ if e.1 < 0 then e.1 + (l.length : Int) else e.1) := by
      split <;> omega
    simp only [if_neg hj]
    refine ⟨_, rfl, by simp [h1], ?_, ?_⟩
    · intro q hq
      rcases List.mem_append.1 hq with hq | hq
      · exact h2 q hq
      · rw [List.mem_singleton.1 hq]; exact hr
    · intro j v hv
      rw [lastValue_concat]
      generalize hk : (if e.1 < 0 then e.1 + (l.length : Int) else e.1) = k at hv hj
      have hk' : e.1 = k ∨ e.1 = k - n := by
        split at hk <;> omega
      have hk2 : k ≠ e.1 → k = e.1 + n := by omega
      have hk0 : ∀ i : Nat, e.1 = i → (i : Int) < n → k = i := by
        intro i hi hin; split at hk <;> omega
      have hk1 : ∀ i : Nat, e.1 = i - n → (i : Int) < n → k = i := by
        intro i hi hin; split at hk <;> omega
      rw [List.getElem?_set] at hv
      by_cases heq : k.toNat = j
      · rw [if_pos heq] at hv
        by_cases hlt : k.toNat < l.length
        · rw [if_pos hlt] at hv
          left
          exact ⟨by omega, by simpa using hv.symm⟩
        · rw [if_neg hlt] at hv; simp at hv
      · rw [if_neg heq] at hv
        right
        have hjl : j < l.length := (List.getElem?_eq_some_iff.1 hv).1
        refine ⟨?_, h3 j v hv⟩
        rintro (h | h)
        · have := hk0 j h (by omega); omega
        · have := hk1 j h (by omega); omega
  · rw [if_neg hr]
    have hj : ((if e.1 < 0 then e.1 + (l.length : Int) else e.1) < 0 ∨
        (l.length : Int) ≤ if e.1 < 0 then e.1 + (l.length : Int) else e.1) := by
      rw [h1]; split <;> omega
    simp only [if_pos hj]

theorem foldlM_concat {α β : Type} (f : α → β → Except PyErr α) (a : α) (l : List β) (b : β) :
    (l ++ [b]).foldlM f a = (l.foldlM f a >>= fun x => f x b) := by
  rw [List.foldlM_append]
  congr 1; funext x; simp

theorem fold_stored (n : Int) (es : List (Int × ℝ)) :
    ((∀ e ∈ es, -n ≤ e.1 ∧ e.1 < n) → ∃ l, es.foldlM (fun l e => pySet l e.1 e.2) (List.replicate n.toNat (0 : ℝ)) = .ok l ∧
      Stored n es l) ∧
    ((∃ e ∈ es, ¬ (-n ≤ e.1 ∧ e.1 < n)) →
      es.foldlM (fun l e => pySet l e.1 e.2) (List.replicate n.toNat (0 : ℝ)) = .error .indexError) := by
  induction es using List.reverseRecOn with
  | nil => exact ⟨fun _ => ⟨_, rfl, stored_nil n⟩, by simp⟩
  | append_singleton es e ih =>
    obtain ⟨ih1, ih2⟩ := ih
    simp only [foldlM_concat]
    by_cases hall : ∀ q ∈ es, -n ≤ q.1 ∧ q.1 < n
    · obtain ⟨l, hl, hs⟩ := ih1 hall
      have hstep := stored_step n es l e hs
      rw [hl]
      constructor
      · intro h
        rw [if_pos (h e (by simp))] at hstep
        exact hstep
      · rintro ⟨q, hq, hq'⟩
        rcases List.mem_append.1 hq with hq | hq
        · exact absurd (hall q hq) hq'
        · rw [List.mem_singleton.1 hq] at hq'
          rw [if_neg hq'] at hstep
          exact hstep
    · constructor
      · intro h
        exact absurd (fun q hq => h q (by simp [hq])) hall
      · intro _
        push Not at hall
        obtain ⟨q, hq, hq'⟩ := hall
        rw [ih2 ⟨q, hq, fun h => absurd h.2 (by have := hq' h.1; omega)⟩]
        rfl

theorem fold_says (c : Conv) (gs : List Xml) (es : List (Int × ℝ)) (h : List.Forall₂ (Says c) gs es) (l : List ℝ) :
    gs.foldlM (addGroup c) l = es.foldlM (fun l e => pySet l e.1 e.2) l := by
  induction h generalizing l with
  | nil => rfl
  | cons h _ ih =>
    simp only [List.foldlM_cons, addGroup_says c _ _ l h]
    congr 1; funext x; exact ih x

theorem fold_says_of_ok (c : Conv) (gs : List Xml) (l l' : List ℝ) (h : gs.foldlM (addGroup c) l = .ok l') :
    ∃ es, List.Forall₂ (Says c) gs es := by
  induction gs generalizing l with
  | nil => exact ⟨[], .nil⟩
  | cons g gs ih =>
    rw [List.foldlM_cons, bind_ok] at h
    obtain ⟨a, h1, h2⟩ := h
    obtain ⟨e, he, _⟩ := addGroup_ok c g l a h1
    obtain ⟨es, hes⟩ := ih a h2
    exact ⟨e :: es, .cons he hes⟩

theorem declares_parse (c : Conv) (t : Xml) (name : String) (n : Int) (es : List (Int × ℝ)) (h : Declares c t name n es) :
    parseCoefficients c t name = es.foldlM (fun l e => pySet l e.1 e.2) (List.replicate n.toNat 0) := by
  obtain ⟨r, s, h1, h2, h3, h4⟩ := h
  rw [← find_some] at h1
  simp only [parseCoefficients, h1, h2, conv, h3]
  exact fold_says c _ _ h4 _

/-- **C37** (in part): a coefficient list that declares `n` coefficients and whose groups can all be
read gives exactly `n` coefficients, each the last value given for its index or 0; any index that is
not in `[-n, n)` raises `IndexError`; and a list that is accepted is of this kind.
Missing: the claim also wants an exception for a negative index; see the next theorem. -/
theorem coefficients_stored_partial (c : Conv) (t : Xml) (name : String) :
    (∀ n es, Declares c t name n es → (∀ e ∈ es, 0 ≤ e.1 ∧ e.1 < n) →
      ∃ l, parseCoefficients c t name = .ok l ∧ (l.length : Int) = max n 0 ∧
        ∀ (j : Nat) v, l[j]? = some v → LastValue es (fun i => i = j) v) ∧
    (∀ n es, Declares c t name n es → (∃ e ∈ es, n ≤ e.1 ∨ e.1 < -n) →
      parseCoefficients c t name = .error .indexError) ∧
    ∀ l, parseCoefficients c t name = .ok l ↔ Coefficients c t name l := by
  refine ⟨fun n es hd hr => ?_, fun n es hd hr => ?_, fun l => ⟨fun h => ?_, ?_⟩⟩
  · rw [declares_parse c t name n es hd]
    obtain ⟨l, h1, h2⟩ := (fold_stored n es).1 (fun e he => ⟨by have := hr e he; omega, (hr e he).2⟩)
    refine ⟨l, h1, by rw [h2.1]; omega, fun j v hv => ?_⟩
    have hj : j < l.length := (List.getElem?_eq_some_iff.1 hv).1
    have hjn : (j : Int) < n := by have := h2.1; omega
    have h3 := h2.2.2 j v hv
    rcases h3 with ⟨pre, e, post, h4, h5, h6, h7⟩ | ⟨h4, h5⟩
    · refine .inl ⟨pre, e, post, h4, ?_, h6, fun q hq hq' => h7 q hq (.inl hq')⟩
      have := (hr e (by simp [h4])).1
      rcases h5 with h5 | h5
      · exact h5
      · omega
    · exact .inr ⟨fun e he h => h4 e he (.inl h), h5⟩
  · rw [declares_parse c t name n es hd]
    obtain ⟨e, he, h⟩ := hr
    exact (fold_stored n es).2 ⟨e, he, by omega⟩
  · have h0 := h
    unfold parseCoefficients at h
    split at h
    · simp at h
    · rename_i r hf
      split at h
      · simp at h
      · rename_i s hs
        rw [bind_ok] at h
        obtain ⟨n, hn, hfold⟩ := h
        rw [conv_ok] at hn
        obtain ⟨es, hes⟩ := fold_says_of_ok c _ _ _ hfold
        have hd : Declares c t name n es := ⟨r, s, (find_some ..).1 hf, hs, hn, hes⟩
        refine ⟨n, es, hd, ?_⟩
        rw [declares_parse c t name n es hd] at h0
        by_cases hr : ∀ e ∈ es, -n ≤ e.1 ∧ e.1 < n
        · obtain ⟨l', h1, h2⟩ := (fold_stored n es).1 hr
          rw [h1] at h0
          simp only [Except.ok.injEq] at h0
          exact h0 ▸ h2
        · push Not at hr
          obtain ⟨e, he, hr⟩ := hr
          rw [(fold_stored n es).2 ⟨e, he, fun h => absurd h.2 (by have := hr h.1; omega)⟩] at h0
          simp at h0
  · rintro ⟨n, es, hd, hs⟩
    rw [declares_parse c t name n es hd]
    obtain ⟨l', h1, h2⟩ := (fold_stored n es).1 hs.2.1
    rw [h1, stored_unique n es l l' hs h2]

/-- Number readers for the examples: two digits and two signed numbers. -/
noncomputable def demoConv : Conv where
  float := fun s => if s = "7" then some 7 else if s = "9" then some 9 else if s = "1" then some 1 else none
  int := fun s => if s = "0" then some 0 else if s = "1" then some 1 else if s = "2" then some 2 else if s = "-1" then some (-1) else none

def demoGroup (i v : String) : Xml := .node "group" [("index", i)] [.node "field" [("value", v)] []]

def demoTre (gs : List Xml) : Xml := .node "tre" [] [.node "repeated" [("name", "X_COEFF"), ("number", "2")] gs]

theorem demo_first (gs : List Xml) :
    IsFirst (demoTre gs) "repeated" "X_COEFF" (.node "repeated" [("name", "X_COEFF"), ("number", "2")] gs) :=
  ⟨[], [], rfl, ⟨rfl, rfl⟩, by simp⟩

/-- The index list of the example: 1 twice; the hypotheses are met and the last value wins. -/
example : ∃ l, parseCoefficients demoConv (demoTre [demoGroup "1" "7", demoGroup "1" "9"]) "X_COEFF" = .ok l ∧ (l.length : Int) = 2 := by
  have hd : Declares demoConv (demoTre [demoGroup "1" "7", demoGroup "1" "9"]) "X_COEFF" 2 [(1, 7), (1, 9)] :=
    ⟨_, "2", demo_first _, rfl, by simp [demoConv], .cons ⟨"1", _, _, "7", rfl, by simp [demoConv], rfl, rfl, by simp [demoConv]⟩
      (.cons ⟨"1", _, _, "9", rfl, by simp [demoConv], rfl, rfl, by simp [demoConv]⟩ .nil)⟩
  obtain ⟨l, h1, h2, _⟩ := (coefficients_stored_partial demoConv _ "X_COEFF").1 2 _ hd (by simp)
  exact ⟨l, h1, by simpa using h2⟩

/-- **C37** is false for negative indices: a group with index -1 is accepted and overwrites the last
coefficient. -/
theorem negative_index_writes_elsewhere :
    ∃ c t es, Declares c t "X_COEFF" 2 es ∧ es = [(1, 7), (-1, 9)] ∧ parseCoefficients c t "X_COEFF" = .ok [0, 9] := by
  have hd : Declares demoConv (demoTre [demoGroup "1" "7", demoGroup "-1" "9"]) "X_COEFF" 2 [(1, 7), (-1, 9)] :=
    ⟨_, "2", demo_first _, rfl, by simp [demoConv], .cons ⟨"1", _, _, "7", rfl, by simp [demoConv], rfl, rfl, by simp [demoConv]⟩
      (.cons ⟨"-1", _, _, "9", rfl, by simp [demoConv], rfl, rfl, by simp [demoConv]⟩ .nil)⟩
  refine ⟨_, _, _, hd, rfl, ?_⟩
  rw [declares_parse _ _ _ _ _ hd]
  rfl

/-! ## The RPC builder (C78) -/

theorem coefficients_ok (c : Conv) (t : Xml) (name : String) (l : List ℝ) :
    parseCoefficients c t name = .ok l ↔ Coefficients c t name l := (coefficients_stored_partial c t name).2.2 l

theorem buildRpcModel_ok (c : Conv) (t : Xml) (m : RpcModel) :
    buildRpcModel c t = .ok m ↔ (∃ v, HasField t "ERR_BIAS" c.float v) ∧ (∃ v, HasField t "ERR_RAND" c.float v) ∧
      (∀ p ∈ rpcFields, HasField t p.1 c.float (p.2 m)) ∧ ∀ p ∈ rpcLists, Coefficients c t p.1 (p.2 m) := by
  unfold buildRpcModel
  simp only [bind_ok, pure_ok, fieldValue_ok, coefficients_ok, rpcFields, rpcLists, List.forall_mem_cons]
  constructor
  · rintro ⟨b, hb, r, hr, a1, h1, a2, h2, a3, h3, a4, h4, a5, h5, a6, h6, a7, h7, a8, h8, a9, h9, a10, h10, a11, h11, a12, h12,
      a13, h13, a14, h14, rfl⟩
    exact ⟨⟨b, hb⟩, ⟨r, hr⟩, ⟨h1, h2, h3, h4, h5, h6, h7, h8, h9, h10, by simp⟩, h11, h12, h13, h14, by simp⟩
  · rintro ⟨⟨b, hb⟩, ⟨r, hr⟩, ⟨h1, h2, h3, h4, h5, h6, h7, h8, h9, h10, -⟩, h11, h12, h13, h14, -⟩
    exact ⟨b, hb, r, hr, _, h1, _, h2, _, h3, _, h4, _, h5, _, h6, _, h7, _, h8, _, h9, _, h10, _, h11, _, h12, _, h13, _, h14, rfl⟩

theorem orNone_ok {α : Type} (x : Except PyErr (Option α)) (a : α) : orNone x = .ok (some a) ↔ x = .ok (some a) := by
  unfold orNone; split <;> simp

theorem orNone_not_value {α : Type} (x : Except PyErr (Option α)) : orNone x ≠ .error .valueError := by
  unfold orNone
  split
  · simp
  · rename_i h; exact h

theorem map_ok {α β : Type} (f : α → β) (x : Except PyErr α) (b : β) : (f <$> x) = .ok b ↔ ∃ a, x = .ok a ∧ f a = b := by
  cases x <;> simp [Functor.map, Except.map]

/-- **C78** (RPC part): the RPC builder returns a model exactly when there is an RPC00B TRE, marked
successful and with every field readable, and then every parameter of the model is the value of the
field with its name. -/
theorem rpc_builder (c : Conv) (tres : Xml) (m : RpcModel) :
    buildRpc c tres = .ok (some m) ↔ ∃ t, IsFirst tres "tre" "RPC00B" t ∧ DescribesRpc c t m := by
  unfold buildRpc DescribesRpc
  simp only [← find_some]
  cases tres.find "tre" "RPC00B" with
  | none => simp
  | some t =>
    simp only [orNone_ok, bind_ok, Option.some.injEq, exists_eq_left', fieldValue_ok]
    constructor
    · rintro ⟨s, hs, h⟩
      by_cases h1 : s = 1
      · subst h1
        simp only [ne_eq, not_true_eq_false, if_false, map_ok, Option.some.injEq] at h
        obtain ⟨a, ha, rfl⟩ := h
        exact ⟨hs, (buildRpcModel_ok c t a).1 ha⟩
      · rw [if_pos h1, pure_ok] at h
        simp at h
    · rintro ⟨hs, h⟩
      refine ⟨1, hs, ?_⟩
      simp only [ne_eq, not_true_eq_false, if_false, map_ok, Option.some.injEq]
      exact ⟨m, (buildRpcModel_ok c t m).2 h, rfl⟩

/-! ## The RSM builder (C78, C62) -/

theorem mapM_ok {α β : Type} (f : α → Except PyErr β) (l : List α) (r : List β) :
    l.mapM f = .ok r ↔ List.Forall₂ (fun a b => f a = .ok b) l r := by
  induction l generalizing r with
  | nil =>
    rw [List.mapM_nil, pure_ok]
    constructor
    · rintro rfl; exact .nil
    · intro h; cases h; rfl
  | cons a l ih =>
    rw [List.mapM_cons]
    simp only [bind_ok, pure_ok, ih]
    constructor
    · rintro ⟨b, hb, bs, hbs, rfl⟩; exact .cons hb hbs
    · intro h
      cases h with
      | cons h1 h2 => exact ⟨_, h1, _, h2, rfl⟩

theorem polynomial_ok (px py pz : Int) (cs : List ℝ) (p : RsmPoly ℝ) :
    polynomial px py pz cs = .ok p ↔ p = ⟨px, py, pz, cs⟩ ∧ (cs.length : Int) = (px + 1) * (py + 1) * (pz + 1) := by
  unfold polynomial
  split
  · rename_i h; simp [h]
  · rename_i h
    simp only [Except.ok.injEq]
    constructor
    · rintro rfl; exact ⟨rfl, by simpa using h⟩
    · rintro ⟨rfl, -⟩; rfl

theorem buildPolynomial_ok (c : Conv) (t : Xml) (pre : String) (p : RsmPoly ℝ) :
    buildPolynomial c t pre = .ok p ↔ DescribesPoly c t pre p := by
  unfold buildPolynomial DescribesPoly
  simp only [bind_ok, fieldValue_ok, coefficients_ok, polynomial_ok]
  constructor
  · rintro ⟨a, h1, b, h2, d, h3, l, h4, rfl, h5⟩; exact ⟨h1, h2, h3, h4, h5⟩
  · rintro ⟨h1, h2, h3, h4, h5⟩; exact ⟨_, h1, _, h2, _, h3, _, h4, rfl, h5⟩

theorem buildPolyModel_ok (c : Conv) (ctx : Context) (t : Xml) (m : PolyModel) :
    buildPolyModel c ctx t = .ok m ↔ DescribesRsm c ctx.domain t m := by
  unfold buildPolyModel DescribesRsm
  simp only [bind_ok, pure_ok, fieldValue_ok, buildPolynomial_ok, rsmInts, rsmFields, rsmPolys, List.forall_mem_cons]
  constructor
  · rintro ⟨i1, g1, i2, g2, a1, h1, a2, h2, a3, h3, a4, h4, a5, h5, a6, h6, a7, h7, a8, h8, a9, h9, a10, h10, a11, h11, a12, h12,
      a13, h13, a14, h14, rfl⟩
    exact ⟨rfl, ⟨g1, g2, by simp⟩, ⟨h1, h2, h3, h4, h5, h6, h7, h8, h9, h10, by simp⟩, h11, h12, h13, h14, by simp⟩
  · rintro ⟨h0, ⟨g1, g2, -⟩, ⟨h1, h2, h3, h4, h5, h6, h7, h8, h9, h10, -⟩, h11, h12, h13, h14, -⟩
    exact ⟨_, g1, _, g2, _, h1, _, h2, _, h3, _, h4, _, h5, _, h6, _, h7, _, h8, _, h9, _, h10, _, h11, _, h12, _, h13, _, h14,
      by rw [← h0]⟩

theorem floats3_ok (c : Conv) (t : Xml) (a b d : String) (v : Vec) : floats3 c t a b d = .ok v ↔ Field3 c t a b d v := by
  unfold floats3 Field3
  simp only [bind_ok, pure_ok, fieldValue_ok]
  constructor
  · rintro ⟨x, hx, y, hy, z, hz, rfl⟩; exact ⟨hx, hy, hz⟩
  · rintro ⟨hx, hy, hz⟩
    refine ⟨_, hx, _, hy, _, hz, ?_⟩
    funext i; fin_cases i <;> rfl

theorem unitVectors_ok (c : Conv) (t : Xml) (u : Mat) :
    unitVectors c t = .ok u ↔ Field3 c t "XUXR" "YUXR" "ZUXR" (fun j => u 0 j) ∧
      Field3 c t "XUYR" "YUYR" "ZUYR" (fun j => u 1 j) ∧ Field3 c t "XUZR" "YUZR" "ZUZR" (fun j => u 2 j) := by
  unfold unitVectors
  simp only [bind_ok, pure_ok, floats3_ok]
  constructor
  · rintro ⟨x, hx, y, hy, z, hz, rfl⟩; exact ⟨hx, hy, hz⟩
  · rintro ⟨hx, hy, hz⟩
    refine ⟨_, hx, _, hy, _, hz, ?_⟩
    ext i j; fin_cases i <;> rfl

theorem formOf_ok (s : String) (f : Form) : formOf s = some f ↔ s = formLetter f := by
  unfold formOf formLetter
  cases f <;> split_ifs <;> simp_all

theorem vertices_ok (c : Conv) (t : Xml) (vs : List Vec) :
    ((List.range 8).mapM (fun i => floats3 c t ("V" ++ toString (i + 1) ++ "X") ("V" ++ toString (i + 1) ++ "Y")
      ("V" ++ toString (i + 1) ++ "Z")) = .ok vs) ↔ List.Forall₂ (fun n v => Field3 c t n.1 n.2.1 n.2.2 v) vertexNames vs := by
  have h : vertexNames = (List.range 8).map (fun i => ("V" ++ toString (i + 1) ++ "X", "V" ++ toString (i + 1) ++ "Y",
      "V" ++ toString (i + 1) ++ "Z")) := by decide +kernel
  rw [mapM_ok, h, List.forall₂_map_left_iff]
  simp only [floats3_ok]

theorem buildGroundDomain_ok (earth : Earth) (c : Conv) (t : Xml) (d : GroundDomain) :
    buildGroundDomain earth c t = .ok d ↔ ∃ form vertices origin units reference,
      DomainFields c t form vertices origin units reference ∧ groundDomain earth form vertices origin units reference = .ok d := by
  unfold buildGroundDomain
  simp only [bind_ok, fieldValue_ok, conv_ok, formOf_ok, vertices_ok]
  constructor
  · rintro ⟨form, ⟨s, hs, rfl⟩, vs, hvs, ⟨o, u⟩, hou, h⟩
    refine ⟨form, vs, o, u, _, ⟨hs, hvs, ?_, ?_, ?_⟩, h⟩
    · intro hf
      rw [if_pos hf] at hou
      simp only [bind_ok, pure_ok, floats3_ok, unitVectors_ok, Prod.mk.injEq] at hou
      obtain ⟨o', ho, u', hu, rfl, rfl⟩ := hou
      exact ⟨o', u', rfl, rfl, ho, hu⟩
    · intro hf
      rw [if_neg hf, pure_ok] at hou
      simp only [Prod.mk.injEq] at hou
      exact ⟨hou.1.symm, hou.2.symm⟩
    · cases hr : floats3 c t "GRPX" "GRPY" "GRPZ" with
      | ok v => exact (floats3_ok ..).1 hr
      | error e =>
        intro v hv
        rw [← floats3_ok, hr] at hv
        simp at hv
  · rintro ⟨form, vs, o, u, r, ⟨h1, h2, h3, h4, h5⟩, h⟩
    refine ⟨form, ⟨_, h1, rfl⟩, vs, h2, (o, u), ?_, ?_⟩
    · by_cases hf : form = .rectangular
      · rw [if_pos hf]
        simp only [bind_ok, pure_ok, floats3_ok, unitVectors_ok, Prod.mk.injEq]
        obtain ⟨o', u', rfl, rfl, ho, hu⟩ := h3 hf
        exact ⟨o', ho, u', hu, rfl, rfl⟩
      · obtain ⟨rfl, rfl⟩ := h4 hf
        rw [if_neg hf, pure_ok]
    · have hr : (match floats3 c t "GRPX" "GRPY" "GRPZ" with
          | .ok v => some v
          | .error _ => none) = r := by
        cases hr : floats3 c t "GRPX" "GRPY" "GRPZ" with
        | ok v =>
          rw [floats3_ok] at hr
          cases r with
          | none => exact absurd hr (h5 v)
          | some w =>
            simp only at h5
            rw [← floats3_ok] at hr h5
            rw [h5] at hr
            simpa using hr.symm
        | error e =>
          cases r with
          | none => rfl
          | some w =>
            simp only at h5
            rw [← floats3_ok, hr] at h5
            simp at h5
      rw [← h]
      exact congrArg _ hr

theorem buildContext_ok (earth : Earth) (c : Conv) (t : Xml) (ctx : Context) :
    buildContext earth c t = .ok ctx ↔ DescribesContext earth c t ctx.domain ctx.minRow ctx.maxRow ctx.minCol ctx.maxCol := by
  unfold buildContext DescribesContext
  simp only [bind_ok, pure_ok, fieldValue_ok, buildGroundDomain_ok]
  constructor
  · rintro ⟨d, hd, a, h1, b, h2, e, h3, f, h4, rfl⟩; exact ⟨hd, h1, h2, h3, h4⟩
  · rintro ⟨hd, h1, h2, h3, h4⟩; exact ⟨_, hd, _, h1, _, h2, _, h3, _, h4, rfl⟩

theorem buildLowOrder_ok (c : Conv) (t : Xml) (pre : String) (names : List String) (l : List ℝ)
    (hn : names = ["0", "X", "Y", "Z", "XX", "XY", "XZ", "YY", "YZ", "ZZ"].map (pre ++ ·)) :
    buildLowOrder c t pre = .ok l ↔ List.Forall₂ (fun n v => HasField t n c.float v) names l := by
  unfold buildLowOrder
  simp only [bind_ok, mapM_ok, fieldValue_ok, hn, List.forall₂_map_left_iff]
  constructor
  · rintro ⟨cs, h1, h2⟩
    have := h1.length_eq
    simp only [List.length_cons, List.length_nil] at this
    rw [lowOrderPolynomial, if_neg (by omega)] at h2
    simp only [Except.ok.injEq] at h2
    exact h2 ▸ h1
  · intro h
    have := h.length_eq
    simp only [List.length_cons, List.length_nil] at this
    exact ⟨l, h, by rw [lowOrderPolynomial, if_neg (by omega)]⟩

theorem gridMap_concat {M : Type} (models : List (Int × Int × M)) (m : Int × Int × M) :
    gridMap (models ++ [m]) = ((m.1, m.2.1), m.2.2) :: gridMap models := by
  simp [gridMap, List.foldl_append]

theorem gridMap_lookup {M : Type} (models : List (Int × Int × M)) (r c : Int) (m : M) :
    (gridMap models).lookup (r, c) = some m ↔ IsSection models r c m := by
  induction models using List.reverseRecOn with
  | nil =>
    constructor
    · intro h; simp [gridMap] at h
    · rintro ⟨pre, post, h, _⟩; simp at h
  | append_singleton ms e ih =>
    obtain ⟨er, ec, em⟩ := e
    rw [gridMap_concat, List.lookup_cons]
    constructor
    · intro h
      by_cases he : (r, c) = (er, ec)
      · simp only [he, beq_self_eq_true] at h
        simp only [Prod.mk.injEq] at he
        obtain ⟨rfl, rfl⟩ := he
        simp only [Option.some.injEq] at h
        exact ⟨ms, [], by simp [h], by simp⟩
      · rw [beq_eq_false_iff_ne.2 he] at h
        obtain ⟨pre, post, h1, h2⟩ := ih.1 h
        refine ⟨pre, post ++ [(er, ec, em)], by simp [h1], fun q hq => ?_⟩
        rcases List.mem_append.1 hq with hq | hq
        · exact h2 q hq
        · rw [List.mem_singleton.1 hq]
          rintro ⟨rfl, rfl⟩
          exact he rfl
    · rintro ⟨pre, post, h1, h2⟩
      rcases List.eq_nil_or_concat' post with rfl | ⟨post', b, rfl⟩
      · have := List.append_inj' h1 rfl
        simp only [List.cons.injEq, and_true, Prod.mk.injEq] at this
        obtain ⟨rfl, rfl, rfl, rfl⟩ := this
        simp
      · have h1' : ms ++ [(er, ec, em)] = (pre ++ (r, c, m) :: post') ++ [b] := by simp [h1]
        have := List.append_inj' h1' rfl
        simp only [List.cons.injEq, and_true] at this
        obtain ⟨rfl, rfl⟩ := this
        have hb : ¬ (er = r ∧ ec = c) := h2 (er, ec, em) (by simp)
        have he : (r, c) ≠ (er, ec) := by
          intro h; simp only [Prod.mk.injEq] at h; exact hb ⟨h.1.symm, h.2.symm⟩
        rw [beq_eq_false_iff_ne.2 he]
        exact ih.2 ⟨pre, post', rfl, fun q hq => h2 q (by simp [hq])⟩

theorem range1_forall2 {β : Type} (n : Int) (R : Int → β → Prop) (l : List β) :
    List.Forall₂ R (range1 n) l ↔ l.length = n.toNat ∧ ∀ (i : Nat) b, l[i]? = some b → R (i + 1) b := by
  rw [range1, List.forall₂_map_left_iff, List.forall₂_iff_get]
  constructor
  · rintro ⟨h1, h2⟩
    simp only [List.length_range] at h1
    refine ⟨h1.symm, fun i b hb => ?_⟩
    obtain ⟨hi, rfl⟩ := List.getElem?_eq_some_iff.1 hb
    simpa using h2 i (by simpa [h1] using hi) hi
  · rintro ⟨h1, h2⟩
    refine ⟨by simpa using h1.symm, fun i hi hi' => ?_⟩
    simpa using h2 i _ (List.getElem?_eq_getElem hi')

theorem sectionGrid_ok {M : Type} (models : List (Int × Int × M)) (rows cols : Int) (grid : List (List M)) :
    sectionGrid models rows cols = .ok grid ↔ GridOf models rows cols grid := by
  unfold sectionGrid GridOf
  simp only [mapM_ok, range1_forall2]
  have h : ∀ (r c : Int) (m : M), sectionAt models r c = .ok m ↔ IsSection models r c m := by
    intro r c m
    rw [← gridMap_lookup, sectionAt]
    cases (gridMap models).lookup (r, c) <;> simp
  simp only [h]

theorem mapM_error {α β : Type} (f : α → Except PyErr β) (l : List α) (e : PyErr) (h : ∀ a ∈ l, ∀ e', f a = .error e' → e' = e)
    (a : α) (ha : a ∈ l) (hf : ∀ b, f a ≠ .ok b) : l.mapM f = .error e := by
  induction l with
  | nil => simp at ha
  | cons x l ih =>
    rw [List.mapM_cons]
    cases hx : f x with
    | error e' =>
      rw [h x (by simp) e' hx]; rfl
    | ok b =>
      rcases List.mem_cons.1 ha with rfl | ha
      · exact absurd hx (hf b)
      · rw [ih (fun a ha => h a (by simp [ha])) ha]; rfl

theorem mapM_error_of {α β : Type} (f : α → Except PyErr β) (l : List α) (e : PyErr) (h : l.mapM f = .error e) :
    ∃ a ∈ l, f a = .error e := by
  induction l with
  | nil => simp [pure, Except.pure] at h
  | cons x l ih =>
    rw [List.mapM_cons] at h
    cases hx : f x with
    | error e' =>
      rw [hx] at h
      simp only [bind, Except.bind, Except.error.injEq] at h
      exact ⟨x, by simp, by rw [hx, h]⟩
    | ok b =>
      rw [hx] at h
      cases hl : l.mapM f with
      | ok bs => rw [hl] at h; simp [bind, Except.bind, pure, Except.pure] at h
      | error e' =>
        rw [hl] at h
        simp only [bind, Except.bind, Except.error.injEq] at h
        obtain ⟨a, ha, hfa⟩ := ih (by rw [hl, h])
        exact ⟨a, by simp [ha], hfa⟩

theorem mem_range1 (n i : Int) : i ∈ range1 n ↔ 1 ≤ i ∧ i ≤ n := by
  unfold range1
  simp only [List.mem_map, List.mem_range]
  constructor
  · rintro ⟨k, hk, rfl⟩; omega
  · intro h; exact ⟨(i - 1).toNat, by omega, by omega⟩

/-- **C62** (in part): the grid of a multi-section model holds at row `r`, column `k` the model whose
metadata says row section `r + 1`, column section `k + 1` (the last one if there are several), and it
is built exactly when every section is there.  Missing: the claim wants no model when a section is
missing; the code raises `KeyError` instead (see `missing_section_raises`). -/
theorem section_grid_partial {M : Type} (models : List (Int × Int × M)) (rows cols : Int) :
    (∀ grid, sectionGrid models rows cols = .ok grid ↔ GridOf models rows cols grid) ∧
    ((∃ r k, 1 ≤ r ∧ r ≤ rows ∧ 1 ≤ k ∧ k ≤ cols ∧ ∀ m, ¬ IsSection models r k m) ↔
      sectionGrid models rows cols = .error .keyError) ∧
    ((∀ r k, 1 ≤ r → r ≤ rows → 1 ≤ k → k ≤ cols → ∃ m, (r, k, m) ∈ models) ↔
      ∃ grid, sectionGrid models rows cols = .ok grid) := by
  have herr : ∀ e, sectionGrid models rows cols = .error e →
      ∃ r k, 1 ≤ r ∧ r ≤ rows ∧ 1 ≤ k ∧ k ≤ cols ∧ (gridMap models).lookup (r, k) = none := by
    intro e h
    obtain ⟨r, hr, h⟩ := mapM_error_of _ _ _ h
    obtain ⟨k, hk, h⟩ := mapM_error_of _ _ _ h
    rw [mem_range1] at hr hk
    refine ⟨r, k, hr.1, hr.2, hk.1, hk.2, ?_⟩
    cases hl : (gridMap models).lookup (r, k) with
    | none => rfl
    | some m => rw [sectionAt, hl] at h; simp at h
  have hkey : ∀ e, sectionGrid models rows cols = .error e → e = .keyError := by
    intro e h
    obtain ⟨r, hr, h⟩ := mapM_error_of _ _ _ h
    obtain ⟨k, hk, h⟩ := mapM_error_of _ _ _ h
    unfold sectionAt at h
    split at h
    · simpa using h.symm
    · simp at h
  have hmiss : ∀ r k, 1 ≤ r → r ≤ rows → 1 ≤ k → k ≤ cols → (gridMap models).lookup (r, k) = none →
      ∀ grid, sectionGrid models rows cols ≠ .ok grid := by
    intro r k h1 h2 h3 h4 hl grid h
    rw [sectionGrid_ok] at h
    obtain ⟨hlen, hg⟩ := h
    have hr : (r - 1).toNat < grid.length := by omega
    obtain ⟨hlen2, hm⟩ := hg (r - 1).toNat _ (List.getElem?_eq_getElem hr)
    have hk : (k - 1).toNat < (grid[(r - 1).toNat]).length := by omega
    have := hm (k - 1).toNat _ (List.getElem?_eq_getElem hk)
    have e1 : ((r - 1).toNat : Int) + 1 = r := by omega
    have e2 : ((k - 1).toNat : Int) + 1 = k := by omega
    rw [e1, e2, ← gridMap_lookup, hl] at this
    simp at this
  refine ⟨sectionGrid_ok models rows cols, ⟨?_, ?_⟩, ⟨?_, ?_⟩⟩
  · rintro ⟨r, k, h1, h2, h3, h4, h5⟩
    cases h : sectionGrid models rows cols with
    | error e => rw [hkey e h]
    | ok grid =>
      refine absurd h (hmiss r k h1 h2 h3 h4 ?_ grid)
      cases hl : (gridMap models).lookup (r, k) with
      | none => rfl
      | some m => exact absurd ((gridMap_lookup ..).1 hl) (h5 m)
  · intro h
    obtain ⟨r, k, h1, h2, h3, h4, h5⟩ := herr _ h
    refine ⟨r, k, h1, h2, h3, h4, fun m hm => ?_⟩
    rw [← gridMap_lookup, h5] at hm
    simp at hm
  · intro hall
    cases h : sectionGrid models rows cols with
    | ok grid => exact ⟨grid, rfl⟩
    | error e =>
      obtain ⟨r, k, h1, h2, h3, h4, h5⟩ := herr _ h
      obtain ⟨m, hm⟩ := hall r k h1 h2 h3 h4
      exfalso
      have key : ∀ (l : List (Int × Int × M)), (r, k, m) ∈ l → (gridMap l).lookup (r, k) ≠ none := by
        intro l
        induction l using List.reverseRecOn with
        | nil => simp
        | append_singleton l e ih =>
          intro hin
          rw [gridMap_concat, List.lookup_cons]
          split
          · simp
          · rename_i hne
            rcases List.mem_append.1 hin with hin | hin
            · exact ih hin
            · rw [← List.mem_singleton.1 hin] at hne
              simp at hne
      exact key models hm h5
  · rintro ⟨grid, hg⟩ r k h1 h2 h3 h4
    by_contra hno
    push Not at hno
    refine hmiss r k h1 h2 h3 h4 ?_ grid hg
    cases hl : (gridMap models).lookup (r, k) with
    | none => rfl
    | some m =>
      obtain ⟨pre, post, h, _⟩ := (gridMap_lookup ..).1 hl
      exact absurd (by simp [h]) (hno m)

/-- A 1 by 2 grid given in the wrong order and with a duplicate. -/
example : sectionGrid [(1, 2, "b"), (1, 1, "a"), (1, 2, "c")] 1 2 = .ok [["a", "c"]] := by decide +kernel

theorem findall_eq (x : Xml) (tag name : String) : x.findall tag name = allNamed x tag name := by
  unfold Xml.findall allNamed Named
  congr 1
  funext e
  congr

/-- **C78** (RSM part): the RSM builder returns a single polynomial model exactly when there is one
RSMPCA TRE, and its parameters are the values of the fields with their names. -/
theorem rsm_builder_single (earth : Earth) (c : Conv) (tres : Xml) (m : PolyModel) :
    buildRsm earth c tres = .ok (some (.single m)) ↔
      ∃ t p d a b e f, IsFirst tres "tre" "RSMIDA" t ∧ DescribesContext earth c t d a b e f ∧
        allNamed tres "tre" "RSMPCA" = [p] ∧ DescribesRsm c d p m := by
  unfold buildRsm
  simp only [← find_some, ← findall_eq]
  cases tres.find "tre" "RSMIDA" with
  | none => simp
  | some t =>
    simp only [orNone_ok, bind_ok, buildContext_ok, mapM_ok, buildPolyModel_ok, Option.some.injEq]
    constructor
    · rintro ⟨ctx, hctx, models, hm, h⟩
      match models, hm, h with
      | [], hm, h => simp [pure_ok] at h
      | [m'], hm, h =>
        simp only [pure_ok, Option.some.injEq, RsmResult.single.injEq] at h
        subst h
        rw [List.forall₂_cons_right_iff] at hm
        obtain ⟨p, u, hp, hu, hlist⟩ := hm
        cases hu
        exact ⟨t, p, _, _, _, _, _, rfl, hctx, hlist, hp⟩
      | m1 :: m2 :: ms, hm, h =>
        simp only at h
        split at h
        · simp [pure_ok] at h
        · simp only [map_ok, Option.some.injEq] at h
          obtain ⟨r, hr, rfl⟩ := h
          unfold buildSectioned at hr
          simp only [bind_ok, pure_ok] at hr
          obtain ⟨_, _, _, _, _, _, _, _, _, _, _, _, _, _, h⟩ := hr
          simp at h
    · rintro ⟨t', p, d, a, b, e, f, rfl, hctx, hp, hd⟩
      exact ⟨⟨d, a, b, e, f⟩, hctx, [m], by rw [hp]; exact .cons hd .nil, by simp [pure_ok]⟩

/-- **C78** (RSM part): the RSM builder returns a sectioned model exactly when there are several
RSMPCA TREs and an RSMPIA TRE, with the section grid of C62. -/
theorem rsm_builder_sectioned (earth : Earth) (c : Conv) (tres : Xml) (frame : Frame) (minRow minCol rows cols : Int)
    (rowSize colSize : ℝ) (rowPoly colPoly : List ℝ) (grid : List (List PolyModel)) :
    buildRsm earth c tres = .ok (some (.sectioned frame minRow minCol rows cols rowSize colSize rowPoly colPoly grid)) ↔
      ∃ t q d b f models, IsFirst tres "tre" "RSMIDA" t ∧ DescribesContext earth c t d minRow b minCol f ∧ d.frame = frame ∧
        List.Forall₂ (DescribesRsm c d) (allNamed tres "tre" "RSMPCA") models ∧ 2 ≤ models.length ∧
        IsFirst tres "tre" "RSMPIA" q ∧ SectionFields c q rows cols rowSize colSize rowPoly colPoly ∧
        GridOf (models.map (fun m => (m.rowSection, m.colSection, m))) rows cols grid := by
  unfold buildRsm
  simp only [← find_some, ← findall_eq]
  cases tres.find "tre" "RSMIDA" with
  | none => simp
  | some t =>
    simp only [orNone_ok, bind_ok, buildContext_ok, mapM_ok, buildPolyModel_ok, Option.some.injEq]
    have hR := buildLowOrder_ok c (pre := "R") (names := ["R0", "RX", "RY", "RZ", "RXX", "RXY", "RXZ", "RYY", "RYZ", "RZZ"])
      (hn := by decide +kernel)
    have hC := buildLowOrder_ok c (pre := "C") (names := ["C0", "CX", "CY", "CZ", "CXX", "CXY", "CXZ", "CYY", "CYZ", "CZZ"])
      (hn := by decide +kernel)
    constructor
    · rintro ⟨ctx, hctx, models, hm, h⟩
      match models, hm, h with
      | [], hm, h => simp [pure_ok] at h
      | [m'], hm, h => simp [pure_ok] at h
      | m1 :: m2 :: ms, hm, h =>
        simp only at h
        cases hq : tres.find "tre" "RSMPIA" with
        | none => rw [hq] at h; simp [pure_ok] at h
        | some q =>
          rw [hq] at h
          simp only [map_ok, Option.some.injEq, exists_eq_right] at h
          unfold buildSectioned at h
          simp only [bind_ok, pure_ok, fieldValue_ok, sectionGrid_ok, hR, hC, RsmResult.sectioned.injEq] at h
          obtain ⟨_, h1, _, h2, _, h3, _, h4, _, h5, _, h6, _, h7, rfl, rfl, rfl, rfl, rfl, rfl, rfl, rfl, rfl, rfl⟩ := h
          exact ⟨t, q, _, _, _, m1 :: m2 :: ms, rfl, hctx, rfl, hm, by simp, rfl, ⟨h1, h2, h4, h5, h6, h7⟩, h3⟩
    · rintro ⟨t', q, d, b, f, models, rfl, hctx, rfl, hm, hlen, hq, ⟨h1, h2, h4, h5, h6, h7⟩, h3⟩
      refine ⟨⟨d, minRow, b, minCol, f⟩, hctx, models, hm, ?_⟩
      match models, hlen, h3 with
      | m1 :: m2 :: ms, hlen, h3 =>
        simp only [hq, map_ok, Option.some.injEq, exists_eq_right]
        unfold buildSectioned
        simp only [bind_ok, pure_ok, fieldValue_ok, sectionGrid_ok, hR, hC]
        exact ⟨_, h1, _, h2, _, h3, _, h4, _, h5, _, h6, _, h7, rfl⟩

/-- **C62** is false when a section is missing: instead of returning no model, the builder raises
`KeyError`. -/
theorem missing_section_raises (earth : Earth) (c : Conv) (tres t q : Xml) (d : GroundDomain) (a b e f rows cols : Int)
    (models : List PolyModel) (ht : IsFirst tres "tre" "RSMIDA" t) (hctx : DescribesContext earth c t d a b e f)
    (hm : List.Forall₂ (DescribesRsm c d) (allNamed tres "tre" "RSMPCA") models) (hlen : 2 ≤ models.length)
    (hq : IsFirst tres "tre" "RSMPIA" q) (hrows : HasField q "RNIS" c.int rows) (hcols : HasField q "CNIS" c.int cols)
    (r k : Int) (hr : 1 ≤ r ∧ r ≤ rows) (hk : 1 ≤ k ∧ k ≤ cols) (hmiss : ∀ m ∈ models, ¬ (m.rowSection = r ∧ m.colSection = k)) :
    buildRsm earth c tres = .error .keyError := by
  have hctx' : buildContext earth c t = .ok ⟨d, a, b, e, f⟩ := (buildContext_ok ..).2 hctx
  have hm' : (tres.findall "tre" "RSMPCA").mapM (buildPolyModel c ⟨d, a, b, e, f⟩) = .ok models := by
    rw [mapM_ok, findall_eq]
    exact hm.imp (fun _ _ h => (buildPolyModel_ok ..).2 h)
  have hgrid : sectionGrid (models.map (fun m => (m.rowSection, m.colSection, m))) rows cols = .error .keyError := by
    refine (section_grid_partial _ rows cols).2.1.1 ⟨r, k, hr.1, hr.2, hk.1, hk.2, ?_⟩
    rintro m ⟨pre, post, h, _⟩
    have : (r, k, m) ∈ models.map (fun m => (m.rowSection, m.colSection, m)) := by rw [h]; simp
    simp only [List.mem_map, Prod.mk.injEq] at this
    obtain ⟨m', h1, h2, h3, _⟩ := this
    exact hmiss m' h1 ⟨h2, h3⟩
  unfold buildRsm
  rw [(find_some ..).2 ht]
  simp only [hctx', hm', bind, Except.bind, (find_some ..).2 hq]
  match models, hlen, hgrid with
  | m1 :: m2 :: ms, hlen, hgrid =>
    simp only [buildSectioned, (fieldValue_ok ..).2 hrows, (fieldValue_ok ..).2 hcols, hgrid, bind, Except.bind,
      Functor.map, Except.map, orNone]

/-! ### A concrete multi-section image -/

def field (name value : String) : Xml := .node "field" [("name", name), ("value", value)] []

/-- A one-element coefficient list with the value 1. -/
def ones (name : String) : Xml :=
  .node "repeated" [("name", name), ("number", "1")] [.node "group" [("index", "0")] [.node "field" [("value", "1")] []]]

def tre (name : String) (children : List Xml) : Xml := .node "tre" [("name", name)] children

/-- An RSMIDA TRE with a geodetic domain; all numbers are zero. -/
def demoIda : Xml :=
  tre "RSMIDA" (field "GRNDD" "G" ::
    ["MINR", "MAXR", "MINC", "MAXC", "V1X", "V1Y", "V1Z", "V2X", "V2Y", "V2Z", "V3X", "V3Y", "V3Z", "V4X", "V4Y", "V4Z",
     "V5X", "V5Y", "V5Z", "V6X", "V6Y", "V6Z", "V7X", "V7Y", "V7Z", "V8X", "V8Y", "V8Z"].map (field · "0"))

/-- An RSMPCA TRE for the given section; all polynomials are constant. -/
def demoPca (rsn csn : String) : Xml :=
  tre "RSMPCA" ([field "RSN" rsn, field "CSN" csn] ++
    ["RNRMO", "CNRMO", "XNRMO", "YNRMO", "ZNRMO", "RNRMSF", "CNRMSF", "XNRMSF", "YNRMSF", "ZNRMSF",
     "RNPWRX", "RNPWRY", "RNPWRZ", "RDPWRX", "RDPWRY", "RDPWRZ", "CNPWRX", "CNPWRY", "CNPWRZ", "CDPWRX", "CDPWRY", "CDPWRZ"].map (field · "0") ++
    ["RNPCF", "RDPCF", "CNPCF", "CDPCF"].map ones)

def demoPia (rows cols : String) : Xml := tre "RSMPIA" [field "RNIS" rows, field "CNIS" cols]

noncomputable def demoReal : Conv where
  float := fun s => if s = "0" then some 0 else if s = "1" then some 1 else none
  int := fun s => if s = "0" then some 0 else if s = "1" then some 1 else if s = "2" then some 2 else none

/-- An image with the sections (1, 1) and (2, 1) that claims to have a 2 by 2 grid. -/
def demoSections : Xml := .node "tres" [] [demoIda, demoPca "1" "1", demoPca "2" "1", demoPia "2" "2"]

/-- The premises of `missing_section_raises` are met: sections (1, 2) and (2, 2) are missing. -/
example (earth : Earth) : buildRsm earth demoReal demoSections = .error .keyError := by rfl

/-- With all ten coefficients of the low order polynomials and the sizes. -/
def demoPiaFull (rows cols : String) : Xml :=
  tre "RSMPIA" ([field "RNIS" rows, field "CNIS" cols] ++
    ["RSSIZ", "CSSIZ", "R0", "RX", "RY", "RZ", "RXX", "RXY", "RXZ", "RYY", "RYZ", "RZZ",
     "C0", "CX", "CY", "CZ", "CXX", "CXY", "CXZ", "CYY", "CYZ", "CZZ"].map (field · "1"))

/-- A complete 2 by 1 grid, given in the wrong order, is built: the premises of
`rsm_builder_sectioned` are met. -/
example (earth : Earth) : ∃ frame a b x y p q m1 m2, m1.rowSection = 1 ∧ m2.rowSection = 2 ∧
    buildRsm earth demoReal (.node "tres" [] [demoIda, demoPca "2" "1", demoPca "1" "1", demoPiaFull "2" "1"]) =
      .ok (some (.sectioned frame a b 2 1 x y p q [[m1], [m2]])) :=
  ⟨_, _, _, _, _, _, _, _, _, rfl, rfl, rfl⟩

/-- One section: the premises of `rsm_builder_single` are met. -/
example (earth : Earth) : ∃ m, buildRsm earth demoReal (.node "tres" [] [demoIda, demoPca "1" "1"]) = .ok (some (.single m)) ∧
    m.rowSection = 1 := ⟨_, rfl, rfl⟩

/-! ### RPC examples and failures -/

def demoRpc (success : String) (lists : List Xml) : Xml :=
  .node "tres" [] [tre "RPC00B" (field "SUCCESS" success ::
    ["ERR_BIAS", "ERR_RAND", "LINE_OFF", "SAMP_OFF", "LAT_OFF", "LONG_OFF", "HEIGHT_OFF", "LINE_SCALE", "SAMP_SCALE", "LAT_SCALE",
     "LONG_SCALE", "HEIGHT_SCALE"].map (field · "1") ++ lists)]

def demoLists : List Xml := ["LINE_NUM_COEFF", "LINE_DEN_COEFF", "SAMP_NUM_COEFF", "SAMP_DEN_COEFF"].map ones

example : ∃ m, buildRpc demoReal (demoRpc "1" demoLists) = .ok (some m) ∧ m.lineOff = 1 ∧ m.sampDen = [1] := ⟨_, rfl, rfl, rfl⟩

theorem pySet_error (l : List ℝ) (i : Int) (v : ℝ) (e : PyErr) (h : pySet l i v = .error e) : e = .indexError := by
  unfold pySet pyPos at h
  generalize (if i < 0 then i + (l.length : Int) else i) = k at h
  by_cases hk : k < 0 ∨ (l.length : Int) ≤ k
  · simp only [if_pos hk, Except.error.injEq] at h; exact h.symm
  · simp [if_neg hk] at h

theorem parse_error (c : Conv) (t : Xml) (name : String) (e : PyErr) (h : parseCoefficients c t name = .error e) :
    e = .valueError ∨ e = .indexError := by
  have hconv : ∀ {α : Type} (f : String → Option α) s e, conv f s = .error e → e = .valueError := by
    intro α f s e h
    unfold conv at h
    split at h
    · simpa using h.symm
    · simp at h
  have hgroup : ∀ l g e, addGroup c l g = .error e → e = .valueError ∨ e = .indexError := by
    intro l g e h
    unfold addGroup at h
    cases hi : g.get "index" with
    | none => simp only [hi, bind, Except.bind, Except.error.injEq] at h; exact .inl h.symm
    | some s =>
      simp only [hi] at h
      cases hs : conv c.int s with
      | error e' => rw [hs] at h; simp only [bind, Except.bind, Except.error.injEq] at h; exact .inl (h ▸ hconv _ _ _ hs)
      | ok i =>
        rw [hs] at h
        cases hc : g.children.head? with
        | none => simp only [hc, bind, Except.bind, Except.error.injEq] at h; exact .inr h.symm
        | some first =>
          simp only [hc] at h
          cases hv : first.get "value" with
          | none => simp only [hv, bind, Except.bind, Except.error.injEq] at h; exact .inl h.symm
          | some u =>
            simp only [hv] at h
            cases hu : conv c.float u with
            | error e' => rw [hu] at h; simp only [bind, Except.bind, Except.error.injEq] at h; exact .inl (h ▸ hconv _ _ _ hu)
            | ok v =>
              rw [hu] at h
              exact .inr (pySet_error _ _ _ _ h)
  have hfold : ∀ gs l e, List.foldlM (addGroup c) l gs = .error e → e = .valueError ∨ e = .indexError := by
    intro gs
    induction gs with
    | nil => intro l e h; simp [pure, Except.pure] at h
    | cons g gs ih =>
      intro l e h
      rw [List.foldlM_cons] at h
      cases hg : addGroup c l g with
      | error e' => rw [hg] at h; simp only [bind, Except.bind, Except.error.injEq] at h; exact h ▸ hgroup l g e' hg
      | ok l' => rw [hg] at h; exact ih l' e h
  unfold parseCoefficients at h
  split at h
  · simp only [Except.error.injEq] at h; exact .inl h.symm
  · split at h
    · simp only [Except.error.injEq] at h; exact .inl h.symm
    · rename_i s _
      cases hn : conv c.int s with
      | error e' => rw [hn] at h; simp only [bind, Except.bind, Except.error.injEq] at h; exact .inl (h ▸ hconv _ _ _ hn)
      | ok n => rw [hn] at h; exact hfold _ _ _ h

theorem bind_error {α β : Type} (x : Except PyErr α) (f : α → Except PyErr β) (e : PyErr) :
    (x >>= f) = .error e ↔ x = .error e ∨ ∃ a, x = .ok a ∧ f a = .error e := by
  cases x <;> simp [bind, Except.bind]

theorem pure_error {α : Type} (a : α) (e : PyErr) : (pure a : Except PyErr α) = .error e ↔ False := by
  simp [pure, Except.pure]

/-- The RPC builder never raises `ValueError`: a missing or unreadable field gives no model.  The one
exception that can escape is `IndexError`. -/
theorem rpc_builder_raises (c : Conv) (tres : Xml) (e : PyErr) (h : buildRpc c tres = .error e) : e = .indexError := by
  have hne : e ≠ .valueError := by
    rintro rfl
    unfold buildRpc at h
    split at h
    · simp at h
    · exact orNone_not_value _ h
  have hf : ∀ (t : Xml) (n : String), fieldValue t n c.float = .error e → e = .indexError :=
    fun t n h => absurd (fieldValue_error t n _ e h) hne
  have hi : ∀ (t : Xml) (n : String), fieldValue t n c.int = .error e → e = .indexError :=
    fun t n h => absurd (fieldValue_error t n _ e h) hne
  have hp : ∀ (t : Xml) (n : String), parseCoefficients c t n = .error e → e = .indexError :=
    fun t n h => (parse_error c t n e h).resolve_left hne
  unfold buildRpc at h
  split at h
  · simp at h
  · rename_i t _
    have horn : ∀ x : Except PyErr (Option RpcModel), orNone x = .error e → x = .error e := by
      intro x hx
      unfold orNone at hx
      split at hx
      · simp at hx
      · exact hx
    have h := horn _ h
    rw [bind_error] at h
    rcases h with h | ⟨s, -, h⟩
    · exact hi _ _ h
    · split at h
      · simp [pure_error] at h
      · have h : buildRpcModel c t = .error e := by
          cases hb : buildRpcModel c t with
          | ok m => rw [hb] at h; simp [Functor.map, Except.map] at h
          | error e' => rw [hb] at h; simpa [Functor.map, Except.map] using h
        unfold buildRpcModel at h
        simp only [bind_error, pure_error] at h
        repeat' first
          | exact hf _ _ h
          | exact hp _ _ h
          | exact h.elim
          | (rcases h with h | ⟨_, -, h⟩)

/-- `IndexError` does escape: a coefficient group without a value. -/
example : buildRpc demoReal (demoRpc "1" (.node "repeated" [("name", "LINE_NUM_COEFF"), ("number", "1")]
    [.node "group" [("index", "0")] []] :: demoLists)) = .error .indexError := by rfl

/-- A product that is not marked successful gives no model. -/
example : buildRpc demoReal (demoRpc "0" demoLists) = .ok none := by rfl

/-! ## CSCRNA (C78) -/

/-- **C78** (CSCRNA part): the control points of the projective model are the four corners in the
order of the image corners.  The builder always returns a model when there is a CSCRNA TRE, or raises
`ValueError`. -/
theorem cscrna_builder (c : Conv) (tres : Xml) (w h : ℝ) :
    (Absent tres "tre" "CSCRNA" ↔ buildCorners c tres w h = .ok none) ∧
    (∀ world image, buildCorners c tres w h = .ok (some (world, image)) ↔
      image = [(0, 0), (w, 0), (w, h), (0, h)] ∧ ∃ t, IsFirst tres "tre" "CSCRNA" t ∧
        List.Forall₂ (fun (n : String × String × String) g => ∃ lon lat z, HasField t n.1 c.float lon ∧ HasField t n.2.1 c.float lat ∧
          HasField t n.2.2 c.float z ∧ g = ⟨radians lon, radians lat, radians z⟩)
          [("ULCNR_LONG", "ULCNR_LAT", "ULCNR_HT"), ("URCNR_LONG", "URCNR_LAT", "URCNR_HT"),
           ("LRCNR_LONG", "LRCNR_LAT", "LRCNR_HT"), ("LLCNR_LONG", "LLCNR_LAT", "LLCNR_HT")] world) ∧
    ∀ e, buildCorners c tres w h = .error e → e = .valueError := by
  unfold buildCorners
  simp only [← find_some, ← find_none]
  cases tres.find "tre" "CSCRNA" with
  | none => simp
  | some t =>
    refine ⟨?_, fun world image => ?_, fun e he => ?_⟩
    · simp only [reduceCtorEq, bind_ok, pure_ok, and_false, exists_false]
    · simp only [bind_ok, pure_ok, Option.some.injEq, Prod.mk.injEq, exists_eq_left', cornerCoordinates, mapM_ok, fieldValue_ok]
      have hl : [("ULCNR_LONG", "ULCNR_LAT", "ULCNR_HT"), ("URCNR_LONG", "URCNR_LAT", "URCNR_HT"),
           ("LRCNR_LONG", "LRCNR_LAT", "LRCNR_HT"), ("LLCNR_LONG", "LLCNR_LAT", "LLCNR_HT")] =
           ["UL", "UR", "LR", "LL"].map (fun k => (k ++ "CNR_LONG", k ++ "CNR_LAT", k ++ "CNR_HT")) := by decide +kernel
      rw [hl, List.forall₂_map_left_iff]
      constructor
      · rintro ⟨a, ha, rfl, rfl⟩
        refine ⟨rfl, ha.imp ?_⟩
        rintro n g ⟨lon, h1, lat, h2, z, h3, rfl⟩
        exact ⟨lon, lat, z, h1, h2, h3, rfl⟩
      · rintro ⟨rfl, ha⟩
        refine ⟨world, ha.imp ?_, rfl, rfl⟩
        rintro n g ⟨lon, lat, z, h1, h2, h3, rfl⟩
        exact ⟨lon, h1, lat, h2, z, h3, rfl⟩
    · simp only [bind_error, pure_error, and_false, exists_false, or_false] at he
      obtain ⟨k, -, hk⟩ := mapM_error_of _ _ _ he
      simp only [bind_error, pure_error, and_false, exists_false, or_false] at hk
      rcases hk with h | ⟨_, -, h⟩
      · exact fieldValue_error _ _ _ _ h
      · rcases h with h | ⟨_, -, h⟩
        · exact fieldValue_error _ _ _ _ h
        · exact fieldValue_error _ _ _ _ h

/-- The premises can be met: a CSCRNA TRE with all twelve fields. -/
example : ∃ world, buildCorners demoReal (.node "tres" [] [tre "CSCRNA"
    (["ULCNR_LONG", "ULCNR_LAT", "ULCNR_HT", "URCNR_LONG", "URCNR_LAT", "URCNR_HT",
      "LRCNR_LONG", "LRCNR_LAT", "LRCNR_HT", "LLCNR_LONG", "LLCNR_LAT", "LLCNR_HT"].map (field · "1"))]) 10 20 =
    .ok (some (world, [(0, 0), (10, 0), (10, 20), (0, 20)])) ∧ world.length = 4 := ⟨_, rfl, rfl⟩

end Verif.Props.Tre
