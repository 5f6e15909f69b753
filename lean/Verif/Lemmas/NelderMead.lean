import Mathlib.Tactic.Linarith
import Mathlib.Tactic.Ring
import Verif.Model.NelderMead
import Verif.Spec.Rsm

/-!
# Lemmas about the Nelder-Mead search
-/

namespace Verif.Lemmas.NelderMead

open Verif.Rpc Verif.NelderMead Verif.Spec.Rpc Verif.Spec.Rsm

theorem before_refl (u : Option ℝ) : Before u u := by cases u <;> simp [Before]

theorem before_trans {u v w : Option ℝ} (h : Before u v) (h' : Before v w) : Before u w := by
  cases u <;> cases v <;> cases w <;> simp only [Before] at * <;> linarith

theorem before_of_not {u v : Option ℝ} (h : ¬ Before u v) : Before v u := by
  cases u <;> cases v <;> simp only [Before, not_le, not_true, not_false_eq_true] at * <;> linarith

theorem before_iff {u v : Option ℝ} : Before u v ↔ ∀ t, v = some t → ∃ s, u = some s ∧ s ≤ t := by
  cases u <;> cases v <;> simp [Before]

/-- The vertices in order. -/
def Sorted (s : Simplex) : Prop := Before s.a.f s.b.f ∧ Before s.b.f s.c.f

/-- `v` is a vertex of `s`. -/
def Of (v : Vertex) (s : Simplex) : Prop := v = s.a ∨ v = s.b ∨ v = s.c

theorem sort_spec (s : Simplex) : Sorted (sort s) ∧ (∀ v, Of v (sort s) ↔ Of v s) ∧ (Before s.a.f s.b.f → Before s.a.f s.c.f → (sort s).a = s.a) ∧
    (Before s.a.f s.c.f → (sort s).a = s.a ∨ (sort s).a = s.b) := by
  unfold sort
  by_cases h1 : Before s.a.f s.b.f
  · rw [if_pos h1]
    unfold insertLast
    by_cases h2 : Before s.b.f s.c.f
    · rw [if_pos h2]
      exact ⟨⟨h1, h2⟩, fun v => Iff.rfl, fun _ _ => rfl, fun _ => .inl rfl⟩
    · rw [if_neg h2]
      by_cases h3 : Before s.a.f s.c.f
      · rw [if_pos h3]
        exact ⟨⟨h3, before_of_not h2⟩, fun v => by simp only [Of]; tauto, fun _ _ => rfl, fun _ => .inl rfl⟩
      · rw [if_neg h3]
        exact ⟨⟨before_of_not h3, h1⟩, fun v => by simp only [Of]; tauto, fun _ h => absurd h h3, fun h => absurd h h3⟩
  · rw [if_neg h1]
    unfold insertLast
    by_cases h2 : Before s.a.f s.c.f
    · rw [if_pos h2]
      exact ⟨⟨before_of_not h1, h2⟩, fun v => by simp only [Of]; tauto, fun h => absurd h h1, fun _ => .inr rfl⟩
    · rw [if_neg h2]
      by_cases h3 : Before s.b.f s.c.f
      · rw [if_pos h3]
        exact ⟨⟨h3, before_of_not h2⟩, fun v => by simp only [Of]; tauto, fun h => absurd h h1, fun h => absurd h h2⟩
      · rw [if_neg h3]
        exact ⟨⟨before_of_not h3, before_of_not h1⟩, fun v => by simp only [Of]; tauto, fun h => absurd h h1, fun h => absurd h h2⟩

theorem sorted_first {s : Simplex} (h : Sorted s) {v : Vertex} (hv : Of v s) : Before s.a.f v.f := by
  rcases hv with rfl | rfl | rfl
  · exact before_refl _
  · exact h.1
  · exact before_trans h.1 h.2

/-! ## Bounded work -/

theorem atMost_mono {n m : Nat} {s : Search} (h : AtMost n s) (hm : n ≤ m) : AtMost m s := by
  induction h generalizing m with
  | done => exact .done _ _
  | ask n q next _ ih =>
    obtain ⟨k, rfl⟩ : ∃ k, m = k + 1 := ⟨m - 1, by omega⟩
    exact .ask _ _ _ fun v => ih v (by omega)

theorem atMost_evaluate {n : Nat} {x : ℝ × ℝ} {stop : Search} {k : Option ℝ → Nat → Search} (hs : AtMost 0 stop) (hk : ∀ v m, AtMost m (k v m)) :
    AtMost n (evaluate n x stop k) := by
  cases n with
  | zero => exact hs
  | succ n => exact .ask _ _ _ fun v => hk v n

theorem atMost_shrink {clip : ℝ × ℝ → ℝ × ℝ} {s : Simplex} {n : Nat} {next : Simplex → Nat → Search} {stop : Simplex → Search}
    (hn : ∀ s n, AtMost n (next s n)) (hs : ∀ s, AtMost 0 (stop s)) : AtMost n (shrink clip s n next stop) :=
  atMost_evaluate (hs _) fun _ _ => atMost_evaluate (hs _) fun _ _ => hn _ _

theorem atMost_step {inf : Bool} {clip : ℝ × ℝ → ℝ × ℝ} {s : Simplex} {n : Nat} {next : Simplex → Nat → Search} {stop : Simplex → Search}
    (hn : ∀ s n, AtMost n (next s n)) (hs : ∀ s, AtMost 0 (stop s)) : AtMost n (step inf clip s n next stop) := by
  refine atMost_evaluate (hs _) fun fr m => ?_
  split
  · refine atMost_evaluate (hs _) fun fe m => ?_
    split <;> exact hn _ _
  split
  · exact hn _ _
  split
  · refine atMost_evaluate (hs _) fun fe m => ?_
    split
    · exact hn _ _
    · exact atMost_shrink hn hs
  · refine atMost_evaluate (hs _) fun fe m => ?_
    split
    · exact hn _ _
    · exact atMost_shrink hn hs

theorem atMost_loop (inf : Bool) (clip : ℝ × ℝ → ℝ × ℝ) (xatol fatol : ℝ) (m : Nat) : ∀ s n, AtMost n (loop inf clip xatol fatol m s n) := by
  induction m with
  | zero => exact fun _ _ => .done _ _
  | succ m ih =>
    intro s n
    unfold loop
    split
    · exact .done _ _
    · exact atMost_step (fun _ _ => ih _ _) fun _ => .done _ _

/-! ## Where the search goes -/

theorem finds_evaluate {A : ℝ × ℝ → Option ℝ → Prop} {n : Nat} {x : ℝ × ℝ} {stop : Search} {k : Option ℝ → Nat → Search} {p : ℝ × ℝ}
    (h : Finds A (evaluate n x stop k) p) : Finds A stop p ∨ ∃ v m, A x v ∧ Finds A (k v m) p := by
  cases n with
  | zero => exact .inl h
  | succ n =>
    cases h with
    | ask _ _ v _ hv hf => exact .inr ⟨v, n, hv, hf⟩

/-- The corners of a simplex. -/
def corners (s : Simplex) : List (ℝ × ℝ) := [s.a.x, s.b.x, s.c.x]

/-- A new vertex: an affine combination of the corners, moved into the bounds. -/
def New (clip : ℝ × ℝ → ℝ × ℝ) (s : Simplex) (x : ℝ × ℝ) : Prop := ∃ r, AffineOf (corners s) r ∧ x = clip r

/-- What a pass can make of the simplex: the best vertex stays, each other one stays or is new and has been asked for. -/
def Next (A : ℝ × ℝ → Option ℝ → Prop) (clip : ℝ × ℝ → ℝ × ℝ) (s s' : Simplex) : Prop :=
  s'.a = s.a ∧ ∀ v ∈ [s'.b, s'.c], Of v s ∨ New clip s v.x ∧ A v.x v.f

/-- What the end of the budget can leave: moved vertices have been asked for, or they are not better than the best one. -/
def Last (A : ℝ × ℝ → Option ℝ → Prop) (clip : ℝ × ℝ → ℝ × ℝ) (s s' : Simplex) : Prop :=
  s'.a = s.a ∧ (∀ v ∈ [s'.b, s'.c], Of v s ∨ New clip s v.x) ∧
    (s'.b.f = s.b.f ∧ s'.c.f = s.c.f ∨ A s'.b.x s'.b.f ∧ s'.c.f = s.c.f)

theorem new_away (clip : ℝ × ℝ → ℝ × ℝ) (s : Simplex) (t : ℝ) : New clip s (clip (s.away t)) := by
  refine ⟨_, ⟨[(1 + t) / 2, (1 + t) / 2, -t], rfl, ?_, ?_, ?_⟩, rfl⟩
  · simp only [List.sum_cons, List.sum_nil]; ring
  · simp only [corners, Simplex.away, List.zipWith_cons_cons, List.zipWith_nil_left, List.sum_cons, List.sum_nil]; ring
  · simp only [corners, Simplex.away, List.zipWith_cons_cons, List.zipWith_nil_left, List.sum_cons, List.sum_nil]; ring

theorem new_half_b (clip : ℝ × ℝ → ℝ × ℝ) (s : Simplex) : New clip s (clip (halfway s.a s.b)) := by
  refine ⟨_, ⟨[1 / 2, 1 / 2, 0], rfl, ?_, ?_, ?_⟩, rfl⟩
  · norm_num
  · simp only [corners, halfway, List.zipWith_cons_cons, List.zipWith_nil_left, List.sum_cons, List.sum_nil]; ring
  · simp only [corners, halfway, List.zipWith_cons_cons, List.zipWith_nil_left, List.sum_cons, List.sum_nil]; ring

theorem new_half_c (clip : ℝ × ℝ → ℝ × ℝ) (s : Simplex) : New clip s (clip (halfway s.a s.c)) := by
  refine ⟨_, ⟨[1 / 2, 0, 1 / 2], rfl, ?_, ?_, ?_⟩, rfl⟩
  · norm_num
  · simp only [corners, halfway, List.zipWith_cons_cons, List.zipWith_nil_left, List.sum_cons, List.sum_nil]; ring
  · simp only [corners, halfway, List.zipWith_cons_cons, List.zipWith_nil_left, List.sum_cons, List.sum_nil]; ring

theorem last_self (A : ℝ × ℝ → Option ℝ → Prop) (clip : ℝ × ℝ → ℝ × ℝ) (s : Simplex) : Last A clip s s := by
  refine ⟨rfl, ?_, .inl ⟨rfl, rfl⟩⟩
  intro v hv
  simp only [List.mem_cons, List.not_mem_nil, or_false] at hv
  left
  rcases hv with rfl | rfl
  · exact .inr (.inl rfl)
  · exact .inr (.inr rfl)

theorem next_c {A : ℝ × ℝ → Option ℝ → Prop} {clip : ℝ × ℝ → ℝ × ℝ} {s : Simplex} {t : ℝ} {f : Option ℝ} (h : A (clip (s.away t)) f) :
    Next A clip s { s with c := ⟨clip (s.away t), f⟩ } := by
  refine ⟨rfl, ?_⟩
  intro v hv
  simp only [List.mem_cons, List.not_mem_nil, or_false] at hv
  rcases hv with rfl | rfl
  · exact .inl (.inr (.inl rfl))
  · exact .inr ⟨new_away clip s t, h⟩

theorem finds_shrink {A : ℝ × ℝ → Option ℝ → Prop} {clip : ℝ × ℝ → ℝ × ℝ} {s : Simplex} {n : Nat} {next : Simplex → Nat → Search}
    {stop : Simplex → Search} {p : ℝ × ℝ} (h : Finds A (shrink clip s n next stop) p) :
    (∃ s' m, Next A clip s s' ∧ Finds A (next s' m) p) ∨ ∃ s', Last A clip s s' ∧ Finds A (stop s') p := by
  rcases finds_evaluate h with h | ⟨fb, m, hb, h⟩
  · refine .inr ⟨{ s with b := ⟨clip (halfway s.a s.b), s.b.f⟩ }, ⟨rfl, ?_, .inl ⟨rfl, rfl⟩⟩, h⟩
    intro v hv
    simp only [List.mem_cons, List.not_mem_nil, or_false] at hv
    rcases hv with rfl | rfl
    · exact .inr (new_half_b clip s)
    · exact .inl (.inr (.inr rfl))
  · rcases finds_evaluate h with h | ⟨fc, m', hc, h⟩
    · refine .inr ⟨⟨s.a, ⟨clip (halfway s.a s.b), fb⟩, ⟨clip (halfway s.a s.c), s.c.f⟩⟩, ⟨rfl, ?_, .inr ⟨hb, rfl⟩⟩, h⟩
      intro v hv
      simp only [List.mem_cons, List.not_mem_nil, or_false] at hv
      rcases hv with rfl | rfl
      · exact .inr (new_half_b clip s)
      · exact .inr (new_half_c clip s)
    · refine .inl ⟨⟨s.a, ⟨clip (halfway s.a s.b), fb⟩, ⟨clip (halfway s.a s.c), fc⟩⟩, m', ⟨rfl, ?_⟩, h⟩
      intro v hv
      simp only [List.mem_cons, List.not_mem_nil, or_false] at hv
      rcases hv with rfl | rfl
      · exact .inr ⟨new_half_b clip s, hb⟩
      · exact .inr ⟨new_half_c clip s, hc⟩

theorem finds_step {A : ℝ × ℝ → Option ℝ → Prop} {inf : Bool} {clip : ℝ × ℝ → ℝ × ℝ} {s : Simplex} {n : Nat} {next : Simplex → Nat → Search}
    {stop : Simplex → Search} {p : ℝ × ℝ} (h : Finds A (step inf clip s n next stop) p) :
    (∃ s' m, Next A clip s s' ∧ Finds A (next s' m) p) ∨ ∃ s', Last A clip s s' ∧ Finds A (stop s') p := by
  rcases finds_evaluate h with h | ⟨fr, m, hr, h⟩
  · exact .inr ⟨s, last_self A clip s, h⟩
  split at h
  · rcases finds_evaluate h with h | ⟨fe, m, he, h⟩
    · exact .inr ⟨s, last_self A clip s, h⟩
    split at h
    · exact .inl ⟨_, m, next_c he, h⟩
    · exact .inl ⟨_, m, next_c hr, h⟩
  split at h
  · exact .inl ⟨_, m, next_c hr, h⟩
  split at h
  · rcases finds_evaluate h with h | ⟨fe, m, he, h⟩
    · exact .inr ⟨s, last_self A clip s, h⟩
    split at h
    · exact .inl ⟨_, m, next_c he, h⟩
    · exact finds_shrink h
  · rcases finds_evaluate h with h | ⟨fe, m, he, h⟩
    · exact .inr ⟨s, last_self A clip s, h⟩
    split at h
    · exact .inl ⟨_, m, next_c he, h⟩
    · exact finds_shrink h

/-- From a sorted simplex whose vertices have been asked for, the search ends at a place that has been asked for and is not worse than the best vertex. -/
theorem loop_no_worse {A : ℝ × ℝ → Option ℝ → Prop} (inf : Bool) (clip : ℝ × ℝ → ℝ × ℝ) (xatol fatol : ℝ) (m : Nat) : ∀ (s : Simplex) (n : Nat) (p : ℝ × ℝ),
    Sorted s → (∀ v, Of v s → A v.x v.f) → Finds A (loop inf clip xatol fatol m s n) p → ∃ v, A p v ∧ Before v s.a.f := by
  induction m with
  | zero =>
    intro s n p _ ha h
    cases h
    exact ⟨_, ha _ (.inl rfl), before_refl _⟩
  | succ m ih =>
    intro s n p hs ha h
    unfold loop at h
    split at h
    · cases h
      exact ⟨_, ha _ (.inl rfl), before_refl _⟩
    · rcases finds_step h with ⟨s', n', ⟨e, hv⟩, h⟩ | ⟨s', ⟨e, hv, hf⟩, h⟩
      · obtain ⟨k1, k2, _, _⟩ := sort_spec s'
        have all : ∀ v, Of v s' → A v.x v.f := by
          have each : ∀ v ∈ [s'.b, s'.c], A v.x v.f := fun v hv' => (hv v hv').elim (fun k => ha v k) (fun k => k.2)
          rintro v (rfl | rfl | rfl)
          · rw [e]; exact ha _ (.inl rfl)
          · exact each _ (by simp)
          · exact each _ (by simp)
        obtain ⟨v, v1, v2⟩ := ih _ _ _ k1 (fun v hv => all v ((k2 v).mp hv)) h
        refine ⟨v, v1, before_trans v2 ?_⟩
        rw [← e]
        exact sorted_first k1 ((k2 _).mpr (.inl rfl))
      · cases h
        have hc : Before s.a.f s.c.f := before_trans hs.1 hs.2
        rcases hf with ⟨f1, f2⟩ | ⟨f1, f2⟩
        · have := (sort_spec s').2.2.1 (by rw [e, f1]; exact hs.1) (by rw [e, f2]; exact hc)
          rw [this, e]
          exact ⟨_, ha _ (.inl rfl), before_refl _⟩
        · have k := sort_spec s'
          have first := sorted_first k.1 ((k.2.1 _).mpr (.inl rfl))
          rw [e] at first
          rcases k.2.2.2 (by rw [e, f2]; exact hc) with h' | h'
          · rw [h', e]
            exact ⟨_, ha _ (.inl rfl), before_refl _⟩
          · rw [h'] at first ⊢
            exact ⟨_, f1, first⟩

/-- The search ends at a corner of a simplex that can be reached. -/
theorem loop_reach {A : ℝ × ℝ → Option ℝ → Prop} (b : (ℝ × ℝ) × ℝ × ℝ) (inf : Bool) (xatol fatol : ℝ) (s0 : List (ℝ × ℝ)) (m : Nat) : ∀ (s : Simplex) (n : Nat) (p : ℝ × ℝ),
    SimplexReach b s0 (corners s) → Finds A (loop inf (clipTo (some b)) xatol fatol m s n) p → ∃ t, SimplexReach b s0 t ∧ p ∈ t := by
  have sorted : ∀ s, SimplexReach b s0 (corners s) → SimplexReach b s0 (corners (sort s)) := by
    intro s hs
    refine .step _ _ _ hs fun q hq => .inl ?_
    have k := (sort_spec s).2.1
    simp only [corners, List.mem_cons, List.not_mem_nil, or_false] at hq ⊢
    have from_ : ∀ v, Of v s → v.x = s.a.x ∨ v.x = s.b.x ∨ v.x = s.c.x := by
      rintro v (rfl | rfl | rfl) <;> simp
    rcases hq with rfl | rfl | rfl
    · exact from_ _ ((k _).mp (.inl rfl))
    · exact from_ _ ((k _).mp (.inr (.inl rfl)))
    · exact from_ _ ((k _).mp (.inr (.inr rfl)))
  have moved : ∀ s s' : Simplex, SimplexReach b s0 (corners s) → s'.a = s.a → (∀ v ∈ [s'.b, s'.c], Of v s ∨ New (clipTo (some b)) s v.x) →
      SimplexReach b s0 (corners s') := by
    intro s s' hs e hv
    refine .step _ _ _ hs fun q hq => ?_
    have each : ∀ v ∈ [s'.b, s'.c], v.x ∈ corners s ∨ ∃ r, AffineOf (corners s) r ∧ v.x = clip b r := by
      intro v hv'
      rcases hv v hv' with h | ⟨r, h1, h2⟩
      · left
        rcases h with rfl | rfl | rfl <;> simp [corners]
      · exact .inr ⟨r, h1, h2⟩
    simp only [corners, List.mem_cons, List.not_mem_nil, or_false] at hq
    rcases hq with rfl | rfl | rfl
    · left; rw [e]; simp [corners]
    · exact each _ (by simp)
    · exact each _ (by simp)
  have here : ∀ s : Simplex, s.a.x ∈ corners s := by intro s; simp [corners]
  induction m with
  | zero =>
    intro s n p hs h
    cases h
    exact ⟨_, hs, here s⟩
  | succ m ih =>
    intro s n p hs h
    unfold loop at h
    split at h
    · cases h
      exact ⟨_, hs, here s⟩
    · rcases finds_step h with ⟨s', n', ⟨e, hv⟩, h⟩ | ⟨s', ⟨e, hv, hf⟩, h⟩
      · exact ih _ _ _ (sorted _ (moved s s' hs e fun v hv' => (hv v hv').imp id And.left)) h
      · cases h
        exact ⟨_, sorted _ (moved s s' hs e hv), here _⟩

end Verif.Lemmas.NelderMead
