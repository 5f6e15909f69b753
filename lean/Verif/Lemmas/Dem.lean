import Mathlib.Data.List.Nodup
import Mathlib.Data.List.Perm.Subperm
import Mathlib.Data.List.Dedup
import Mathlib.Tactic.Linarith
import Mathlib.Tactic.Ring
import Mathlib.Tactic.NormNum
import Verif.Model.Dem
import Verif.Spec.Dem

/-!
# Lemmas about the LRU cache
-/

set_option linter.unusedSectionVars false

namespace Verif.Dem

section
variable {Key V : Type} [DecidableEq Key] {E : Type}

theorem mem_dropKey {k : Key} {es : List (Key × V)} {e : Key × V} : e ∈ dropKey k es ↔ e ∈ es ∧ e.1 ≠ k := by
  simp [dropKey]

theorem keys_dropKey_nodup {k : Key} {es : List (Key × V)} (h : (es.map Prod.fst).Nodup) :
    ((dropKey k es).map Prod.fst).Nodup := by
  apply List.Nodup.sublist _ h
  exact List.Sublist.map _ List.filter_sublist

theorem keys_move_nodup {k : Key} {v : V} {es : List (Key × V)} (h : (es.map Prod.fst).Nodup) :
    ((dropKey k es ++ [(k, v)]).map Prod.fst).Nodup := by
  rw [List.map_append, List.nodup_append]
  refine ⟨keys_dropKey_nodup h, by simp, ?_⟩
  intro a ha b hb
  simp only [List.map_cons, List.map_nil, List.mem_singleton] at hb
  obtain ⟨e, he, rfl⟩ := List.mem_map.mp ha
  rw [hb]
  exact (mem_dropKey.mp he).2

theorem dropKey_length {k : Key} {es : List (Key × V)} (h : (es.map Prod.fst).Nodup) (hk : k ∈ es.map Prod.fst) :
    (dropKey k es).length + 1 = es.length := by
  induction es with
  | nil => simp at hk
  | cons e es ih =>
    simp only [List.map_cons, List.nodup_cons] at h
    by_cases he : e.1 = k
    · have : dropKey k (e :: es) = es := by
        simp only [dropKey, List.filter_cons, he, ne_eq, not_true_eq_false, decide_false, Bool.false_eq_true, if_false]
        rw [List.filter_eq_self]
        intro x hx
        simp only [decide_not, Bool.not_eq_eq_eq_not, Bool.not_true, decide_eq_false_iff_not]
        intro hxk
        exact h.1 (he ▸ hxk ▸ List.mem_map_of_mem hx)
      rw [this]; rfl
    · have hk' : k ∈ es.map Prod.fst := by
        rcases List.mem_cons.mp hk with h' | h'
        · exact absurd h'.symm he
        · exact h'
      have := ih h.2 hk'
      simp only [dropKey, List.filter_cons] at this ⊢
      simp [he]
      simpa using this

theorem dropKey_eq_self {k : Key} {es : List (Key × V)} (h : k ∉ es.map Prod.fst) : dropKey k es = es := by
  unfold dropKey
  rw [List.filter_eq_self]
  intro x hx
  simp only [decide_not, Bool.not_eq_eq_eq_not, Bool.not_true, decide_eq_false_iff_not]
  intro hxk
  exact h (hxk ▸ List.mem_map_of_mem hx)

theorem evict_suffix (cap : Int) : ∀ es : List (Key × V), evict cap es <:+ es
  | [] => List.suffix_refl _
  | e :: es => by
    unfold evict
    split_ifs
    · exact (evict_suffix cap es).trans (List.suffix_cons e es)
    · exact List.suffix_refl _

theorem evict_length (cap : Int) (hc : 1 ≤ cap) : ∀ es : List (Key × V), ((evict cap es).length : Int) + 1 ≤ cap
  | [] => by simp [evict]; exact hc
  | e :: es => by
    unfold evict
    split_ifs with h
    · exact evict_length cap hc es
    · omega

theorem evict_eq_self {cap : Int} {es : List (Key × V)} (h : (es.length : Int) + 1 ≤ cap) : evict cap es = es := by
  cases es with
  | nil => rfl
  | cons e es =>
    unfold evict
    rw [if_neg (by omega)]

/-- A cache that is full loses exactly its oldest entry. -/
theorem evict_full {cap : Int} {e : Key × V} {es : List (Key × V)} (h : ((e :: es).length : Int) = cap) :
    evict cap (e :: es) = es := by
  unfold evict
  rw [if_pos (by omega)]
  exact evict_eq_self (by simp only [List.length_cons] at h; push_cast at h; omega)

/-- The invariant: at most `cap` entries (none for a non-positive capacity), distinct keys,
and every entry holds what loading its key gives. -/
structure Good (load : Key → Except E V) (c : Lru Key V) : Prop where
  size : (c.entries.length : Int) ≤ max c.cap 0
  nodup : (c.entries.map Prod.fst).Nodup
  agree : ∀ k v, (k, v) ∈ c.entries → load k = .ok v

theorem good_empty (load : Key → Except E V) (cap : Int) : Good load ⟨cap, []⟩ :=
  ⟨by simp, by simp, by simp⟩

theorem get_none {c : Lru Key V} {k : Key} : c.get k = none ↔ k ∉ c.keys := by
  unfold Lru.get Lru.keys
  cases h : c.entries.find? (fun e => e.1 = k) with
  | none =>
    simp only [true_iff]
    rw [List.find?_eq_none] at h
    intro hk
    obtain ⟨e, he, rfl⟩ := List.mem_map.mp hk
    exact h e he (by simp)
  | some e =>
    simp only [reduceCtorEq, false_iff, not_not]
    have h1 := List.mem_of_find?_eq_some h
    have h2 := List.find?_some h
    simp only [decide_eq_true_eq] at h2
    exact h2 ▸ List.mem_map_of_mem h1

theorem get_some {c : Lru Key V} {k : Key} {v : V} {c' : Lru Key V} (h : c.get k = some (v, c')) :
    (k, v) ∈ c.entries ∧ c'.cap = c.cap ∧ c'.entries = dropKey k c.entries ++ [(k, v)] := by
  unfold Lru.get at h
  cases hf : c.entries.find? (fun e => e.1 = k) with
  | none => rw [hf] at h; cases h
  | some e =>
    rw [hf] at h
    simp only [Option.some.injEq, Prod.mk.injEq] at h
    obtain ⟨rfl, rfl⟩ := h
    have h1 := List.mem_of_find?_eq_some hf
    have h2 := List.find?_some hf
    simp only [decide_eq_true_eq] at h2
    subst h2
    exact ⟨h1, rfl, rfl⟩

theorem get_good {load : Key → Except E V} {c : Lru Key V} (hg : Good load c) {k : Key} {v : V} {c' : Lru Key V}
    (h : c.get k = some (v, c')) : Good load c' ∧ load k = .ok v := by
  obtain ⟨hm, hcap, he⟩ := get_some h
  have hk : k ∈ c.entries.map Prod.fst := List.mem_map_of_mem (f := Prod.fst) hm
  refine ⟨⟨?_, ?_, ?_⟩, hg.agree k v hm⟩
  · rw [he, hcap, List.length_append, List.length_singleton, dropKey_length hg.nodup hk]; exact hg.size
  · rw [he]; exact keys_move_nodup hg.nodup
  · intro k' v' hmem
    rw [he, List.mem_append] at hmem
    rcases hmem with hmem | hmem
    · exact hg.agree _ _ (mem_dropKey.mp hmem).1
    · simp only [List.mem_singleton, Prod.mk.injEq] at hmem
      obtain ⟨rfl, rfl⟩ := hmem
      exact hg.agree _ _ hm

theorem set_good {load : Key → Except E V} {c : Lru Key V} (hg : Good load c) {k : Key} {v : V} (hl : load k = .ok v)
    {c' : Lru Key V} (h : c.set k v = some c') : Good load c' ∧ c'.cap = c.cap := by
  unfold Lru.set at h
  split_ifs at h with h1 h2
  · simp only [Option.some.injEq] at h
    subst h
    have h2' : k ∈ c.entries.map Prod.fst := h2
    refine ⟨⟨?_, keys_move_nodup hg.nodup, ?_⟩, rfl⟩
    · simp only [List.length_append, List.length_singleton, dropKey_length hg.nodup h2']; exact hg.size
    · intro k' v' hmem
      rw [List.mem_append] at hmem
      rcases hmem with hmem | hmem
      · exact hg.agree _ _ (mem_dropKey.mp hmem).1
      · simp only [List.mem_singleton, Prod.mk.injEq] at hmem
        obtain ⟨rfl, rfl⟩ := hmem
        exact hl
  · simp only [Option.some.injEq] at h
    subst h
    have hs := evict_suffix c.cap c.entries
    refine ⟨⟨?_, ?_, ?_⟩, rfl⟩
    · have := evict_length c.cap (by omega) c.entries
      simp only [List.length_append, List.length_singleton]
      push_cast
      omega
    · simp only [List.map_append, List.nodup_append]
      refine ⟨List.Nodup.sublist (hs.sublist.map _) hg.nodup, by simp, ?_⟩
      intro a ha b hb
      simp only [List.map_cons, List.map_nil, List.mem_singleton] at hb
      subst hb
      intro hab
      subst hab
      exact h2 ((hs.sublist.map _).subset ha)
    · intro k' v' hmem
      rw [List.mem_append] at hmem
      rcases hmem with hmem | hmem
      · exact hg.agree _ _ (hs.subset hmem)
      · simp only [List.mem_singleton, Prod.mk.injEq] at hmem
        obtain ⟨rfl, rfl⟩ := hmem
        exact hl

/-- The cached call returns what the method returns and keeps the invariant. -/
theorem cachedCall_spec {load : Key → Except E V} {c : Lru Key V} (hg : Good load c) (k : Key) :
    (cachedCall load c k).1 = load k ∧ Good load (cachedCall load c k).2.1 ∧
    (cachedCall load c k).2.1.cap = c.cap := by
  unfold cachedCall
  cases h : c.get k with
  | some r =>
    obtain ⟨v, c'⟩ := r
    obtain ⟨h1, h2⟩ := get_good hg h
    exact ⟨h2.symm, h1, (get_some h).2.1⟩
  | none =>
    cases hl : load k with
    | error e => exact ⟨rfl, hg, rfl⟩
    | ok v =>
      simp only
      refine ⟨trivial, ?_⟩
      cases hs : c.set k v with
      | none => exact ⟨hg, rfl⟩
      | some c' => exact ⟨(set_good hg hl hs).1, (set_good hg hl hs).2⟩

/-- The retention invariant of a key: it is in the cache and only keys of `M` are newer. -/
def Held (k : Key) (M : List Key) (c : Lru Key V) : Prop :=
  ∃ older v newer, c.entries = older ++ (k, v) :: newer ∧ ∀ x ∈ newer.map Prod.fst, x ∈ M

theorem held_mem {k : Key} {M : List Key} {c : Lru Key V} (h : Held k M c) : k ∈ c.keys := by
  obtain ⟨o, v, n, e, -⟩ := h
  unfold Lru.keys
  rw [e]
  simp

/-- Using the key itself puts it at the end. -/
theorem held_after_use {load : Key → Except E V} {c : Lru Key V} (hcap : 1 ≤ c.cap) (k : Key) (M : List Key)
    {v : V} (hl : load k = .ok v) : Held k M (cachedCall load c k).2.1 := by
  unfold cachedCall
  cases h : c.get k with
  | some r =>
    obtain ⟨v', c'⟩ := r
    obtain ⟨-, -, he⟩ := get_some h
    exact ⟨_, v', [], he, by simp⟩
  | none =>
    simp only [hl]
    have hs : ∃ es, c.set k v = some ⟨c.cap, es ++ [(k, v)]⟩ := by
      unfold Lru.set
      rw [if_neg (by omega)]
      split_ifs
      · exact ⟨_, rfl⟩
      · exact ⟨_, rfl⟩
    obtain ⟨es, hs⟩ := hs
    rw [hs]
    exact ⟨es, v, [], rfl, by simp⟩

theorem held_step {load : Key → Except E V} {c : Lru Key V} (hg : Good load c) (k : Key) (M : List Key)
    (hM : (M.length : Int) < c.cap) (hh : Held k M c) (x : Key) (hx : x = k ∨ x ∈ M) :
    Held k M (cachedCall load c x).2.1 := by
  have hnd := hg.nodup
  obtain ⟨older, v, newer, he, hn⟩ := hh
  rw [he] at hnd
  simp only [List.map_append, List.map_cons] at hnd
  have hkn : k ∉ newer.map Prod.fst := by
    have := (List.nodup_append.mp hnd).2.1
    exact (List.nodup_cons.mp this).1
  have hko : k ∉ older.map Prod.fst := by
    intro hc
    exact (List.nodup_append.mp hnd).2.2 k hc k (by simp) rfl
  unfold cachedCall
  cases h : c.get x with
  | some r =>
    obtain ⟨v', c'⟩ := r
    obtain ⟨hm, -, he'⟩ := get_some h
    by_cases hxk : x = k
    · subst hxk
      exact ⟨_, v', [], he', by simp⟩
    · have hxM : x ∈ M := by rcases hx with h | h; exact absurd h hxk; exact h
      refine ⟨dropKey x older, v, dropKey x newer ++ [(x, v')], ?_, ?_⟩
      · simp only [he', he]
        have hkx : ¬ k = x := fun h => hxk h.symm
        simp [dropKey, hkx]
      · intro y hy
        simp only [List.map_append, List.map_cons, List.map_nil, List.mem_append, List.mem_singleton] at hy
        rcases hy with hy | hy
        · obtain ⟨e, he1, rfl⟩ := List.mem_map.mp hy
          exact hn _ (List.mem_map_of_mem (mem_dropKey.mp he1).1)
        · rw [hy]; exact hxM
  | none =>
    have hxnot : x ∉ c.keys := get_none.mp h
    have hxk : x ≠ k := by
      intro hc
      subst hc
      apply hxnot
      unfold Lru.keys
      rw [he]
      simp
    have hxM : x ∈ M := by rcases hx with h | h; exact absurd h hxk; exact h
    cases hl : load x with
    | error e => exact ⟨older, v, newer, he, hn⟩
    | ok v' =>
      have hcap : ¬ 1 > c.cap := by
        have : 0 < M.length := List.length_pos_of_mem hxM
        omega
      have hs : c.set x v' = some ⟨c.cap, evict c.cap c.entries ++ [(x, v')]⟩ := by
        unfold Lru.set
        rw [if_neg hcap, if_neg hxnot]
      simp only [hs]
      -- the newer keys plus x are distinct elements of M
      have hxn : x ∉ newer.map Prod.fst := by
        intro hc
        apply hxnot
        unfold Lru.keys
        rw [he]
        simp only [List.map_append, List.map_cons, List.mem_append, List.mem_cons]
        exact Or.inr (Or.inr hc)
      have hlen : newer.length + 1 ≤ M.length := by
        have hnd2 : (x :: newer.map Prod.fst).Nodup := by
          refine List.nodup_cons.mpr ⟨hxn, ?_⟩
          exact (List.nodup_cons.mp (List.nodup_append.mp hnd).2.1).2
        have hsub : (x :: newer.map Prod.fst) ⊆ M := by
          intro y hy
          rcases List.mem_cons.mp hy with rfl | hy
          · exact hxM
          · exact hn y hy
        have := (List.subperm_of_subset hnd2 hsub).length_le
        simpa using this
      have hsize := hg.size
      rw [he] at hsize
      simp only [List.length_append, List.length_cons] at hsize
      push_cast at hsize
      have new : ∀ y ∈ (newer ++ [(x, v')]).map Prod.fst, y ∈ M := by
        intro y hy
        simp only [List.map_append, List.map_cons, List.map_nil, List.mem_append, List.mem_singleton] at hy
        rcases hy with hy | hy
        · exact hn y hy
        · rw [hy]; exact hxM
      by_cases hfull : ((c.entries.length : Nat) : Int) + 1 ≤ c.cap
      · rw [evict_eq_self hfull, he]
        exact ⟨older, v, newer ++ [(x, v')], by simp, new⟩
      · cases older with
        | nil =>
          exfalso
          rw [he] at hfull
          simp only [List.nil_append, List.length_cons] at hfull
          push_cast at hfull
          omega
        | cons o os =>
          rw [he]
          have hlen2 : (o :: (os ++ (k, v) :: newer)).length = os.length + newer.length + 2 := by
            simp only [List.length_cons, List.length_append]; omega
          have : evict c.cap ((o :: os) ++ (k, v) :: newer) = os ++ (k, v) :: newer := by
            rw [List.cons_append]
            apply evict_full
            rw [he, List.cons_append, hlen2] at hfull
            rw [hlen2]
            simp only [List.length_cons] at hsize
            push_cast at hfull hsize ⊢
            omega
          rw [this]
          exact ⟨os, v, newer ++ [(x, v')], by simp, new⟩

end

/-! ## Query sequences -/

section
variable {K A R : Type}

theorem query_spec (d : Terrain K A R) {c : Lru (List Char) (Grid K R)} (hg : Good d.load c) (q : Query K) :
    (d.query c q).1 = Spec.Dem.uncached d q ∧ Good d.load (d.query c q).2.1 ∧ (d.query c q).2.1.cap = c.cap := by
  unfold Terrain.query Spec.Dem.uncached
  cases h : d.tileOf q.coord with
  | none => exact ⟨rfl, hg, rfl⟩
  | some p =>
    obtain ⟨h1, h2, h3⟩ := cachedCall_spec hg p
    simp only
    exact ⟨by rw [h1], h2, h3⟩

theorem queries_spec (d : Terrain K A R) : ∀ (qs : List (Query K)) {c : Lru (List Char) (Grid K R)}, Good d.load c →
    (d.queries c qs).1 = qs.map (Spec.Dem.uncached d) ∧ Good d.load (d.queries c qs).2.1 ∧
    (d.queries c qs).2.1.cap = c.cap
  | [], c, hg => ⟨rfl, hg, rfl⟩
  | q :: qs, c, hg => by
    obtain ⟨h1, h2, h3⟩ := query_spec d hg q
    obtain ⟨k1, k2, k3⟩ := queries_spec d qs h2
    simp only [Terrain.queries, List.map_cons]
    exact ⟨by rw [h1, k1], k2, by rw [k3, h3]⟩

theorem queries_append (d : Terrain K A R) : ∀ (qs qs' : List (Query K)) (c : Lru (List Char) (Grid K R)),
    (d.queries c (qs ++ qs')).2.1 = (d.queries (d.queries c qs).2.1 qs').2.1 ∧
    (d.queries c (qs ++ qs')).2.2 = (d.queries c qs).2.2 ++ (d.queries (d.queries c qs).2.1 qs').2.2
  | [], qs', c => ⟨rfl, rfl⟩
  | q :: qs, qs', c => by
    obtain ⟨h1, h2⟩ := queries_append d qs qs' (d.query c q).2.1
    simp only [List.cons_append, Terrain.queries]
    exact ⟨h1, by rw [h2, List.append_assoc]⟩

theorem held_queries (d : Terrain K A R) (p : List Char) (M : List (List Char)) : ∀ (qs : List (Query K))
    {c : Lru (List Char) (Grid K R)}, Good d.load c → (M.length : Int) < c.cap → Held p M c →
    (∀ x ∈ Spec.Dem.tilesOf d qs, x = p ∨ x ∈ M) → Held p M (d.queries c qs).2.1
  | [], c, _, _, hh, _ => hh
  | q :: qs, c, hg, hM, hh, hx => by
    obtain ⟨-, h2, h3⟩ := query_spec d hg q
    have hrest : ∀ x ∈ Spec.Dem.tilesOf d qs, x = p ∨ x ∈ M := by
      intro x hx'
      apply hx
      simp only [Spec.Dem.tilesOf, List.filterMap_cons] at hx' ⊢
      split
      · exact hx'
      · exact List.mem_cons_of_mem _ hx'
    have hstep : Held p M (d.query c q).2.1 := by
      unfold Terrain.query
      cases ht : d.tileOf q.coord with
      | none => exact hh
      | some y =>
        simp only
        apply held_step hg p M hM hh
        apply hx
        simp only [Spec.Dem.tilesOf, List.filterMap_cons, ht]
        exact List.mem_cons_self
    simp only [Terrain.queries]
    exact held_queries d p M qs h2 (by rw [h3]; exact hM) hstep hrest

/-- With no more than `cap` different tiles nothing is evicted, so no successful load is repeated. -/
theorem loads_once (d : Terrain K A R) (T : List (List Char)) : ∀ (qs : List (Query K))
    {c : Lru (List Char) (Grid K R)}, Good d.load c → (T.length : Int) ≤ c.cap → (∀ x ∈ c.keys, x ∈ T) →
    (∀ x ∈ Spec.Dem.tilesOf d qs, x ∈ T) →
    ((d.queries c qs).2.2.filter (fun p => (d.load p).isOk)).Nodup ∧
    ∀ x ∈ (d.queries c qs).2.2.filter (fun p => (d.load p).isOk), x ∉ c.keys
  | [], c, _, _, _, _ => by simp [Terrain.queries]
  | q :: qs, c, hg, hT, hk, hx => by
    obtain ⟨-, h2, h3⟩ := query_spec d hg q
    have hrest : ∀ x ∈ Spec.Dem.tilesOf d qs, x ∈ T := by
      intro x hx'
      apply hx
      simp only [Spec.Dem.tilesOf, List.filterMap_cons] at hx' ⊢
      split
      · exact hx'
      · exact List.mem_cons_of_mem _ hx'
    -- one query: the keys only grow, a successful load is of a new key that is then held
    have step : (∀ x ∈ (d.query c q).2.1.keys, x ∈ T) ∧ (∀ x ∈ c.keys, x ∈ (d.query c q).2.1.keys) ∧
        ((d.query c q).2.2.filter (fun p => (d.load p).isOk) = [] ∨
          ∃ p, (d.query c q).2.2.filter (fun p => (d.load p).isOk) = [p] ∧ p ∉ c.keys ∧
            p ∈ (d.query c q).2.1.keys) := by
      unfold Terrain.query
      cases ht : d.tileOf q.coord with
      | none => exact ⟨hk, fun _ h => h, Or.inl rfl⟩
      | some p =>
        have hpT : p ∈ T := by
          apply hx
          simp only [Spec.Dem.tilesOf, List.filterMap_cons, ht]
          exact List.mem_cons_self
        rcases h : c.get p with _ | ⟨v, c'⟩
        rotate_left
        · obtain ⟨hm, -, he⟩ := get_some h
          have hq : cachedCall d.load c p = (.ok v, c', false) := by unfold cachedCall; rw [h]
          simp only [hq]
          have hiff : ∀ x, x ∈ c'.keys ↔ x ∈ c.keys := by
            intro x
            unfold Lru.keys
            rw [he]
            simp only [List.map_append, List.map_cons, List.map_nil, List.mem_append, List.mem_singleton]
            constructor
            · rintro (hx | rfl)
              · obtain ⟨e, he1, rfl⟩ := List.mem_map.mp hx
                exact List.mem_map_of_mem (mem_dropKey.mp he1).1
              · exact List.mem_map_of_mem (f := Prod.fst) hm
            · intro hx
              by_cases hxp : x = p
              · exact Or.inr hxp
              · obtain ⟨e, he1, rfl⟩ := List.mem_map.mp hx
                exact Or.inl (List.mem_map_of_mem (mem_dropKey.mpr ⟨he1, hxp⟩))
          exact ⟨fun x hx => hk x ((hiff x).mp hx), fun x hx => (hiff x).mpr hx, Or.inl (by simp)⟩
        · have hp : p ∉ c.keys := get_none.mp h
          rcases hl : d.load p with e | v
          · have hq : cachedCall d.load c p = (.error e, c, true) := by unfold cachedCall; rw [h, hl]
            simp only [hq]
            refine ⟨hk, fun _ h => h, Or.inl ?_⟩
            simp [hl, Except.isOk, Except.toBool]
          · have hlen : (c.entries.length : Int) + 1 ≤ c.cap := by
              have hnd2 : (p :: c.entries.map Prod.fst).Nodup := List.nodup_cons.mpr ⟨hp, hg.nodup⟩
              have hsub : (p :: c.entries.map Prod.fst) ⊆ T := by
                intro y hy
                rcases List.mem_cons.mp hy with rfl | hy
                · exact hpT
                · exact hk y hy
              have := (List.subperm_of_subset hnd2 hsub).length_le
              simp only [List.length_cons, List.length_map] at this
              omega
            have hs : c.set p v = some ⟨c.cap, c.entries ++ [(p, v)]⟩ := by
              unfold Lru.set
              rw [if_neg (by omega), if_neg hp, evict_eq_self hlen]
            have hq : cachedCall d.load c p = (.ok v, ⟨c.cap, c.entries ++ [(p, v)]⟩, true) := by
              unfold cachedCall; rw [h, hl]; simp only [hs]
            simp only [hq]
            have hkeys : (⟨c.cap, c.entries ++ [(p, v)]⟩ : Lru (List Char) (Grid K R)).keys = c.keys ++ [p] := by
              simp [Lru.keys]
            rw [hkeys]
            refine ⟨?_, fun x hx => List.mem_append_left _ hx, Or.inr ⟨p, ?_, hp, by simp⟩⟩
            · intro x hx
              rcases List.mem_append.mp hx with hx | hx
              · exact hk x hx
              · rw [List.mem_singleton.mp hx]; exact hpT
            · simp [hl, Except.isOk, Except.toBool]
    obtain ⟨s1, s2, s3⟩ := step
    obtain ⟨i1, i2⟩ := loads_once d T qs h2 (by rw [h3]; exact hT) s1 hrest
    simp only [Terrain.queries, List.filter_append]
    rcases s3 with s3 | ⟨p, s3, s4, s5⟩
    · rw [s3]
      exact ⟨i1, fun x hx hc => i2 x hx (s2 x hc)⟩
    · rw [s3]
      refine ⟨List.nodup_cons.mpr ⟨fun hc => i2 p hc s5, i1⟩, ?_⟩
      intro x hx hc
      rcases List.mem_append.mp hx with hx | hx
      · rw [List.mem_singleton.mp hx] at hc; exact s4 hc
      · exact i2 x hx (s2 x hc)

end

/-! ## Schedules -/

section
variable {K A R : Type}

/-- A thread is on its way to the uncached answers. -/
structure OnTrack (d : Terrain K A R) (work : List (Query K)) (t : Thread K R) : Prop where
  answers : t.done ++ t.todo.map (Spec.Dem.uncached d) = work.map (Spec.Dem.uncached d)
  missed : ∀ p, t.phase = .missed p → ∀ q qs, t.todo = q :: qs → d.tileOf q.coord = some p
  loaded : ∀ p g, t.phase = .loaded p g → d.load p = .ok g ∧ ∀ q qs, t.todo = q :: qs → d.tileOf q.coord = some p

theorem uncached_of_tile {d : Terrain K A R} {q : Query K} {p : List Char} (h : d.tileOf q.coord = some p) :
    Spec.Dem.uncached d q = q.finish (d.load p) := by
  unfold Spec.Dem.uncached; rw [h]

theorem threadStep_good (d : Terrain K A R) {c : Lru (List Char) (Grid K R)} (hg : Good d.load c)
    {work : List (Query K)} {t : Thread K R} (ht : OnTrack d work t) :
    Good d.load (threadStep d c t).1 ∧ OnTrack d work (threadStep d c t).2 ∧ (threadStep d c t).1.cap = c.cap := by
  obtain ⟨todo, phase, done⟩ := t
  obtain ⟨h1, h2, h3⟩ := ht
  simp only at h1 h2 h3
  cases todo with
  | nil =>
    have : threadStep d c ⟨[], phase, done⟩ = (c, ⟨[], phase, done⟩) := by
      cases phase <;> rfl
    rw [this]
    exact ⟨hg, ⟨h1, h2, h3⟩, rfl⟩
  | cons q qs =>
    simp only [List.map_cons] at h1
    cases phase with
    | idle =>
      simp only [threadStep]
      cases htile : d.tileOf q.coord with
      | none =>
        refine ⟨hg, ⟨?_, by simp, by simp⟩, rfl⟩
        rw [← h1]
        simp [Spec.Dem.uncached, htile]
      | some p =>
        simp only
        cases hget : c.get p with
        | none =>
          refine ⟨hg, ⟨by simpa using h1, ?_, by simp⟩, rfl⟩
          intro p' hp' q' qs' hq'
          simp only [Phase.missed.injEq] at hp'
          simp only [List.cons.injEq] at hq'
          rw [← hq'.1, ← hp']; exact htile
        | some r =>
          obtain ⟨g, c'⟩ := r
          obtain ⟨k1, k2⟩ := get_good hg hget
          refine ⟨k1, ⟨?_, by simp, by simp⟩, (get_some hget).2.1⟩
          rw [← h1, uncached_of_tile htile, k2]
          simp
    | missed p =>
      have htile := h2 p rfl q qs rfl
      simp only [threadStep]
      cases hl : d.load p with
      | error e =>
        refine ⟨hg, ⟨?_, by simp, by simp⟩, rfl⟩
        rw [← h1, uncached_of_tile htile, hl]
        simp
      | ok g =>
        refine ⟨hg, ⟨by simpa using h1, by simp, ?_⟩, rfl⟩
        intro p' g' hp'
        simp only [Phase.loaded.injEq] at hp'
        obtain ⟨rfl, rfl⟩ := hp'
        refine ⟨hl, ?_⟩
        intro q' qs' hq'
        simp only [List.cons.injEq] at hq'
        rw [← hq'.1]; exact htile
    | loaded p g =>
      obtain ⟨hl, htile⟩ := h3 p g rfl
      have htile := htile q qs rfl
      simp only [threadStep]
      refine ⟨?_, ⟨?_, by simp, by simp⟩, ?_⟩
      · cases hs : c.set p g with
        | none => exact hg
        | some c' => exact (set_good hg hl hs).1
      · rw [← h1, uncached_of_tile htile, hl]
        simp
      · cases hs : c.set p g with
        | none => rfl
        | some c' => exact (set_good hg hl hs).2

theorem run_good (d : Terrain K A R) (work : Nat → List (Query K)) : ∀ (schedule : List Nat) (s : Sys K R),
    Good d.load s.cache → (∀ i, OnTrack d (work i) (s.threads i)) →
    Good d.load (s.run d schedule).cache ∧ (∀ i, OnTrack d (work i) ((s.run d schedule).threads i)) ∧
    (s.run d schedule).cache.cap = s.cache.cap
  | [], s, hg, ht => ⟨hg, ht, rfl⟩
  | i :: rest, s, hg, ht => by
    obtain ⟨h1, h2, h3⟩ := threadStep_good d hg (ht i)
    have := run_good d work rest (s.step d i) h1 (by
      intro j
      simp only [Sys.step]
      by_cases hj : j = i
      · subst hj; rw [if_pos rfl]; exact h2
      · rw [if_neg hj]; exact ht j)
    obtain ⟨k1, k2, k3⟩ := this
    exact ⟨k1, k2, k3.trans h3⟩

/-- Steps a thread still needs. -/
def stepsLeft (t : Thread K R) : Nat :=
  3 * t.todo.length - (match t.phase with | .idle => 0 | .missed _ => 1 | .loaded _ _ => 2)

theorem stepsLeft_step (d : Terrain K A R) (c : Lru (List Char) (Grid K R)) (t : Thread K R) :
    stepsLeft (threadStep d c t).2 ≤ stepsLeft t - 1 := by
  obtain ⟨todo, phase, done⟩ := t
  cases todo with
  | nil =>
    have : threadStep d c ⟨[], phase, done⟩ = (c, ⟨[], phase, done⟩) := by cases phase <;> rfl
    rw [this]
    simp [stepsLeft]
  | cons q qs =>
    cases phase with
    | idle =>
      simp only [threadStep]
      cases d.tileOf q.coord with
      | none => simp [stepsLeft]; omega
      | some p =>
        simp only
        cases c.get p with
        | none => simp [stepsLeft]
        | some r => simp [stepsLeft]; omega
    | missed p =>
      simp only [threadStep]
      cases d.load p with
      | error e => simp [stepsLeft]; omega
      | ok g => simp [stepsLeft]; omega
    | loaded p g => simp only [threadStep, stepsLeft, List.length_cons]; omega

theorem stepsLeft_run (d : Terrain K A R) (i : Nat) : ∀ (schedule : List Nat) (s : Sys K R),
    stepsLeft ((s.run d schedule).threads i) ≤ stepsLeft (s.threads i) - schedule.count i
  | [], s => by simp [Sys.run]
  | j :: rest, s => by
    have ih := stepsLeft_run d i rest (s.step d j)
    have hrun : s.run d (j :: rest) = (s.step d j).run d rest := rfl
    rw [hrun]
    by_cases hj : j = i
    · subst hj
      have h1 : (s.step d j).threads j = (threadStep d s.cache (s.threads j)).2 := by simp [Sys.step]
      have h2 := stepsLeft_step d s.cache (s.threads j)
      rw [h1] at ih
      rw [List.count_cons_self]
      omega
    · have h1 : (s.step d j).threads i = s.threads i := by
        simp only [Sys.step]
        rw [if_neg (fun h => hj h.symm)]
      rw [h1] at ih
      rw [List.count_cons_of_ne hj]
      exact ih

end

/-! ## The interpolator -/

section
variable {K : Type} [Field K] [LinearOrder K] [IsStrictOrderedRing K] [FloorRing K]

theorem clamp_of_mem {x : K} {n : Nat} (h0 : 0 ≤ x) (h1 : x ≤ (n : K) - 1) : clamp x n = x := by
  unfold clamp
  rw [min_eq_left h1, max_eq_right h0]

theorem clamp_range (x : K) {n : Nat} (hn : 1 ≤ n) : 0 ≤ clamp x n ∧ clamp x n ≤ (n : K) - 1 := by
  have : (1 : K) ≤ (n : K) := by exact_mod_cast hn
  unfold clamp
  exact ⟨le_max_left _ _, max_le (by linarith) (min_le_right _ _)⟩

/-- The chosen knot interval contains the argument. -/
theorem cell_spec {x : K} {n : Nat} (hn : 2 ≤ n) (h0 : 0 ≤ x) (h1 : x ≤ (n : K) - 1) :
    cell x n + 1 < n ∧ (cell x n : K) ≤ x ∧ x ≤ (cell x n : K) + 1 := by
  have hf : (0 : Int) ≤ ⌊x⌋ := Int.floor_nonneg.mpr h0
  have hfx : ((⌊x⌋.toNat : Nat) : K) = ((⌊x⌋ : Int) : K) := by
    have : ((⌊x⌋.toNat : Nat) : Int) = ⌊x⌋ := Int.toNat_of_nonneg hf
    exact_mod_cast congrArg (Int.cast : Int → K) this
  have hle := Int.floor_le x
  have hlt := Int.lt_floor_add_one x
  unfold cell
  refine ⟨by omega, ?_, ?_⟩
  · calc ((min ⌊x⌋.toNat (n - 2) : Nat) : K) ≤ ((⌊x⌋.toNat : Nat) : K) := by exact_mod_cast min_le_left _ _
      _ = ((⌊x⌋ : Int) : K) := hfx
      _ ≤ x := hle
  · rcases le_total ⌊x⌋.toNat (n - 2) with h | h
    · rw [min_eq_left h, hfx]; linarith
    · rw [min_eq_right h]
      have : ((n - 2 : Nat) : K) + 1 = (n : K) - 1 := by
        rw [Nat.cast_sub hn]; push_cast; ring
      rw [this]; exact h1

end

end Verif.Dem
