import Mathlib.Tactic.LinearCombination
import Mathlib.Tactic.Positivity
import Mathlib.Data.Rat.Floor
import Verif.Lemmas.Dem

/-!
# Properties C21–C24, C72, C91 and C92: the digital elevation model
-/

set_option linter.unusedSectionVars false

namespace Verif.Props.Dem

open Verif.Dem Verif.Spec.Dem

section
variable {K A R : Type}

/-- **C21**: the cache is invisible.  For every capacity, tile source and sequence of queries
the answers (including the exceptions raised) are those of the model without a cache. -/
theorem cache_is_transparent (d : Terrain K A R) (cap : Int) (qs : List (Query K)) :
    (d.queries ⟨cap, []⟩ qs).1 = qs.map (uncached d) :=
  (queries_spec d qs (good_empty d.load cap)).1

/-- **C22**: never more than `cap` tiles are held (none when the size is not positive), and no
tile twice. -/
theorem cache_is_bounded (d : Terrain K A R) (cap : Int) (qs : List (Query K)) :
    ((d.queries ⟨cap, []⟩ qs).2.1.keys.length : Int) ≤ max cap 0 ∧ (d.queries ⟨cap, []⟩ qs).2.1.keys.Nodup := by
  obtain ⟨-, h, hc⟩ := queries_spec d qs (good_empty d.load cap)
  refine ⟨?_, h.nodup⟩
  have := h.size
  rw [hc] at this
  simpa [Lru.keys] using this

/-- **C22**: after any history `before`, a query `q` of a tile `p` that can be loaded, and then
queries `since` that use fewer than `cap` tiles other than `p`, a query of tile `p` loads
nothing. -/
theorem recent_tile_not_reloaded (d : Terrain K A R) (cap : Int) (before since : List (Query K)) (q q' : Query K)
    (p : List Char) (hq : d.tileOf q.coord = some p) (hq' : d.tileOf q'.coord = some p) (g : Grid K R)
    (hl : d.load p = .ok g)
    (hfew : AtMost ((tilesOf d since).filter (· ≠ p)) (cap - 1)) :
    (d.queries ⟨cap, []⟩ (before ++ [q] ++ since ++ [q'])).2.2
      = (d.queries ⟨cap, []⟩ (before ++ [q] ++ since)).2.2 := by
  obtain ⟨M, hM, hlen⟩ := hfew
  rw [(queries_append d (before ++ [q] ++ since) [q'] _).2]
  suffices H : p ∈ (d.queries ⟨cap, []⟩ (before ++ [q] ++ since)).2.1.keys by
    have hq2 : (d.query (d.queries ⟨cap, []⟩ (before ++ [q] ++ since)).2.1 q').2.2 = [] := by
      generalize (d.queries ⟨cap, []⟩ (before ++ [q] ++ since)).2.1 = c at H
      unfold Terrain.query
      rw [hq']
      rcases h : c.get p with _ | ⟨v, c'⟩
      · exact absurd H (get_none.mp h)
      · have : cachedCall d.load c p = (.ok v, c', false) := by unfold cachedCall; rw [h]
        simp [this]
    simp only [Terrain.queries, hq2, List.append_nil]
  rw [(queries_append d (before ++ [q]) since _).1, (queries_append d before [q] _).1]
  obtain ⟨-, g1, c1⟩ := queries_spec d before (good_empty d.load cap)
  generalize (d.queries ⟨cap, []⟩ before).2.1 = c0 at g1 c1
  simp only at c1
  have hcap1 : 1 ≤ c0.cap := by have := Int.natCast_nonneg M.length; omega
  obtain ⟨-, g2, c2⟩ := query_spec d g1 q
  have hheld : Held p M (d.query c0 q).2.1 := by
    have := held_after_use (load := d.load) hcap1 p M hl
    unfold Terrain.query
    rw [hq]
    exact this
  have hone : (d.queries c0 [q]).2.1 = (d.query c0 q).2.1 := rfl
  rw [hone]
  apply held_mem (M := M)
  apply held_queries d p M since g2 (by rw [c2, c1]; omega) hheld
  intro x hx
  by_cases hxp : x = p
  · exact Or.inl hxp
  · exact Or.inr (hM (List.mem_filter.mpr ⟨hx, by simpa using hxp⟩))

/-- **C22**: when no more than `cap` different tiles are used, no tile is loaded twice
(a load that raises is not stored and may be repeated). -/
theorem few_tiles_loaded_once (d : Terrain K A R) (cap : Int) (qs : List (Query K))
    (h : AtMost (tilesOf d qs) cap) :
    ((d.queries ⟨cap, []⟩ qs).2.2.filter (fun p => (d.load p).isOk)).Nodup := by
  obtain ⟨T, hT, hlen⟩ := h
  exact (loads_once d T qs (good_empty d.load cap) hlen (by simp [Lru.keys]) (fun x hx => hT hx)).1

/-- **C23**: whatever work the threads have and however they are scheduled, what a thread has
answered so far is the beginning of the list of uncached answers; when it has run often
enough it has given all of them; and the cache stays within its size. -/
theorem concurrent_queries_agree (d : Terrain K A R) (cap : Int) (work : Nat → List (Query K)) (schedule : List Nat) :
    let s := Sys.run d ⟨⟨cap, []⟩, fun i => ⟨work i, .idle, []⟩⟩ schedule
    (∀ i, (s.threads i).done <+: (work i).map (uncached d)) ∧
    (∀ i, 3 * (work i).length ≤ schedule.count i → (s.threads i).done = (work i).map (uncached d)) ∧
    (s.cache.keys.length : Int) ≤ max cap 0 := by
  intro s
  obtain ⟨h1, h2, h3⟩ := run_good d work schedule ⟨⟨cap, []⟩, fun i => ⟨work i, .idle, []⟩⟩
    (good_empty d.load cap) (fun i => ⟨by simp, by simp, by simp⟩)
  refine ⟨fun i => ⟨_, (h2 i).answers⟩, ?_, ?_⟩
  · intro i hi
    have hsteps := stepsLeft_run d i schedule ⟨⟨cap, []⟩, fun i => ⟨work i, .idle, []⟩⟩
    have h0 : stepsLeft (⟨work i, .idle, []⟩ : Thread K R) = 3 * (work i).length := rfl
    simp only at hsteps
    rw [h0] at hsteps
    have hz : stepsLeft (s.threads i) = 0 := by
      have : stepsLeft (s.threads i) ≤ 3 * (work i).length - schedule.count i := hsteps
      omega
    have htodo : (s.threads i).todo = [] := by
      cases ht : (s.threads i).todo with
      | nil => rfl
      | cons q qs =>
        exfalso
        unfold stepsLeft at hz
        rw [ht] at hz
        cases hp : (s.threads i).phase <;> simp only [hp, List.length_cons] at hz <;> omega
    have := (h2 i).answers
    have htodo' : ((Sys.run d ⟨⟨cap, []⟩, fun i => ⟨work i, .idle, []⟩⟩ schedule).threads i).todo = [] := htodo
    rw [htodo'] at this
    simpa using this
  · have := h1.size
    have hc : s.cache.cap = cap := h3
    have hk : s.cache.keys.length = s.cache.entries.length := by simp [Lru.keys]
    rw [hk, ← hc]
    exact this

theorem query_keys (d : Terrain K A R) (c : Lru (List Char) (Grid K R)) (q : Query K) (p : List Char)
    (hp : p ∉ c.keys) (e : PyErr) (hl : d.load p = .error e) : p ∉ (d.query c q).2.1.keys := by
  unfold Terrain.query
  cases hq : d.tileOf q.coord with
  | none => exact hp
  | some k =>
    simp only [cachedCall]
    cases hg : c.get k with
    | some r =>
      obtain ⟨v, c'⟩ := r
      obtain ⟨hm, -, he⟩ := get_some hg
      have hne : k ≠ p := fun h => hp (h ▸ List.mem_map_of_mem (f := Prod.fst) hm)
      simp only [Lru.keys, he, List.map_append, List.mem_append, List.mem_map, List.map_cons, List.map_nil, List.mem_singleton]
      rintro (⟨x, hx, rfl⟩ | h)
      · exact hp (List.mem_map_of_mem (mem_dropKey.mp hx).1)
      · exact hne h.symm
    | none =>
      cases hk : d.load k with
      | error e' => exact hp
      | ok v =>
        have hne : k ≠ p := by rintro rfl; rw [hl] at hk; cases hk
        have hnk : k ∉ c.keys := get_none.mp hg
        simp only [Lru.set, if_neg hnk]
        by_cases h1 : 1 > c.cap
        · simpa only [if_pos h1] using hp
        · simp only [if_neg h1, Lru.keys, List.map_append, List.mem_append, List.mem_map, List.map_cons, List.map_nil, List.mem_singleton]
          rintro (⟨x, hx, rfl⟩ | h)
          · exact hp (List.mem_map_of_mem ((evict_suffix _ _).subset hx))
          · exact hne h.symm

/-- **C72** (the part that holds): a load that raises is not remembered.  Whatever was asked before, of tile sources that may
change from query to query but cannot load tile `p`: when the tile can be read the next time (the tile source is now `d'`),
the answer is that of the readable tile. -/
theorem failed_load_is_retried_partial (history : List (Terrain K A R × Query K)) (cap : Int) (p : List Char)
    (hfail : ∀ s ∈ history, ∃ e, s.1.load p = .error e) (d' : Terrain K A R) (q' : Query K) (hq' : d'.tileOf q'.coord = some p) :
    (d'.query (history.foldl (fun c s => (s.1.query c s.2).2.1) ⟨cap, []⟩) q').1 = uncached d' q' := by
  have key : ∀ (hs : List (Terrain K A R × Query K)) (c : Lru (List Char) (Grid K R)), (∀ s ∈ hs, ∃ e, s.1.load p = .error e) → p ∉ c.keys →
      p ∉ (hs.foldl (fun c s => (s.1.query c s.2).2.1) c).keys := by
    intro hs
    induction hs with
    | nil => intro c _ h; exact h
    | cons s hs ih =>
      intro c hf h
      obtain ⟨e, he⟩ := hf s List.mem_cons_self
      exact ih _ (fun x hx => hf x (List.mem_cons_of_mem _ hx)) (query_keys s.1 c s.2 p h e he)
  have h := get_none.mpr (key history ⟨cap, []⟩ hfail (by simp [Lru.keys]))
  generalize history.foldl (fun c s => (s.1.query c s.2).2.1) ⟨cap, []⟩ = c at h
  rw [uncached_of_tile hq']
  unfold Terrain.query
  simp only [hq', cachedCall, h]
  cases d'.load p <;> rfl

/-- A tile source whose tile "n45" cannot be loaded, and later can: the second query finds the height 7. -/
example : ∃ (d d' : Terrain ℚ (ℚ → ℚ → ℚ) Unit) (c : Geo ℚ), d.load "n45".toList = .error .valueError ∧
    d'.tileOf c = some "n45".toList ∧
    (d'.query ([(d, .setElevation c), (d, .describeRegion c)].foldl (fun c s => (s.1.query c s.2).2.1) ⟨10, []⟩) (.setElevation c)).1 =
      .ok (.coordinate { c with elevation := 7 }) := by
  refine ⟨⟨fun _ => some "n45".toList, fun _ => .error .valueError, .ok⟩,
    ⟨fun _ => some "n45".toList, fun _ => .ok ⟨some (fun _ _ => 7), some (fun _ => .ok (0, 0)), none⟩, .ok⟩, ⟨1, 2, 0⟩, rfl, rfl, ?_⟩
  rw [failed_load_is_retried_partial _ _ "n45".toList (by intro s hs; simp at hs; rcases hs with rfl | rfl <;> exact ⟨_, rfl⟩) _ _ rfl]
  rfl

/-- **C72** (negation): a tile source that reports an unreadable tile by `None` values (as
`GDALDigitalElevationModelTileFactory` does) is believed for as long as the entry stays in
the cache: whatever the tile source gives later, the elevation is not set. -/
theorem unreadable_tile_is_remembered (d d' : Terrain K A R) (cap : Int) (hcap : 1 ≤ cap) (q : Query K) (c : Geo K)
    (p : List Char) (hq : d.tileOf q.coord = some p) (hq' : d'.tileOf c = some p)
    (t : Loaded K A R) (ht : d.getTile p = .ok t) (hnone : t.array = none) :
    (d'.query (d.query ⟨cap, []⟩ q).2.1 (.setElevation c)).1 = .ok (.coordinate c) := by
  have hl : d.load p = .ok { interp := none, model := none, summary := none } := by
    simp only [Terrain.load, ht, hnone]
  have hc : (d.query ⟨cap, []⟩ q).2.1 = ⟨cap, [(p, { interp := none, model := none, summary := none })]⟩ := by
    unfold Terrain.query
    rw [hq]
    have hget : (⟨cap, []⟩ : Lru (List Char) (Grid K R)).get p = none := rfl
    have hset : ∀ v, (⟨cap, []⟩ : Lru (List Char) (Grid K R)).set p v = some ⟨cap, [(p, v)]⟩ := by
      intro v
      unfold Lru.set
      rw [if_neg (show ¬ (1 : Int) > cap by omega), if_neg (by simp [Lru.keys])]
      simp [evict]
    simp only [cachedCall, hget, hl, hset]
  rw [hc]
  have hcoord : (Query.setElevation c).coord = c := rfl
  unfold Terrain.query
  rw [hcoord, hq']
  have hget : (⟨cap, [(p, { interp := none, model := none, summary := none })]⟩ : Lru (List Char) (Grid K R)).get p
      = some ({ interp := none, model := none, summary := none },
          ⟨cap, [(p, { interp := none, model := none, summary := none })]⟩) := by
    simp [Lru.get, dropKey]
  simp [cachedCall, hget, Query.finish, applyGrid, Except.map]

end

/-! ## The surface -/

section
variable {K : Type} [Field K] [LinearOrder K] [IsStrictOrderedRing K] [FloorRing K]

/-- The straight line through the values at `i` and `i + 1`. -/
def line (g : Nat → K) (i : Nat) (x : K) : K := g i + (x - i) * (g (i + 1) - g i)

/-- The bilinear surface over the cell `(i, j)`: linear in `x` along both edges, linear in `y`
between them. -/
def patch (p : Posts K) (i j : Nat) (x y : K) : K := line (fun r => line (fun c => p.z c r) i x) j y

/-- Two cells that contain the same argument give the same value. -/
theorem line_agree (g : Nat → K) {x : K} {i c : Nat} (hi0 : (i : K) ≤ x) (hi1 : x ≤ (i : K) + 1) (hc0 : (c : K) ≤ x)
    (hc1 : x ≤ (c : K) + 1) : line g i x = line g c x := by
  rcases lt_trichotomy i c with h | h | h
  · have h' : ((i + 1 : Nat) : K) ≤ (c : K) := by exact_mod_cast h
    push_cast at h'
    have hx : x = (i : K) + 1 := by linarith
    have hci : (c : K) = ((i + 1 : Nat) : K) := by push_cast; linarith
    have hc : c = i + 1 := by exact_mod_cast hci
    subst hc
    unfold line
    push_cast
    rw [hx]
    ring
  · rw [h]
  · have h' : ((c + 1 : Nat) : K) ≤ (i : K) := by exact_mod_cast h
    push_cast at h'
    have hx : x = (c : K) + 1 := by linarith
    have hci : (i : K) = ((c + 1 : Nat) : K) := by push_cast; linarith
    have hc : i = c + 1 := by exact_mod_cast hci
    subst hc
    unfold line
    push_cast
    rw [hx]
    ring

theorem bilinear_eq_patch (p : Posts K) (f : K → K → K) (hf : bilinear p = .ok f) (i j : Nat) (hi : i + 1 < p.width)
    (hj : j + 1 < p.height) (x y : K) (hx0 : (i : K) ≤ x) (hx1 : x ≤ (i : K) + 1) (hy0 : (j : K) ≤ y)
    (hy1 : y ≤ (j : K) + 1) : f x y = patch p i j x y := by
  unfold bilinear at hf
  split_ifs at hf with hsmall
  push Not at hsmall
  simp only [Except.ok.injEq] at hf
  subst hf
  have hwi : ((i + 1 + 1 : Nat) : K) ≤ (p.width : K) := by exact_mod_cast hi
  have hhj : ((j + 1 + 1 : Nat) : K) ≤ (p.height : K) := by exact_mod_cast hj
  push_cast at hwi hhj
  have hx0' : (0 : K) ≤ x := le_trans (Nat.cast_nonneg i) hx0
  have hy0' : (0 : K) ≤ y := le_trans (Nat.cast_nonneg j) hy0
  have hxw : x ≤ (p.width : K) - 1 := by linarith
  have hyh : y ≤ (p.height : K) - 1 := by linarith
  simp only [clamp_of_mem hx0' hxw, clamp_of_mem hy0' hyh]
  obtain ⟨-, c1, c2⟩ := cell_spec hsmall.1 hx0' hxw
  obtain ⟨-, r1, r2⟩ := cell_spec hsmall.2 hy0' hyh
  generalize cell x p.width = c at c1 c2
  generalize cell y p.height = r at r1 r2
  have e1 : patch p i j x y = patch p c r x y := by
    unfold patch
    rw [line_agree _ hy0 hy1 r1 r2]
    have : (fun r => line (fun c => p.z c r) i x) = (fun r => line (fun k => p.z k r) c x) := by
      funext r'
      exact line_agree _ hx0 hx1 c1 c2
    rw [this]
  rw [e1]
  unfold patch line
  ring

/-- A value on a line between two values with the same bounds keeps the bounds. -/
theorem line_bounds (g : Nat → K) (i : Nat) (x lo hi : K) (h0 : (i : K) ≤ x) (h1 : x ≤ (i : K) + 1)
    (l0 : lo ≤ g i) (l1 : lo ≤ g (i + 1)) (u0 : g i ≤ hi) (u1 : g (i + 1) ≤ hi) :
    lo ≤ line g i x ∧ line g i x ≤ hi := by
  unfold line
  have hu : 0 ≤ x - i := by linarith
  have hv : 0 ≤ 1 - (x - i) := by linarith
  constructor
  · nlinarith [mul_nonneg hu (sub_nonneg.mpr l1), mul_nonneg hv (sub_nonneg.mpr l0)]
  · nlinarith [mul_nonneg hu (sub_nonneg.mpr u1), mul_nonneg hv (sub_nonneg.mpr u0)]

/-- **C24**: whatever was queried before, `set_elevation` never changes longitude or latitude. -/
theorem set_elevation_keeps_position {A R : Type} (d : Terrain K A R) (cap : Int) (qs : List (Query K)) (c c' : Geo K)
    (h : (d.query (d.queries ⟨cap, []⟩ qs).2.1 (.setElevation c)).1 = .ok (.coordinate c')) :
    c'.longitude = c.longitude ∧ c'.latitude = c.latitude := by
  obtain ⟨-, hg, -⟩ := queries_spec d qs (good_empty d.load cap)
  rw [(query_spec d hg _).1] at h
  unfold uncached at h
  cases ht : d.tileOf (Query.setElevation c).coord with
  | none =>
    rw [ht] at h
    simp only [Query.noTile, Except.ok.injEq, Answer.coordinate.injEq] at h
    subst h; exact ⟨rfl, rfl⟩
  | some p =>
    rw [ht] at h
    simp only at h
    cases hl : d.load p with
    | error e => rw [hl] at h; cases h
    | ok g =>
      rw [hl] at h
      simp only [Query.finish, applyGrid] at h
      cases hi : g.interp with
      | none =>
        simp only [hi, Except.map, Except.ok.injEq, Answer.coordinate.injEq] at h
        subst h; exact ⟨rfl, rfl⟩
      | some f =>
        cases hm : g.model with
        | none =>
          simp only [hi, hm, Except.map, Except.ok.injEq, Answer.coordinate.injEq] at h
          subst h; exact ⟨rfl, rfl⟩
        | some m =>
          simp only [hi, hm] at h
          cases hmc : m c with
          | error e => rw [hmc] at h; cases h
          | ok xy =>
            rw [hmc] at h
            simp only [Except.map, Except.ok.injEq, Answer.coordinate.injEq] at h
            subst h; exact ⟨rfl, rfl⟩

/-- **C24**: with no tile for the location (no id or an empty id) or a tile without data the
coordinate is left as it is. -/
theorem set_elevation_without_tile {A R : Type} (d : Terrain K A R) (cap : Int) (qs : List (Query K)) (c : Geo K)
    (h : d.tileId c = none ∨ d.tileId c = some [] ∨
      ∃ p t, d.tileId c = some p ∧ d.getTile p = .ok t ∧ (t.array = none ∨ t.model = none)) :
    (d.query (d.queries ⟨cap, []⟩ qs).2.1 (.setElevation c)).1 = .ok (.coordinate c) := by
  obtain ⟨-, hg, -⟩ := queries_spec d qs (good_empty d.load cap)
  rw [(query_spec d hg _).1]
  unfold uncached
  have hcoord : (Query.setElevation c).coord = c := rfl
  rw [hcoord]
  rcases h with h | h | ⟨p, t, h, ht, hn⟩
  · simp [Terrain.tileOf, h, Query.noTile]
  · simp [Terrain.tileOf, h, Query.noTile]
  · have hl : d.load p = .ok { interp := none, model := none, summary := none } := by
      simp only [Terrain.load, ht]
      rcases hn with hn | hn
      · rw [hn]
      · rw [hn]; cases t.array <;> rfl
    cases p with
    | nil => simp [Terrain.tileOf, h, Query.noTile]
    | cons a as =>
      have : d.tileOf c = some (a :: as) := by simp [Terrain.tileOf, h]
      rw [this]
      simp [hl, Query.finish, applyGrid, Except.map]

/-- **C24**: for a location that the tile's sensor model places at column `x` and row `y` of
the cell `(i, j)`, the new elevation is that of the bilinear surface; so it is a post's
elevation at the post and never outside the range of the four surrounding posts. -/
theorem set_elevation_on_surface {R : Type} (d : Terrain K (Posts K) R) (hd : d.spline = bilinear) (cap : Int)
    (qs : List (Query K)) (c : Geo K) (p : List Char) (hp : d.tileId c = some p) (hne : p ≠ []) (t : Loaded K (Posts K) R)
    (ht : d.getTile p = .ok t) (posts : Posts K) (ha : t.array = some posts) (m : Geo K → Except PyErr (K × K))
    (hm : t.model = some m) (x y : K) (hxy : m c = .ok (x, y)) (i j : Nat) (hi : i + 1 < posts.width)
    (hj : j + 1 < posts.height) (hx0 : (i : K) ≤ x) (hx1 : x ≤ (i : K) + 1) (hy0 : (j : K) ≤ y) (hy1 : y ≤ (j : K) + 1) :
    ∃ z, (d.query (d.queries ⟨cap, []⟩ qs).2.1 (.setElevation c)).1 = .ok (.coordinate { c with elevation := z }) ∧
      z = patch posts i j x y ∧
      (∀ lo, lo ≤ posts.z i j → lo ≤ posts.z (i + 1) j → lo ≤ posts.z i (j + 1) → lo ≤ posts.z (i + 1) (j + 1) → lo ≤ z) ∧
      (∀ hi, posts.z i j ≤ hi → posts.z (i + 1) j ≤ hi → posts.z i (j + 1) ≤ hi → posts.z (i + 1) (j + 1) ≤ hi → z ≤ hi) ∧
      (∀ a b : Nat, (a = i ∨ a = i + 1) → (b = j ∨ b = j + 1) → x = a → y = b → z = posts.z a b) := by
  obtain ⟨-, hg, -⟩ := queries_spec d qs (good_empty d.load cap)
  rw [(query_spec d hg _).1]
  have hf : ∃ f, bilinear posts = .ok f := by
    unfold bilinear
    rw [if_neg (by omega)]
    exact ⟨_, rfl⟩
  obtain ⟨f, hf⟩ := hf
  have hz := bilinear_eq_patch posts f hf i j hi hj x y hx0 hx1 hy0 hy1
  refine ⟨f x y, ?_, hz, ?_, ?_, ?_⟩
  · unfold uncached
    have hcoord : (Query.setElevation c).coord = c := rfl
    have htile : d.tileOf c = some p := by
      cases p with
      | nil => exact absurd rfl hne
      | cons a as => simp [Terrain.tileOf, hp]
    rw [hcoord, htile]
    have hl : d.load p = .ok { interp := some f, model := some m, summary := t.summary } := by
      simp only [Terrain.load, ht, ha, hm, hd, hf]
    simp [hl, Query.finish, applyGrid, hxy, Except.map]
  · intro lo l1 l2 l3 l4
    rw [hz]
    unfold patch
    have big : ∃ hi', posts.z i j ≤ hi' ∧ posts.z (i + 1) j ≤ hi' ∧ posts.z i (j + 1) ≤ hi' ∧ posts.z (i + 1) (j + 1) ≤ hi' :=
      ⟨max (max (posts.z i j) (posts.z (i + 1) j)) (max (posts.z i (j + 1)) (posts.z (i + 1) (j + 1))), by simp, by simp,
        by simp, by simp⟩
    obtain ⟨hb, b1, b2, b3, b4⟩ := big
    have e0 := line_bounds (fun c => posts.z c j) i x lo hb hx0 hx1 l1 l2 b1 b2
    have e1 := line_bounds (fun c => posts.z c (j + 1)) i x lo hb hx0 hx1 l3 l4 b3 b4
    exact (line_bounds _ j y lo hb hy0 hy1 e0.1 e1.1 e0.2 e1.2).1
  · intro hb b1 b2 b3 b4
    rw [hz]
    unfold patch
    have small : ∃ lo, lo ≤ posts.z i j ∧ lo ≤ posts.z (i + 1) j ∧ lo ≤ posts.z i (j + 1) ∧ lo ≤ posts.z (i + 1) (j + 1) :=
      ⟨min (min (posts.z i j) (posts.z (i + 1) j)) (min (posts.z i (j + 1)) (posts.z (i + 1) (j + 1))), by simp, by simp,
        by simp, by simp⟩
    obtain ⟨lo, l1, l2, l3, l4⟩ := small
    have e0 := line_bounds (fun c => posts.z c j) i x lo hb hx0 hx1 l1 l2 b1 b2
    have e1 := line_bounds (fun c => posts.z c (j + 1)) i x lo hb hx0 hx1 l3 l4 b3 b4
    exact (line_bounds _ j y lo hb hy0 hy1 e0.1 e1.1 e0.2 e1.2).2
  · intro a b ha' hb' hxa hyb
    rw [hz]
    unfold patch line
    rcases ha' with rfl | rfl <;> rcases hb' with rfl | rfl <;> rw [hxa, hyb] <;> push_cast <;> ring

/-- **C91**: whatever was queried before, `describe_region` reports the summary that the tile source
gives with the tile, nothing when there is no tile or it has no data, and passes exceptions on. -/
theorem describe_region_result {A R : Type} (d : Terrain K A R) (cap : Int) (qs : List (Query K)) (c : Geo K) :
    (d.tileId c = none ∨ d.tileId c = some [] →
      (d.query (d.queries ⟨cap, []⟩ qs).2.1 (.describeRegion c)).1 = .ok (.summary none)) ∧
    ∀ p, d.tileId c = some p → p ≠ [] →
      (∀ e, d.getTile p = .error e → (d.query (d.queries ⟨cap, []⟩ qs).2.1 (.describeRegion c)).1 = .error e) ∧
      (∀ t, d.getTile p = .ok t →
        (t.array = none ∨ t.model = none →
          (d.query (d.queries ⟨cap, []⟩ qs).2.1 (.describeRegion c)).1 = .ok (.summary none)) ∧
        (∀ a m f, t.array = some a → t.model = some m → d.spline a = .ok f →
          (d.query (d.queries ⟨cap, []⟩ qs).2.1 (.describeRegion c)).1 = .ok (.summary t.summary))) := by
  obtain ⟨-, hg, -⟩ := queries_spec d qs (good_empty d.load cap)
  rw [(query_spec d hg _).1]
  unfold uncached
  have hcoord : (Query.describeRegion c).coord = c := rfl
  rw [hcoord]
  refine ⟨?_, ?_⟩
  · rintro (h | h) <;> simp [Terrain.tileOf, h, Query.noTile]
  · intro p hp hne
    have htile : d.tileOf c = some p := by
      cases p with
      | nil => exact absurd rfl hne
      | cons a as => simp [Terrain.tileOf, hp]
    rw [htile]
    refine ⟨?_, ?_⟩
    · intro e he
      simp [Terrain.load, he, Query.finish]
    · intro t ht
      refine ⟨?_, ?_⟩
      · intro hn
        have hl : d.load p = .ok { interp := none, model := none, summary := none } := by
          simp only [Terrain.load, ht]
          rcases hn with hn | hn
          · rw [hn]
          · rw [hn]; cases t.array <;> rfl
        simp [hl, Query.finish]
      · intro a m f ha hm hf
        simp [Terrain.load, ht, ha, hm, hf, Query.finish]

/-- **C92** (negation): when the four posts around a location carry the no-data value that the tile's own
summary declares, that value becomes the elevation, for every tile and location. -/
theorem void_posts_become_elevations {R : Type} (noData : R → Option K) (d : Terrain K (Posts K) R) (hd : d.spline = bilinear)
    (cap : Int) (qs : List (Query K)) (c : Geo K) (p : List Char) (hp : d.tileId c = some p) (hne : p ≠ [])
    (t : Loaded K (Posts K) R) (ht : d.getTile p = .ok t) (posts : Posts K) (ha : t.array = some posts) (s : R)
    (_hs : t.summary = some s) (void : K) (_hv : noData s = some void)
    (m : Geo K → Except PyErr (K × K)) (hm : t.model = some m) (x y : K) (hxy : m c = .ok (x, y)) (i j : Nat)
    (hi : i + 1 < posts.width) (hj : j + 1 < posts.height) (hx0 : (i : K) ≤ x) (hx1 : x ≤ (i : K) + 1) (hy0 : (j : K) ≤ y)
    (hy1 : y ≤ (j : K) + 1)
    (hvoid : posts.z i j = void ∧ posts.z (i + 1) j = void ∧ posts.z i (j + 1) = void ∧ posts.z (i + 1) (j + 1) = void) :
    (d.query (d.queries ⟨cap, []⟩ qs).2.1 (.setElevation c)).1 = .ok (.coordinate { c with elevation := void }) := by
  obtain ⟨z, h1, -, h2, h3, -⟩ := set_elevation_on_surface d hd cap qs c p hp hne t ht posts ha m hm x y hxy i j hi hj hx0 hx1 hy0 hy1
  obtain ⟨v1, v2, v3, v4⟩ := hvoid
  have := le_antisymm (h3 void v1.le v2.le v3.le v4.le) (h2 void v1.ge v2.ge v3.ge v4.ge)
  rw [h1, this]

/-- **C92** (the part that holds): no post is treated as missing, so the elevation is unchanged only when the whole
tile is missing.  A tile of nothing but no-data posts is still used. -/
theorem set_elevation_missing_tile_partial {A R : Type} (d : Terrain K A R) (cap : Int) (qs : List (Query K)) (c : Geo K)
    (h : d.tileOf c = none ∨ ∃ p t, d.tileId c = some p ∧ d.getTile p = .ok t ∧ (t.array = none ∨ t.model = none)) :
    (d.query (d.queries ⟨cap, []⟩ qs).2.1 (.setElevation c)).1 = .ok (.coordinate c) := by
  refine set_elevation_without_tile d cap qs c ?_
  rcases h with h | h
  · unfold Terrain.tileOf at h
    cases hc : d.tileId c with
    | none => exact .inl rfl
    | some p =>
      cases p with
      | nil => exact .inr (.inl rfl)
      | cons a as => rw [hc] at h; simp at h
  · exact .inr (.inr h)

/-- **C24**: a tile with fewer than two posts in a direction cannot be interpolated: the query
raises and no elevation is set. -/
theorem set_elevation_tiny_tile_raises {R : Type} (d : Terrain K (Posts K) R) (hd : d.spline = bilinear) (cap : Int)
    (qs : List (Query K)) (c : Geo K) (p : List Char) (hp : d.tileId c = some p) (hne : p ≠ []) (t : Loaded K (Posts K) R)
    (ht : d.getTile p = .ok t) (posts : Posts K) (ha : t.array = some posts) (hm : t.model.isSome)
    (hsmall : posts.width < 2 ∨ posts.height < 2) :
    (d.query (d.queries ⟨cap, []⟩ qs).2.1 (.setElevation c)).1 = .error .valueError := by
  obtain ⟨-, hg, -⟩ := queries_spec d qs (good_empty d.load cap)
  rw [(query_spec d hg _).1]
  obtain ⟨m, hm⟩ := Option.isSome_iff_exists.mp hm
  unfold uncached
  have hcoord : (Query.setElevation c).coord = c := rfl
  have htile : d.tileOf c = some p := by
    cases p with
    | nil => exact absurd rfl hne
    | cons a as => simp [Terrain.tileOf, hp]
  rw [hcoord, htile]
  have hb : bilinear posts = .error .valueError := by
    unfold bilinear
    rw [if_pos hsmall]
  have hl : d.load p = .error .valueError := by
    simp only [Terrain.load, ht, ha, hm, hd, hb]
  simp [hl, Query.finish]

end

/-! ## A concrete model -/

/-- Two tiles of 2×2 posts: longitudes below and from 1. -/
def sample : Terrain ℚ (Posts ℚ) Nat where
  tileId c := if c.longitude < 0 then none else if c.longitude < 1 then some ['a'] else some ['b']
  getTile p := .ok {
    array := some ⟨2, 2, fun i j => if p = ['a'] then (i : ℚ) + 2 * j else 10⟩
    model := some (fun c => .ok (c.longitude, c.latitude))
    summary := some p.length }
  spline := bilinear

/-- A query of tile `a`, with the values used below. -/
def sampleCoord : Geo ℚ := ⟨1/2, 1/4, 0⟩

example : sample.tileOf sampleCoord = some ['a'] := by decide +kernel
example : ((sample.queries ⟨1, []⟩ [.setElevation sampleCoord, .describeRegion ⟨2, 0, 0⟩, .setElevation sampleCoord]).2.2)
    = [['a'], ['b'], ['a']] := by decide +kernel

/-- `few_tiles_loaded_once` with room for both tiles. -/
example : ((sample.queries ⟨2, []⟩ [.setElevation sampleCoord, .describeRegion ⟨2, 0, 0⟩, .setElevation sampleCoord]).2.2.filter
    (fun p => (sample.load p).isOk)).Nodup :=
  few_tiles_loaded_once sample 2 _ ⟨[['a'], ['b']], by decide +kernel, by decide +kernel⟩

/-- `concurrent_queries_agree` for two threads whose three steps each are interleaved. -/
example : ((Sys.run sample ⟨⟨1, []⟩, fun _ => ⟨[.setElevation sampleCoord], .idle, []⟩⟩ [0, 1, 0, 1, 1, 0]).threads 1).done =
    [uncached sample (.setElevation sampleCoord)] :=
  (concurrent_queries_agree sample 1 (fun _ => [.setElevation sampleCoord]) [0, 1, 0, 1, 1, 0]).2.1 1 (by decide)

deriving instance DecidableEq for Answer, Except

/-- `set_elevation_keeps_position` on a coordinate whose elevation is changed. -/
example : ∃ c', (sample.query (sample.queries ⟨1, []⟩ [.describeRegion ⟨2, 0, 0⟩]).2.1 (.setElevation sampleCoord)).1 =
    .ok (.coordinate c') ∧ c'.longitude = 1/2 ∧ c'.latitude = 1/4 ∧ c'.elevation = 1 := by
  have h : (sample.query (sample.queries ⟨1, []⟩ [.describeRegion ⟨2, 0, 0⟩]).2.1 (.setElevation sampleCoord)).1 =
    .ok (.coordinate ⟨1/2, 1/4, 1⟩) := by
    decide +kernel
  exact ⟨_, h, (set_elevation_keeps_position sample 1 _ _ _ h).1, (set_elevation_keeps_position sample 1 _ _ _ h).2, rfl⟩

/-- `set_elevation_without_tile`, `set_elevation_missing_tile_partial` and `describe_region_result` west of the data. -/
example : (sample.query (sample.queries ⟨1, []⟩ [.setElevation sampleCoord]).2.1 (.setElevation ⟨-1, 0, 5⟩)).1 =
      .ok (.coordinate ⟨-1, 0, 5⟩) ∧
    (sample.query (sample.queries ⟨1, []⟩ [.setElevation sampleCoord]).2.1 (.setElevation ⟨-1, 0, 5⟩)).1 =
      .ok (.coordinate ⟨-1, 0, 5⟩) ∧
    (sample.query (sample.queries ⟨1, []⟩ [.setElevation sampleCoord]).2.1 (.describeRegion ⟨-1, 0, 5⟩)).1 = .ok (.summary none) :=
  ⟨set_elevation_without_tile sample 1 _ _ (.inl rfl), set_elevation_missing_tile_partial sample 1 _ _ (.inl rfl),
    (describe_region_result sample 1 _ _).1 (.inl rfl)⟩
example : ((sample.queries ⟨2, []⟩ [.setElevation sampleCoord, .describeRegion ⟨2, 0, 0⟩, .setElevation sampleCoord]).2.2)
    = [['a'], ['b']] := by decide +kernel

/-- The hypotheses of `recent_tile_not_reloaded` hold for the third query above. -/
example : AtMost ((tilesOf sample [.describeRegion ⟨2, 0, 0⟩]).filter (· ≠ ['a'])) (2 - 1) :=
  ⟨[['b']], by decide +kernel, by decide⟩

example : ∃ g, sample.load ['a'] = .ok g := ⟨_, rfl⟩

/-- The hypotheses of `set_elevation_on_surface` hold in the middle of tile `a`. -/
example : ∃ z, (sample.query (sample.queries ⟨1, []⟩ []).2.1 (.setElevation sampleCoord)).1
      = .ok (.coordinate { sampleCoord with elevation := z }) ∧ z = 1 := by
  obtain ⟨z, h1, h2, -⟩ := set_elevation_on_surface sample rfl 1 [] sampleCoord ['a'] (by decide +kernel) (by decide) _ rfl _ rfl _ rfl
    (1/2) (1/4) rfl 0 0 (by decide) (by decide) (by norm_num) (by norm_num) (by norm_num) (by norm_num)
  refine ⟨z, h1, ?_⟩
  rw [h2]
  norm_num [patch, line]

/-- The hypotheses of `describe_region_result`: tile `a` is described by its summary. -/
example : ∃ t a m f, sample.getTile ['a'] = .ok t ∧ t.array = some a ∧ t.model = some m ∧ sample.spline a = .ok f ∧
    t.summary = some 1 := ⟨_, _, _, _, rfl, rfl, rfl, rfl, rfl⟩

/-- The hypotheses of `void_posts_become_elevations`: an SRTM-like void of -32768 m. -/
example : ∃ d : Terrain ℚ (Posts ℚ) ℚ, ∃ t posts m, d.spline = bilinear ∧ d.tileId sampleCoord = some ['v'] ∧
    d.getTile ['v'] = .ok t ∧ t.array = some posts ∧ t.summary = some (-32768) ∧ t.model = some m ∧
    m sampleCoord = .ok (1/2, 1/4) ∧ 0 + 1 < posts.width ∧ 0 + 1 < posts.height ∧ posts.z 0 0 = -32768 ∧
    posts.z 2 2 = 7 :=
  ⟨⟨fun _ => some ['v'], fun _ => .ok ⟨some ⟨3, 3, fun i j => if i = 2 ∧ j = 2 then 7 else -32768⟩,
      some fun c => .ok (c.longitude, c.latitude), some (-32768)⟩, bilinear⟩, _, _, _, rfl, rfl, rfl, rfl, rfl, rfl, rfl,
    by decide, by decide, rfl, rfl⟩

/-- The hypotheses of the C72 theorems: first no data, then data; first an exception, then data. -/
example : ∃ d : Terrain ℚ (Posts ℚ) Nat, ∃ t, d.tileOf (Query.setElevation sampleCoord).coord = some ['a'] ∧
    sample.tileOf sampleCoord = some ['a'] ∧ d.getTile ['a'] = .ok t ∧ t.array = none ∧
    ∃ f, bilinear (⟨2, 2, fun i j => (i : ℚ) + 2 * j⟩ : Posts ℚ) = .ok f ∧ f (1/2) (1/4) = 1 :=
  ⟨{ sample with getTile := fun _ => .ok ⟨none, none, none⟩ }, ⟨none, none, none⟩, by decide +kernel, by decide +kernel, rfl, rfl, _, rfl,
    by decide +kernel⟩

example : ∃ d : Terrain ℚ (Posts ℚ) Nat, d.tileOf (Query.setElevation sampleCoord).coord = some ['a'] ∧
    d.load ['a'] = .error .runtimeError :=
  ⟨{ sample with getTile := fun _ => .error .runtimeError }, by decide +kernel, rfl⟩

end Verif.Props.Dem
