import Mathlib.Data.List.Nodup
import Mathlib.Data.List.Perm.Subperm
import Verif.Model.DemRace

/-!
# C73: elevation queries from several threads
-/

namespace Verif.Props.DemRace

open Verif.DemRace

/-- Nothing has gone wrong with few tiles: no call failed, and what is stored or on its way
belongs to `T`. -/
structure Calm (T : List Nat) (cap : Nat) (s : Sys) : Prop where
  cap : s.cache.cap = cap
  nodup : s.cache.data.Nodup
  sub : s.cache.data ⊆ T
  fine : ∀ i, ∀ b ∈ (s.threads i).done, b = true
  todo : ∀ i, ∀ k ∈ (s.threads i).todo, k ∈ T
  pc : ∀ i k, (s.threads i).pc = .missed k ∨ (s.threads i).pc = .storing k → k ∈ T

theorem calm_step {T : List Nat} {cap : Nat} (hT : T.length ≤ cap) {s : Sys} (h : Calm T cap s) (i : Nat) :
    Calm T cap (s.step i) := by
  obtain ⟨h1, h2, h3, h4, h5, h6⟩ := h
  -- reduce to the thread that moves
  suffices H : (step s.cache (s.threads i)).1.cap = cap ∧ (step s.cache (s.threads i)).1.data.Nodup ∧
      (step s.cache (s.threads i)).1.data ⊆ T ∧ (∀ b ∈ (step s.cache (s.threads i)).2.done, b = true) ∧
      (∀ k ∈ (step s.cache (s.threads i)).2.todo, k ∈ T) ∧
      (∀ k, (step s.cache (s.threads i)).2.pc = .missed k ∨ (step s.cache (s.threads i)).2.pc = .storing k → k ∈ T) by
    obtain ⟨g1, g2, g3, g4, g5, g6⟩ := H
    refine ⟨g1, g2, g3, ?_, ?_, ?_⟩
    · intro j
      simp only [Sys.step]
      split_ifs
      · exact g4
      · exact h4 j
    · intro j
      simp only [Sys.step]
      split_ifs
      · exact g5
      · exact h5 j
    · intro j
      simp only [Sys.step]
      split_ifs
      · exact g6
      · exact h6 j
  have f4 := h4 i
  have f5 := h5 i
  have f6 := h6 i
  generalize s.threads i = t at f4 f5 f6
  generalize s.cache = c at h1 h2 h3
  obtain ⟨todo, pc, done⟩ := t
  simp only at f4 f5 f6
  cases pc with
  | idle =>
    cases todo with
    | nil => exact ⟨h1, h2, h3, f4, f5, f6⟩
    | cons k ks =>
      have hk : k ∈ T := f5 k List.mem_cons_self
      have hks : ∀ k ∈ ks, k ∈ T := fun x hx => f5 x (List.mem_cons_of_mem _ hx)
      simp only [step]
      split_ifs
      · exact ⟨h1, h2, h3, f4, hks, by simp⟩
      · refine ⟨h1, h2, h3, f4, hks, ?_⟩
        intro x hx
        simp only [Pc.missed.injEq, or_false] at hx
        exact hx ▸ hk
  | hit k =>
    refine ⟨h1, h2, h3, ?_, f5, by simp [step]⟩
    intro b hb
    simp only [step, List.mem_append, List.mem_singleton] at hb
    rcases hb with hb | hb
    · exact f4 b hb
    · exact hb
  | missed k =>
    refine ⟨h1, h2, h3, f4, f5, ?_⟩
    intro x hx
    simp only [step, reduceCtorEq, Pc.storing.injEq, false_or] at hx
    exact hx ▸ f6 k (Or.inl rfl)
  | storing k =>
    have hk : k ∈ T := f6 k (Or.inr rfl)
    simp only [step]
    by_cases hin : k ∈ c.data
    · rw [if_neg (by simp [hin])]
      simp only [if_pos hin]
      exact ⟨h1, h2, h3, f4, f5, by simp⟩
    · have hlen : c.data.length + 1 ≤ T.length := by
        have hnd : (k :: c.data).Nodup := List.nodup_cons.mpr ⟨hin, h2⟩
        have hsub : (k :: c.data) ⊆ T := by
          intro y hy
          rcases List.mem_cons.mp hy with rfl | hy
          · exact hk
          · exact h3 hy
        simpa using (List.subperm_of_subset hnd hsub).length_le
      rw [if_neg (by omega)]
      simp only [if_neg hin]
      refine ⟨h1, ?_, ?_, f4, f5, by simp⟩
      · rw [List.nodup_append]
        refine ⟨h2, by simp, ?_⟩
        intro a ha b hb hab
        rw [List.mem_singleton.mp hb] at hab
        exact hin (hab ▸ ha)
      · intro y hy
        rcases List.mem_append.mp hy with hy | hy
        · exact h3 hy
        · rw [List.mem_singleton.mp hy]; exact hk
  | stored k =>
    refine ⟨h1, h2, h3, ?_, f5, by simp [step]⟩
    intro b hb
    simp only [step, List.mem_append, List.mem_singleton] at hb
    rcases hb with hb | hb
    · exact f4 b hb
    · exact hb

/-- **C73** (the part that holds): when no more different tiles are used than the cache can
hold, no query of any thread fails because of the cache, in any schedule. -/
theorem no_cache_failure_partial (cap : Nat) (work : Nat → List Nat) (T : List Nat)
    (hT : T.length ≤ cap) (hw : ∀ i, ∀ k ∈ work i, k ∈ T) (schedule : List Nat) (i : Nat) :
    ∀ b ∈ (((start cap work).run schedule).threads i).done, b = true := by
  suffices H : ∀ (schedule : List Nat) (s : Sys), Calm T cap s → Calm T cap (s.run schedule) by
    refine (H schedule _ ?_).fine i
    exact ⟨rfl, by simp [start], by simp [start], by simp [start], fun i => hw i, by simp [start]⟩
  intro schedule
  induction schedule with
  | nil => exact fun s h => h
  | cons j rest ih => exact fun s h => ih _ (calm_step hT h j)

example : ∃ (work : Nat → List Nat) (T : List Nat), T.length ≤ 2 ∧ (∀ i, ∀ k ∈ work i, k ∈ T) ∧
    (((start 2 work).run [0, 1, 0, 1, 0, 1, 0, 1, 0, 0]).threads 0).done = [true, true] :=
  ⟨fun i => if i = 0 then [7, 8] else if i = 1 then [8, 7] else [], [7, 8], by decide, by
    intro i; simp only; split_ifs <;> simp, by decide +kernel⟩

/-- The cache is full and the oldest key of the order of use is not stored. -/
def Poisoned (c : Cache) : Prop :=
  c.cap ≤ c.data.length ∧ ∃ o os, c.order = o :: os ∧ o ∉ c.data

/-- What one thread does when it makes `n` steps on its own. -/
def alone (n : Nat) : Cache → Thread → Cache × Thread :=
  match n with
  | 0 => fun c t => (c, t)
  | n + 1 => fun c t => alone n (step c t).1 (step c t).2

/-- **C73** (why the failure is permanent): on a poisoned cache every query for a tile that is
not stored raises `KeyError`, nothing is stored, and the cache stays poisoned. -/
theorem poisoned_miss_fails (c : Cache) (hp : Poisoned c) (k : Nat) (hk : k ∉ c.data) (ks : List Nat) (done : List Bool) :
    alone 3 c ⟨k :: ks, .idle, done⟩ = (c, ⟨ks, .idle, done ++ [false]⟩) := by
  obtain ⟨hfull, o, os, ho, hod⟩ := hp
  have h1 : step c ⟨k :: ks, .idle, done⟩ = (c, ⟨ks, .missed k, done⟩) := by simp [step, hk]
  have h2 : step c ⟨ks, .missed k, done⟩ = (c, ⟨ks, .storing k, done⟩) := rfl
  have h3 : step c ⟨ks, .storing k, done⟩ = (c, ⟨ks, .idle, done ++ [false]⟩) := by
    simp only [step]
    rw [if_pos ⟨hk, by omega⟩, ho]
    simp only [if_neg hod]
  simp only [alone, h1, h2, h3]

/-- **C73** (why the failure is permanent): hits do not repair the cache either, so a thread
working alone gets `KeyError` for every tile that was not stored when the damage was done. -/
theorem poisoned_forever (c : Cache) (hp : Poisoned c) (ks : List Nat) :
    ∃ n c', Poisoned c' ∧ c'.data = c.data ∧
      alone n c ⟨ks, .idle, []⟩ = (c', ⟨[], .idle, ks.map (fun k => decide (k ∈ c.data))⟩) := by
  suffices H : ∀ (ks : List Nat) (done : List Bool) (c : Cache), Poisoned c →
      ∃ n c', Poisoned c' ∧ c'.data = c.data ∧
        alone n c ⟨ks, .idle, done⟩ = (c', ⟨[], .idle, done ++ ks.map (fun k => decide (k ∈ c.data))⟩) by
    simpa using H ks [] c hp
  intro ks
  induction ks with
  | nil => exact fun done c hp => ⟨0, c, hp, rfl, by simp [alone]⟩
  | cons k ks ih =>
    intro done c hp
    by_cases hk : k ∈ c.data
    · have h1 : step c ⟨k :: ks, .idle, done⟩ = (c, ⟨ks, .hit k, done⟩) := by simp [step, hk]
      have h2 : step c ⟨ks, .hit k, done⟩ = ({ c with order := touch k c.order }, ⟨ks, .idle, done ++ [true]⟩) := rfl
      have hp' : Poisoned { c with order := touch k c.order } := by
        obtain ⟨hfull, o, os, ho, hod⟩ := hp
        have hok : o ≠ k := fun h => hod (h ▸ hk)
        refine ⟨hfull, o, os.filter (· ≠ k) ++ [k], ?_, hod⟩
        simp [touch, ho, hok]
      obtain ⟨n, c', g1, g2, g3⟩ := ih (done ++ [true]) _ hp'
      refine ⟨n + 2, c', g1, g2, ?_⟩
      simp only [alone, h1, h2]
      rw [g3]
      simp [hk]
    · obtain ⟨n, c', g1, g2, g3⟩ := ih (done ++ [false]) c hp
      refine ⟨n + 3, c', g1, g2, ?_⟩
      have h3 := poisoned_miss_fails c hp k hk ks done
      have hadd : alone (n + 3) c ⟨k :: ks, .idle, done⟩
          = alone n (alone 3 c ⟨k :: ks, .idle, done⟩).1 (alone 3 c ⟨k :: ks, .idle, done⟩).2 := rfl
      rw [hadd, h3]
      simp only
      rw [g3]
      simp [hk]

example : Poisoned ⟨1, [3], [1, 3]⟩ := by
  exact ⟨by decide, 1, [3], rfl, by decide⟩

theorem run_untouched (i : Nat) : ∀ (schedule : List Nat) (s : Sys), i ∉ schedule →
    (s.run schedule).threads i = s.threads i
  | [], _, _ => rfl
  | j :: rest, s, h => by
    have hr := run_untouched i rest (s.step j) (fun hc => h (List.mem_cons_of_mem _ hc))
    have hne : i ≠ j := fun hc => h (hc ▸ List.mem_cons_self)
    have hs : (s.step j).threads i = s.threads i := by
      simp only [Sys.step]
      rw [if_neg hne]
    exact hr.trans hs

/-- Two threads: one asks for tile 1 twice, the other for tiles 2 and 3. -/
def raceWork (i : Nat) : List Nat := if i = 0 then [1, 1] else if i = 1 then [2, 3] else []

/-- Thread 0 is interrupted between finding tile 1 and recording its use. -/
def raceSchedule : List Nat := [0, 0, 0, 0, 0] ++ [1, 1, 1, 1, 1] ++ [0] ++ [1, 1, 1, 1, 1]

/-- **C73** (negation): two threads, three tiles and room for one tile are enough: thread 0 is
interrupted between finding tile 1 and recording its use, thread 1 evicts tile 1 meanwhile.
All those queries succeed, but afterwards the cache is poisoned. -/
theorem race_poisons_cache : ∃ (work : Nat → List Nat) (schedule : List Nat),
    Poisoned ((start 1 work).run schedule).cache ∧
    ∀ i, (((start 1 work).run schedule).threads i).pc = Pc.idle ∧
      (((start 1 work).run schedule).threads i).todo = [] ∧
      ∀ b ∈ (((start 1 work).run schedule).threads i).done, b = true := by
  refine ⟨raceWork, raceSchedule, ?_, ?_⟩
  · have : ((start 1 raceWork).run raceSchedule).cache = ⟨1, [3], [1, 3]⟩ := by decide +kernel
    rw [this]
    exact ⟨by decide, 1, [3], rfl, by decide⟩
  · have h0 : ((start 1 raceWork).run raceSchedule).threads 0 = ⟨[], .idle, [true, true]⟩ := by decide +kernel
    have h1 : ((start 1 raceWork).run raceSchedule).threads 1 = ⟨[], .idle, [true, true]⟩ := by decide +kernel
    have h2 : ∀ n, ((start 1 raceWork).run raceSchedule).threads (n + 2) = ⟨[], .idle, []⟩ := by
      intro n
      rw [run_untouched]
      · simp [start, raceWork]
      · simp [raceSchedule]
    intro i
    match i with
    | 0 => rw [h0]; simp
    | 1 => rw [h1]; simp
    | n + 2 => rw [h2]; simp

end Verif.Props.DemRace
