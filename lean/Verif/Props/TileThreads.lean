import Verif.Model.TileThreads
import Mathlib.Data.List.Induction
import Mathlib.Tactic.IntervalCases

/-!
# C119: SAR metadata of tiles requested from several threads
-/

namespace Verif.Props.TileThreads

open Verif Verif.Updaters Verif.TileThreads

/-- The metadata that a tile of the image `d` should have. -/
def own (d : ImageData) (q : Request) : ImageData := ⟨d.firstRow + q.win.y, d.firstCol + q.win.x, q.win.h, q.win.w⟩

/-- The request asks for another size than that of its window. -/
def Scaled (q : Request) : Prop := ∃ o, q.out = some o ∧ o ≠ (q.win.w, q.win.h)

/-- The outcome that a request should have, whatever other threads do. -/
def Right (d : ImageData) (e : Request × Except PyErr ImageData) : Prop :=
  (Scaled e.1 ∧ e.2 = .error .valueError) ∨ (¬ Scaled e.1 ∧ e.2 = .ok (own d e.1))

/-- The thread is between the check and the end of the rendering. -/
def Busy (t : Thread) : Prop := t.pc ≠ .idle

/-- At no moment of the schedule two threads are in that part: what a lock around it gives. -/
def OneAtATime (s : Sys) (schedule : List Nat) : Prop :=
  ∀ n i j, Busy ((s.run (schedule.take n)).threads i) → Busy ((s.run (schedule.take n)).threads j) → i = j

theorem scaled_iff (q : Request) : (q.out.elim false (fun o => decide (o.1 ≠ q.win.w ∨ o.2 ≠ q.win.h))) = true ↔ Scaled q := by
  unfold Scaled
  cases q.out with
  | none => simp
  | some o =>
    have e : o = (q.win.w, q.win.h) ↔ o.1 = q.win.w ∧ o.2 = q.win.h := Prod.ext_iff
    simp only [Option.elim, decide_eq_true_eq, Option.some.injEq, exists_eq_left', ne_eq, e, not_and_or]

/-- What a busy thread has written and read. -/
def Ours (d : ImageData) (im : ImageData) : Pc → Prop
  | .idle => True
  | .checked q => ¬ Scaled q
  | .row q => ¬ Scaled q ∧ im.firstRow = (own d q).firstRow
  | .col q => ¬ Scaled q ∧ im.firstRow = (own d q).firstRow ∧ im.firstCol = (own d q).firstCol
  | .rows q => ¬ Scaled q ∧ im.firstRow = (own d q).firstRow ∧ im.firstCol = (own d q).firstCol ∧ im.numRows = (own d q).numRows
  | .encoding q => ¬ Scaled q ∧ im = own d q
  | .read1 q nr => ¬ Scaled q ∧ im = own d q ∧ nr = (own d q).numRows
  | .read2 q nr nc => ¬ Scaled q ∧ im = own d q ∧ nr = (own d q).numRows ∧ nc = (own d q).numCols
  | .read3 q nr nc fr => ¬ Scaled q ∧ im = own d q ∧ nr = (own d q).numRows ∧ nc = (own d q).numCols ∧ fr = (own d q).firstRow

/-- The invariant. -/
structure Inv (d : ImageData) (s : Sys) : Prop where
  row : s.updater.originalFirstRow = d.firstRow
  col : s.updater.originalFirstCol = d.firstCol
  done : ∀ i, ∀ e ∈ (s.threads i).done, Right d e
  busy : ∀ i, Busy (s.threads i) → Ours d s.updater.image (s.threads i).pc

theorem inv_step (d : ImageData) (s : Sys) (i : Nat) (h : Inv d s) (h1 : ∀ j k, Busy (s.threads j) → Busy (s.threads k) → j = k)
    (h2 : ∀ j k, Busy ((s.step i).threads j) → Busy ((s.step i).threads k) → j = k) : Inv d (s.step i) := by
  obtain ⟨hr, hc, hd, hb⟩ := h
  have hdi := hd i
  have hbi := hb i
  have others : ∀ j, j ≠ i → (s.step i).threads j = s.threads j := fun j hj => by simp [Sys.step, hj]
  have self : (s.step i).threads i = (TileThreads.step s.updater (s.threads i)).2 := by simp [Sys.step]
  have upd : (s.step i).updater = (TileThreads.step s.updater (s.threads i)).1 := rfl
  -- it is enough to look at the thread that moves: the others are idle when the updater changes
  suffices key : (TileThreads.step s.updater (s.threads i)).1.originalFirstRow = d.firstRow ∧
      (TileThreads.step s.updater (s.threads i)).1.originalFirstCol = d.firstCol ∧
      (∀ e ∈ (TileThreads.step s.updater (s.threads i)).2.done, Right d e) ∧
      Ours d (TileThreads.step s.updater (s.threads i)).1.image (TileThreads.step s.updater (s.threads i)).2.pc ∧
      ((TileThreads.step s.updater (s.threads i)).1 = s.updater ∨ Busy (s.threads i)) by
    obtain ⟨k1, k2, k3, k4, k5⟩ := key
    refine ⟨by rw [upd]; exact k1, by rw [upd]; exact k2, ?_, ?_⟩
    · intro j e he
      by_cases hj : j = i
      · subst hj
        rw [self] at he
        exact k3 e he
      · rw [others j hj] at he
        exact hd j e he
    · intro j hjb
      by_cases hj : j = i
      · subst hj
        rw [self, upd]
        exact k4
      · rw [others j hj] at hjb ⊢
        rw [upd]
        rcases k5 with k5 | k5
        · rw [k5]
          exact hb j hjb
        · exact absurd (h1 j i hjb k5) hj
  generalize s.threads i = t at *
  obtain ⟨todo, pc, dn⟩ := t
  cases pc with
  | idle =>
    cases todo with
    | nil => exact ⟨hr, hc, hdi, trivial, .inl rfl⟩
    | cons q qs =>
      simp only [TileThreads.step]
      by_cases hs : (q.out.elim false (fun o => decide (o.1 ≠ q.win.w ∨ o.2 ≠ q.win.h))) = true
      · rw [if_pos hs]
        refine ⟨hr, hc, ?_, trivial, .inl rfl⟩
        intro e he
        rcases List.mem_append.1 he with he | he
        · exact hdi e he
        · rw [List.mem_singleton] at he
          subst he
          exact .inl ⟨(scaled_iff q).1 hs, rfl⟩
      · rw [if_neg hs]
        exact ⟨hr, hc, hdi, fun hq => hs ((scaled_iff q).2 hq), .inl rfl⟩
  | checked q =>
    have hb' := hbi (by simp [Busy])
    exact ⟨hr, hc, hdi, ⟨hb', by simp only [TileThreads.step, own, hr]⟩, .inr (by simp [Busy])⟩
  | row q =>
    obtain ⟨a, b⟩ := hbi (by simp [Busy])
    exact ⟨hr, hc, hdi, ⟨a, b, by simp only [TileThreads.step, own, hc]⟩, .inr (by simp [Busy])⟩
  | col q =>
    obtain ⟨a, b, c⟩ := hbi (by simp [Busy])
    exact ⟨hr, hc, hdi, ⟨a, b, c, rfl⟩, .inr (by simp [Busy])⟩
  | rows q =>
    obtain ⟨a, b, c, e⟩ := hbi (by simp [Busy])
    refine ⟨hr, hc, hdi, ⟨a, ?_⟩, .inr (by simp [Busy])⟩
    simp only [TileThreads.step]
    rw [b, c, e]
    rfl
  | encoding q =>
    obtain ⟨a, b⟩ := hbi (by simp [Busy])
    exact ⟨hr, hc, hdi, ⟨a, b, by rw [b]⟩, .inl rfl⟩
  | read1 q nr =>
    obtain ⟨a, b, c⟩ := hbi (by simp [Busy])
    exact ⟨hr, hc, hdi, ⟨a, b, c, by rw [b]⟩, .inl rfl⟩
  | read2 q nr nc =>
    obtain ⟨a, b, c, e⟩ := hbi (by simp [Busy])
    exact ⟨hr, hc, hdi, ⟨a, b, c, e, by rw [b]⟩, .inl rfl⟩
  | read3 q nr nc fr =>
    obtain ⟨a, b, c, e, f⟩ := hbi (by simp [Busy])
    refine ⟨hr, hc, ?_, trivial, .inl rfl⟩
    intro x hx
    rcases List.mem_append.1 hx with hx | hx
    · exact hdi x hx
    · rw [List.mem_singleton] at hx
      subst hx
      refine .inr ⟨a, ?_⟩
      simp only [b, c, e, f]

theorem run_append (s : Sys) (l : List Nat) (i : Nat) : s.run (l ++ [i]) = (s.run l).step i := by
  simp [Sys.run, List.foldl_append]

/-- The request that a thread is working on. -/
def current : Pc → List Request
  | .idle => []
  | .checked q | .row q | .col q | .rows q | .encoding q | .read1 q _ | .read2 q _ _ | .read3 q _ _ _ => [q]

theorem requests_kept (d : ImageData) (work : Nat → List Request) (schedule : List Nat) (i : Nat) :
    let t := ((start d work).run schedule).threads i
    work i = t.done.map Prod.fst ++ current t.pc ++ t.todo := by
  induction schedule using List.reverseRecOn with
  | nil => simp [Sys.run, start, current]
  | append_singleton l k ih =>
    rw [run_append]
    by_cases hk : i = k
    · subst hk
      simp only [Sys.step, if_true]
      generalize ((start d work).run l).threads i = t at *
      obtain ⟨todo, pc, dn⟩ := t
      simp only at ih
      rw [ih]
      cases pc with
      | idle =>
        cases todo with
        | nil => rfl
        | cons q qs =>
          simp only [TileThreads.step]
          split <;> simp [current]
      | _ => simp [TileThreads.step, current]
    · simp only [Sys.step, if_neg hk]
      exact ih

/-- **C119** Whatever the schedule, every thread gets an outcome for each of its requests, in their order: the finished ones, then at most one in work, then the rest. -/
theorem requests_in_order (d : ImageData) (work : Nat → List Request) (schedule : List Nat) (i : Nat) :
    ∃ c rest, c.length ≤ 1 ∧ work i = (((start d work).run schedule).threads i).done.map Prod.fst ++ c ++ rest ∧
      (((start d work).run schedule).threads i).todo = rest := by
  refine ⟨current (((start d work).run schedule).threads i).pc, _, ?_, requests_kept d work schedule i, rfl⟩
  cases (((start d work).run schedule).threads i).pc <;> simp [current]

/-- **C119** (partial) When no two threads are between the size check and the end of the rendering at the same time, every finished request of every thread, for every
number of threads, requests and every such schedule, has the metadata of its own tile, and a scaled request is rejected.  Missing: schedules without
that exclusion, see `threads_mix_metadata`. -/
theorem exclusive_tiles_right_partial (d : ImageData) (work : Nat → List Request) (schedule : List Nat) (h : OneAtATime (start d work) schedule) :
    ∀ i, ∀ e ∈ (((start d work).run schedule).threads i).done, Right d e := by
  have key : ∀ n, Inv d ((start d work).run (schedule.take n)) := by
    intro n
    induction n with
    | zero =>
      simp only [List.take_zero, Sys.run, List.foldl_nil]
      exact ⟨rfl, rfl, by simp [start], by simp [start, Busy]⟩
    | succ n ih =>
      by_cases hn : n < schedule.length
      · have hs : schedule.take (n + 1) = schedule.take n ++ [schedule[n]] := by
          rw [List.take_add_one, List.getElem?_eq_getElem hn]
          rfl
        have h2 := h (n + 1)
        rw [hs, run_append] at h2
        rw [hs, run_append]
        exact inv_step d _ _ ih (h n) h2
      · rw [List.take_of_length_le (by omega)]
        rw [List.take_of_length_le (by omega)] at ih
        exact ih
  have := key schedule.length
  rw [List.take_length] at this
  exact this.done

/-- **C119** A request that runs without interruption is the sequential update and rendering of C40. -/
theorem uninterrupted_is_sequential (s : Sicd) (q : Request) (qs : List Request) (dn : List (Request × Except PyErr ImageData)) :
    ∃ n ≤ 9, (fun p : Sicd × Thread => TileThreads.step p.1 p.2)^[n] (s, ⟨q :: qs, .idle, dn⟩) =
      match s.update q with
      | .ok s' => (s', ⟨qs, .idle, dn ++ [(q, .ok s'.image)]⟩)
      | .error e => (s, ⟨qs, .idle, dn ++ [(q, .error e)]⟩) := by
  by_cases hs : (q.out.elim false (fun o => decide (o.1 ≠ q.win.w ∨ o.2 ≠ q.win.h))) = true
  · refine ⟨1, by omega, ?_⟩
    simp only [Sicd.update, if_pos hs, Function.iterate_one, TileThreads.step]
  · refine ⟨9, le_rfl, ?_⟩
    simp only [Sicd.update, if_neg hs, Function.iterate_succ, Function.iterate_zero, Function.comp, id, TileThreads.step]

example : ∃ n ≤ 9, (fun p : Sicd × Thread => TileThreads.step p.1 p.2)^[n] (Sicd.new ⟨100, 200, 50, 60⟩, ⟨[⟨⟨1, 2, 3, 4⟩, none⟩], .idle, []⟩) =
    (⟨100, 200, ⟨102, 201, 4, 3⟩⟩, ⟨[], .idle, [(⟨⟨1, 2, 3, 4⟩, none⟩, .ok ⟨102, 201, 4, 3⟩)]⟩) :=
  uninterrupted_is_sequential _ _ _ _

/-- A value that some unscaled request of some thread asks for. -/
def Asked (d : ImageData) (work : Nat → List Request) (f : ImageData → Int) (v : Int) : Prop := ∃ j, ∃ q ∈ work j, ¬ Scaled q ∧ v = f (own d q)

/-- Each value was asked for, not necessarily by the same request. -/
def Mixed (d : ImageData) (work : Nat → List Request) (im : ImageData) : Prop :=
  Asked d work ImageData.firstRow im.firstRow ∧ Asked d work ImageData.firstCol im.firstCol ∧
  Asked d work ImageData.numRows im.numRows ∧ Asked d work ImageData.numCols im.numCols

/-- What a busy thread finds, with other threads running. -/
def Found (d : ImageData) (work : Nat → List Request) (im : ImageData) : Pc → Prop
  | .idle => True
  | .checked q => ¬ Scaled q
  | .row q => ¬ Scaled q ∧ Asked d work ImageData.firstRow im.firstRow
  | .col q => ¬ Scaled q ∧ Asked d work ImageData.firstRow im.firstRow ∧ Asked d work ImageData.firstCol im.firstCol
  | .rows q => ¬ Scaled q ∧ Asked d work ImageData.firstRow im.firstRow ∧ Asked d work ImageData.firstCol im.firstCol ∧ Asked d work ImageData.numRows im.numRows
  | .encoding _ => Mixed d work im
  | .read1 _ nr => Mixed d work im ∧ Asked d work ImageData.numRows nr
  | .read2 _ nr nc => Mixed d work im ∧ Asked d work ImageData.numRows nr ∧ Asked d work ImageData.numCols nc
  | .read3 _ nr nc fr => Mixed d work im ∧ Asked d work ImageData.numRows nr ∧ Asked d work ImageData.numCols nc ∧ Asked d work ImageData.firstRow fr

theorem found_mono (d : ImageData) (work : Nat → List Request) (im im' : ImageData)
    (h1 : im'.firstRow = im.firstRow ∨ Asked d work ImageData.firstRow im'.firstRow) (h2 : im'.firstCol = im.firstCol ∨ Asked d work ImageData.firstCol im'.firstCol)
    (h3 : im'.numRows = im.numRows ∨ Asked d work ImageData.numRows im'.numRows) (h4 : im'.numCols = im.numCols ∨ Asked d work ImageData.numCols im'.numCols)
    (pc : Pc) (h : Found d work im pc) : Found d work im' pc := by
  have k1 : Asked d work ImageData.firstRow im.firstRow → Asked d work ImageData.firstRow im'.firstRow := fun k => h1.elim (fun e => e ▸ k) id
  have k2 : Asked d work ImageData.firstCol im.firstCol → Asked d work ImageData.firstCol im'.firstCol := fun k => h2.elim (fun e => e ▸ k) id
  have k3 : Asked d work ImageData.numRows im.numRows → Asked d work ImageData.numRows im'.numRows := fun k => h3.elim (fun e => e ▸ k) id
  have k4 : Asked d work ImageData.numCols im.numCols → Asked d work ImageData.numCols im'.numCols := fun k => h4.elim (fun e => e ▸ k) id
  have km : Mixed d work im → Mixed d work im' := fun m => ⟨k1 m.1, k2 m.2.1, k3 m.2.2.1, k4 m.2.2.2⟩
  cases pc with
  | idle => trivial
  | checked q => exact h
  | row q => exact ⟨h.1, k1 h.2⟩
  | col q => exact ⟨h.1, k1 h.2.1, k2 h.2.2⟩
  | rows q => exact ⟨h.1, k1 h.2.1, k2 h.2.2.1, k3 h.2.2.2⟩
  | encoding q => exact km h
  | read1 q nr => exact ⟨km h.1, h.2⟩
  | read2 q nr nc => exact ⟨km h.1, h.2⟩
  | read3 q nr nc fr => exact ⟨km h.1, h.2⟩

/-- The invariant of an arbitrary schedule. -/
structure InvAny (d : ImageData) (work : Nat → List Request) (s : Sys) : Prop where
  row : s.updater.originalFirstRow = d.firstRow
  col : s.updater.originalFirstCol = d.firstCol
  done : ∀ i q r, (q, r) ∈ (s.threads i).done → (Scaled q ∧ r = .error .valueError) ∨ ∃ im, r = .ok im ∧ Mixed d work im
  found : ∀ i, Found d work s.updater.image (s.threads i).pc

theorem invAny_run (d : ImageData) (work : Nat → List Request) (schedule : List Nat) : InvAny d work ((start d work).run schedule) := by
  induction schedule using List.reverseRecOn with
  | nil => exact ⟨rfl, rfl, by simp [Sys.run, start], by simp [Sys.run, start, Found]⟩
  | append_singleton l i ih =>
    have hreq := requests_kept d work l i
    rw [run_append]
    generalize (start d work).run l = s at *
    obtain ⟨hr, hc, hd, hf⟩ := ih
    have hdi := hd i
    have hfi := hf i
    have others : ∀ j, j ≠ i → (s.step i).threads j = s.threads j := fun j hj => by simp [Sys.step, hj]
    have self : (s.step i).threads i = (TileThreads.step s.updater (s.threads i)).2 := by simp [Sys.step]
    have upd : (s.step i).updater = (TileThreads.step s.updater (s.threads i)).1 := rfl
    suffices key : (TileThreads.step s.updater (s.threads i)).1.originalFirstRow = d.firstRow ∧
        (TileThreads.step s.updater (s.threads i)).1.originalFirstCol = d.firstCol ∧
        (∀ q r, (q, r) ∈ (TileThreads.step s.updater (s.threads i)).2.done → (Scaled q ∧ r = .error .valueError) ∨ ∃ im, r = .ok im ∧ Mixed d work im) ∧
        Found d work (TileThreads.step s.updater (s.threads i)).1.image (TileThreads.step s.updater (s.threads i)).2.pc ∧
        (∀ pc, Found d work s.updater.image pc → Found d work (TileThreads.step s.updater (s.threads i)).1.image pc) by
      obtain ⟨k1, k2, k3, k4, k5⟩ := key
      refine ⟨by rw [upd]; exact k1, by rw [upd]; exact k2, ?_, ?_⟩
      · intro j q r he
        by_cases hj : j = i
        · subst hj
          rw [self] at he
          exact k3 q r he
        · rw [others j hj] at he
          exact hd j q r he
      · intro j
        by_cases hj : j = i
        · subst hj
          rw [self, upd]
          exact k4
        · rw [others j hj, upd]
          exact k5 _ (hf j)
    generalize s.threads i = t at *
    obtain ⟨todo, pc, dn⟩ := t
    cases pc with
    | idle =>
      cases todo with
      | nil => exact ⟨hr, hc, hdi, trivial, fun _ h => h⟩
      | cons q qs =>
        simp only [TileThreads.step]
        by_cases hs : (q.out.elim false (fun o => decide (o.1 ≠ q.win.w ∨ o.2 ≠ q.win.h))) = true
        · rw [if_pos hs]
          refine ⟨hr, hc, ?_, trivial, fun _ h => h⟩
          intro q' r he
          rcases List.mem_append.1 he with he | he
          · exact hdi q' r he
          · rw [List.mem_singleton] at he
            cases he
            exact .inl ⟨(scaled_iff q).1 hs, rfl⟩
        · rw [if_neg hs]
          exact ⟨hr, hc, hdi, fun hq => hs ((scaled_iff q).2 hq), fun _ h => h⟩
    | checked q =>
      have hq : q ∈ work i := by rw [hreq]; simp [current]
      have ha : Asked d work ImageData.firstRow (s.updater.originalFirstRow + q.win.y) := ⟨i, q, hq, hfi, by simp [own, hr]⟩
      exact ⟨hr, hc, hdi, ⟨hfi, ha⟩, fun pc h => found_mono d work s.updater.image { s.updater.image with firstRow := s.updater.originalFirstRow + q.win.y } (.inr ha) (.inl rfl) (.inl rfl) (.inl rfl)  pc h⟩
    | row q =>
      have hq : q ∈ work i := by rw [hreq]; simp [current]
      have ha : Asked d work ImageData.firstCol (s.updater.originalFirstCol + q.win.x) := ⟨i, q, hq, hfi.1, by simp [own, hc]⟩
      exact ⟨hr, hc, hdi, ⟨hfi.1, hfi.2, ha⟩, fun pc h => found_mono d work s.updater.image { s.updater.image with firstCol := s.updater.originalFirstCol + q.win.x } (.inl rfl) (.inr ha) (.inl rfl) (.inl rfl)  pc h⟩
    | col q =>
      have hq : q ∈ work i := by rw [hreq]; simp [current]
      have ha : Asked d work ImageData.numRows q.win.h := ⟨i, q, hq, hfi.1, rfl⟩
      exact ⟨hr, hc, hdi, ⟨hfi.1, hfi.2.1, hfi.2.2, ha⟩, fun pc h => found_mono d work s.updater.image { s.updater.image with numRows := q.win.h } (.inl rfl) (.inl rfl) (.inr ha) (.inl rfl)  pc h⟩
    | rows q =>
      have hq : q ∈ work i := by rw [hreq]; simp [current]
      have ha : Asked d work ImageData.numCols q.win.w := ⟨i, q, hq, hfi.1, rfl⟩
      exact ⟨hr, hc, hdi, ⟨hfi.2.1, hfi.2.2.1, hfi.2.2.2, ha⟩, fun pc h => found_mono d work s.updater.image { s.updater.image with numCols := q.win.w } (.inl rfl) (.inl rfl) (.inl rfl) (.inr ha)  pc h⟩
    | encoding q => exact ⟨hr, hc, hdi, ⟨hfi, hfi.2.2.1⟩, fun _ h => h⟩
    | read1 q nr => exact ⟨hr, hc, hdi, ⟨hfi.1, hfi.2, hfi.1.2.2.2⟩, fun _ h => h⟩
    | read2 q nr nc => exact ⟨hr, hc, hdi, ⟨hfi.1, hfi.2.1, hfi.2.2, hfi.1.1⟩, fun _ h => h⟩
    | read3 q nr nc fr =>
      refine ⟨hr, hc, ?_, trivial, fun _ h => h⟩
      intro q' r hx
      rcases List.mem_append.1 hx with hx | hx
      · exact hdi q' r hx
      · rw [List.mem_singleton] at hx
        cases hx
        exact .inr ⟨_, rfl, hfi.2.2.2, hfi.1.2.1, hfi.2.1, hfi.2.2.1⟩

/-- **C119** Whatever the schedule, a scaled request alone is rejected, and each of the four values in the metadata of a tile was asked for by some unscaled request of some thread. -/
theorem values_were_asked_for (d : ImageData) (work : Nat → List Request) (schedule : List Nat) (i : Nat) (q : Request) (r : Except PyErr ImageData)
    (h : (q, r) ∈ (((start d work).run schedule).threads i).done) : (Scaled q ∧ r = .error .valueError) ∨ ∃ im, r = .ok im ∧ Mixed d work im :=
  (invAny_run d work schedule).done i q r h

/-- Two threads with one request each. -/
def twoTiles : Nat → List Request := fun i => if i = 0 then [⟨⟨0, 0, 10, 10⟩, none⟩] else if i = 1 then [⟨⟨500, 700, 20, 30⟩, none⟩] else []

theorem run_others (s : Sys) (l : List Nat) (j : Nat) (h : j ∉ l) : (s.run l).threads j = s.threads j := by
  induction l using List.reverseRecOn with
  | nil => rfl
  | append_singleton l i ih =>
    rw [run_append]
    have hj : j ≠ i := by rintro rfl; simp at h
    simp only [Sys.step, if_neg hj]
    exact ih (fun hm => h (by simp [hm]))

/-- First the second thread, then the first one. -/
theorem twoTiles_exclusive : OneAtATime (start ⟨100, 200, 1000, 1000⟩ twoTiles) (List.replicate 9 1 ++ List.replicate 9 0) := by
  have key : ∀ n, ¬ Busy (((start ⟨100, 200, 1000, 1000⟩ twoTiles).run ((List.replicate 9 1 ++ List.replicate 9 0).take n)).threads 0) ∨
      ¬ Busy (((start ⟨100, 200, 1000, 1000⟩ twoTiles).run ((List.replicate 9 1 ++ List.replicate 9 0).take n)).threads 1) := by
    intro n
    unfold Busy
    by_cases hn : n < 18
    · interval_cases n <;> decide
    · rw [List.take_of_length_le (by simp; omega)]
      decide
  intro n i j hi hj
  have other : ∀ k, k ≠ 0 → k ≠ 1 → ¬ Busy (((start ⟨100, 200, 1000, 1000⟩ twoTiles).run ((List.replicate 9 1 ++ List.replicate 9 0).take n)).threads k) := by
    intro k h0 h1
    rw [run_others _ _ k (fun hm => by
      have := List.mem_of_mem_take hm
      simp [h0, h1] at this)]
    simp [Busy, start]
  by_cases i0 : i = 0
  · by_cases j1 : j = 1
    · subst i0 j1
      exact absurd hj ((key n).resolve_left (not_not.2 hi))
    · by_cases j0 : j = 0
      · rw [i0, j0]
      · exact absurd hj (other j j0 j1)
  · by_cases i1 : i = 1
    · by_cases j0 : j = 0
      · subst i1 j0
        exact absurd hi ((key n).resolve_left (not_not.2 hj))
      · by_cases j1 : j = 1
        · rw [i1, j1]
        · exact absurd hj (other j j0 j1)
    · exact absurd hi (other i i0 i1)

example : ∀ i, ∀ e ∈ (((start ⟨100, 200, 1000, 1000⟩ twoTiles).run (List.replicate 9 1 ++ List.replicate 9 0)).threads i).done, Right ⟨100, 200, 1000, 1000⟩ e :=
  exclusive_tiles_right_partial _ _ _ twoTiles_exclusive

/-- Both are finished then. -/
example : (((start ⟨100, 200, 1000, 1000⟩ twoTiles).run (List.replicate 9 1 ++ List.replicate 9 0)).threads 1).done = [(⟨⟨500, 700, 20, 30⟩, none⟩, .ok ⟨800, 700, 30, 20⟩)] := rfl

/-- In the midst of a mixed schedule: one request of the first thread is in work. -/
example : ∃ c rest, c.length ≤ 1 ∧ twoTiles 0 = (((start ⟨100, 200, 1000, 1000⟩ twoTiles).run [0, 1, 0, 1, 0]).threads 0).done.map Prod.fst ++ c ++ rest ∧
    (((start ⟨100, 200, 1000, 1000⟩ twoTiles).run [0, 1, 0, 1, 0]).threads 0).todo = rest := requests_in_order _ _ _ _

/-- The schedule of the next theorem: the mixed values. -/
example : ∃ im, (.ok ⟨800, 700, 10, 10⟩ : Except PyErr ImageData) = .ok im ∧ Mixed ⟨100, 200, 1000, 1000⟩ twoTiles im :=
  (values_were_asked_for ⟨100, 200, 1000, 1000⟩ twoTiles [0, 0, 0, 1, 1, 1, 0, 0, 0, 0, 0, 0] 0 ⟨⟨0, 0, 10, 10⟩, none⟩ _ (List.mem_singleton.2 rfl)).resolve_left
    (fun h => by cases h.2)

/-- **C119** (negation) Two threads without that exclusion: a tile is delivered with metadata that belongs to no tile that was requested, first row and column of the one
and size of the other. -/
theorem threads_mix_metadata : ∃ (d : ImageData) (work : Nat → List Request) (schedule : List Nat) (q : Request) (im : ImageData),
    (((start d work).run schedule).threads 0).done = [(q, .ok im)] ∧ ¬ Scaled q ∧ im ≠ own d q ∧ ∀ j, ∀ q' ∈ work j, im ≠ own d q' := by
  refine ⟨⟨100, 200, 1000, 1000⟩, twoTiles, [0, 0, 0, 1, 1, 1, 0, 0, 0, 0, 0, 0], ⟨⟨0, 0, 10, 10⟩, none⟩, ⟨800, 700, 10, 10⟩, ?_, ?_, ?_, ?_⟩
  · rfl
  · rintro ⟨o, ho, _⟩
    cases ho
  · decide
  · intro j q' hq'
    unfold twoTiles at hq'
    split at hq'
    · rw [List.mem_singleton] at hq'
      subst hq'
      decide
    · split at hq'
      · rw [List.mem_singleton] at hq'
        subst hq'
        decide
      · cases hq'

end Verif.Props.TileThreads
