import Verif.Model.TileFactory
import Verif.Props.Updaters
import Mathlib.Tactic.Linarith
import Mathlib.Tactic.FieldSimp
import Mathlib.Tactic.Ring
import Mathlib.Tactic.Positivity

/-!
# Theorems about the tile factory
-/

namespace Verif.Props.TileFactory

open Verif.TileFactory Verif.Updaters Verif.GdalUtils

/-! ## Encoded tiles (C44) -/

section
variable {S : Type}

/-- The state of a factory as far as later tiles can see it: the default arguments with the default options. -/
def Clean (base : List String) (d : Kwargs) (st : State S) : Prop := st.defaults = d ∧ st.heap[d.creationOptions]? = some base

theorem append_other (heap : List (List String)) (r r' : Nat) (xs : List String) (h : r' ≠ r) : (append heap r xs)[r']? = heap[r']? := by
  unfold append
  rw [List.getElem?_modify]
  have : ¬ r = r' := fun hh => h hh.symm
  simp [this]

theorem append_same (heap : List (List String)) (r : Nat) (xs l : List String) (h : heap[r]? = some l) : (append heap r xs)[r]? = some (l ++ xs) := by
  unfold append
  rw [List.getElem?_modify, h]
  simp

theorem addIgeolo_other (c : Config S) (win : Window) (r r' : Nat) (heap : List (List String)) (h : r' ≠ r) :
    (addIgeolo c win r heap).1[r']? = heap[r']? := by
  unfold addIgeolo
  split
  · split <;> simp only [append_other _ _ _ _ h]
  · rfl

theorem addSar_other (c : Config S) (q : Request) (r r' : Nat) (sar : S) (heap : List (List String)) (h : r' ≠ r) :
    (addSar c q r sar heap).2.1[r']? = heap[r']? := by
  unfold addSar
  split
  · split
    · rfl
    · simp only [append_other _ _ _ _ h]
  · rfl

theorem addOptions_other (c : Config S) (q : Request) (r r' : Nat) (sar : S) (heap : List (List String)) (h : r' ≠ r) :
    (addOptions c q r sar heap).2.1[r']? = heap[r']? := by
  have h1 := addIgeolo_other c q.win r r' heap h
  unfold addOptions
  split
  · rename_i heap' e he
    rw [he] at h1
    exact h1
  · rename_i heap' he
    rw [he] at h1
    rw [addSar_other _ _ _ _ _ _ h]
    exact h1

theorem finish_keeps (translate : Call → Bool × Except PyErr Bool) (name : String) (call : Call) (st : State S) :
    (finish translate name call st).1.defaults = st.defaults ∧ (finish translate name call st).1.heap = st.heap ∧
    (finish translate name call st).1.sar = st.sar ∧ (finish translate name call st).2.2 = some call := by
  unfold finish
  split <;> exact ⟨rfl, rfl, rfl, rfl⟩

/-- What a request does when the factory is clean. -/
theorem create_eq (c : Config S) (translate : Call → Bool × Except PyErr Bool) (name : String) (q : Request) (base : List String) (d : Kwargs)
    (st : State S) (h : Clean base d st) :
    createEncodedTile c translate name q st =
      let r := addOptions c q st.heap.length st.sar (st.heap ++ [base])
      let st' := { st with heap := r.2.1, sar := r.1 }
      match r.2.2 with
      | .error e => (st', .error e, none)
      | .ok () => finish translate name (callOf { d with creationOptions := st.heap.length } q r.2.1) st' := by
  obtain ⟨rfl, h⟩ := h
  unfold createEncodedTile deepcopy
  simp only [h]
  rfl

theorem create_clean (c : Config S) (translate : Call → Bool × Except PyErr Bool) (name : String) (q : Request) (base : List String) (d : Kwargs)
    (st : State S) (h : Clean base d st) : Clean base d (createEncodedTile c translate name q st).1 := by
  rw [create_eq c translate name q base d st h]
  obtain ⟨rfl, h⟩ := h
  have hlt : st.defaults.creationOptions < st.heap.length := (List.getElem?_eq_some_iff.1 h).1
  have h2 := addOptions_other c q st.heap.length st.defaults.creationOptions st.sar (st.heap ++ [base]) hlt.ne
  rw [List.getElem?_append_left hlt, h] at h2
  dsimp only
  generalize addOptions c q st.heap.length st.sar (st.heap ++ [base]) = r at h2
  obtain ⟨s, heap, o⟩ := r
  cases o with
  | error e => exact ⟨rfl, h2⟩
  | ok u =>
    dsimp only at h2 ⊢
    have hf := finish_keeps translate name (callOf { st.defaults with creationOptions := st.heap.length } q heap) { st with heap := heap, sar := s }
    exact ⟨hf.1, by rw [hf.2.1]; exact h2⟩

theorem serve_clean (c : Config S) (rs : List (String × (Call → Bool × Except PyErr Bool) × Request)) (base : List String) (d : Kwargs)
    (st : State S) (h : Clean base d st) : Clean base d (serve c st rs) := by
  unfold serve
  induction rs generalizing st with
  | nil => exact h
  | cons r rs ih =>
    rw [List.foldl_cons]
    exact ih _ (create_clean c _ _ _ base d st h)

/-- The creation options a tile should have: the defaults, the corners, the SAR metadata. -/
def Expected (c : Config S) (base : List String) (q : Request) (sar : S) (options : List String) : Prop :=
  ∃ corners metadata, options = base ++ corners ++ metadata ∧
    (c.format ≠ .nitf → corners = [] ∧ metadata = []) ∧
    (c.igeolo = none → corners = []) ∧
    (c.sar = none → metadata = []) ∧
    (∀ f, c.format = .nitf → c.igeolo = some f → ∃ s, f q.win = .ok s ∧ corners = ["ICORDS=G", "IGEOLO=" ++ s]) ∧
    (∀ update encode header, c.format = .nitf → c.sar = some (update, encode, header) → ∃ s, update sar q = .ok s ∧
      metadata = ["ICAT=SAR", "IREP=NODISPLY", "IREPBAND= , ", "ISUBCAT=I,Q", "DES=XML_DATA_CONTENT=" ++ (header ++ encode s)])

theorem addOptions_ok (c : Config S) (q : Request) (r : Nat) (sar : S) (heap : List (List String)) (base : List String) (hb : heap[r]? = some base)
    (h : (addOptions c q r sar heap).2.2 = .ok ()) :
    ∃ o, (addOptions c q r sar heap).2.1[r]? = some o ∧ Expected c base q sar o := by
  rcases hf : c.format with _ | _ | _ | _
  · rcases hi : c.igeolo with _ | f <;> rcases hs : c.sar with _ | ⟨u, e, hd⟩
    · simp only [addOptions, addIgeolo, addSar, hf, hi, hs] at h ⊢
      exact ⟨base, hb, [], [], by simp, by simp [hf], by simp, by simp, by simp [hi], by simp [hs]⟩
    · simp only [addOptions, addIgeolo, addSar, hf, hi, hs] at h ⊢
      rcases hu : u sar q with x | s'
      · simp [hu] at h
      · simp only
        refine ⟨_, append_same _ _ _ _ hb, [], _, by simp; rfl, by simp [hf], by simp, by simp [hs], by simp [hi], ?_⟩
        intro u' e' hd' _ h'
        rw [hs] at h'
        simp only [Option.some.injEq, Prod.mk.injEq] at h'
        obtain ⟨rfl, rfl, rfl⟩ := h'
        exact ⟨s', hu, rfl⟩
    · simp only [addOptions, addIgeolo, addSar, hf, hi, hs] at h ⊢
      rcases hw : f q.win with x | s
      · simp [hw] at h
      · simp only
        refine ⟨_, append_same _ _ _ _ (append_same _ _ _ _ hb), ["ICORDS=G", "IGEOLO=" ++ s], [], by simp, by simp [hf], by simp [hi], by simp,
          ?_, by simp [hs]⟩
        intro f' _ h'
        rw [hi] at h'
        simp only [Option.some.injEq] at h'
        subst h'
        exact ⟨s, hw, rfl⟩
    · simp only [addOptions, addIgeolo, addSar, hf, hi, hs] at h ⊢
      rcases hw : f q.win with x | s
      · simp [hw] at h
      · rcases hu : u sar q with x | s'
        · simp [hw, hu] at h
        · simp only
          refine ⟨_, append_same _ _ _ _ (append_same _ _ _ _ (append_same _ _ _ _ hb)), ["ICORDS=G", "IGEOLO=" ++ s], _, by simp; rfl, by simp [hf], by simp [hi],
            by simp [hs], ?_, ?_⟩
          · intro f' _ h'
            rw [hi] at h'
            simp only [Option.some.injEq] at h'
            subst h'
            exact ⟨s, hw, rfl⟩
          · intro u' e' hd' _ h'
            rw [hs] at h'
            simp only [Option.some.injEq, Prod.mk.injEq] at h'
            obtain ⟨rfl, rfl, rfl⟩ := h'
            exact ⟨s', hu, rfl⟩
  all_goals
    refine ⟨base, ?_, [], [], by simp, by simp, by simp, by simp, by simp [hf], by simp [hf]⟩
    simp only [addOptions, addIgeolo, addSar, hf]
    exact hb

/-- **C44**: after any requests, with any outcome, a call of `Translate` has the window and size of the request, the
default arguments, and exactly the default creation options followed by the corners of the window and the metadata. -/
theorem tile_options (c : Config S) (st : State S) (base : List String) (hst : st.heap[st.defaults.creationOptions]? = some base)
    (history : List (String × (Call → Bool × Except PyErr Bool) × Request)) (translate : Call → Bool × Except PyErr Bool) (name : String) (q : Request)
    (call : Call) (h : (createEncodedTile c translate name q (serve c st history)).2.2 = some call) :
    call.win = q.win ∧ call.scaleParams = st.defaults.scaleParams ∧ call.outputType = st.defaults.outputType ∧
    call.format = st.defaults.format ∧ (∀ o, q.out = some o → call.size = some o) ∧ (q.out = none → call.size = st.defaults.size) ∧
    Expected c base q (serve c st history).sar call.options := by
  have hc := serve_clean c history base st.defaults st ⟨rfl, hst⟩
  generalize serve c st history = st1 at *
  rw [create_eq c translate name q base st.defaults st1 hc] at h
  dsimp only at h
  have hk := addOptions_ok c q st1.heap.length st1.sar (st1.heap ++ [base]) base (by simp)
  generalize addOptions c q st1.heap.length st1.sar (st1.heap ++ [base]) = r at h hk
  obtain ⟨s, heap, o⟩ := r
  cases o with
  | error e => simp at h
  | ok u =>
    dsimp only at h hk
    rw [(finish_keeps _ _ _ _).2.2.2] at h
    simp only [Option.some.injEq] at h
    obtain ⟨o, ho, he⟩ := hk rfl
    subst h
    refine ⟨rfl, rfl, rfl, rfl, ?_, ?_, ?_⟩
    · intro o' ho'; simp [callOf, ho']
    · intro ho'; simp [callOf, ho']
    · simp only [callOf, ho, Option.getD_some]; exact he

/-- The options of the corners and of the metadata, or the error. -/
def extraOptions (c : Config S) (q : Request) (sar : S) : Except PyErr (List String) :=
  match c.format with
  | .nitf => do
    let corners ← (match c.igeolo with
      | some f => (f q.win).map (fun s => ["ICORDS=G", "IGEOLO=" ++ s])
      | none => .ok [])
    let metadata ← (match c.sar with
      | some (update, encode, header) => (update sar q).map (fun s =>
          ["ICAT=SAR", "IREP=NODISPLY", "IREPBAND= , ", "ISUBCAT=I,Q", "DES=XML_DATA_CONTENT=" ++ (header ++ encode s)])
      | none => .ok [])
    pure (corners ++ metadata)
  | _ => .ok []

theorem addOptions_spec (c : Config S) (q : Request) (r : Nat) (sar : S) (heap : List (List String)) (base : List String) (hb : heap[r]? = some base) :
    (∀ e, extraOptions c q sar = .error e → (addOptions c q r sar heap).2.2 = .error e) ∧
    (∀ xs, extraOptions c q sar = .ok xs → (addOptions c q r sar heap).2.2 = .ok () ∧ (addOptions c q r sar heap).2.1[r]? = some (base ++ xs)) := by
  unfold extraOptions addOptions addIgeolo addSar
  rcases hf : c.format with _ | _ | _ | _
  · rcases hi : c.igeolo with _ | f <;> rcases hs : c.sar with _ | ⟨u, e, hd⟩
    · simp [bind, Except.bind, pure, Except.pure, hb]
    · rcases hu : u sar q with x | s'
      · simp [bind, Except.bind, Except.map, hu]
      · simp [bind, Except.bind, pure, Except.pure, Except.map, hu, append_same _ _ _ _ hb]
    · rcases hw : f q.win with x | s
      · simp [bind, Except.bind, Except.map, hw]
      · simp [bind, Except.bind, pure, Except.pure, Except.map, hw, append_same _ _ _ _ (append_same _ _ _ _ hb)]
    · rcases hw : f q.win with x | s
      · simp [bind, Except.bind, Except.map, hw]
      · rcases hu : u sar q with x | s'
        · simp [bind, Except.bind, Except.map, hw, hu]
        · simp [bind, Except.bind, pure, Except.pure, Except.map, hw, hu, append_same _ _ _ _ (append_same _ _ _ _ (append_same _ _ _ _ hb))]
  all_goals simp [hb]

theorem addOptions_sar (c : Config S) (q : Request) (r : Nat) (sar : S) (heap : List (List String)) :
    (addOptions c q r sar heap).1 = sar ∨ ∃ update encode header, c.sar = some (update, encode, header) ∧
      update sar q = .ok (addOptions c q r sar heap).1 := by
  unfold addOptions
  split
  · exact .inl rfl
  · unfold addSar
    split
    · rename_i update encode header hf hs
      rcases hu : update sar q with e | s'
      · exact .inl rfl
      · exact .inr ⟨update, encode, header, hs, hu⟩
    · exact .inl rfl

theorem serve_sar (c : Config S) (st : State S) (base : List String) (d : Kwargs) (hst : Clean base d st)
    (history : List (String × (Call → Bool × Except PyErr Bool) × Request)) :
    (serve c st history).sar = st.sar ∨ ∃ update encode header qs, c.sar = some (update, encode, header) ∧
      (serve c st history).sar = runAll update st.sar qs := by
  induction history using List.reverseRecOn with
  | nil => exact .inl rfl
  | append_singleton hs r ih =>
    have hc := serve_clean c hs base d st hst
    have e : serve c st (hs ++ [r]) = (createEncodedTile c r.2.1 r.1 r.2.2 (serve c st hs)).1 := by
      simp [serve, List.foldl_append]
    rw [e]
    generalize serve c st hs = st1 at *
    have key : (createEncodedTile c r.2.1 r.1 r.2.2 st1).1.sar = (addOptions c r.2.2 st1.heap.length st1.sar (st1.heap ++ [base])).1 := by
      rw [create_eq c _ _ _ base d st1 hc]
      dsimp only
      generalize addOptions c r.2.2 st1.heap.length st1.sar (st1.heap ++ [base]) = x
      obtain ⟨s, heap, o⟩ := x
      cases o with
      | error e => rfl
      | ok u => exact (finish_keeps _ _ _ _).2.2.1
    rw [key]
    rcases addOptions_sar c r.2.2 st1.heap.length st1.sar (st1.heap ++ [base]) with h | ⟨u, en, hd, h1, h2⟩
    · rw [h]; exact ih
    · right
      rcases ih with ih | ⟨u', en', hd', qs, h1', h2'⟩
      · refine ⟨u, en, hd, [r.2.2], h1, ?_⟩
        rw [ih] at h2
        simp only [runAll, List.foldl_cons, List.foldl_nil, h2]
        rw [ih]
      · rw [h1] at h1'
        simp only [Option.some.injEq, Prod.mk.injEq] at h1'
        obtain ⟨rfl, -, -⟩ := h1'
        refine ⟨u, en, hd, qs ++ [r.2.2], h1, ?_⟩
        rw [runAll, List.foldl_append]
        change _ = List.foldl _ (runAll u st.sar qs) _
        rw [← h2']
        simp only [List.foldl_cons, List.foldl_nil, h2]

theorem create_call (c : Config S) (base : List String) (d : Kwargs) (t : Call → Bool × Except PyErr Bool) (n : String) (q : Request) (st : State S)
    (h2 : Clean base d st) :
    (createEncodedTile c t n q st).2.2 = match extraOptions c q st.sar with
      | .error _ => none
      | .ok xs => some ⟨q.win, d.scaleParams, d.outputType, d.format, base ++ xs, q.out.or d.size⟩ := by
  rw [create_eq c t n q base d st h2]
  have hsp := addOptions_spec c q st.heap.length st.sar (st.heap ++ [base]) base (by simp)
  dsimp only
  generalize addOptions c q st.heap.length st.sar (st.heap ++ [base]) = r at hsp ⊢
  obtain ⟨s, heap, o⟩ := r
  dsimp only at hsp ⊢
  rcases hx : extraOptions c q st.sar with e | xs
  · obtain rfl := hsp.1 e hx
    rfl
  · obtain ⟨rfl, h⟩ := hsp.2 xs hx
    dsimp only
    rw [(finish_keeps _ _ _ _).2.2.2]
    simp only [callOf, h, Option.getD_some]

theorem create_sar (c : Config S) (base : List String) (d : Kwargs) (t : Call → Bool × Except PyErr Bool) (n : String) (q : Request) (st : State S)
    (h : Clean base d st) :
    (createEncodedTile c t n q st).1.sar = (addOptions c q st.heap.length st.sar (st.heap ++ [base])).1 := by
  rw [create_eq c _ _ _ base d st h]
  dsimp only
  generalize addOptions c q st.heap.length st.sar (st.heap ++ [base]) = x
  obtain ⟨s, heap, o⟩ := x
  cases o with
  | error e => rfl
  | ok u => exact (finish_keeps _ _ _ _).2.2.1

/-- **C44** (in part): when what the metadata updater does for a request does not depend on earlier requests (or there is none), neither
does the tile: the call of `Translate` is the one a new factory would make.  Missing: SIDD images, see
`sidd_tile_depends_on_history`. -/
theorem tile_independent_of_history_partial (c : Config S) (st : State S) (base : List String)
    (hst : st.heap[st.defaults.creationOptions]? = some base)
    (hfree : ∀ update encode header, c.sar = some (update, encode, header) → ∀ qs q, update (runAll update st.sar qs) q = update st.sar q)
    (history : List (String × (Call → Bool × Except PyErr Bool) × Request)) (translate translate' : Call → Bool × Except PyErr Bool)
    (name name' : String) (q : Request) :
    (createEncodedTile c translate name q (serve c st history)).2.2 = (createEncodedTile c translate' name' q st).2.2 := by
  have hc0 : Clean base st.defaults st := ⟨rfl, hst⟩
  have hc := serve_clean c history base st.defaults st hc0
  have hs := serve_sar c st base st.defaults hc0 history
  have hx : extraOptions c q (serve c st history).sar = extraOptions c q st.sar := by
    rcases hs with hs | ⟨u, en, hd, qs, h1, h2⟩
    · rw [hs]
    · have := hfree u en hd h1 qs q
      rw [← h2] at this
      unfold extraOptions
      simp only [h1, this]
  generalize serve c st history = st1 at *
  rw [create_call c base st.defaults _ _ _ _ hc, create_call c base st.defaults _ _ _ _ hc0, hx]

/-- The condition holds for SICD images. -/
theorem sicd_history_free (d : ImageData) (qs : List Request) (q : Request) :
    (runAll Sicd.update (Sicd.new d) qs).update q = (Sicd.new d).update q := by
  obtain ⟨h1, h2⟩ := Verif.Props.Updaters.sicd_run_keeps_origin (Sicd.new d) qs
  generalize runAll Sicd.update (Sicd.new d) qs = s at *
  unfold Sicd.update
  obtain ⟨a, b, i⟩ := s
  simp only at h1 h2
  subst h1 h2
  rfl

/-- **C44** is false for SIDD images: a tile's metadata depends on the tiles made before, however it is written. -/
theorem sidd_tile_depends_on_history (encode : Option (Chip ℚ) → String) (hinj : ∀ a b, encode a = encode b → a = b) (header : String)
    (d : Kwargs) (base : List String) (win win' : Window) (hw : 1 < win.w ∧ 1 < win.h) (hx : win.x ≠ 0)
    (translate : Call → Bool × Except PyErr Bool) :
    let c : Config (Option (Chip ℚ)) := ⟨.nitf, none, some (siddUpdate, encode, header)⟩
    let st : State (Option (Chip ℚ)) := ⟨[base], none, [], { d with creationOptions := 0 }⟩
    (createEncodedTile c translate "b" ⟨win', none⟩ (serve c st [("a", translate, ⟨win, none⟩)])).2.2 ≠
      (createEncodedTile c translate "b" ⟨win', none⟩ st).2.2 := by
  intro c st
  have hc0 : Clean base st.defaults st := ⟨rfl, rfl⟩
  have first := Verif.Props.Updaters.sidd_tiles_accumulate (K := ℚ) [] (by simp) win
  have second := Verif.Props.Updaters.sidd_tiles_accumulate (K := ℚ) [win] (by simpa using hw) win'
  have alone := Verif.Props.Updaters.sidd_tiles_accumulate (K := ℚ) [] (by simp) win'
  simp only [runAll, List.map_nil, List.map_cons, List.foldl_nil, List.foldl_cons, List.sum_nil, List.sum_cons, zero_add, add_zero] at first second alone
  rw [first] at second
  have hs : (serve c st [("a", translate, ⟨win, none⟩)]).sar = some (Verif.Props.Updaters.cropChip (win.x : ℚ) win.y win.w win.h) := by
    change (createEncodedTile c translate "a" ⟨win, none⟩ st).1.sar = _
    rw [create_sar c base st.defaults _ _ _ _ hc0]
    simp only [addOptions, addIgeolo, addSar, c, st, first]
  rw [create_call c base st.defaults _ _ _ _ (serve_clean c _ base st.defaults st hc0), create_call c base st.defaults _ _ _ _ hc0, hs]
  simp only at second
  have e1 : extraOptions c ⟨win', none⟩ (some (Verif.Props.Updaters.cropChip (win.x : ℚ) win.y win.w win.h)) = .ok
      ["ICAT=SAR", "IREP=NODISPLY", "IREPBAND= , ", "ISUBCAT=I,Q", "DES=XML_DATA_CONTENT=" ++
        (header ++ encode (some (Verif.Props.Updaters.cropChip ((win.x : ℚ) + win'.x) ((win.y : ℚ) + win'.y) win'.w win'.h)))] := by
    simp only [extraOptions, c, second, Except.map, bind, Except.bind, pure, Except.pure, List.nil_append]
  have e2 : extraOptions c ⟨win', none⟩ st.sar = .ok
      ["ICAT=SAR", "IREP=NODISPLY", "IREPBAND= , ", "ISUBCAT=I,Q", "DES=XML_DATA_CONTENT=" ++
        (header ++ encode (some (Verif.Props.Updaters.cropChip (win'.x : ℚ) (win'.y : ℚ) win'.w win'.h)))] := by
    simp only [extraOptions, c, st, alone, Except.map, bind, Except.bind, pure, Except.pure, List.nil_append]
  rw [e1, e2]
  simp only [ne_eq, Option.some.injEq, Call.mk.injEq, true_and, and_true, List.append_cancel_left_eq, List.cons.injEq]
  intro h
  have h3 := congrArg String.toList h
  simp only [String.toList_append, List.append_cancel_left_eq, String.toList_inj] at h3
  have h4 := hinj _ _ h3
  simp only [Verif.Props.Updaters.cropChip, Option.some.injEq, Chip.mk.injEq, Prod.mk.injEq] at h4
  apply hx
  have : (win.x : ℚ) = 0 := by linarith [h4.2.2.1.1]
  exact_mod_cast this

/-- **C44**: a request that returns leaves no file behind. -/
theorem tile_file_removed (c : Config S) (st : State S) (translate : Call → Bool × Except PyErr Bool) (name : String) (q : Request)
    (hn : name ∉ st.files) (r : Option String) (h : (createEncodedTile c translate name q st).2.1 = .ok r) :
    (createEncodedTile c translate name q st).1.files = st.files := by
  unfold createEncodedTile at h ⊢
  rcases hd : deepcopy st.heap st.defaults with _ | ⟨heap, k⟩
  · simp [hd] at h
  · simp only [hd] at h ⊢
    generalize addOptions c q k.creationOptions st.sar heap = x at h ⊢
    obtain ⟨s, heap', o⟩ := x
    have hf : ∀ xs : List String, name ∉ xs → xs.filter (· ≠ name) = xs := by
      intro xs hx
      refine List.filter_eq_self.2 fun y hy => ?_
      simp only [decide_eq_true_eq]
      rintro rfl
      exact hx hy
    cases o with
    | error e => simp at h
    | ok u =>
      dsimp only at h ⊢
      unfold finish at h ⊢
      split at h
      · simp at h
      · rename_i ht
        simp only [ht]
        exact hf _ hn
      · rename_i ht
        simp only [ht]
        rw [List.filter_cons_of_neg (by simp)]
        exact hf _ hn

/-- When `Translate` raises after writing, the file stays. -/
theorem failed_translate_leaves_file : ∃ (c : Config Unit) (st : State Unit) (translate : Call → Bool × Except PyErr Bool) (q : Request),
    st.files = [] ∧ (createEncodedTile c translate "x" q st).1.files = ["x"] :=
  ⟨⟨.png, none, none⟩, ⟨[[]], (), [], ⟨[], 1, .png, 0, none⟩⟩, fun _ => (true, .error .runtimeError), ⟨⟨0, 0, 8, 8⟩, none⟩, rfl, rfl⟩

end

/-- Premises: a SICD factory with a sensor model; its second tile. -/
example : ∃ call, (createEncodedTile (S := Sicd) ⟨.nitf, some (fun _ => .ok "C"), some (Sicd.update, fun _ => "X", "H")⟩ (fun _ => (false, .ok true)) "b"
      ⟨⟨8, 0, 8, 8⟩, none⟩
      (serve ⟨.nitf, some (fun _ => .ok "C"), some (Sicd.update, fun _ => "X", "H")⟩ ⟨[["IC=NC"]], Sicd.new ⟨0, 0, 64, 64⟩, [], ⟨[], 1, .nitf, 0, none⟩⟩
        [("a", fun _ => (false, .ok true), ⟨⟨0, 0, 8, 8⟩, none⟩)])).2.2 = some call ∧
    call.options = ["IC=NC", "ICORDS=G", "IGEOLO=C", "ICAT=SAR", "IREP=NODISPLY", "IREPBAND= , ", "ISUBCAT=I,Q", "DES=XML_DATA_CONTENT=HX"] :=
  ⟨_, rfl, rfl⟩

/-! ## Compression (C84) -/

/-- **C84** (in part): unless LZW is asked for, a NITF tile of floating-point pixels is never compressed with JPEG 2000, and a NITF tile has
exactly one compression option. -/
theorem nitf_compression_partial (compression : Option Compression) (t : Code) :
    (∃ o, creationOptions .nitf compression t = [o] ∧ o ∈ ["IC=NC", "IC=C8", "IC=C3"]) ∧
    (compression ≠ some .lzw → (t = 6 ∨ t = 7) → creationOptions .nitf compression t ≠ ["IC=C8"]) ∧
    (compression = some .none → creationOptions .nitf compression t = ["IC=NC"]) := by
  rcases compression with _ | _ | _ | _ | _
  all_goals simp only [creationOptions]
  · refine ⟨?_, ?_, by simp⟩
    · by_cases h : t = gdtFloat32 ∨ t = gdtFloat64
      · exact ⟨"IC=NC", if_pos h, by simp⟩
      · exact ⟨"IC=C8", if_neg h, by simp⟩
    · intro _ h; rw [if_pos (show t = gdtFloat32 ∨ t = gdtFloat64 from h)]; simp
  · exact ⟨⟨_, rfl, by simp⟩, by simp, by simp⟩
  · exact ⟨⟨_, rfl, by simp⟩, by simp, by simp⟩
  · refine ⟨?_, ?_, by simp⟩
    · by_cases h : t = gdtFloat32 ∨ t = gdtFloat64
      · exact ⟨"IC=NC", if_pos h, by simp⟩
      · exact ⟨"IC=C8", if_neg h, by simp⟩
    · intro _ h; rw [if_pos (show t = gdtFloat32 ∨ t = gdtFloat64 from h)]; simp
  · exact ⟨⟨_, rfl, by simp⟩, by simp, by simp⟩

/-- **C84** is false for LZW, which NITF does not have: the fallback is JPEG 2000, whatever the pixel type. -/
theorem nitf_lzw_float_uses_j2k : creationOptions .nitf (some .lzw) 6 = ["IC=C8"] := rfl

/-! ## Source windows of orthophotos (C45) -/

/-- **C84**: a GeoTIFF tile is compressed as asked for, with LZW when nothing or something that GeoTIFF does not have is asked for; NITF tiles
of integers are compressed with JPEG 2000 by default, JPEG when asked for; PNG and JPEG tiles have no options. -/
theorem compression_options (compression : Option Compression) (t : Code) :
    (creationOptions .gtiff compression t = ["COMPRESS=JPEG"] ↔ compression = some .jpeg) ∧
    (creationOptions .gtiff compression t = ["COMPRESS=NONE"] ↔ compression = some .none) ∧
    (creationOptions .gtiff compression t = ["COMPRESS=LZW"] ↔ compression ∈ [none, some .lzw, some .j2k]) ∧
    (creationOptions .nitf compression t = ["IC=C3"] ↔ compression = some .jpeg) ∧
    (t ≠ 6 → t ≠ 7 → compression ∈ [none, some .j2k] → creationOptions .nitf compression t = ["IC=C8"]) ∧
    creationOptions .png compression t = [] ∧ creationOptions .jpeg compression t = [] := by
  refine ⟨?_, ?_, ?_, ?_, ?_, rfl, rfl⟩
  · rcases compression with _ | c
    · simp [creationOptions]
    · cases c <;> simp [creationOptions]
  · rcases compression with _ | c
    · simp [creationOptions]
    · cases c <;> simp [creationOptions]
  · rcases compression with _ | c
    · simp [creationOptions]
    · cases c <;> simp [creationOptions]
  · rcases compression with _ | c
    · simp only [creationOptions]; split <;> simp
    · cases c <;> simp only [creationOptions] <;> (try split) <;> simp
  · intro h6 h7 hc
    have hn : ¬ (t = gdtFloat32 ∨ t = gdtFloat64) := by rintro (h | h); exacts [h6 h, h7 h]
    simp only [List.mem_cons, List.not_mem_nil, or_false] at hc
    rcases hc with rfl | rfl <;> simp [creationOptions, hn]

/-- The options for floats (6) differ from those for bytes (1). -/
example : creationOptions .nitf (some .j2k) 1 = ["IC=C8"] ∧ creationOptions .nitf (some .j2k) 6 ≠ ["IC=C8"] :=
  ⟨(compression_options (some .j2k) 1).2.2.2.2.1 (by decide) (by decide) (by decide),
    (nitf_compression_partial (some .j2k) 6).2.1 (by decide) (.inl rfl)⟩

theorem readWindow_ok (b : Box) (width height : Int) (tw ov : Nat) (full o : Box) (r : Nat) (h : readWindow b width height tw ov = .ok (some (full, r, o))) :
    noOverlap b width height = false ∧ (∃ l, findLevel b tw = .ok l ∧ r = min l ov) ∧ full = clipBox b width height ∧ o = overviewBox full r := by
  unfold readWindow at h
  by_cases h0 : noOverlap b width height = true
  · simp [h0] at h
  rw [if_neg h0] at h
  rcases hl : findLevel b tw with e | l
  · simp [hl, bind, Except.bind] at h
  · simp only [hl, bind, Except.bind, pure, Except.pure, Except.ok.injEq, Option.some.injEq, Prod.mk.injEq] at h
    obtain ⟨rfl, rfl, rfl⟩ := h
    exact ⟨by simpa using h0, ⟨l, rfl, rfl⟩, rfl, rfl⟩

/-- **C45** (in part): the window that is read lies inside the image, scaled to a level that exists; it is not reversed; and it is not
empty when the clipped box spans at least one pixel of that level in both directions.  Missing: boxes that touch
the image or overlap it by less, see `touching_tile_reads_nothing` and `thin_overlap_reads_nothing`. -/
theorem window_inside_partial (b : Box) (width height : Int) (hb : b.x0 ≤ b.x1 ∧ b.y0 ≤ b.y1) (hs : 0 ≤ width ∧ 0 ≤ height) (tw ov : Nat)
    (full o : Box) (r : Nat) (h : readWindow b width height tw ov = .ok (some (full, r, o))) :
    r ≤ ov ∧
    (0 ≤ o.x0 ∧ o.x0 ≤ o.x1 ∧ o.x1 * 2 ^ r ≤ width) ∧ (0 ≤ o.y0 ∧ o.y0 ≤ o.y1 ∧ o.y1 * 2 ^ r ≤ height) ∧
    (2 ^ r ≤ full.x1 - full.x0 → o.x0 < o.x1) ∧ (2 ^ r ≤ full.y1 - full.y0 → o.y0 < o.y1) ∧
    (full.x0 = max b.x0 0 ∧ full.x1 = min b.x1 width ∧ full.y0 = max b.y0 0 ∧ full.y1 = min b.y1 height) := by
  obtain ⟨h0, ⟨l, -, rfl⟩, rfl, rfl⟩ := readWindow_ok _ _ _ _ _ _ _ _ h
  simp only [noOverlap, decide_eq_false_iff_not, not_or, not_lt, gt_iff_lt] at h0
  have hp : (0 : Int) < 2 ^ (min l ov) := by positivity
  unfold overviewBox
  generalize (2 : Int) ^ (min l ov) = p at *
  dsimp only [clipBox]
  have key : ∀ a c n : Int, a ≤ c → 0 ≤ n → a ≤ n → 0 ≤ c →
      0 ≤ (max a 0).tdiv p ∧ (max a 0).tdiv p ≤ (min c n).tdiv p ∧ (min c n).tdiv p * p ≤ n ∧
      (p ≤ min c n - max a 0 → (max a 0).tdiv p < (min c n).tdiv p) := by
    intro a c n hac hn han hc
    have h1 : 0 ≤ max a 0 := le_max_right _ _
    have h2 : max a 0 ≤ min c n := max_le (le_min hac han) (le_min hc hn)
    have h3 : min c n ≤ n := min_le_right _ _
    generalize max a 0 = u at *
    generalize min c n = v at *
    rw [Int.tdiv_eq_ediv_of_nonneg h1, Int.tdiv_eq_ediv_of_nonneg (h1.trans h2)]
    refine ⟨Int.ediv_nonneg h1 hp.le, Int.ediv_le_ediv hp h2, ?_, fun h => ?_⟩
    · have := Int.ediv_mul_le v hp.ne'
      omega
    · have : u / p + 1 ≤ v / p := by
        rw [← Int.add_mul_ediv_right u 1 hp.ne']
        exact Int.ediv_le_ediv hp (by omega)
      omega
  obtain ⟨a1, a2, a3, a4⟩ := key b.x0 b.x1 width hb.1 hs.1 h0.1 h0.2.2.1
  obtain ⟨b1, b2, b3, b4⟩ := key b.y0 b.y1 height hb.2 hs.2 h0.2.1 h0.2.2.2
  exact ⟨min_le_right _ _, ⟨a1, a2, a3⟩, ⟨b1, b2, b3⟩, a4, b4, rfl, rfl, rfl, rfl⟩

/-- Premises: a tile over the corner of an image with two overviews. -/
example : readWindow ⟨-100, -100, 1000, 1000⟩ 4000 3000 256 2 = .ok (some (⟨0, 0, 1000, 1000⟩, 2, ⟨0, 0, 250, 250⟩)) := by decide +kernel

/-- **C45**: the box of the grid contains every projected point, and no smaller box of whole pixels does. -/
theorem source_box_tight (xs ys : List ℚ) :
    (sourceBox xs ys = none ↔ xs = [] ∨ ys = []) ∧
    ∀ b, sourceBox xs ys = some b →
      (∀ x ∈ xs, (b.x0 : ℚ) ≤ x ∧ x ≤ b.x1) ∧ (∀ y ∈ ys, (b.y0 : ℚ) ≤ y ∧ y ≤ b.y1) ∧
      (∃ x ∈ xs, x < b.x0 + 1) ∧ (∃ x ∈ xs, (b.x1 : ℚ) - 1 < x) ∧ (∃ y ∈ ys, y < b.y0 + 1) ∧ (∃ y ∈ ys, (b.y1 : ℚ) - 1 < y) := by
  have hne : ∀ l : List ℚ, l ≠ [] → ∃ a c, l.min? = some a ∧ l.max? = some c := by
    intro l hl
    cases hl' : l.min? with
    | none => exact absurd (List.min?_eq_none_iff.1 hl') hl
    | some a =>
      cases hl'' : l.max? with
      | none => exact absurd (List.max?_eq_none_iff.1 hl'') hl
      | some c => exact ⟨a, c, rfl, rfl⟩
  constructor
  · constructor
    · intro h
      by_contra hcon
      push Not at hcon
      obtain ⟨a, c, h1, h2⟩ := hne xs hcon.1
      obtain ⟨b, d, h3, h4⟩ := hne ys hcon.2
      simp [sourceBox, h1, h2, h3, h4] at h
    · rintro (rfl | rfl) <;> simp [sourceBox]
  · intro b h
    unfold sourceBox at h
    split at h
    · rename_i a b' c d h1 h2 h3 h4
      cases h
      rw [List.min?_eq_some_iff] at h1 h2
      rw [List.max?_eq_some_iff] at h3 h4
      refine ⟨fun x hx => ⟨(Int.floor_le _).trans (h1.2 x hx), (h3.2 x hx).trans (Int.le_ceil _)⟩,
        fun y hy => ⟨(Int.floor_le _).trans (h2.2 y hy), (h4.2 y hy).trans (Int.le_ceil _)⟩,
        ⟨a, h1.1, Int.lt_floor_add_one _⟩, ⟨c, h3.1, ?_⟩, ⟨b', h2.1, Int.lt_floor_add_one _⟩, ⟨d, h4.1, ?_⟩⟩
      · have := Int.ceil_lt_add_one c; simp only; linarith
      · have := Int.ceil_lt_add_one d; simp only; linarith
    · cases h

example : sourceBox [3 / 2, 7, -1 / 3] [2, 5 / 2] = some ⟨-1, 2, 7, 3⟩ := by decide +kernel

/-- **C45**: there is no tile exactly when the box is beyond an edge of the image. -/
theorem no_tile_iff (b : Box) (width height : Int) (tw ov : Nat) :
    readWindow b width height tw ov = .ok none ↔ width < b.x0 ∨ height < b.y0 ∨ b.x1 < 0 ∨ b.y1 < 0 := by
  unfold readWindow
  constructor
  · intro h
    split_ifs at h with h0
    · simpa [noOverlap] using h0
    · rcases hl : findLevel b tw with e | l <;> simp [hl, bind, Except.bind, pure, Except.pure] at h
  · intro h
    rw [if_pos (by simpa [noOverlap] using h)]

/-- **C45**: the level that the code looks for: the source has at least as many pixels as the tile is wide, and at the next level
it would have fewer; full resolution when the source is smaller than the tile. -/
theorem level_fits_width (b : Box) (tw l : Nat) (htw : 0 < tw) (h : findLevel b tw = .ok l) :
    ∃ dim : Nat, (dim : Int) = min (b.x1 - b.x0) (b.y1 - b.y0) ∧
      (tw ≤ dim → 2 ^ l * tw ≤ dim ∧ dim < 2 ^ (l + 1) * tw) ∧ (dim < tw → l = 0) := by
  unfold findLevel at h
  dsimp only at h
  split_ifs at h with h0
  simp only [Except.ok.injEq] at h
  refine ⟨(min (b.x1 - b.x0) (b.y1 - b.y0)).toNat, by omega, fun hd => ?_, fun hd => ?_⟩
  · generalize (min (b.x1 - b.x0) (b.y1 - b.y0)).toNat = dim at *
    have hq : dim / tw ≠ 0 := (Nat.div_pos hd htw).ne'
    subst h
    constructor
    · exact (Nat.le_div_iff_mul_le htw).1 (Nat.pow_log_le_self 2 hq)
    · exact (Nat.div_lt_iff_lt_mul htw).1 (Nat.lt_pow_succ_log_self (by norm_num) _)
  · generalize (min (b.x1 - b.x0) (b.y1 - b.y0)).toNat = dim at *
    rw [Nat.div_eq_of_lt hd] at h
    simpa using h.symm

example : findLevel ⟨0, 0, 1024, 2048⟩ 256 = .ok 2 := by decide +kernel

/-- **C45** is false: a tile that only touches the right edge of the image is not reported as outside, and a window without pixels is
read, at every level. -/
theorem touching_tile_reads_nothing (b : Box) (width height : Int) (tw ov : Nat) (full o : Box) (r : Nat) (hb : b.x0 = width) (hx : b.x0 ≤ b.x1)
    (hw : 0 ≤ width) (h : readWindow b width height tw ov = .ok (some (full, r, o))) : o.x0 = o.x1 := by
  obtain ⟨-, -, rfl, rfl⟩ := readWindow_ok _ _ _ _ _ _ _ _ h
  simp only [overviewBox, clipBox]
  congr 1
  omega

example : readWindow ⟨4000, 0, 4256, 256⟩ 4000 3000 256 2 = .ok (some (⟨4000, 0, 4000, 256⟩, 0, ⟨4000, 0, 4000, 256⟩)) := by decide +kernel

/-- **C45** is false: a tile that overlaps the image by fewer pixels than one pixel of the selected level also reads nothing. -/
theorem thin_overlap_reads_nothing : ∃ b full o r, readWindow b 4000 3000 256 2 = .ok (some (full, r, o)) ∧ full.x0 < full.x1 ∧ full.y0 < full.y1 ∧ o.x0 = o.x1 :=
  ⟨⟨-1021, 0, 3, 1024⟩, ⟨0, 0, 3, 1024⟩, ⟨0, 0, 0, 256⟩, 2, by decide +kernel, by decide, by decide, by decide⟩

/-- **C45** is false: the height of the tile is not considered, so a tall tile is made from fewer rows than the image has for it. -/
theorem tall_tile_undersampled : ∃ b full o r, readWindow b 4000 4000 256 4 = .ok (some (full, r, o)) ∧ full.y1 - full.y0 = 1024 ∧ o.y1 - o.y0 < 1024 :=
  ⟨⟨0, 0, 1024, 1024⟩, ⟨0, 0, 1024, 1024⟩, ⟨0, 0, 256, 256⟩, 2, by decide +kernel, by decide, by decide⟩

/-- A box without area inside the image raises `OverflowError`. -/
theorem degenerate_box_raises (b : Box) (width height : Int) (tw ov : Nat) (hn : noOverlap b width height = false)
    (hd : b.x1 ≤ b.x0 ∨ b.y1 ≤ b.y0) : readWindow b width height tw ov = .error .overflowError := by
  unfold readWindow
  rw [if_neg (by simp [hn])]
  have : findLevel b tw = .error .overflowError := by
    unfold findLevel
    dsimp only
    rw [if_pos (by omega)]
  rw [this]; rfl

example : noOverlap ⟨5, 5, 5, 9⟩ 100 100 = false := by decide

/-! ## Shape and sampling positions (C46, C82) -/

/-- Positions on a line divided into `n` pixels, the first and last on the ends. -/
def along (a b : ℚ) (n : Nat) (k : Nat) : ℚ := a + (b - a) * k / ((n : ℚ) - 1)

theorem linspace3_values (a b : ℚ) : linspace3 a b 0 = a ∧ linspace3 a b 1 = a + (b - a) / 2 ∧ linspace3 a b 2 = b := by
  have h0 : ((0 : Fin 3).val : ℚ) = 0 := by norm_num
  have h1 : ((1 : Fin 3).val : ℚ) = 1 := by norm_num
  have h2 : ((2 : Fin 3).val : ℚ) = 2 := by norm_num
  unfold linspace3
  rw [h0, h1, h2]
  refine ⟨by ring, by ring, by ring⟩

theorem lin3_affine (m a s x : ℚ) (hm : m ≠ 0) : lin3 m a (a + s * m) (a + s * (2 * m)) x = a + s * x := by
  unfold lin3
  split_ifs
  · field_simp; ring
  · field_simp; ring

/-- **C46** (in part): the array for `cv2.remap` has `tile_size[0]` rows of `tile_size[1]` entries.  With a sensor model that is affine over the tile, row `i`
and column `j` hold the exact position of the `i`-th latitude from the top and the `j`-th longitude from the left.  So the shape
is right for square tiles.  Missing: others, see `tile_is_transposed`. -/
theorem square_tile_partial (w h : Nat) (hw : 2 ≤ w) (hh : 2 ≤ h) (project : ℚ → ℚ → ℚ) (c0 c1 c2 : ℚ) (haff : ∀ lon lat, project lon lat = c0 + c1 * lon + c2 * lat)
    (minLon minLat maxLon maxLat : ℚ) :
    ∃ rows, remapArray (grid project minLon minLat maxLon maxLat) w h = .ok rows ∧ rows.length = w ∧ (∀ row ∈ rows, row.length = h) ∧
      ∀ i j, i < w → j < h → ∃ row, rows[i]? = some row ∧ row[j]? = some (project (along minLon maxLon h j) (along maxLat minLat w i)) := by
  have hmx : ((w : ℚ) - 1) / 2 ≠ 0 := by
    have : (2 : ℚ) ≤ w := by exact_mod_cast hw
    intro hc; linarith
  have hmy : ((h : ℚ) - 1) / 2 ≠ 0 := by
    have : (2 : ℚ) ≤ h := by exact_mod_cast hh
    intro hc; linarith
  refine ⟨_, by unfold remapArray; rw [if_neg (by omega)], by simp, ?_, ?_⟩
  · intro row hrow
    obtain ⟨a, -, rfl⟩ := List.mem_map.1 hrow
    simp
  · intro i j hi hj
    refine ⟨_, by rw [List.getElem?_map, List.getElem?_range hi, Option.map_some], ?_⟩
    rw [List.getElem?_map, List.getElem?_range hj, Option.map_some]
    simp only [Option.some.injEq]
    set mx := ((w : ℚ) - 1) / 2 with hmxd
    set my := ((h : ℚ) - 1) / 2 with hmyd
    have hw1 : (w : ℚ) - 1 = 2 * mx := by rw [hmxd]; ring
    have hh1 : (h : ℚ) - 1 = 2 * my := by rw [hmyd]; ring
    have row : ∀ k : Fin 3, lin3 my (grid project minLon minLat maxLon maxLat k 0) (grid project minLon minLat maxLon maxLat k 1)
        (grid project minLon minLat maxLon maxLat k 2) j = project (along minLon maxLon h j) (linspace3 maxLat minLat k) := by
      intro k
      have e1 : grid project minLon minLat maxLon maxLat k 1 = grid project minLon minLat maxLon maxLat k 0 + (c1 * (maxLon - minLon) / (2 * my)) * my := by
        simp only [grid, (linspace3_values minLon maxLon).1, (linspace3_values minLon maxLon).2.1, (linspace3_values minLon maxLon).2.2, haff]; field_simp; ring
      have e2 : grid project minLon minLat maxLon maxLat k 2 = grid project minLon minLat maxLon maxLat k 0 + (c1 * (maxLon - minLon) / (2 * my)) * (2 * my) := by
        simp only [grid, (linspace3_values minLon maxLon).1, (linspace3_values minLon maxLon).2.1, (linspace3_values minLon maxLon).2.2, haff]; field_simp; ring
      rw [e1, e2, lin3_affine _ _ _ _ hmy]
      simp only [grid, (linspace3_values minLon maxLon).1, (linspace3_values minLon maxLon).2.1, (linspace3_values minLon maxLon).2.2, haff, along, hh1]; field_simp; ring
    rw [row 0, row 1, row 2]
    have e1 : project (along minLon maxLon h j) (linspace3 maxLat minLat 1) =
        project (along minLon maxLon h j) (linspace3 maxLat minLat 0) + (c2 * (minLat - maxLat) / (2 * mx)) * mx := by
      simp only [(linspace3_values maxLat minLat).1, (linspace3_values maxLat minLat).2.1, (linspace3_values maxLat minLat).2.2, haff]; field_simp; ring
    have e2 : project (along minLon maxLon h j) (linspace3 maxLat minLat 2) =
        project (along minLon maxLon h j) (linspace3 maxLat minLat 0) + (c2 * (minLat - maxLat) / (2 * mx)) * (2 * mx) := by
      simp only [(linspace3_values maxLat minLat).1, (linspace3_values maxLat minLat).2.1, (linspace3_values maxLat minLat).2.2, haff]; field_simp; ring
    rw [e1, e2, lin3_affine _ _ _ _ hmx]
    simp only [(linspace3_values maxLat minLat).1, (linspace3_values maxLat minLat).2.1, (linspace3_values maxLat minLat).2.2, haff, along, hw1]; field_simp; ring

/-- Premises: an affine model, a 3 × 3 tile. -/
example : remapArray (grid (fun lon lat => 10 * lon - 20 * lat) 0 0 1 1) 3 3 = .ok [[-20, -15, -10], [-10, -5, 0], [0, 5, 10]] := by decide +kernel

/-- **C46** is false: for a tile that is wider than high, the output has `width` rows and `height` columns. -/
theorem tile_is_transposed (w h : Nat) (hw : 2 ≤ w) (hh : 2 ≤ h) (hne : w ≠ h) (z : Fin 3 → Fin 3 → ℚ) :
    ∃ rows, remapArray z w h = .ok rows ∧ rows.length ≠ h ∧ ∀ row ∈ rows, row.length ≠ w := by
  refine ⟨_, by unfold remapArray; rw [if_neg (by omega)], by simpa using hne, ?_⟩
  intro row hrow
  obtain ⟨a, -, rfl⟩ := List.mem_map.1 hrow
  simpa using hne.symm

example : (2 : Nat) ≤ 256 ∧ (2 : Nat) ≤ 128 ∧ (256 : Nat) ≠ 128 := by decide

/-- A tile with a side of one pixel raises `ValueError`. -/
theorem one_pixel_tile_raises (w h : Nat) (hs : w ≤ 1 ∨ h ≤ 1) (z : Fin 3 → Fin 3 → ℚ) : remapArray z w h = .error .valueError := by
  unfold remapArray
  rw [if_pos hs]

/-- **C82** (in part): at full resolution, or when the corner of the window is a multiple of the level's factor, a source position is found at the pixel
that was read from there, after the border of two; in general it is less than one pixel of the level too far.
Missing: exactness in the general case, see `sampling_off_grid`. -/
theorem sampling_position_partial (start : Int) (hs : 0 ≤ start) (r : Nat) (x : ℚ) :
    toRead start r x = x / 2 ^ r - (start.tdiv (2 ^ r) : Int) + 2 - Int.fract ((start : ℚ) / 2 ^ r) ∧
    ((2 ^ r : Int) ∣ start → toRead start r x = x / 2 ^ r - (start.tdiv (2 ^ r) : Int) + 2) := by
  have hp : (0 : ℚ) < 2 ^ r := by positivity
  have hfl : ((start.tdiv (2 ^ r) : Int) : ℚ) = ⌊(start : ℚ) / 2 ^ r⌋ := by
    rw [Int.tdiv_eq_ediv_of_nonneg hs]
    have := Rat.floor_intCast_div_natCast start (2 ^ r)
    push_cast at this
    rw [this]
  have main : toRead start r x = x / 2 ^ r - (start.tdiv (2 ^ r) : Int) + 2 - Int.fract ((start : ℚ) / 2 ^ r) := by
    rw [hfl, Int.fract]
    unfold toRead
    ring
  refine ⟨main, fun ⟨k, hk⟩ => ?_⟩
  rw [main]
  have : Int.fract ((start : ℚ) / 2 ^ r) = 0 := by
    have e : (start : ℚ) / 2 ^ r = ((k : Int) : ℚ) := by
      rw [hk]; push_cast; field_simp
    rw [e, Int.fract_intCast]
  rw [this, sub_zero]

example : (2 ^ 3 : Int) ∣ 4000 := by decide

/-- **C82** is false: with a window that starts at column 1023, at level 3 all pixels are taken 7/8 of a pixel (seven pixels of the image)
too far to the left. -/
theorem sampling_off_grid : ∃ (start : Int) (r : Nat), ∀ x : ℚ, toRead start r x = x / 2 ^ r - (start.tdiv (2 ^ r) : Int) + 2 - 7 / 8 := by
  refine ⟨1023, 3, fun x => ?_⟩
  unfold toRead
  have : ((1023 : Int).tdiv (2 ^ 3)) = 127 := by decide
  rw [this]
  push_cast
  ring

/-! ## Pixel values (C47, C83) -/

theorem clip8_range (v : ℚ) : 0 ≤ clip8 v ∧ clip8 v ≤ 255 := by
  unfold clip8
  constructor
  · exact Int.floor_nonneg.2 (le_min (le_max_right _ _) (by norm_num))
  · have : (⌊min (max v 0) 255⌋ : ℚ) ≤ 255 := (Int.floor_le _).trans (min_le_right _ _)
    exact_mod_cast this

theorem clip8_mono {v w : ℚ} (h : v ≤ w) : clip8 v ≤ clip8 w := by
  unfold clip8
  exact Int.floor_le_floor (min_le_min (max_le_max h le_rfl) le_rfl)

/-- **C47**: whatever the limits, every adjusted pixel is in [0, 255] and a brighter pixel never becomes darker. -/
theorem adjusted_pixels (lo hi p q : ℚ) :
    (0 ≤ minmax8 lo hi p ∧ minmax8 lo hi p ≤ 255) ∧ (0 ≤ dra8 lo hi p ∧ dra8 lo hi p ≤ 255) ∧
    (p ≤ q → minmax8 lo hi p ≤ minmax8 lo hi q ∧ dra8 lo hi p ≤ dra8 lo hi q) := by
  refine ⟨clip8_range _, clip8_range _, fun h => ⟨clip8_mono ?_, clip8_mono ?_⟩⟩
  · have : 0 < max hi 1 := lt_of_lt_of_le one_pos (le_max_right _ _)
    exact mul_le_mul_of_nonneg_right (by linarith) (by positivity)
  · have : 0 < max (hi - lo) 1 := lt_of_lt_of_le one_pos (le_max_right _ _)
    exact div_le_div_of_nonneg_right (by linarith) this.le

/-- **C47**: the two adjustments of a band give one value per pixel, in range and in order. -/
theorem adjusted_band (gmin gmax : Option ℚ) (hist : Int → ℚ → ℚ → List ℚ) (ps : List ℚ) (out : List Int)
    (h : normalizeMinmax gmin gmax ps = .ok out ∨ normalizeDra gmin gmax hist ps = .ok out) :
    ∃ f : ℚ → Int, out = ps.map f ∧ (∀ p, 0 ≤ f p ∧ f p ≤ 255) ∧ ∀ p q, p ≤ q → f p ≤ f q := by
  rcases h with h | h
  · unfold normalizeMinmax at h
    rcases hl : limits gmin gmax ps with e | l
    · simp [hl, bind, Except.bind] at h
    · simp only [hl, bind, Except.bind, pure, Except.pure, Except.ok.injEq] at h
      exact ⟨_, h.symm, fun p => (adjusted_pixels _ _ p p).1, fun p q hpq => ((adjusted_pixels _ _ p q).2.2 hpq).1⟩
  · unfold normalizeDra at h
    rcases hl : limits gmin gmax ps with e | l
    · simp [hl, bind, Except.bind] at h
    · simp only [hl, bind, Except.bind] at h
      split at h
      · simp at h
      · simp only [pure, Except.pure, Except.ok.injEq] at h
        exact ⟨_, h.symm, fun p => (adjusted_pixels _ _ p p).2.1, fun p q hpq => ((adjusted_pixels _ _ p q).2.2 hpq).2⟩

example : normalizeMinmax none none [5, 105, 205] = .ok [0, 124, 248] ∧
    normalizeDra (some 0) (some 255) (fun n _ _ => List.replicate n.toNat 1) [0, 100, 255] = .ok [0, 100, 255] := by decide +kernel

theorem clip8_inside {v : ℚ} (h0 : 0 ≤ v) (h1 : v ≤ 255) : clip8 v = ⌊v⌋ := by
  unfold clip8
  rw [max_eq_left h0, min_eq_left h1]

/-- **C47**: the DRA stretch.  Values at or below the lower limit become 0, values at or above the upper limit 255, and
values between the limits their share of 255 without its fraction, when the limits are at least 1 apart. -/
theorem dra_stretch (lo hi p : ℚ) (h : lo + 1 ≤ hi) :
    (p ≤ lo → dra8 lo hi p = 0) ∧ (hi ≤ p → dra8 lo hi p = 255) ∧
    (lo ≤ p → p ≤ hi → dra8 lo hi p = ⌊255 * ((p - lo) / (hi - lo))⌋) := by
  have hm : max (hi - lo) 1 = hi - lo := max_eq_left (by linarith)
  have hp : 0 < hi - lo := by linarith
  unfold dra8
  rw [hm]
  refine ⟨fun hl => ?_, fun hh => ?_, fun hl hh => ?_⟩
  · have : 255 * (p - lo) / (hi - lo) ≤ 0 := div_nonpos_of_nonpos_of_nonneg (by linarith) hp.le
    unfold clip8
    rw [max_eq_right this]
    norm_num
  · have : 255 ≤ 255 * (p - lo) / (hi - lo) := by rw [le_div_iff₀ hp]; linarith
    unfold clip8
    rw [max_eq_left (by linarith), min_eq_right this]
    norm_num
  · rw [clip8_inside, mul_div_assoc]
    · exact div_nonneg (by linarith) hp.le
    · rw [div_le_iff₀ hp]; linarith

/-- Limits 10 and 110. -/
example : dra8 10 110 5 = 0 ∧ dra8 10 110 200 = 255 ∧ dra8 10 110 60 = 127 :=
  ⟨(dra_stretch 10 110 5 (by norm_num)).1 (by norm_num), (dra_stretch 10 110 200 (by norm_num)).2.1 (by norm_num), by
    rw [(dra_stretch 10 110 60 (by norm_num)).2.2 (by norm_num) (by norm_num)]; norm_num⟩

/-- Limits closer than 1 are treated as 1 apart, so the upper one does not reach 255. -/
theorem dra_narrow (lo hi : ℚ) (h0 : lo ≤ hi) (h : hi < lo + 1) : dra8 lo hi hi = ⌊255 * (hi - lo)⌋ ∧ dra8 lo hi hi < 255 := by
  have e : dra8 lo hi hi = ⌊255 * (hi - lo)⌋ := by
    unfold dra8
    rw [max_eq_right (by linarith), div_one, clip8_inside (by linarith) (by linarith)]
  refine ⟨e, ?_⟩
  rw [e, Int.floor_lt]
  push_cast
  linarith

example : dra8 10 (21 / 2) (21 / 2) = 127 ∧ dra8 10 (21 / 2) (21 / 2) < 255 := by
  have h := dra_narrow 10 (21 / 2) (by norm_num) (by norm_num)
  norm_num at h
  exact h

/-- The limit of a band: its statistic when there is one, else the extreme value of the tile. -/
def IsLimit (stat : Option ℚ) (ps : List ℚ) (below : ℚ → ℚ → Prop) (v : ℚ) : Prop :=
  (∀ m, stat = some m → v = m) ∧ (stat = none → v ∈ ps ∧ ∀ p ∈ ps, below v p)

theorem limits_spec (gmin gmax : Option ℚ) (ps : List ℚ) (l : ℚ × ℚ) (h : limits gmin gmax ps = .ok l) :
    IsLimit gmin ps (· ≤ ·) l.1 ∧ IsLimit gmax ps (· ≥ ·) l.2 := by
  unfold limits at h
  split at h
  · rename_i lo hi h1 h2
    cases h
    refine ⟨⟨?_, ?_⟩, ⟨?_, ?_⟩⟩
    · rintro m rfl; simpa using h1.symm
    · rintro rfl
      simp only [Option.none_or] at h1
      rw [List.min?_eq_some_iff] at h1
      exact h1
    · rintro m rfl; simpa using h2.symm
    · rintro rfl
      simp only [Option.none_or] at h2
      rw [List.max?_eq_some_iff] at h2
      exact h2
  · cases h

/-- **C47**: the limits that a band is adjusted with.  MINMAX uses the statistics of the whole band, and those of the tile only when the
band has none.  DRA uses the suggestion for the histogram over these limits, with at least 256 buckets and the
percentages 2 and 97. -/
theorem adjusted_band_limits (gmin gmax : Option ℚ) (hist : Int → ℚ → ℚ → List ℚ) (ps : List ℚ) (out : List Int) :
    (normalizeMinmax gmin gmax ps = .ok out → ∃ lo hi, IsLimit gmin ps (· ≤ ·) lo ∧ IsLimit gmax ps (· ≥ ·) hi ∧
      out = ps.map (fun p => clip8 ((p - lo) * (255 / max hi 1)))) ∧
    (normalizeDra gmin gmax hist ps = .ok out → ∃ (lo hi : ℚ) (n : Int) (d : Verif.DRA.DRAParameters ℚ), IsLimit gmin ps (· ≤ ·) lo ∧ IsLimit gmax ps (· ≥ ·) hi ∧
      256 ≤ n ∧ (256 ≤ hi - lo → (n : ℚ) ≤ hi - lo ∧ hi - lo < n + 1) ∧ (hi - lo < 257 → n = 256) ∧
      Verif.DRA.fromCounts (hist n lo hi) (some lo) (some hi) (2 / 100) (97 / 100) (2 / 10) (4 / 10) = .ok d ∧
      out = ps.map (dra8 d.suggestedMin d.suggestedMax)) := by
  refine ⟨fun h => ?_, fun h => ?_⟩
  · unfold normalizeMinmax at h
    rcases hl : limits gmin gmax ps with e | l
    · simp [hl, bind, Except.bind] at h
    · simp only [hl, bind, Except.bind, pure, Except.pure, Except.ok.injEq] at h
      obtain ⟨h1, h2⟩ := limits_spec _ _ _ _ hl
      exact ⟨_, _, h1, h2, h.symm⟩
  · unfold normalizeDra at h
    rcases hl : limits gmin gmax ps with e | l
    · simp [hl, bind, Except.bind] at h
    · obtain ⟨h1, h2⟩ := limits_spec _ _ _ _ hl
      simp only [hl, bind, Except.bind] at h
      split at h
      · simp at h
      · rename_i d hd
        simp only [pure, Except.pure, Except.ok.injEq] at h
        refine ⟨_, _, _, d, h1, h2, le_max_left _ _, ?_, ?_, hd, h.symm⟩
        · intro hbig
          have hp : (0 : ℚ) ≤ l.2 - l.1 := by linarith
          have ht : truncate (l.2 - l.1) = ⌊l.2 - l.1⌋ := by rw [truncate, if_pos hp]
          have hf : 256 ≤ ⌊l.2 - l.1⌋ := Int.le_floor.2 (by exact_mod_cast hbig)
          rw [ht, max_eq_right hf]
          exact ⟨Int.floor_le _, Int.lt_floor_add_one _⟩
        · intro hsmall
          refine max_eq_left ?_
          unfold truncate
          split
          · have : ⌊l.2 - l.1⌋ < 257 := Int.floor_lt.2 (by exact_mod_cast hsmall)
            omega
          · rename_i hn
            have : ⌈l.2 - l.1⌉ ≤ 0 := Int.ceil_le.2 (by push_cast; linarith)
            omega

example : ∃ out, normalizeDra (some 0) none (fun n _ _ => List.replicate n.toNat 1) [7, 400, 399] = .ok out := by
  refine ⟨[4, 260, 259].map (fun x => min x 255), ?_⟩
  decide +kernel

/-- **C47** (in part): the minimum maps to 0; the maximum maps to 255 exactly when the limits differ by the maximum (and at least 1), that is when the minimum is
not positive.  Missing: positive minima and maxima below 1, for which the claim is false. -/
theorem minmax_ends_partial (lo hi : ℚ) : minmax8 lo hi lo = 0 ∧ (minmax8 lo hi hi = 255 ↔ lo ≤ 0 ∧ lo + 1 ≤ hi) := by
  have hp : 0 < max hi 1 := lt_of_lt_of_le one_pos (le_max_right _ _)
  constructor
  · unfold minmax8 clip8
    rw [sub_self, zero_mul]
    norm_num
  · have e : minmax8 lo hi hi = 255 ↔ max hi 1 ≤ hi - lo := by
      unfold minmax8 clip8
      rw [Int.floor_eq_iff]
      constructor
      · rintro ⟨h, -⟩
        have h2 : (255 : ℚ) ≤ max ((hi - lo) * (255 / max hi 1)) 0 := by
          have := h.trans (min_le_left _ _)
          exact_mod_cast this
        have h3 : (255 : ℚ) ≤ (hi - lo) * (255 / max hi 1) := by
          rcases le_max_iff.1 h2 with h | h
          · exact h
          · norm_num at h
        rw [mul_div_assoc', le_div_iff₀ hp] at h3
        linarith
      · intro h
        have h3 : (255 : ℚ) ≤ (hi - lo) * (255 / max hi 1) := by
          rw [mul_div_assoc', le_div_iff₀ hp]
          nlinarith
        rw [min_eq_right (h3.trans (le_max_left _ _))]
        norm_num
    rw [e, max_le_iff]
    constructor
    · rintro ⟨h1, h2⟩; exact ⟨by linarith, by linarith⟩
    · rintro ⟨h1, h2⟩; exact ⟨by linarith, by linarith⟩

/-- **C47** is false: 8-bit values 200 to 250 become 0 to 51. -/
theorem minmax_maximum_dark : minmax8 200 250 250 = 51 := by decide +kernel

/-- **C47** is false without adjustment: 16-bit pixels lose their upper byte, so brighter pixels become darker. -/
theorem unadjusted_wraps : (255 : Int) ≤ 256 ∧ cast8 256 < cast8 255 := by decide

theorem wrapSigned_eq (bits : Nat) (hb : 0 < bits) (d : Int) (h0 : 0 ≤ d) (h1 : d < 2 ^ bits) :
    wrapSigned bits d = if d < 2 ^ (bits - 1) then d else d - 2 ^ bits := by
  obtain ⟨b, rfl⟩ : ∃ b, bits = b + 1 := ⟨bits - 1, by omega⟩
  unfold wrapSigned
  simp only [Nat.add_sub_cancel]
  have e : (2 : Int) ^ (b + 1) = 2 * 2 ^ b := by rw [pow_succ]; ring
  have hp : (0 : Int) < 2 ^ b := by positivity
  rw [e] at h1 ⊢
  generalize (2 : Int) ^ b = m at *
  by_cases h : d < m
  · rw [if_pos h, Int.emod_eq_of_lt (by omega) (by omega)]; ring
  · rw [if_neg h]
    have : (d + m) % (2 * m) = d + m - 2 * m := by
      rw [← Int.sub_emod_right, Int.emod_eq_of_lt (by omega) (by omega)]
    rw [this]; ring

/-- **C47** (in part): what MINMAX makes of signed pixels of a band without statistics.  Pixels less than 2^(bits−1) above the smallest one of the array are adjusted
as all others are; all brighter ones become 0, so the claim is false for these (`signed_bright_pixel_black`). -/
theorem signed_minmax_partial (bits : Nat) (hb : 0 < bits) (gmax : Option ℚ) (ps out : List Int) (hr : ∀ p ∈ ps, -2 ^ (bits - 1) ≤ p ∧ p < 2 ^ (bits - 1))
    (h : normalizeMinmaxSigned bits gmax ps = .ok out) :
    ∃ (lo : Int) (ref : List Int), lo ∈ ps ∧ (∀ p ∈ ps, lo ≤ p) ∧ normalizeMinmax none gmax (ps.map (fun (p : Int) => (p : ℚ))) = .ok ref ∧
      out = (ps.zip ref).map (fun e => if e.1 - lo < 2 ^ (bits - 1) then e.2 else 0) ∧
      ((∀ p ∈ ps, p - lo < 2 ^ (bits - 1)) → out = ref) := by
  unfold normalizeMinmaxSigned at h
  split at h
  · rename_i lo hi hlo hhi
    injection h with h
    have hmin := List.min?_eq_some_iff.1 hlo
    have href : normalizeMinmax none gmax (ps.map (fun (p : Int) => (p : ℚ))) = .ok (ps.map (fun (p : Int) => minmax8 lo hi p)) := by
      have h1 : (ps.map (fun (p : Int) => (p : ℚ))).min? = some (lo : ℚ) := by
        rw [List.min?_eq_some_iff]
        refine ⟨List.mem_map_of_mem hmin.1, ?_⟩
        intro b hb
        obtain ⟨p, hp, rfl⟩ := List.mem_map.1 hb
        exact_mod_cast hmin.2 p hp
      have h2 : gmax.or (ps.map (fun (p : Int) => (p : ℚ))).max? = some hi := by
        rw [← hhi]
        congr 1
        rcases hm : ps.max? with _ | m
        · rw [List.max?_eq_none_iff] at hm
          subst hm
          rfl
        · have hmax := List.max?_eq_some_iff.1 hm
          show _ = some (m : ℚ)
          rw [List.max?_eq_some_iff]
          refine ⟨List.mem_map_of_mem hmax.1, ?_⟩
          intro b hb
          obtain ⟨p, hp, rfl⟩ := List.mem_map.1 hb
          exact_mod_cast hmax.2 p hp
      unfold normalizeMinmax limits
      rw [Option.none_or, h1, h2]
      simp [bind, Except.bind, pure, Except.pure, Function.comp_def]
    have hpix : ∀ p ∈ ps, clip8 ((wrapSigned bits (p - lo) : ℚ) * (255 / max hi 1)) = if p - lo < 2 ^ (bits - 1) then minmax8 lo hi p else 0 := by
      intro p hp
      have hpp := hr p hp
      have hlo' := hr lo hmin.1
      have hge := hmin.2 p hp
      have e : (2 : Int) ^ bits = 2 * 2 ^ (bits - 1) := by
        obtain ⟨b, rfl⟩ : ∃ b, bits = b + 1 := ⟨bits - 1, by omega⟩
        rw [pow_succ]; simp only [Nat.add_sub_cancel]; ring
      rw [wrapSigned_eq bits hb _ (by omega) (by rw [e]; omega)]
      split
      · unfold minmax8; push_cast; rfl
      · have hneg : ((p - lo - 2 ^ bits : Int) : ℚ) * (255 / max hi 1) ≤ 0 := by
          refine mul_nonpos_of_nonpos_of_nonneg ?_ ?_
          · have : p - lo - 2 ^ bits ≤ 0 := by rw [e]; omega
            exact_mod_cast this
          · have : 0 < max hi 1 := lt_of_lt_of_le one_pos (le_max_right _ _)
            positivity
        unfold clip8
        rw [max_eq_right hneg]
        norm_num
    have hout : out = ps.map (fun p => if p - lo < 2 ^ (bits - 1) then minmax8 lo hi p else 0) := by
      rw [← h]
      exact List.map_congr_left hpix
    refine ⟨lo, _, hmin.1, hmin.2, href, ?_, ?_⟩
    · rw [hout]
      apply List.ext_getElem <;> simp
    · intro hs
      rw [hout]
      refine List.map_congr_left fun p hp => ?_
      rw [if_pos (hs p hp)]
  · cases h

example : normalizeMinmaxSigned 16 none [-100, 0, 900] = .ok [0, 28, 255] ∧ ∀ p ∈ [-100, 0, 900], -2 ^ (16 - 1) ≤ p ∧ p < 2 ^ (16 - 1) := by decide +kernel

/-- **C47** is false for 16-bit signed pixels of a band without statistics: with a pixel of −32768 (no data) in the array, 0 becomes black and −1 white. -/
theorem signed_bright_pixel_black : ∃ f : Int → Int, normalizeMinmaxSigned 16 none [-32768, -1, 0, 900] = .ok ([-32768, -1, 0, 900].map f) ∧ f (-1) = 255 ∧ f 0 = 0 ∧ f 900 = 0 :=
  ⟨fun p => if p = -1 then 255 else 0, by decide +kernel⟩

/-- **C83** is false: a pixel is transparent exactly when one of its channels is zero, so pure colours are transparent, and after MINMAX adjustment
the darkest pixel of every band is. -/
theorem transparent_iff_zero_channel (channels : List Int) :
    (alpha channels = 0 ↔ 0 ∈ channels) ∧ (alpha channels = 255 ↔ 0 ∉ channels) := by
  unfold alpha
  by_cases h : 0 ∈ channels
  · have : channels.all (· ≠ 0) = false := by
      rw [List.all_eq_false]
      exact ⟨0, h, by simp⟩
    simp [h, this]
  · have : channels.all (· ≠ 0) = true := by
      rw [List.all_eq_true]
      intro c hc
      simp only [decide_eq_true_eq]
      rintro rfl
      exact h hc
    simp [h, this]

/-- Pure red, and the darkest pixel of a grey image. -/
theorem image_pixels_transparent : alpha [255, 0, 0] = 0 ∧ ∀ lo hi, alpha [minmax8 lo hi lo] = 0 := by
  refine ⟨by decide, fun lo hi => ?_⟩
  rw [(minmax_ends_partial lo hi).1]
  decide

end Verif.Props.TileFactory
