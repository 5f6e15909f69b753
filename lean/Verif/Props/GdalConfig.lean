import Mathlib.Data.Set.Insert
import Verif.Lemmas.GdalConfig

/-!
# Properties C04–C07: GDAL configuration blocks
-/

namespace Verif.Props.GdalConfig

open Verif.GdalConfig Verif.Spec.GdalConfig

variable (fold : String → String)

/-- **C04 (partial).** For dictionaries whose names are different options to GDAL: whatever the body does to the table (and whether it returns or
raises), after the block every option named by the environment has the value it
had before the block, every other option is as the body left it, and `__exit__`
raises nothing.  Inside the block the options have the requested values and no
other option has changed.  Missing: dictionaries with two spellings of one option, for which the statement is
false (`config_block_aliased_names_not_restored`). -/
theorem config_block_restores_partial (e : Env) (he : DistinctOptions fold e.options)
    (body : Cfg → Cfg) (cfg : Cfg) :
    ∃ start : Cfg,
      (∀ kv ∈ e.options, start (fold kv.1) = some kv.2) ∧
      (∀ s, s ∉ slots fold e.options → start s = cfg s) ∧
      (withBlock fold e body cfg).2.2 = none ∧
      (∀ s ∈ slots fold e.options, (withBlock fold e body cfg).2.1 s = cfg s) ∧
      (∀ s, s ∉ slots fold e.options → (withBlock fold e body cfg).2.1 s = body start s) := by
  obtain ⟨h1, h2, h3, h4⟩ := Env.enter_spec fold e he cfg
  refine ⟨(e.enter fold cfg).2, h3, h4, ?_⟩
  have he' : DistinctOptions fold (e.enter fold cfg).1.options := by rw [h1]; exact he
  obtain ⟨x1, x2, x3⟩ := Env.exit_spec fold (e.enter fold cfg).1 he' cfg
    (by rw [h1]; exact h2) (body (e.enter fold cfg).2)
  rw [h1] at x2 x3
  exact ⟨x1, x2, x3⟩

/-- Non-trivial instance: two options, one previously set, a body that changes both and a third. -/
example : DistinctOptions id (Env.new (some [("AWS_REGION", "us-west-2"), ("CPL_DEBUG", "ON")])).options := by
  simp [DistinctOptions, slots, Env.new]

/-- **C04 (limit).** The hypothesis of distinct options is needed: GDAL ignores
case, so a dictionary with both `A` and `a` does not restore the old value. -/
theorem config_block_aliased_names_not_restored :
    ∃ (e : Env) (cfg : Cfg), e.old = (fun _ => none) ∧ (e.options.map Prod.fst).Nodup ∧
      ∃ s ∈ slots String.toLower e.options,
        (withBlock String.toLower e id cfg).2.1 s ≠ cfg s :=
  ⟨Env.new (some [("A", "1"), ("a", "2")]), fun _ => none, rfl, by decide, "a",
    by decide +kernel, by decide +kernel⟩

private theorem run_spec (p : Prog) : ∀ w : World, NoReentry p →
    (∀ i, DistinctOptions fold (w.envs i).options) →
    (∀ i, ((run fold p w).1.envs i).options = (w.envs i).options) ∧
    (∀ i, i ∉ used p → (run fold p w).1.envs i = w.envs i) ∧
    (∀ s, s ∉ exposed fold (fun i => (w.envs i).options) p → (run fold p w).1.cfg s = w.cfg s) ∧
    (∀ e, (run fold p w).2 ≠ .exitFailed e) := by
  induction p with
  | skip => intro w _ _; simp [run]
  | set k v =>
    intro w _ _
    refine ⟨by simp [run], by simp [run], ?_, by simp [run]⟩
    intro s hs
    simp only [exposed, Set.mem_singleton_iff] at hs
    simp [run, setOpt, hs]
  | raise => intro w _ _; simp [run]
  | seq p q ihp ihq =>
    intro w hn hd
    obtain ⟨a1, a2, a3, a4⟩ := ihp w hn.1 hd
    have hopts : (fun i => ((run fold p w).1.envs i).options) = fun i => (w.envs i).options := funext a1
    obtain ⟨b1, b2, b3, b4⟩ := ihq (run fold p w).1 hn.2 (by intro i; rw [a1 i]; exact hd i)
    rw [hopts] at b3
    rcases hrun : run fold p w with ⟨w', out⟩
    rw [hrun] at a1 a2 a3 a4 b1 b2 b3 b4
    simp only at a1 a2 a3 a4 b1 b2 b3 b4
    cases out with
    | normal =>
      have hr : run fold (.seq p q) w = run fold q w' := by simp [run, hrun]
      rw [hr]
      refine ⟨fun i => (b1 i).trans (a1 i), ?_, ?_, b4⟩
      · intro i hi
        simp only [used, Set.mem_union, not_or] at hi
        rw [b2 i hi.2, a2 i hi.1]
      · intro s hs
        simp only [exposed, Set.mem_union, not_or] at hs
        rw [b3 s hs.2, a3 s hs.1]
    | raised =>
      have hr : run fold (.seq p q) w = (w', .raised) := by simp [run, hrun]
      rw [hr]
      refine ⟨a1, ?_, ?_, by simp⟩
      · intro i hi
        simp only [used, Set.mem_union, not_or] at hi
        exact a2 i hi.1
      · intro s hs
        simp only [exposed, Set.mem_union, not_or] at hs
        exact a3 s hs.1
    | exitFailed e => exact absurd rfl (a4 e)
  | block i b ih =>
    intro w hn hd
    obtain ⟨e1, e2, -, e4⟩ := Env.enter_spec fold (w.envs i) (hd i) w.cfg
    set e' := ((w.envs i).enter fold w.cfg).1 with he'
    set cfg' := ((w.envs i).enter fold w.cfg).2 with hcfg'
    set w1 : World := { (w.setEnv i e') with cfg := cfg' } with hw1
    have hopt1 : ∀ j, (w1.envs j).options = (w.envs j).options := by
      intro j
      by_cases hj : j = i
      · subst hj; simp [hw1, World.setEnv, e1]
      · simp [hw1, World.setEnv, hj]
    obtain ⟨b1, b2, b3, b4⟩ := ih w1 hn.2 (by intro j; rw [hopt1 j]; exact hd j)
    rw [funext hopt1] at b3
    set w2 := (run fold b w1).1 with hw2
    have hi2 : w2.envs i = e' := by
      rw [b2 i hn.1]; simp [hw1, World.setEnv]
    have hd2 : DistinctOptions fold (w2.envs i).options := by rw [hi2, e1]; exact hd i
    obtain ⟨x1, x2, x3⟩ := Env.exit_spec fold (w2.envs i) hd2 w.cfg
      (by rw [hi2, e1]; exact e2) w2.cfg
    have hopt2 : (w2.envs i).options = (w.envs i).options := by rw [hi2, e1]
    rw [hopt2] at x2 x3
    have hr : run fold (.block i b) w =
        ({ w2 with cfg := ((w2.envs i).exit fold w2.cfg).1 }, (run fold b w1).2) := by
      simp only [run]
      rw [← he', ← hcfg', ← hw1, ← hw2, x1]
    rw [hr]
    refine ⟨?_, ?_, ?_, b4⟩
    · intro j
      simp only
      rw [b1 j, hopt1 j]
    · intro j hj
      simp only [used, Set.mem_union, Set.mem_singleton_iff, not_or] at hj
      simp only
      rw [b2 j hj.2]
      simp [hw1, World.setEnv, hj.1]
    · intro s hs
      simp only
      by_cases hsl : s ∈ slots fold (w.envs i).options
      · exact x2 s hsl
      · rw [x3 s hsl]
        have : s ∉ exposed fold (fun i => (w.envs i).options) b := by
          intro hmem
          exact hs ⟨hmem, hsl⟩
        rw [b3 s this]
        exact e4 s hsl

/-- **C05.** Every program of nested blocks in which no environment object is
entered inside its own block leaves every option as it was, except those the
program writes outside a block that names them, also when it raises at any
point; no `__exit__` ever fails. -/
theorem nested_blocks_restore (p : Prog) (w : World) (hp : NoReentry p)
    (hd : ∀ i, DistinctOptions fold (w.envs i).options) :
    (∀ s, s ∉ exposed fold (fun i => (w.envs i).options) p → (run fold p w).1.cfg s = w.cfg s) ∧
    ∀ e, (run fold p w).2 ≠ .exitFailed e :=
  ⟨(run_spec fold p w hp hd).2.2.1, (run_spec fold p w hp hd).2.2.2⟩

/-- A program with two nested blocks, a write and an exception meets the hypotheses. -/
example : NoReentry (.block 0 (.seq (.set "A" (some "x")) (.block 1 (.seq (.set "B" none) .raise)))) ∧
    "A" ∉ exposed id (fun _ => [("A", "1"), ("B", "2")])
      (.block 0 (.seq (.set "A" (some "x")) (.block 1 (.seq (.set "B" none) .raise)))) := by
  simp [NoReentry, used, exposed, slots]

/-- **C05.** A block neither swallows an exception of its body nor raises one of its own: the program ends with
the exception exactly when it reaches a `raise`. -/
theorem nested_blocks_outcome (p : Prog) (w : World) (hp : NoReentry p)
    (hd : ∀ i, DistinctOptions fold (w.envs i).options) :
    (run fold p w).2 = if raises p then .raised else .normal := by
  induction p generalizing w with
  | skip => rfl
  | set k v => rfl
  | raise => rfl
  | seq p q ihp ihq =>
    have h1 := ihp w hp.1 hd
    have h2 := (run_spec fold p w hp.1 hd).1
    have h3 := ihq (run fold p w).1 hp.2 (fun i => by rw [h2 i]; exact hd i)
    rw [run]
    rcases hr : run fold p w with ⟨w', o⟩
    rw [hr] at h1 h3
    simp only at h1 h3
    cases hq : raises p with
    | true =>
      rw [hq] at h1
      simp only [if_true] at h1
      subst h1
      simp [raises, hq]
    | false =>
      rw [hq] at h1
      simp only [Bool.false_eq_true, if_false] at h1
      subst h1
      simp [raises, hq, h3]
  | block i body ih =>
    have hex := (run_spec fold (.block i body) w hp hd).2.2.2
    have hb := ih { (w.setEnv i ((w.envs i).enter fold w.cfg).1) with cfg := ((w.envs i).enter fold w.cfg).2 } hp.2 (by
      intro j
      simp only [World.setEnv]
      split
      · subst_vars; exact hd _
      · exact hd j)
    rw [run] at hex ⊢
    simp only at hex ⊢
    split at hex
    · rename_i e he
      exact absurd rfl (hex e)
    · rename_i he
      exact hb

/-- The exception of the inner block is passed on. -/
example (w : World) (hd : ∀ i, DistinctOptions id (w.envs i).options) :
    (run id (.block 0 (.seq (.set "A" (some "x")) (.block 1 (.seq (.set "B" none) .raise)))) w).2 = .raised :=
  nested_blocks_outcome (fold := id) _ w (by simp [NoReentry, used]) hd

/-- **C05 (negated for re-entry).** Entering the same object inside its own
block loses the value from before the outer block. -/
theorem reentered_block_not_restored :
    ¬ ∀ (p : Prog) (w : World), (∀ i, DistinctOptions id (w.envs i).options) →
      ∀ s, s ∉ exposed id (fun i => (w.envs i).options) p → (run id p w).1.cfg s = w.cfg s := by
  intro h
  have := h (.block 0 (.block 0 .skip))
    { envs := fun _ => Env.new (some [("A", "1")]), cfg := fun _ => none }
    (by intro i; simp [DistinctOptions, slots, Env.new]) "A" (by simp [exposed])
  revert this
  decide +kernel

/-- **C05 (negated for overlap).** Two blocks of two threads that overlap
without nesting leave the option changed. -/
theorem overlapping_blocks_not_restored :
    ¬ ∀ (evs : List Event) (w : World), (∀ i, DistinctOptions id (w.envs i).options) →
      ValidSchedule evs (fun _ => false) →
      ∃ w', runEvents id evs w = some w' ∧ w'.cfg = w.cfg := by
  intro h
  let w0 : World := { envs := fun i => Env.new (some [("A", if i = 0 then "1" else "2")]), cfg := fun _ => none }
  obtain ⟨w', h1, h2⟩ := h [.enter 0, .enter 1, .exit 0, .exit 1] w0
    (by intro i; simp [DistinctOptions, slots, Env.new, w0])
    (by
      refine ⟨rfl, rfl, rfl, rfl, ?_⟩
      intro i
      simp only
      split
      · rfl
      · split
        · rfl
        · simp_all)
  have h3 : (runEvents id [.enter 0, .enter 1, .exit 0, .exit 1] w0).map (fun w => w.cfg "A") = some (some "1") := by
    decide +kernel
  rw [h1] at h3
  simp only [Option.map_some, Option.some.injEq] at h3
  rw [h2] at h3
  simp [w0] at h3

/-- **C05 (what holds for threads).** When the environments of all threads name
pairwise different options, every schedule that enters each environment only
from outside and leaves it only from inside runs without error and restores the
whole table.  Missing from the full statement: overlapping blocks that share an
option (false, see `overlapping_blocks_not_restored`). -/
theorem disjoint_blocks_any_schedule_restores_partial (evs : List Event) (w : World)
    (hd : ∀ i, DistinctOptions fold (w.envs i).options)
    (hdisj : ∀ i j, i ≠ j → ∀ s ∈ slots fold (w.envs i).options, s ∉ slots fold (w.envs j).options)
    (hv : ValidSchedule evs (fun _ => false)) :
    ∃ w', runEvents fold evs w = some w' ∧ w'.cfg = w.cfg := by
  suffices H : ∀ (evs : List Event) (inside : Nat → Bool) (u : World),
      ValidSchedule evs inside →
      (∀ i, (u.envs i).options = (w.envs i).options) →
      (∀ i, inside i = true → ∀ kv ∈ (w.envs i).options, (u.envs i).old kv.1 = some (w.cfg (fold kv.1))) →
      (∀ s, (∀ i, inside i = true → s ∉ slots fold (w.envs i).options) → u.cfg s = w.cfg s) →
      ∃ w', runEvents fold evs u = some w' ∧ w'.cfg = w.cfg by
    exact H evs _ w hv (fun _ => rfl) (by simp) (fun _ _ => rfl)
  intro evs
  induction evs with
  | nil =>
    intro inside u hv _ _ hc
    refine ⟨u, rfl, funext fun s => hc s ?_⟩
    intro i hi
    rw [hv i] at hi
    cases hi
  | cons ev rest ih =>
    intro inside u hv hopt hold hc
    cases ev with
    | enter i =>
      obtain ⟨hin, hv'⟩ := hv
      have hdi : DistinctOptions fold (u.envs i).options := by rw [hopt i]; exact hd i
      obtain ⟨e1, e2, -, e4⟩ := Env.enter_spec fold (u.envs i) hdi u.cfg
      simp only [runEvents, step, Option.bind_some]
      refine ih _ _ hv' ?_ ?_ ?_
      · intro j
        by_cases hj : j = i
        · subst hj; simp only [World.setEnv, if_true]; rw [e1, hopt]
        · simp [World.setEnv, hj, hopt j]
      · intro j hj kv hkv
        by_cases hji : j = i
        · subst hji
          simp only [World.setEnv, if_true]
          rw [e2 kv (by rw [hopt]; exact hkv)]
          congr 1
          apply hc
          intro k hk
          apply hdisj j k _ _ (List.mem_map.mpr ⟨kv, hkv, rfl⟩)
          rintro rfl
          rw [hin] at hk
          cases hk
        · simp only [World.setEnv, hji, if_false] at hj ⊢
          exact hold j hj kv hkv
      · intro s hs
        simp only
        have hsi : s ∉ slots fold (w.envs i).options := hs i (by simp)
        rw [e4 s (by rw [hopt]; exact hsi)]
        apply hc
        intro j hj
        apply hs j
        by_cases hji : j = i
        · simp [hji]
        · simp [hji, hj]
    | exit i =>
      obtain ⟨hin, hv'⟩ := hv
      have hdi : DistinctOptions fold (u.envs i).options := by rw [hopt i]; exact hd i
      obtain ⟨x1, x2, x3⟩ := Env.exit_spec fold (u.envs i) hdi w.cfg
        (by rw [hopt i]; exact hold i hin) u.cfg
      rw [hopt i] at x2 x3
      have hs : step fold u (.exit i) = some { u with cfg := ((u.envs i).exit fold u.cfg).1 } := by
        simp only [step]
        rcases hx : (u.envs i).exit fold u.cfg with ⟨c, err⟩
        rw [hx] at x1
        simp only at x1
        subst x1
        rfl
      simp only [runEvents, hs, Option.bind_some]
      refine ih _ _ hv' hopt ?_ ?_
      · intro j hj kv hkv
        by_cases hji : j = i
        · simp [hji] at hj
        · simp only [hji, if_false] at hj
          exact hold j hj kv hkv
      · intro s hs
        simp only
        by_cases hsl : s ∈ slots fold (w.envs i).options
        · exact x2 s hsl
        · rw [x3 s hsl]
          apply hc
          intro j hj
          by_cases hji : j = i
          · subst hji; exact hsl
          · exact hs j (by simp [hji, hj])

/-- A schedule of two overlapping blocks over different options meets the hypotheses. -/
example : ValidSchedule [.enter 0, .enter 1, .exit 0, .exit 1] (fun _ => false) := by
  refine ⟨rfl, rfl, rfl, rfl, ?_⟩
  intro i
  simp only
  split
  · rfl
  · split
    · rfl
    · simp_all

/-! ## C06 -/

private theorem exitLoop_append (old : String → Option (Option String)) (d d' : Dict) (cfg : Cfg) :
    exitLoop fold old (d ++ d') cfg =
      match exitLoop fold old d cfg with
      | (c, none) => exitLoop fold old d' c
      | (c, some e) => (c, some e) := by
  induction d generalizing cfg with
  | nil => rfl
  | cons kv rest ih =>
    obtain ⟨k, v⟩ := kv
    simp only [List.cons_append, exitLoop]
    cases old k with
    | none => rfl
    | some v => exact ih _

private theorem exitLoop_keys (old : String → Option (Option String)) : ∀ (d d' : Dict) (cfg : Cfg),
    d.map Prod.fst = d'.map Prod.fst → exitLoop fold old d cfg = exitLoop fold old d' cfg
  | [], [], _, _ => rfl
  | [], _ :: _, _, h => by simp at h
  | _ :: _, [], _, h => by simp at h
  | (k, v) :: rest, (k', v') :: rest', cfg, h => by
    simp only [List.map_cons, List.cons.injEq] at h
    obtain ⟨rfl, h⟩ := h
    simp only [exitLoop]
    cases old k with
    | none => rfl
    | some x => exact exitLoop_keys old rest rest' _ h

private theorem dictSet_fresh (d : Dict) (k v : String) (h : k ∉ d.map Prod.fst) :
    dictSet d k v = d ++ [(k, v)] := by
  induction d with
  | nil => rfl
  | cons kv rest ih =>
    obtain ⟨k', v'⟩ := kv
    simp only [List.map_cons, List.mem_cons, not_or] at h
    simp [dictSet, Ne.symm h.1, ih h.2]

/-- The three option names that credentials set. -/
def awsNames : List String := ["AWS_SECRET_ACCESS_KEY", "AWS_ACCESS_KEY_ID", "AWS_SESSION_TOKEN"]

/-- **C06 (partial).** Adding credentials to an environment that is already
entered and had none: the exit raises `KeyError`, but all options the block had
set are restored first.  Missing from the full statement: the exit does raise. -/
theorem credentials_inside_block_partial (e : Env) (hfresh : ∀ k, e.old k = none)
    (he : DistinctOptions fold e.options)
    (hno : ∀ k ∈ awsNames, k ∉ e.options.map Prod.fst)
    (creds : String → Option String) (e2 : Env) (cfg : Cfg) (body : Cfg → Cfg)
    (hc : (e.enter fold cfg).1.withAwsCredentials (some creds) = .ok e2) :
    (e2.exit fold (body (e.enter fold cfg).2)).2 = some .keyError ∧
    ∀ s ∈ slots fold e.options, (e2.exit fold (body (e.enter fold cfg).2)).1 s = cfg s := by
  obtain ⟨h1, h2, h3, h4⟩ := Env.enter_spec fold e he cfg
  have h5 := (enterLoop_spec fold e.options he e.old cfg).2.2.1
  set e1 := (e.enter fold cfg).1 with he1
  have hold : ∀ k, k ∉ e.options.map Prod.fst → e1.old k = none := by
    intro k hk
    have := h5 k hk
    rw [hfresh k] at this
    exact this
  unfold Env.withAwsCredentials at hc
  simp only at hc
  cases hco : credentialOptions creds with
  | error x => rw [hco] at hc; cases hc
  | ok new =>
    rw [hco] at hc
    simp only [Except.ok.injEq] at hc
    have hnew : ∃ s a t, new = [("AWS_SECRET_ACCESS_KEY", s), ("AWS_ACCESS_KEY_ID", a), ("AWS_SESSION_TOKEN", t)] := by
      unfold credentialOptions at hco
      split at hco
      · cases hco; exact ⟨_, _, _, rfl⟩
      · cases hco
    obtain ⟨s, a, t, rfl⟩ := hnew
    have hn1 : "AWS_SECRET_ACCESS_KEY" ∉ e.options.map Prod.fst := hno _ (by simp [awsNames])
    have hn2 : "AWS_ACCESS_KEY_ID" ∉ e.options.map Prod.fst := hno _ (by simp [awsNames])
    have hn3 : "AWS_SESSION_TOKEN" ∉ e.options.map Prod.fst := hno _ (by simp [awsNames])
    have hopt : e2.options = e.options ++
        [("AWS_SECRET_ACCESS_KEY", s), ("AWS_ACCESS_KEY_ID", a), ("AWS_SESSION_TOKEN", t)] := by
      rw [← hc]
      simp only [List.foldl_cons, List.foldl_nil, h1]
      rw [dictSet_fresh e.options _ _ hn1,
        dictSet_fresh (e.options ++ [("AWS_SECRET_ACCESS_KEY", s)]) "AWS_ACCESS_KEY_ID" a
          (by simpa using hn2),
        dictSet_fresh _ "AWS_SESSION_TOKEN" t (by simpa using hn3)]
      simp
    have hold2 : e2.old = e1.old := by rw [← hc]
    obtain ⟨x1, x2, -⟩ := exitLoop_spec fold e.options he e1.old cfg (by simpa using h2)
      (body (e.enter fold cfg).2)
    unfold Env.exit
    rw [hopt, hold2, exitLoop_append]
    rcases hx : exitLoop fold e1.old e.options (body (e.enter fold cfg).2) with ⟨c, err⟩
    rw [hx] at x1 x2
    simp only at x1 x2
    subst x1
    simp only [exitLoop, hold _ hn1]
    exact ⟨trivial, x2⟩

/-- The hypotheses are met by an environment with one option and ordinary credentials. -/
example : ∃ e2, ((Env.new (some [("CPL_DEBUG", "ON")])).enter id (fun _ => none)).1.withAwsCredentials
    (some (fun _ => some "secret")) = .ok e2 := ⟨_, rfl⟩

private theorem dictSet_lookup (d : Dict) (k v k' : String) :
    (dictSet d k v).lookup k' = if k' = k then some v else d.lookup k' := by
  induction d with
  | nil =>
    by_cases h : k' = k
    · simp [dictSet, List.lookup, h]
    · have : (k' == k) = false := by simpa using h
      simp [dictSet, List.lookup, h, this]
  | cons e rest ih =>
    obtain ⟨a, b⟩ := e
    unfold dictSet
    by_cases ha : a = k
    · rw [if_pos ha]
      by_cases h : k' = k
      · subst h; subst ha; simp [List.lookup]
      · have : (k' == a) = false := by rw [ha]; simpa using h
        simp [List.lookup, this, h]
    · rw [if_neg ha]
      by_cases h : k' = a
      · subst h; simp [List.lookup, ha]
      · have : (k' == a) = false := by simpa using h
        simp only [List.lookup, this, ih]

/-- **C06.** `with_aws_credentials` sets the three options from the three entries of its argument, replacing
older values, and changes no other option; an argument without one of the entries raises `KeyError`; `None`
changes nothing. -/
theorem credentials_set_options (e : Env) :
    e.withAwsCredentials none = .ok e ∧
    (∀ creds s a t, creds "SecretAccessKey" = some s → creds "AccessKeyId" = some a → creds "SessionToken" = some t →
      ∃ e2, e.withAwsCredentials (some creds) = .ok e2 ∧ e2.old = e.old ∧
        e2.options.lookup "AWS_SECRET_ACCESS_KEY" = some s ∧ e2.options.lookup "AWS_ACCESS_KEY_ID" = some a ∧
        e2.options.lookup "AWS_SESSION_TOKEN" = some t ∧
        ∀ k ∉ awsNames, e2.options.lookup k = e.options.lookup k) ∧
    ∀ creds, (creds "SecretAccessKey" = none ∨ creds "AccessKeyId" = none ∨ creds "SessionToken" = none) →
      e.withAwsCredentials (some creds) = .error .keyError := by
  refine ⟨rfl, ?_, ?_⟩
  · intro creds s a t hs ha ht
    simp only [Env.withAwsCredentials, credentialOptions, hs, ha, ht]
    refine ⟨_, rfl, rfl, ?_, ?_, ?_, ?_⟩
    · simp [dictSet_lookup]
    · simp [dictSet_lookup]
    · simp [dictSet_lookup]
    · intro k hk
      simp only [awsNames, List.mem_cons, List.not_mem_nil, or_false, not_or] at hk
      simp [dictSet_lookup, hk]
  · intro creds h
    simp only [Env.withAwsCredentials, credentialOptions]
    rcases h with h | h | h
    · simp [h]
    · cases creds "SecretAccessKey" <;> simp [h]
    · cases creds "SecretAccessKey" <;> cases creds "AccessKeyId" <;> simp [h]

/-- New credentials replace old ones. -/
example : ∃ e2, (Env.new (some [("AWS_SESSION_TOKEN", "old"), ("CPL_DEBUG", "ON")])).withAwsCredentials
    (some (fun k => some (k ++ "!"))) = .ok e2 ∧ e2.options =
      [("AWS_SESSION_TOKEN", "SessionToken!"), ("CPL_DEBUG", "ON"), ("AWS_SECRET_ACCESS_KEY", "SecretAccessKey!"),
       ("AWS_ACCESS_KEY_ID", "AccessKeyId!")] := ⟨_, rfl, rfl⟩

/-- **C06 (negated).** A block whose environment receives credentials while it
is entered does not always exit cleanly. -/
theorem credentials_inside_block_can_raise :
    ¬ ∀ (e e2 : Env) (creds : String → Option String) (cfg : Cfg),
      (∀ k, e.old k = none) → DistinctOptions id e.options →
      (e.enter id cfg).1.withAwsCredentials (some creds) = .ok e2 →
      (e2.exit id (e.enter id cfg).2).2 = none := by
  intro h
  have h1 := h (Env.new (some [("CPL_DEBUG", "ON")])) _ (fun _ => some "secret") (fun _ => none)
    (fun _ => rfl) (by simp [DistinctOptions, slots, Env.new]) rfl
  have h2 := (credentials_inside_block_partial id (Env.new (some [("CPL_DEBUG", "ON")])) (fun _ => rfl)
    (by simp [DistinctOptions, slots, Env.new]) (by simp [awsNames, Env.new]) (fun _ => some "secret") _
    (fun _ => none) id rfl).1
  simp only [id] at h2 h1
  rw [h1] at h2
  cases h2

/-- **C06 (a).** Refreshing credentials an entered environment already had is
harmless: the exit restores everything and raises nothing. -/
theorem credentials_refresh_inside_block (e : Env) (he : DistinctOptions fold e.options)
    (hall : ∀ k ∈ awsNames, k ∈ e.options.map Prod.fst)
    (creds : Option (String → Option String)) (e2 : Env) (cfg : Cfg) (body : Cfg → Cfg)
    (hc : (e.enter fold cfg).1.withAwsCredentials creds = .ok e2) :
    (e2.exit fold (body (e.enter fold cfg).2)).2 = none ∧
    ∀ s ∈ slots fold e.options, (e2.exit fold (body (e.enter fold cfg).2)).1 s = cfg s := by
  obtain ⟨h1, h2, h3, h4⟩ := Env.enter_spec fold e he cfg
  set e1 := (e.enter fold cfg).1 with he1
  have key : e2.options.map Prod.fst = e.options.map Prod.fst ∧ e2.old = e1.old := by
    cases creds with
    | none =>
      simp only [Env.withAwsCredentials, Except.ok.injEq] at hc
      rw [← hc, h1]; exact ⟨rfl, rfl⟩
    | some c =>
      unfold Env.withAwsCredentials at hc
      simp only at hc
      unfold credentialOptions at hc
      split at hc
      · cases hc
      · rename_i hco
        split at hco
        · cases hco
          cases hc
          refine ⟨?_, rfl⟩
          have m1 : "AWS_SECRET_ACCESS_KEY" ∈ e.options.map Prod.fst := hall _ (by simp [awsNames])
          have m2 : "AWS_ACCESS_KEY_ID" ∈ e.options.map Prod.fst := hall _ (by simp [awsNames])
          have m3 : "AWS_SESSION_TOKEN" ∈ e.options.map Prod.fst := hall _ (by simp [awsNames])
          simp only [List.foldl_cons, List.foldl_nil, h1]
          rw [dictSet_keys, dictSet_keys, dictSet_keys]
          simp only [m1, m2, m3, if_true]
        · cases hco
  obtain ⟨x1, x2, -⟩ := exitLoop_spec fold e.options he e1.old cfg (by simpa using h2)
    (body (e.enter fold cfg).2)
  unfold Env.exit
  rw [key.2, exitLoop_keys fold e1.old e2.options e.options _ key.1]
  exact ⟨x1, x2⟩

/-- An environment built with credentials meets the hypotheses. -/
example : ∀ k ∈ awsNames, k ∈ (Env.new (some [("AWS_SECRET_ACCESS_KEY", "a"),
    ("AWS_ACCESS_KEY_ID", "b"), ("AWS_SESSION_TOKEN", "c")])).options.map Prod.fst := by
  simp [awsNames, Env.new]

/-- **C06 (b).** No sequence of constructions and credential updates changes a
dictionary that the caller owned before (the dictionaries at addresses below
`h.next`), whichever of them were passed to the constructor. -/
theorem caller_dictionaries_unchanged (ops : List ClientOp) (h : DictHeap) :
    ∀ a < h.next, (runClient ops (h, [])).1.dicts a = h.dicts a := by
  suffices H : ∀ (ops : List ClientOp) (g : DictHeap) (envs : List Nat),
      h.next ≤ g.next → (∀ e ∈ envs, h.next ≤ e) → (∀ a < h.next, g.dicts a = h.dicts a) →
      ∀ a < h.next, (runClient ops (g, envs)).1.dicts a = h.dicts a by
    exact H ops h [] (Nat.le_refl _) (by simp) (fun _ _ => rfl)
  intro ops
  induction ops with
  | nil => intro g envs _ _ hg a ha; exact hg a ha
  | cons op rest ih =>
    intro g envs hn henv hg a ha
    cases op with
    | construct arg =>
      simp only [runClient, DictHeap.newEnv]
      apply ih _ _ _ _ _ a ha
      · simp only; omega
      · intro e he
        rcases List.mem_append.mp he with h' | h'
        · exact henv e h'
        · simp at h'; omega
      · intro b hb
        have : b ≠ g.next := by omega
        simp [this, hg b hb]
    | credentials i c =>
      simp only [runClient]
      split
      · exact ih g envs hn henv hg a ha
      · rename_i ad had
        have hmem : ad ∈ envs := List.mem_of_getElem? had
        split
        · exact ih g envs hn henv hg a ha
        · rename_i h' hw
          apply ih _ _ _ henv _ a ha
          · unfold DictHeap.withCredentials at hw
            split at hw
            · cases hw; exact hn
            · split at hw
              · cases hw
              · cases hw; exact hn
          · intro b hb
            have hne : b ≠ ad := by
              have := henv ad hmem
              omega
            unfold DictHeap.withCredentials at hw
            split at hw
            · cases hw; exact hg b hb
            · split at hw
              · cases hw
              · cases hw
                simp [hne, hg b hb]

/-- A caller's dictionary is passed to the constructor, and then the new object gets credentials. -/
example (h : DictHeap) (a : Nat) (ha : a < h.next) (creds : String → Option String) :
    (runClient [.construct (some a), .credentials 0 (some creds)] (h, [])).1.dicts a = h.dicts a :=
  caller_dictionaries_unchanged _ h a ha

/-- **C06** A new environment has the options it was given, and keeps them whatever is done to other environments. -/
theorem environment_has_own_copy (h : DictHeap) (envs : List Nat) (hf : ∀ e ∈ envs, e < h.next) (arg : Option Nat) (ops : List ClientOp)
    (ho : ∀ i c, .credentials i c ∈ ops → i ≠ envs.length) :
    ∃ e, (runClient (.construct arg :: ops) (h, envs)).2[envs.length]? = some e ∧
      (∀ a, arg = some a → (runClient (.construct arg :: ops) (h, envs)).1.dicts e = h.dicts a) ∧
      (arg = none → (runClient (.construct arg :: ops) (h, envs)).1.dicts e = []) := by
  suffices H : ∀ (ops : List ClientOp) (k n : Nat) (d : Dict) (g : DictHeap) (es : List Nat), n < g.next → g.dicts n = d → es[k]? = some n →
      (∀ j, j ≠ k → es[j]? ≠ some n) → (∀ i c, .credentials i c ∈ ops → i ≠ k) →
      (runClient ops (g, es)).2[k]? = some n ∧ (runClient ops (g, es)).1.dicts n = d by
    have key := H ops envs.length h.next ((h.newEnv arg).1.dicts (h.newEnv arg).2) (h.newEnv arg).1 (envs ++ [(h.newEnv arg).2]) (by simp [DictHeap.newEnv]) rfl
      (by simp [DictHeap.newEnv]) (by
        intro j hj hs
        rcases Nat.lt_or_ge j envs.length with hl | hl
        · rw [List.getElem?_append_left hl] at hs
          exact absurd (hf _ (List.mem_of_getElem? hs)) (by omega)
        · rw [List.getElem?_eq_none (by simp; omega)] at hs
          cases hs) ho
    refine ⟨h.next, key.1, ?_, ?_⟩
    · rintro a rfl
      exact key.2.trans (by simp [DictHeap.newEnv])
    · rintro rfl
      exact key.2.trans (by simp [DictHeap.newEnv])
  intro ops k n d
  induction ops with
  | nil => intro g es _ hd hk _ _; exact ⟨hk, hd⟩
  | cons op rest ih =>
    intro g es hn hd hk hu ho
    have ho' : ∀ i c, .credentials i c ∈ rest → i ≠ k := fun i c hm => ho i c (List.mem_cons_of_mem _ hm)
    cases op with
    | construct arg =>
      simp only [runClient, DictHeap.newEnv]
      refine ih _ _ (Nat.lt_succ_of_lt hn) ?_ ?_ ?_ ho'
      · simp only
        rw [if_neg (by omega), hd]
      · rw [List.getElem?_append_left (List.getElem?_eq_some_iff.mp hk).1, hk]
      · intro j hj hs
        rcases Nat.lt_or_ge j es.length with hl | hl
        · rw [List.getElem?_append_left hl] at hs
          exact hu j hj hs
        · rw [List.getElem?_append_right hl] at hs
          have := List.mem_of_getElem? hs
          simp at this
          omega
    | credentials i c =>
      have hi : i ≠ k := ho i c List.mem_cons_self
      simp only [runClient]
      split
      · exact ih g es hn hd hk hu ho'
      · rename_i ad had
        have hne : n ≠ ad := by rintro rfl; exact hu i hi had
        split
        · exact ih g es hn hd hk hu ho'
        · rename_i h' hw
          unfold DictHeap.withCredentials at hw
          split at hw
          · cases hw; exact ih g es hn hd hk hu ho'
          · split at hw
            · cases hw
            · cases hw
              refine ih _ es hn ?_ hk hu ho'
              simp only
              rw [if_neg hne, hd]

/-- Two environments are made of the same dictionary, and the first one gets credentials: the second one has the options of the dictionary. -/
example (h : DictHeap) (a b : Nat) (creds : String → Option String) (hb : b < h.next) :
    (runClient [.construct (some a), .credentials 0 (some creds)] (h, [b])).1.dicts h.next = h.dicts a := by
  obtain ⟨e, h1, h2, _⟩ := environment_has_own_copy h [b] (by simpa using hb) (some a) [.credentials 0 (some creds)] (by simp)
  have : e = h.next := by
    simp only [runClient, DictHeap.newEnv] at h1
    revert h1
    simp only [List.cons_append, List.nil_append, List.getElem?_cons_zero]
    split <;> simp [eq_comm]
  rw [← this]
  exact h2 a rfl

/-! ## C07 -/

/-- **C07.** Whatever the table was, `set_gdal_default_configuration` gives the
twelve options their documented values, changes nothing else, and is
idempotent.  `hinj`: GDAL's name folding keeps the twelve names apart. -/
theorem default_configuration_effect (hinj : DistinctOptions fold defaultOptions) (cfg : Cfg) :
    (setDefaults fold cfg (fold "VSI_CACHE") = some "YES" ∧
     setDefaults fold cfg (fold "VSI_CACHE_SIZE") = some "10000000000" ∧
     setDefaults fold cfg (fold "GDAL_DISABLE_READDIR_ON_OPEN") = some "EMPTY_DIR" ∧
     setDefaults fold cfg (fold "GDAL_CACHEMAX") = some "75%" ∧
     setDefaults fold cfg (fold "GDAL_NUM_THREADS") = some "1" ∧
     setDefaults fold cfg (fold "GDAL_GCPS_TO_GEOTRANSFORM_APPROX_OK") = some "YES" ∧
     setDefaults fold cfg (fold "GDAL_MAX_DATASET_POOL_SIZE") = some "1000" ∧
     setDefaults fold cfg (fold "BIGTIFF_OVERVIEW") = some "YES" ∧
     setDefaults fold cfg (fold "USE_TILE_AS_BLOCK") = some "YES" ∧
     setDefaults fold cfg (fold "CPL_DEBUG") = some "OFF" ∧
     setDefaults fold cfg (fold "CPL_VSIL_CURL_CHUNK_SIZE") = some "10485760" ∧
     setDefaults fold cfg (fold "CPL_VSIL_CURL_CACHE_SIZE") = some "5242880000") ∧
    (∀ s, s ∉ slots fold defaultOptions → setDefaults fold cfg s = cfg s) ∧
    setDefaults fold (setDefaults fold cfg) = setDefaults fold cfg := by
  have hm : ∀ kv ∈ defaultOptions, setDefaults fold cfg (fold kv.1) = some kv.2 :=
    fun kv hkv => foldl_setOpt_mem fold defaultOptions hinj cfg kv hkv
  have t1 : toString (10 * 1024 * 1024) = "10485760" := by decide +kernel
  have t2 : toString (10 * 1024 * 1024 * 500) = "5242880000" := by decide +kernel
  refine ⟨⟨hm ("VSI_CACHE", "YES") (by simp [defaultOptions]),
    hm ("VSI_CACHE_SIZE", "10000000000") (by simp [defaultOptions]),
    hm ("GDAL_DISABLE_READDIR_ON_OPEN", "EMPTY_DIR") (by simp [defaultOptions]),
    hm ("GDAL_CACHEMAX", "75%") (by simp [defaultOptions]),
    hm ("GDAL_NUM_THREADS", "1") (by simp [defaultOptions]),
    hm ("GDAL_GCPS_TO_GEOTRANSFORM_APPROX_OK", "YES") (by simp [defaultOptions]),
    hm ("GDAL_MAX_DATASET_POOL_SIZE", "1000") (by simp [defaultOptions]),
    hm ("BIGTIFF_OVERVIEW", "YES") (by simp [defaultOptions]),
    hm ("USE_TILE_AS_BLOCK", "YES") (by simp [defaultOptions]),
    hm ("CPL_DEBUG", "OFF") (by simp [defaultOptions]),
    hm ("CPL_VSIL_CURL_CHUNK_SIZE", "10485760") (by rw [← t1]; simp only [defaultOptions]; simp),
    hm ("CPL_VSIL_CURL_CACHE_SIZE", "5242880000") (by rw [← t2]; simp only [defaultOptions]; simp)⟩,
    fun s hs => foldl_setOpt fold defaultOptions cfg s hs, ?_⟩
  funext s
  by_cases hs : s ∈ slots fold defaultOptions
  · obtain ⟨kv, hkv, rfl⟩ := List.mem_map.mp hs
    rw [hm kv hkv]
    exact foldl_setOpt_mem fold defaultOptions hinj _ kv hkv
  · exact foldl_setOpt fold defaultOptions _ s hs

/-- The twelve names stay apart under a case-insensitive table. -/
example : DistinctOptions String.toLower defaultOptions := by
  unfold DistinctOptions
  decide +kernel

end Verif.Props.GdalConfig
