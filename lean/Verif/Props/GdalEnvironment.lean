import Verif.Lemmas.GdalConfig
import Verif.Model.GdalEnvironment

/-!
# Property C149: options that come from environment variables
-/

namespace Verif.Props.GdalEnvironment

open Verif.GdalConfig Verif.Spec.GdalConfig
open Verif.GdalEnvironment (Process Vars)

variable (fold : String → String)

private theorem enter_spec (d : Dict) (hd : DistinctOptions fold d) : ∀ (old : String → Option (Option String)) (p : Process),
    (∀ kv ∈ d, (Verif.GdalEnvironment.enterLoop fold d old p).1 kv.1 = some (p.get fold kv.1)) ∧
    (∀ kv ∈ d, (Verif.GdalEnvironment.enterLoop fold d old p).2.cfg (fold kv.1) = some kv.2) ∧
    (∀ k, k ∉ d.map Prod.fst → (Verif.GdalEnvironment.enterLoop fold d old p).1 k = old k) ∧
    (∀ s, s ∉ slots fold d → (Verif.GdalEnvironment.enterLoop fold d old p).2.cfg s = p.cfg s) ∧
    (Verif.GdalEnvironment.enterLoop fold d old p).2.vars = p.vars := by
  induction d with
  | nil => intro old p; simp [Verif.GdalEnvironment.enterLoop]
  | cons kv rest ih =>
    obtain ⟨k, v⟩ := kv
    intro old p
    have hn := List.nodup_cons.mp (show (fold k :: slots fold rest).Nodup from hd)
    have hk' : k ∉ rest.map Prod.fst := by
      intro hmem
      obtain ⟨kv, hkv, rfl⟩ := List.mem_map.mp hmem
      exact hn.1 (List.mem_map.mpr ⟨kv, hkv, rfl⟩)
    obtain ⟨i1, i2, i3, i4, i5⟩ := ih hn.2 (fun k' => if k' = k then some (p.get fold k) else old k') (p.set fold k (some v))
    simp only [Verif.GdalEnvironment.enterLoop]
    refine ⟨?_, ?_, ?_, ?_, i5⟩
    · intro kv hkv
      rcases List.mem_cons.mp hkv with rfl | hmem
      · rw [i3 k hk']; simp
      · rw [i1 kv hmem]
        have hne : fold kv.1 ≠ fold k := by
          intro he; exact hn.1 (he ▸ List.mem_map.mpr ⟨kv, hmem, rfl⟩)
        simp [Process.get, Process.set, getOpt, setOpt, hne]
    · intro kv hkv
      rcases List.mem_cons.mp hkv with rfl | hmem
      · rw [i4 _ hn.1]; simp [Process.set, setOpt]
      · exact i2 kv hmem
    · intro k' hk'n
      simp only [List.map_cons, List.mem_cons, not_or] at hk'n
      rw [i3 k' hk'n.2]; simp [hk'n.1]
    · intro s hs
      simp only [slots, List.map_cons, List.mem_cons, not_or] at hs
      rw [i4 s hs.2]; simp [Process.set, setOpt, hs.1]

private theorem exit_spec (d : Dict) (hd : DistinctOptions fold d) (old : String → Option (Option String)) (val : String → Option String)
    (hold : ∀ kv ∈ d, old kv.1 = some (val kv.1)) : ∀ p : Process,
    (Verif.GdalEnvironment.exitLoop fold old d p).2 = none ∧
    (∀ kv ∈ d, (Verif.GdalEnvironment.exitLoop fold old d p).1.cfg (fold kv.1) = val kv.1) ∧
    (∀ s, s ∉ slots fold d → (Verif.GdalEnvironment.exitLoop fold old d p).1.cfg s = p.cfg s) ∧
    (Verif.GdalEnvironment.exitLoop fold old d p).1.vars = p.vars := by
  induction d with
  | nil => intro p; simp [Verif.GdalEnvironment.exitLoop]
  | cons kv rest ih =>
    obtain ⟨k, v⟩ := kv
    intro p
    have hn := List.nodup_cons.mp (show (fold k :: slots fold rest).Nodup from hd)
    have ho : old k = some (val k) := hold (k, v) (by simp)
    obtain ⟨i1, i2, i3, i4⟩ := ih hn.2 (fun kv hkv => hold kv (List.mem_cons_of_mem _ hkv)) (p.set fold k (val k))
    simp only [Verif.GdalEnvironment.exitLoop, ho]
    refine ⟨i1, ?_, ?_, i4⟩
    · intro kv hkv
      rcases List.mem_cons.mp hkv with rfl | hmem
      · rw [i3 _ hn.1]; simp [Process.set, setOpt]
      · exact i2 kv hmem
    · intro s hs
      simp only [slots, List.map_cons, List.mem_cons, not_or] at hs
      rw [i3 s hs.2]; simp [Process.set, setOpt, hs.1]

/-- **C149 (partial).** After a block, each option that it names has the value that it had before the block, wherever it came from, and so it stays
whatever happens to the environment variables; an option that had no value follows its environment variable.  Options that are not named, and the
variables themselves, are as the body left them.  Inside the block the named options have the requested values and all others the ones they had.
Missing: options that came from an environment variable do not follow it any more (`environment_not_followed`). -/
theorem block_restores_value_partial (e : Env) (he : DistinctOptions fold e.options) (body : Process → Process) (p : Process) :
    ∃ start : Process,
      start.vars = p.vars ∧ (∀ kv ∈ e.options, start.get fold kv.1 = some kv.2) ∧ (∀ k, fold k ∉ slots fold e.options → start.get fold k = p.get fold k) ∧
      (Verif.GdalEnvironment.withBlock fold e body p).2 = none ∧
      (Verif.GdalEnvironment.withBlock fold e body p).1.vars = (body start).vars ∧
      (∀ k, fold k ∉ slots fold e.options → (Verif.GdalEnvironment.withBlock fold e body p).1.get fold k = (body start).get fold k) ∧
      ∀ kv ∈ e.options, ∀ later : Vars,
        (∀ v, p.get fold kv.1 = some v → ({ (Verif.GdalEnvironment.withBlock fold e body p).1 with vars := later }).get fold kv.1 = some v) ∧
        (p.get fold kv.1 = none → ({ (Verif.GdalEnvironment.withBlock fold e body p).1 with vars := later }).get fold kv.1 = later kv.1) := by
  obtain ⟨h1, h2, -, h4, h5⟩ := enter_spec fold e.options he e.old p
  refine ⟨(Verif.GdalEnvironment.enterLoop fold e.options e.old p).2, h5, ?_, ?_, ?_⟩
  · intro kv hkv; simp [Process.get, getOpt, h2 kv hkv]
  · intro k hk; simp [Process.get, getOpt, h4 _ hk, h5]
  · obtain ⟨x1, x2, x3, x4⟩ := exit_spec fold e.options he _ (fun k => p.get fold k) h1 (body (Verif.GdalEnvironment.enterLoop fold e.options e.old p).2)
    refine ⟨x1, x4, ?_, ?_⟩
    · intro k hk
      simp only [Verif.GdalEnvironment.withBlock, Process.get, getOpt, x3 _ hk, x4]
    · intro kv hkv later
      have hx := x2 kv hkv
      constructor
      · intro v hv
        simp only [Verif.GdalEnvironment.withBlock, Process.get, getOpt] at hx hv ⊢
        rw [hx, hv]; rfl
      · intro hv
        simp only [Verif.GdalEnvironment.withBlock, Process.get, getOpt] at hx hv ⊢
        rw [hx, hv]; rfl

/-- Credentials in environment variables, a block with other credentials, and a body that changes both an option and a variable. -/
example :
    let p : Process := ⟨fun s => if s = "CPL_DEBUG" then some "OFF" else none, fun s => if s = "AWS_SESSION_TOKEN" then some "mine" else none⟩
    let e := Env.new (some [("AWS_SESSION_TOKEN", "theirs"), ("CPL_DEBUG", "ON")])
    DistinctOptions id e.options ∧ p.get id "AWS_SESSION_TOKEN" = some "mine" ∧
    (Verif.GdalEnvironment.withBlock id e (fun q => { q.set id "AWS_REGION" (some "us-west-2") with vars := fun _ => none }) p).1.get id "AWS_SESSION_TOKEN" = some "mine" ∧
    (Verif.GdalEnvironment.withBlock id e (fun q => { q.set id "AWS_REGION" (some "us-west-2") with vars := fun _ => none }) p).1.get id "AWS_REGION" = some "us-west-2" := by
  refine ⟨by simp [DistinctOptions, slots, Env.new], rfl, rfl, rfl⟩

/-- **C149.** Exactly which options behave after a block as if there had been none (with a body that does nothing), for all later values of the environment
variables: those that were set in GDAL's table, and those that had no environment variable. -/
theorem follows_environment_iff (e : Env) (he : DistinctOptions fold e.options) (p : Process) (kv : String × String) (hkv : kv ∈ e.options) :
    (∀ later : Vars, ({ (Verif.GdalEnvironment.withBlock fold e id p).1 with vars := later }).get fold kv.1 = ({ p with vars := later }).get fold kv.1) ↔
      p.cfg (fold kv.1) ≠ none ∨ p.vars kv.1 = none := by
  obtain ⟨start, -, -, -, -, -, -, h⟩ := block_restores_value_partial fold e he id p
  constructor
  · intro H
    by_contra hc
    simp only [not_or, not_not] at hc
    obtain ⟨v, hv⟩ := Option.ne_none_iff_exists'.mp hc.2
    have h1 := (h kv hkv (fun _ => none)).1 v (by simp [Process.get, getOpt, hc.1, hv])
    rw [H] at h1
    simp [Process.get, getOpt, hc.1] at h1
  · intro hc later
    cases hp : p.get fold kv.1 with
    | some v =>
      rw [(h kv hkv later).1 v hp]
      rcases hc with hc | hc
      · obtain ⟨w, hw⟩ := Option.ne_none_iff_exists'.mp hc
        simp only [Process.get, getOpt, hw, Option.some_or] at hp ⊢
        exact hp.symm
      · have : p.cfg (fold kv.1) = some v := by simpa [Process.get, getOpt, hc] using hp
        simp [Process.get, getOpt, this]
    | none =>
      rw [(h kv hkv later).2 hp]
      have : p.cfg (fold kv.1) = none := by
        simp only [Process.get, getOpt] at hp
        cases hq : p.cfg (fold kv.1) with
        | none => rfl
        | some v => rw [hq] at hp; simp at hp
      simp [Process.get, getOpt, this]

/-- An option with a variable only, one in the table, and one without value. -/
example :
    let p : Process := ⟨fun s => if s = "B" then some "2" else none, fun s => if s = "A" then some "1" else none⟩
    let e := Env.new (some [("A", "x"), ("B", "y"), ("C", "z")])
    DistinctOptions id e.options ∧
    ¬ (p.cfg "A" ≠ none ∨ p.vars "A" = none) ∧ (p.cfg "B" ≠ none ∨ p.vars "B" = none) ∧ (p.cfg "C" ≠ none ∨ p.vars "C" = none) := by
  refine ⟨by simp [DistinctOptions, slots, Env.new], ?_, ?_, ?_⟩ <;> simp

/-- **C149 (negated).** After a block with credentials, a process whose own credentials come from environment variables goes on with those of the time of the
block: GDAL does not see it when they are renewed. -/
theorem environment_not_followed :
    ¬ ∀ (e : Env) (p : Process) (later : Vars), DistinctOptions id e.options → ∀ kv ∈ e.options,
      ({ (Verif.GdalEnvironment.withBlock id e id p).1 with vars := later }).get id kv.1 = ({ p with vars := later }).get id kv.1 := by
  intro H
  have h := H (Env.new (some [("AWS_SESSION_TOKEN", "theirs")])) ⟨fun _ => none, fun _ => some "old"⟩ (fun _ => some "new")
    (by simp [DistinctOptions, slots, Env.new]) ("AWS_SESSION_TOKEN", "theirs") (by simp [Env.new])
  have h1 : ({ (Verif.GdalEnvironment.withBlock id (Env.new (some [("AWS_SESSION_TOKEN", "theirs")])) id ⟨fun _ => none, fun _ => some "old"⟩).1 with
      vars := fun _ => some "new" } : Process).get id "AWS_SESSION_TOKEN" = some "old" := rfl
  rw [h1] at h
  simp [Process.get, getOpt] at h

/-- **C149.** Without environment variables the table is the one of C04. -/
theorem same_as_table (e : Env) (body : Cfg → Cfg) (cfg : Cfg) :
    let r := Verif.GdalEnvironment.withBlock fold e (fun p => { p with cfg := body p.cfg }) ⟨cfg, fun _ => none⟩
    (r.1.cfg, r.2) = (Verif.GdalConfig.withBlock fold e body cfg).2 := by
  have enter : ∀ (d : Dict) (old : String → Option (Option String)) (c : Cfg),
      Verif.GdalEnvironment.enterLoop fold d old ⟨c, fun _ => none⟩ =
        ((Verif.GdalConfig.enterLoop fold d old c).1, ⟨(Verif.GdalConfig.enterLoop fold d old c).2, fun _ => none⟩) := by
    intro d
    induction d with
    | nil => intro old c; rfl
    | cons kv rest ih =>
      intro old c
      simp only [Verif.GdalEnvironment.enterLoop, Verif.GdalConfig.enterLoop, Process.get, Process.set, Option.or_none, ih]
  have exit : ∀ (old : String → Option (Option String)) (d : Dict) (c : Cfg) (v : Vars),
      ((Verif.GdalEnvironment.exitLoop fold old d ⟨c, v⟩).1.cfg, (Verif.GdalEnvironment.exitLoop fold old d ⟨c, v⟩).2) = Verif.GdalConfig.exitLoop fold old d c := by
    intro old d
    induction d with
    | nil => intro c v; rfl
    | cons kv rest ih =>
      intro c v
      simp only [Verif.GdalEnvironment.exitLoop, Verif.GdalConfig.exitLoop]
      cases old kv.1 with
      | none => rfl
      | some x => exact ih _ _
  simp only [Verif.GdalEnvironment.withBlock, Verif.GdalConfig.withBlock, Env.enter, Env.exit, enter, exit]

end Verif.Props.GdalEnvironment
