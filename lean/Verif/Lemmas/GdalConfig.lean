import Mathlib.Data.List.Basic
import Verif.Spec.GdalConfig

namespace Verif.GdalConfig

open Verif.Spec.GdalConfig

variable (fold : String → String)

theorem enterLoop_spec (d : Dict) (hd : DistinctOptions fold d) :
    ∀ (old : String → Option (Option String)) (cfg : Cfg),
      (∀ kv ∈ d, (enterLoop fold d old cfg).1 kv.1 = some (cfg (fold kv.1))) ∧
      (∀ kv ∈ d, (enterLoop fold d old cfg).2 (fold kv.1) = some kv.2) ∧
      (∀ k, k ∉ d.map Prod.fst → (enterLoop fold d old cfg).1 k = old k) ∧
      (∀ s, s ∉ slots fold d → (enterLoop fold d old cfg).2 s = cfg s) := by
  induction d with
  | nil => intro old cfg; simp [enterLoop]
  | cons kv rest ih =>
    obtain ⟨k, v⟩ := kv
    intro old cfg
    have hk : fold k ∉ slots fold rest := by
      have := List.nodup_cons.mp (show (fold k :: slots fold rest).Nodup from hd)
      exact this.1
    have hrest : DistinctOptions fold rest := by
      have := List.nodup_cons.mp (show (fold k :: slots fold rest).Nodup from hd)
      exact this.2
    have hk' : k ∉ rest.map Prod.fst := by
      intro hmem
      obtain ⟨kv, hkv, rfl⟩ := List.mem_map.mp hmem
      exact hk (List.mem_map.mpr ⟨kv, hkv, rfl⟩)
    obtain ⟨i1, i2, i3, i4⟩ := ih hrest (fun k' => if k' = k then some (getOpt fold cfg k) else old k')
      (setOpt fold cfg k (some v))
    simp only [enterLoop]
    refine ⟨?_, ?_, ?_, ?_⟩
    · intro kv hkv
      rcases List.mem_cons.mp hkv with rfl | hmem
      · rw [i3 k hk']; simp [getOpt]
      · rw [i1 kv hmem]
        have hne : fold kv.1 ≠ fold k := by
          intro he; exact hk (he ▸ List.mem_map.mpr ⟨kv, hmem, rfl⟩)
        simp [setOpt, hne]
    · intro kv hkv
      rcases List.mem_cons.mp hkv with rfl | hmem
      · rw [i4 _ hk]; simp [setOpt]
      · exact i2 kv hmem
    · intro k' hk'n
      simp only [List.map_cons, List.mem_cons, not_or] at hk'n
      rw [i3 k' hk'n.2]; simp [hk'n.1]
    · intro s hs
      simp only [slots, List.map_cons, List.mem_cons, not_or] at hs
      rw [i4 s hs.2]; simp [setOpt, hs.1]

theorem exitLoop_spec (d : Dict) (hd : DistinctOptions fold d)
    (old : String → Option (Option String)) (val : String → Option String)
    (hold : ∀ kv ∈ d, old kv.1 = some (val (fold kv.1))) :
    ∀ cfg : Cfg, (exitLoop fold old d cfg).2 = none ∧
      (∀ s ∈ slots fold d, (exitLoop fold old d cfg).1 s = val s) ∧
      (∀ s, s ∉ slots fold d → (exitLoop fold old d cfg).1 s = cfg s) := by
  induction d with
  | nil => intro cfg; simp [exitLoop, slots]
  | cons kv rest ih =>
    obtain ⟨k, v⟩ := kv
    intro cfg
    have hn := List.nodup_cons.mp (show (fold k :: slots fold rest).Nodup from hd)
    have ho : old k = some (val (fold k)) := hold (k, v) (by simp)
    obtain ⟨i1, i2, i3⟩ := ih hn.2 (fun kv hkv => hold kv (List.mem_cons_of_mem _ hkv))
      (setOpt fold cfg k (val (fold k)))
    simp only [exitLoop, ho]
    refine ⟨i1, ?_, ?_⟩
    · intro s hs
      simp only [slots, List.map_cons, List.mem_cons] at hs
      by_cases hmem : s ∈ slots fold rest
      · exact i2 s hmem
      · rcases hs with rfl | h
        · rw [i3 _ hmem]; simp [setOpt]
        · exact absurd h hmem
    · intro s hs
      simp only [slots, List.map_cons, List.mem_cons, not_or] at hs
      rw [i3 s hs.2]; simp [setOpt, hs.1]

/-- Whole-block effect of entering an environment. -/
theorem Env.enter_spec (e : Env) (he : DistinctOptions fold e.options) (cfg : Cfg) :
    (e.enter fold cfg).1.options = e.options ∧
    (∀ kv ∈ e.options, (e.enter fold cfg).1.old kv.1 = some (cfg (fold kv.1))) ∧
    (∀ kv ∈ e.options, (e.enter fold cfg).2 (fold kv.1) = some kv.2) ∧
    (∀ s, s ∉ slots fold e.options → (e.enter fold cfg).2 s = cfg s) := by
  obtain ⟨h1, h2, -, h4⟩ := enterLoop_spec fold e.options he e.old cfg
  exact ⟨rfl, h1, h2, h4⟩

theorem Env.exit_spec (e : Env) (he : DistinctOptions fold e.options) (val : String → Option String)
    (hold : ∀ kv ∈ e.options, e.old kv.1 = some (val (fold kv.1))) (cfg : Cfg) :
    (e.exit fold cfg).2 = none ∧
    (∀ s ∈ slots fold e.options, (e.exit fold cfg).1 s = val s) ∧
    (∀ s, s ∉ slots fold e.options → (e.exit fold cfg).1 s = cfg s) :=
  exitLoop_spec fold e.options he e.old val hold cfg

theorem dictSet_keys (d : Dict) (k v : String) :
    (dictSet d k v).map Prod.fst = if k ∈ d.map Prod.fst then d.map Prod.fst else d.map Prod.fst ++ [k] := by
  induction d with
  | nil => simp [dictSet]
  | cons kv rest ih =>
    obtain ⟨k', v'⟩ := kv
    by_cases h : k' = k
    · simp [dictSet, h]
    · simp only [dictSet, h, if_false, List.map_cons, List.mem_cons, ih]
      by_cases h' : k ∈ rest.map Prod.fst
      · simp [h']
      · simp [h', Ne.symm h]

theorem foldl_setOpt (l : Dict) (cfg : Cfg) (s : String) (hs : s ∉ slots fold l) :
    l.foldl (fun c kv => setOpt fold c kv.1 (some kv.2)) cfg s = cfg s := by
  induction l generalizing cfg with
  | nil => rfl
  | cons kv rest ih =>
    simp only [slots, List.map_cons, List.mem_cons, not_or] at hs
    simp only [List.foldl_cons]
    rw [ih _ hs.2]; simp [setOpt, hs.1]

theorem foldl_setOpt_mem (l : Dict) (hl : DistinctOptions fold l) (cfg : Cfg) (kv : String × String)
    (hkv : kv ∈ l) :
    l.foldl (fun c kv => setOpt fold c kv.1 (some kv.2)) cfg (fold kv.1) = some kv.2 := by
  induction l generalizing cfg with
  | nil => simp at hkv
  | cons kv' rest ih =>
    have hn := List.nodup_cons.mp (show (fold kv'.1 :: slots fold rest).Nodup from hl)
    simp only [List.foldl_cons]
    rcases List.mem_cons.mp hkv with rfl | hmem
    · rw [foldl_setOpt fold rest _ _ hn.1]; simp [setOpt]
    · exact ih hn.2 _ hmem

end Verif.GdalConfig
