import Verif.Model.Extensions
import Verif.Props.GdalUtils

/-!
# Theorems about the extension of an image
-/

namespace Verif.Props.Extensions

open Verif Verif.Extensions Verif.GdalUtils Verif.Props.GdalUtils Verif.Spec.GdalUtils

/-! ## The list of a driver -/

/-- The extensions in a text: the text without spaces at its ends is the extensions with one space between any two, and no extension has a space in it. -/
def IsList (text : List Char) (es : List (List Char)) : Prop :=
  es ≠ [] ∧ [' '].intercalate es = Verif.Des.strip text ∧ ∀ e ∈ es, ' ' ∉ e

theorem splitSpace_spec (s : List Char) : splitSpace s ≠ [] ∧ [' '].intercalate (splitSpace s) = s ∧ ∀ e ∈ splitSpace s, ' ' ∉ e := by
  induction s with
  | nil => simp [splitSpace, List.intercalate]
  | cons c cs ih =>
    obtain ⟨h1, h2, h3⟩ := ih
    unfold splitSpace
    cases hs : splitSpace cs with
    | nil => exact absurd hs h1
    | cons w ws =>
      rw [hs] at h2 h3
      by_cases hc : c = ' '
      · subst hc
        simp only [if_true]
        refine ⟨by simp, ?_, ?_⟩
        · rw [← h2]
          simp [List.intercalate]
        · intro e he
          rcases List.mem_cons.1 he with rfl | he
          · simp
          · exact h3 e he
      · simp only [if_neg hc]
        refine ⟨by simp, ?_, ?_⟩
        · rw [← h2]
          cases ws <;> simp [List.intercalate]
        · intro e he
          rcases List.mem_cons.1 he with rfl | he
          · have := h3 w (by simp)
            simp only [List.mem_cons, not_or]
            exact ⟨Ne.symm hc, this⟩
          · exact h3 e (by simp [he])

/-- There is one such list. -/
theorem intercalate_inj (es fs : List (List Char)) (he : es ≠ []) (hf : fs ≠ []) (h1 : ∀ e ∈ es, ' ' ∉ e) (h2 : ∀ e ∈ fs, ' ' ∉ e)
    (h : [' '].intercalate es = [' '].intercalate fs) : es = fs := by
  have key : ∀ es : List (List Char), es ≠ [] → (∀ e ∈ es, ' ' ∉ e) → splitSpace ([' '].intercalate es) = es := by
    have one : ∀ e : List Char, ' ' ∉ e → splitSpace e = [e] := by
      intro e
      induction e with
      | nil => intro _; rfl
      | cons c cs ih =>
        intro hc
        simp only [List.mem_cons, not_or] at hc
        unfold splitSpace
        rw [ih hc.2]
        simp only [if_neg (Ne.symm hc.1)]
    have app : ∀ (e rest : List Char), ' ' ∉ e → splitSpace (e ++ ' ' :: rest) = e :: splitSpace rest := by
      intro e rest
      induction e with
      | nil =>
        intro _
        have : splitSpace (' ' :: rest) = match splitSpace rest with
          | [] => [[' ']]
          | w :: ws => if ' ' = ' ' then [] :: w :: ws else (' ' :: w) :: ws := rfl
        rw [List.nil_append, this]
        cases hs : splitSpace rest with
        | nil => exact absurd hs (splitSpace_spec rest).1
        | cons w ws => simp
      | cons c cs ih =>
        intro hc
        simp only [List.mem_cons, not_or] at hc
        have : splitSpace (c :: (cs ++ ' ' :: rest)) = match splitSpace (cs ++ ' ' :: rest) with
          | [] => [[c]]
          | w :: ws => if c = ' ' then [] :: w :: ws else (c :: w) :: ws := rfl
        rw [List.cons_append, this, ih hc.2]
        simp only [if_neg (Ne.symm hc.1)]
    intro es
    induction es with
    | nil => intro h; exact absurd rfl h
    | cons e es ih =>
      intro _ hes
      cases es with
      | nil => simpa [List.intercalate] using one e (hes e (by simp))
      | cons f fs =>
        have : [' '].intercalate (e :: f :: fs) = e ++ ' ' :: [' '].intercalate (f :: fs) := by simp [List.intercalate]
        rw [this, app e _ (hes e (by simp)), ih (by simp) (fun x hx => hes x (by simp [hx]))]
  rw [← key es he h1, h, key fs hf h2]

/-! ## The driver of a file -/

/-- The extensions of a driver name: those of the last registered driver with this name that has a text for them. -/
def Lists (drivers : List Driver) (name : Option (List Char)) (es : List (List Char)) : Prop :=
  ∃ before d after text, drivers = before ++ d :: after ∧ d.name = name ∧ d.extensions = some text ∧ text ≠ [] ∧ IsList text es ∧
    ∀ d' ∈ after, d'.name = name → d'.extensions = none ∨ d'.extensions = some []

/-- No driver of this name has a text for its extensions. -/
def Silent (drivers : List Driver) (name : Option (List Char)) : Prop := ∀ d ∈ drivers, d.name = name → d.extensions = none ∨ d.extensions = some []

theorem lookup_spec (drivers : List Driver) (name : Option (List Char)) :
    (∃ es, (driverExtensions drivers).lookup name = some es ∧ Lists drivers name es) ∨ ((driverExtensions drivers).lookup name = none ∧ Silent drivers name) := by
  unfold driverExtensions
  induction drivers using List.reverseRecOn with
  | nil => exact .inr ⟨rfl, fun d hd => by simp at hd⟩
  | append_singleton ds d ih =>
    rw [List.foldl_append, List.foldl_cons, List.foldl_nil]
    generalize List.foldl addDriver [] ds = t at ih
    have silent : (d.name = name → d.extensions = none ∨ d.extensions = some []) → (addDriver t d).lookup name = t.lookup name →
        (∃ es, (addDriver t d).lookup name = some es ∧ Lists (ds ++ [d]) name es) ∨ ((addDriver t d).lookup name = none ∧ Silent (ds ++ [d]) name) := by
      intro h1 h2
      rw [h2]
      rcases ih with ⟨es, h3, b, d0, a, text, rfl, h4, h5, h6, h7, h8⟩ | ⟨h3, h4⟩
      · refine .inl ⟨es, h3, b, d0, a ++ [d], text, by simp, h4, h5, h6, h7, ?_⟩
        intro d' hd' hn
        rcases List.mem_append.1 hd' with h | h
        · exact h8 d' h hn
        · rw [List.mem_singleton.1 h] at hn ⊢
          exact h1 hn
      · refine .inr ⟨h3, ?_⟩
        intro d' hd' hn
        rcases List.mem_append.1 hd' with h | h
        · exact h4 d' h hn
        · rw [List.mem_singleton.1 h] at hn ⊢
          exact h1 hn
    rcases he : d.extensions with _ | _ | ⟨c, cs⟩
    · exact silent (fun _ => .inl he) (by unfold addDriver; rw [he])
    · exact silent (fun _ => .inr he) (by unfold addDriver; rw [he])
    · have hadd : addDriver t d = (d.name, splitSpace (Verif.Des.strip (c :: cs))) :: t := by unfold addDriver; rw [he]
      by_cases hn : d.name = name
      · left
        refine ⟨splitSpace (Verif.Des.strip (c :: cs)), ?_, ds, d, [], c :: cs, rfl, hn, he, by simp, splitSpace_spec _, by simp⟩
        rw [hadd, List.lookup_cons, hn]
        simp
      · refine silent (fun h => absurd h hn) ?_
        rw [hadd, List.lookup_cons]
        have : (name == d.name) = false := beq_eq_false_iff_ne.2 (Ne.symm hn)
        rw [this]

theorem lists_unique (drivers : List Driver) (name : Option (List Char)) (es fs : List (List Char)) (h1 : Lists drivers name es) (h2 : Lists drivers name fs) : es = fs := by
  obtain ⟨b, d, a, t, rfl, hd, ht, hne, ⟨e1, e2, e3⟩, hs⟩ := h1
  obtain ⟨b', d', a', t', h, hd', ht', hne', ⟨f1, f2, f3⟩, hs'⟩ := h2
  have hdd : d = d' := by
    rcases List.append_eq_append_iff.1 h with ⟨m, hm1, hm2⟩ | ⟨m, hm1, hm2⟩
    · cases m with
      | nil => simp only [List.nil_append, List.cons.injEq] at hm2; exact hm2.1
      | cons x m =>
        simp only [List.cons_append, List.cons.injEq] at hm2
        have : d' ∈ a := by rw [hm2.2]; simp
        rcases hs d' this hd' with h | h
        · rw [ht'] at h; cases h
        · rw [ht'] at h; cases h; exact absurd rfl hne'
    · cases m with
      | nil => simp only [List.nil_append, List.cons.injEq] at hm2; exact hm2.1.symm
      | cons x m =>
        simp only [List.cons_append, List.cons.injEq] at hm2
        have : d ∈ a' := by rw [hm2.2]; simp
        rcases hs' d this hd with h | h
        · rw [ht] at h; cases h
        · rw [ht] at h; cases h; exact absurd rfl hne
  subst hdd
  rw [ht] at ht'
  cases ht'
  exact intercalate_inj es fs e1 f1 e3 f3 (e2.trans f2.symm)

/-! ## The extension of an image -/

theorem select_mem (path : List Char) (es : List (List Char)) (hne : es ≠ []) : ∃ e ∈ es, selectExtension path es = upper e := by
  cases es with
  | nil => exact absurd rfl hne
  | cons first es =>
    unfold selectExtension
    rw [List.zipIdx_cons, List.foldl_cons, select_fold]
    simp only [if_true]
    have key : ∀ (es : List (List Char)) (init : List Char), es.foldl (fun sel e => if upper ('.' :: e) <:+: upper path then upper e else sel) init = init ∨
        ∃ e ∈ es, es.foldl (fun sel e => if upper ('.' :: e) <:+: upper path then upper e else sel) init = upper e := by
      intro es
      induction es with
      | nil => intro init; exact .inl rfl
      | cons e es ih =>
        intro init
        rw [List.foldl_cons]
        rcases ih (if upper ('.' :: e) <:+: upper path then upper e else init) with h | ⟨f, hf, h⟩
        · rw [h]
          split_ifs
          · exact .inr ⟨e, by simp, rfl⟩
          · exact .inl rfl
        · exact .inr ⟨f, by simp [hf], h⟩
    rcases key es (upper first) with h | ⟨e, he, h⟩
    · exact ⟨first, by simp, h⟩
    · exact ⟨e, by simp [he], h⟩

theorem normalize_upper (s : List Char) : normalizeExtension (upper s) = normalizeExtension s := normalize_ignores_case _ _ (upper_upper s)

/-- **C130** (in part): the extension of an image that GDAL can open is that of a driver of the name that GDAL gives: one of the driver's own extensions in its normal form, or UNKNOWN when there is none.
If all of them have the same normal form, it is this form, whatever the path.  Otherwise it is the last one in the list, after the first, that the path has after a dot, or else the first.  Only files
that GDAL cannot open raise.

Missing: that the ending of the path decides, which is false, see `select_not_by_ending` and `empty_extension`. -/
theorem image_extension_partial (drivers : List Driver) (info : List Char → Except PyErr (Option (Option (List Char)))) (path : List Char) :
    (∀ e, info path = .error e → imageExtension drivers info path = .error e) ∧
    (info path = .ok none → imageExtension drivers info path = .error .attributeError) ∧
    ∀ name, info path = .ok (some name) →
      (Silent drivers name → imageExtension drivers info path = .ok "UNKNOWN".toList) ∧
      ∀ es, Lists drivers name es →
        (∃ e ∈ es, imageExtension drivers info path = .ok (normalizeExtension e)) ∧
        (∀ N, (∀ e ∈ es, normalizeExtension e = N) → imageExtension drivers info path = .ok N) ∧
        (∀ first rest, es = first :: rest → (∀ e ∈ rest, ¬ Mentions path ('.' :: e)) → imageExtension drivers info path = .ok (normalizeExtension first)) ∧
        ∀ first before e after, es = first :: (before ++ e :: after) → Mentions path ('.' :: e) → (∀ e' ∈ after, ¬ Mentions path ('.' :: e')) →
          imageExtension drivers info path = .ok (normalizeExtension e) := by
  refine ⟨fun e h => ?_, fun h => ?_, fun name h => ?_⟩
  · unfold imageExtension extensionsFromDriver
    rw [h]
    rfl
  · unfold imageExtension extensionsFromDriver
    rw [h]
    rfl
  · have hval : imageExtension drivers info path = .ok (normalizeExtension (selectExtension path (((driverExtensions drivers).lookup name).getD []))) := by
      unfold imageExtension extensionsFromDriver
      rw [h]
      rfl
    rw [hval]
    constructor
    · intro hs
      rcases lookup_spec drivers name with ⟨es, -, b, d, a, t, rfl, h1, h2, h3, -, -⟩ | ⟨h1, -⟩
      · exfalso
        rcases hs d (by simp) h1 with h | h
        · rw [h2] at h; cases h
        · rw [h2] at h; cases h; exact h3 rfl
      · rw [h1, Option.getD_none, select_empty]
        decide +kernel
    · intro es hes
      have hl : (driverExtensions drivers).lookup name = some es := by
        rcases lookup_spec drivers name with ⟨fs, h1, h2⟩ | ⟨-, h2⟩
        · rw [h1, lists_unique drivers name es fs hes h2]
        · exfalso
          obtain ⟨b, d, a, t, rfl, k1, k2, k3, -, -⟩ := hes
          rcases h2 d (by simp) k1 with h | h
          · rw [k2] at h; cases h
          · rw [k2] at h; cases h; exact k3 rfl
      have hne : es ≠ [] := by
        obtain ⟨_, _, _, _, _, _, _, _, ⟨h, -⟩, _⟩ := hes
        exact h
      rw [hl, Option.getD_some]
      obtain ⟨e, he, hsel⟩ := select_mem path es hne
      refine ⟨⟨e, he, by rw [hsel, normalize_upper]⟩, fun N hN => by rw [hsel, normalize_upper, hN e he], ?_, ?_⟩
      · rintro first rest rfl hno
        rw [select_first path first rest hno]
        exact congrArg _ (normalize_upper first)
      · rintro first before e after rfl hm hno
        rw [select_last_mentioned path first e before after hm hno]
        exact congrArg _ (normalize_upper e)

/-- Drivers for the examples. -/
def someDrivers : List Driver :=
  [⟨some "GeoTIFF".toList, some "tif tiff".toList⟩, ⟨some "National Imagery Transmission Format".toList, some " ntf ".toList⟩, ⟨some "In Memory Raster".toList, none⟩,
   ⟨some "JPEG-2000".toList, some "jp2 j2k".toList⟩]

/-- A GeoTIFF file with another ending, a JPEG-2000 file, and a file of a driver without extensions. -/
example : imageExtension someDrivers (fun _ => .ok (some (some "GeoTIFF".toList))) "a/b.ntf".toList = .ok "TIFF".toList ∧
    imageExtension someDrivers (fun _ => .ok (some (some "JPEG-2000".toList))) "a/b.J2K".toList = .ok "J2K".toList ∧
    imageExtension someDrivers (fun _ => .ok (some (some "In Memory Raster".toList))) "a/b.ntf".toList = .ok "UNKNOWN".toList := by decide +kernel

/-- The premise about GeoTIFF. -/
example : imageExtension someDrivers (fun _ => .ok (some (some "GeoTIFF".toList))) "a/b.ntf".toList = .ok "TIFF".toList := by
  refine (((image_extension_partial someDrivers _ _).2.2 (some "GeoTIFF".toList) rfl).2 ["tif".toList, "tiff".toList]
    ⟨[], ⟨some "GeoTIFF".toList, some "tif tiff".toList⟩, someDrivers.tail, "tif tiff".toList, rfl, rfl, rfl, by decide, ⟨by decide, by decide +kernel, by decide +kernel⟩, ?_⟩).2.1
    "TIFF".toList (by decide +kernel)
  decide +kernel

/-- **C130** is false for lists with two spaces between extensions: the empty extension is taken for a path with a dot. -/
theorem empty_extension : ∃ drivers info path name, info path = .ok (some name) ∧ (∃ d ∈ drivers, d.name = name ∧ d.extensions = some "dat  img".toList) ∧ ".dat".toList <:+ path ∧
    imageExtension drivers info path = .ok [] :=
  ⟨[⟨some "X".toList, some "dat  img".toList⟩], fun _ => .ok (some (some "X".toList)), "a.dat".toList, some "X".toList, rfl, by decide +kernel, by decide +kernel, by decide +kernel⟩

end Verif.Props.Extensions
