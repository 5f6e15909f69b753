import Verif.Spec.Des
import Verif.Props.Tre
import Verif.Lemmas.Coordinates

/-!
# Theorems about data extension segments
-/

namespace Verif.Props.Des

open Verif.Tre Verif.Des Verif.Spec.Tre Verif.Spec.Des Verif.Props.Tre
open Verif.Coordinates (fmt0d zfill)

/-! ## Headers (C38) -/

theorem padLeft_length (n : Nat) (s : List Char) : (padLeft n s).length = max n s.length := by
  unfold padLeft; simp; omega

theorem padLeft_right (n : Nat) (s : List Char) (h : s.length ≤ n) : RightJustified n s (padLeft n s) :=
  ⟨by rw [padLeft_length]; omega, _, rfl⟩

theorem textField_ok (des : Xml) (f : String × Nat) (out : List Char) :
    textField des f = .ok out ↔ ∃ s, HasField des f.1 some s ∧ out = padLeft f.2 s.toList := by
  unfold textField
  simp only [bind_ok, pure_ok, fieldValue_ok]
  constructor
  · rintro ⟨a, h, rfl⟩; exact ⟨a, h, rfl⟩
  · rintro ⟨a, h, rfl⟩; exact ⟨a, h, rfl⟩

theorem cut_flatten (ws : List Nat) (ps : List (List Char)) (last : List Char)
    (h : List.Forall₂ (fun w (p : List Char) => p.length = w) ws ps) : cut ws (ps.flatten ++ last) = ps ++ [last] := by
  induction h with
  | nil => rfl
  | cons h1 _ ih =>
    subst h1
    simp only [cut, List.flatten_cons, List.append_assoc, List.take_left, List.drop_left, List.cons_append, ih]

theorem fmt0d_decimal (w n : Nat) (hw : 0 < w) (h : n < 10 ^ w) : Decimal w n (fmt0d w (n : Int)) := by
  rw [Verif.Coordinates.fmt0d_nonneg w n (by omega)]
  simp only [Int.natAbs_natCast]
  exact ⟨Verif.Coordinates.zfill_length w n hw h, Verif.Coordinates.zfill_digits w n, by
    have := Verif.Coordinates.number_zfill w n
    rwa [Verif.Coordinates.number_eq] at this⟩

theorem forall2_exists {α β : Type} (R : α → β → Prop) (l : List α) (h : ∀ a ∈ l, ∃ b, R a b) : ∃ bs, List.Forall₂ R l bs := by
  induction l with
  | nil => exact ⟨[], .nil⟩
  | cons a l ih =>
    obtain ⟨b, hb⟩ := h a (by simp)
    obtain ⟨bs, hbs⟩ := ih (fun x hx => h x (by simp [hx]))
    exact ⟨b :: bs, .cons hb hbs⟩

def padded (fs : List (String × Nat)) (texts : List String) : List (List Char) :=
  (fs.zip texts).map (fun f => padLeft f.1.2 f.2.toList)

theorem padded_ok (des : Xml) (fs : List (String × Nat)) (texts : List String)
    (h : List.Forall₂ (fun f s => HasField des f.1 some s ∧ s.toList.length ≤ f.2) fs texts) :
    fs.mapM (textField des) = .ok (padded fs texts) ∧
    List.Forall₂ (fun w (p : List Char) => p.length = w) (fs.map Prod.snd) (padded fs texts) ∧
    (padded fs texts).map List.length = fs.map Prod.snd ∧
    List.Forall₂ (fun (f : (String × Nat) × String) out => RightJustified f.1.2 f.2.toList out) (fs.zip texts) (padded fs texts) := by
  rw [mapM_ok]
  induction h with
  | nil => exact ⟨.nil, .nil, rfl, .nil⟩
  | cons h _ ih =>
    obtain ⟨i1, i2, i3, i4⟩ := ih
    refine ⟨.cons ((textField_ok ..).2 ⟨_, h.1, rfl⟩) i1, .cons (by have := h.2; simp only [padLeft_length]; omega) i2, ?_, .cons (padLeft_right _ _ h.2) i4⟩
    unfold padded at i3 ⊢
    simp only [List.zip_cons_cons, List.map_cons, i3, padLeft_length]
    congr 1; omega

/-- **C38** (in part): when every value fits into its columns, the header is 173 + DESSHL characters
long, and cutting it at the columns of the standard gives the version and length as zero-filled
decimals, and every text value, filled up with blanks.  Missing: values that do not fit, see
`overlong_value_shifts_header`. -/
theorem header_layout_partial (c : Conv) (des : Xml) (ver n : Nat) (texts : List String) (user : String)
    (hver : HasField des "DESVER" c.int (ver : Int)) (hver' : ver < 100) (hn : HasField des "DESSHL" c.int (n : Int)) (hn' : n < 10000)
    (htexts : List.Forall₂ (fun f s => HasField des f.1 some s ∧ s.toList.length ≤ f.2) ((columns.drop 1).take 16) texts)
    (huser : (0 < n → HasField des "DESSHF" some user) ∧ (n = 0 → user = "")) (huser' : user.toList.length ≤ n) :
    ∃ s v outs l u, header c des = .ok s ∧ s.length = 173 + n ∧ cut (columns.map Prod.snd) s = v :: outs ++ [l, u] ∧
      Decimal 2 ver v ∧ Decimal 4 n l ∧ RightJustified n user.toList u ∧
      List.Forall₂ (fun (f : (String × Nat) × String) out => RightJustified f.1.2 f.2.toList out) (((columns.drop 1).take 16).zip texts) outs := by
  have hcol : (columns.drop 1).take 16 = textFields := by decide +kernel
  rw [hcol] at htexts ⊢
  obtain ⟨h1, h3, h4, h5⟩ := padded_ok des textFields texts htexts
  have h2 : (if (n : Int) > 0 then textField des ("DESSHF", (n : Int).toNat) else pure []) = .ok (padLeft n user.toList) := by
    by_cases h0 : 0 < n
    · rw [if_pos (by omega), textField_ok]
      exact ⟨user, huser.1 h0, by simp⟩
    · have : n = 0 := by omega
      subst this
      rw [if_neg (by omega), pure_ok, huser.2 rfl]
      rfl
  have hd2 := fmt0d_decimal 2 ver (by omega) (by omega)
  have hd4 := fmt0d_decimal 4 n (by omega) (by omega)
  have hcut := cut_flatten (columns.map Prod.snd) (fmt0d 2 (ver : Int) :: (padded textFields texts ++ [fmt0d 4 (n : Int)])) (padLeft n user.toList) (by
      have : columns.map Prod.snd = 2 :: (textFields.map Prod.snd ++ [4]) := by decide +kernel
      rw [this]
      exact .cons hd2.1 (List.rel_append h3 (.cons hd4.1 .nil)))
  refine ⟨fmt0d 2 (ver : Int) ++ (padded textFields texts).flatten ++ fmt0d 4 (n : Int) ++ padLeft n user.toList,
    fmt0d 2 (ver : Int), padded textFields texts, fmt0d 4 (n : Int), padLeft n user.toList, ?_, ?_, ?_, hd2, hd4,
    padLeft_right n _ huser', h5⟩
  · unfold header
    rw [(fieldValue_ok ..).2 hver, (fieldValue_ok ..).2 hn, h1]
    simp only [bind, Except.bind]
    rw [h2]
    rfl
  · simp only [List.length_append, hd2.1, hd4.1, padLeft_length, List.length_flatten, h4]
    have : (textFields.map Prod.snd).sum = 167 := by decide +kernel
    omega
  · have e : fmt0d 2 (ver : Int) ++ (padded textFields texts).flatten ++ fmt0d 4 (n : Int) ++ padLeft n user.toList =
        (fmt0d 2 (ver : Int) :: (padded textFields texts ++ [fmt0d 4 (n : Int)])).flatten ++ padLeft n user.toList := by
      simp [List.flatten_append]
    rw [e, hcut]
    simp

theorem fmt0d_length (w : Nat) (n : Int) (hw : 0 < w) : w ≤ (fmt0d w n).length := by
  unfold fmt0d
  split <;> simp [zfill] <;> omega

/-- **C38** is false for values that do not fit: nothing is cut off, the header is longer than
173 + DESSHL and every later field is shifted. -/
theorem overlong_value_shifts_header (c : Conv) (des : Xml) (s : List Char) (n : Nat) (hs : header c des = .ok s)
    (hn : HasField des "DESSHL" c.int (n : Int)) (f : String × Nat) (hf : f ∈ textFields) (v : String) (hv : HasField des f.1 some v)
    (hlong : f.2 < v.toList.length) : 173 + n < s.length := by
  unfold header at hs
  simp only [bind_ok, pure_ok, mapM_ok, textField_ok] at hs
  obtain ⟨ver, -, texts, ht, n', hn', user, hu, rfl⟩ := hs
  have huniq : ∀ {α : Type} (t : Xml) (name : String) (g : String → Option α) (a b : α), HasField t name g a → HasField t name g b → a = b := by
    intro α t name g a b ha hb
    rw [← fieldValue_ok] at ha hb
    rw [ha] at hb
    simpa using hb
  rw [fieldValue_ok] at hn'
  have : n' = n := huniq _ _ _ _ _ hn' hn
  subst this
  have hul : n ≤ user.length := by
    split at hu
    · rw [textField_ok] at hu
      obtain ⟨w, -, rfl⟩ := hu
      rw [padLeft_length]; omega
    · rw [pure_ok] at hu; omega
  have h2 := fmt0d_length 2 ver (by omega)
  have h4 := fmt0d_length 4 n (by omega)
  have key : ∀ (fs : List (String × Nat)) (texts : List (List Char)), List.Forall₂ (fun a b => ∃ s, HasField des a.1 some s ∧ b = padLeft a.2 s.toList) fs texts →
      (fs.map Prod.snd).sum ≤ texts.flatten.length ∧ (f ∈ fs → (fs.map Prod.snd).sum < texts.flatten.length) := by
    intro fs texts h
    induction h with
    | nil => simp
    | cons h _ ih =>
      rename_i a b as bs _
      obtain ⟨w, hw, rfl⟩ := h
      simp only [List.map_cons, List.sum_cons, List.flatten_cons, List.length_append, padLeft_length]
      refine ⟨by omega, fun hmem => ?_⟩
      rcases List.mem_cons.1 hmem with rfl | hmem
      · have := huniq _ _ _ _ _ hw hv
        subst this
        omega
      · have := ih.2 hmem; omega
  have := (key _ _ ht).2 hf
  have hsum : (textFields.map Prod.snd).sum = 167 := by decide +kernel
  simp only [List.length_append]
  omega

/-- **C79** is false: a text value that is shorter than its columns starts with a blank in the
header, so it is not left justified as the standard requires.  Empty values and values of full
width are written correctly. -/
theorem text_fields_not_left_justified (w : Nat) (v : List Char) (c : Char) (rest out : List Char) (hout : RightJustified w v out) :
    (v = c :: rest → c ≠ ' ' → v.length < w → ¬ LeftJustified w v out) ∧ ((v = [] ∨ v.length = w) → LeftJustified w v out) := by
  obtain ⟨hl, k, rfl⟩ := hout
  constructor
  · rintro rfl hc hlt ⟨-, k', h⟩
    rw [List.length_append, List.length_replicate] at hl
    cases k with
    | zero => omega
    | succ k =>
      simp only [List.replicate_succ, List.cons_append, List.cons.injEq] at h
      exact hc h.1.symm
  · intro hv
    rw [List.length_append, List.length_replicate] at hl
    rcases hv with rfl | hv
    · exact ⟨by simpa using hl, k, by simp⟩
    · have : k = 0 := by omega
      subst this
      exact ⟨by simpa using hl, 0, by simp⟩

theorem left_justified_iff (w : Nat) (v out : List Char) (hout : RightJustified w v out) :
    LeftJustified w v out ↔ v.length = w ∨ ∀ c ∈ v, c = ' ' := by
  obtain ⟨hl, k, rfl⟩ := hout
  rw [List.length_append, List.length_replicate] at hl
  constructor
  · rintro ⟨-, k', h⟩
    by_cases hk : v.length = w
    · exact Or.inl hk
    · right
      have hkk : k' = k := by
        have := congrArg List.length h
        simp only [List.length_append, List.length_replicate] at this
        omega
      subst hkk
      have hpos : 0 < k' := by omega
      -- the characters of `v` are those of a sequence that starts with a blank and is shifted by `k'`
      have key : ∀ i (hi : i < v.length), v[i] = ' ' := by
        intro i
        induction i using Nat.strong_induction_on with
        | _ i ih =>
          intro hi
          have e : (List.replicate k' ' ' ++ v)[i]? = (v ++ List.replicate k' ' ')[i]? := by rw [h]
          rw [List.getElem?_append_left hi, List.getElem?_eq_getElem hi] at e
          by_cases hik : i < k'
          · rw [List.getElem?_append_left (by simpa using hik), List.getElem?_replicate, if_pos hik] at e
            exact (Option.some.inj e).symm
          · rw [List.getElem?_append_right (by simpa using hik), List.length_replicate,
              List.getElem?_eq_getElem (by omega)] at e
            rw [← Option.some.inj e]
            exact ih (i - k') (by omega) (by omega)
      intro c hc
      obtain ⟨i, hi, rfl⟩ := List.mem_iff_getElem.1 hc
      exact key i hi
  · rintro (h | h)
    · have : k = 0 := by omega
      subst this
      exact ⟨by simpa using hl, 0, by simp⟩
    · refine ⟨by simpa using hl, k, ?_⟩
      have : v = List.replicate v.length ' ' := List.eq_replicate_iff.2 ⟨rfl, h⟩
      rw [this, List.replicate_append_replicate, List.replicate_append_replicate, Nat.add_comm]

/-- **C79**, the exact extent of what holds: in the header of a DES whose values fit their columns, a text field is left justified if and only if its value fills its
columns or has only blanks. -/
theorem text_fields_left_justified_iff_partial (c : Conv) (des : Xml) (ver n : Nat) (texts : List String) (user : String)
    (hver : HasField des "DESVER" c.int (ver : Int)) (hver' : ver < 100) (hn : HasField des "DESSHL" c.int (n : Int)) (hn' : n < 10000)
    (htexts : List.Forall₂ (fun f s => HasField des f.1 some s ∧ s.toList.length ≤ f.2) ((columns.drop 1).take 16) texts)
    (huser : (0 < n → HasField des "DESSHF" some user) ∧ (n = 0 → user = "")) (huser' : user.toList.length ≤ n) :
    ∃ s v outs l u, header c des = .ok s ∧ cut (columns.map Prod.snd) s = v :: outs ++ [l, u] ∧
      List.Forall₂ (fun (f : (String × Nat) × String) out =>
        LeftJustified f.1.2 f.2.toList out ↔ f.2.toList.length = f.1.2 ∨ ∀ ch ∈ f.2.toList, ch = ' ') (((columns.drop 1).take 16).zip texts) outs := by
  obtain ⟨s, v, outs, l, u, h1, -, h3, -, -, -, h7⟩ := header_layout_partial c des ver n texts user hver hver' hn hn' htexts huser huser'
  exact ⟨s, v, outs, l, u, h1, h3, h7.imp (fun f out hr => left_justified_iff _ _ _ hr)⟩

/-! ### Examples -/

/-- A DES with all fields; `declas` and `code` are given. -/
def demoDes (declas code : String) : Xml :=
  .node "des" [("name", "XML_DATA_CONTENT")] ([field "DESVER" "1", field "DECLAS" declas, field "DESCODE" code] ++
    ["DESCLSY", "DESCTLH", "DESREL", "DESDCTP", "DESDCDT", "DESDCXM", "DESDG", "DESDGDT", "DESCLTX", "DESCATP", "DESCAUT",
     "DESCRSN", "DESSRDT", "DESCTLN"].map (field · "") ++ [field "DESSHL" "2", field "DESSHF" "ab"])

/-- The premises of `header_layout_partial` are met. -/
example : ∃ s, header demoReal (demoDes "U" "XY") = .ok s ∧ s.length = 175 := ⟨_, rfl, rfl⟩

/-- An overlong DECLAS. -/
example : ∃ s, header demoReal (demoDes "UU" "XY") = .ok s ∧ s.length = 176 := ⟨_, rfl, rfl⟩

/-- The code "XY" of the first example is right justified in its eleven columns. -/
example : RightJustified 11 "XY".toList "         XY".toList ∧ ¬ LeftJustified 11 "XY".toList "         XY".toList := by
  have h : RightJustified 11 "XY".toList "         XY".toList := ⟨rfl, 9, rfl⟩
  exact ⟨h, (text_fields_not_left_justified 11 _ 'X' ['Y'] _ h).1 rfl (by decide) (by decide)⟩

/-! ## Segments and prologs (C39) -/

/-- **C39**: the segments are those with the name, in document order. -/
theorem segments_in_order (lists : List Xml) (name : String) :
    segments lists name = lists.flatMap (fun l => allNamed l "des" name) := by
  unfold segments
  simp only [findall_eq]
  have : ∀ acc, lists.foldl (fun acc l => acc ++ allNamed l "des" name) acc = acc ++ lists.flatMap (fun l => allNamed l "des" name) := by
    induction lists with
    | nil => simp
    | cons l ls ih => intro acc; simp [ih]
  simpa using this []

example : (segments [.node "l" [] [demoDes "a" "", .node "x" [] [], demoDes "b" ""], .node "l" [] [demoDes "c" ""]] "XML_DATA_CONTENT").map
    (fun d => fieldValue d "DECLAS" some) = [.ok "a", .ok "b", .ok "c"] := by rfl

theorem removeProlog_none (c : Char) (rest : List Char) (h : openProlog (c :: rest) = none) :
    removeProlog (c :: rest) = c :: removeProlog rest := by
  rw [removeProlog]
  split
  · rename_i a ha; rw [h] at ha; simp at ha
  · rfl

theorem removeProlog_some (c : Char) (rest after : List Char) (h : openProlog (c :: rest) = some after) :
    removeProlog (c :: rest) = removeProlog after := by
  rw [removeProlog]
  split
  · rename_i a ha; rw [h] at ha; simp only [Option.some.injEq] at ha; rw [ha]
  · rename_i ha; rw [h] at ha; simp at ha

theorem openProlog_prefix (s after : List Char) (h : openProlog s = some after) : "<?xml".toList <+: s := by
  unfold openProlog at h
  split at h
  · rename_i hp; exact List.isPrefixOf_iff_prefix.1 hp
  · simp at h

theorem removeProlog_plain (s : List Char) (h : ¬ HasDeclaration s) : removeProlog s = s := by
  induction s with
  | nil => simp [removeProlog]
  | cons c rest ih =>
    have hn : openProlog (c :: rest) = none := by
      cases ho : openProlog (c :: rest) with
      | none => rfl
      | some a => exact absurd (openProlog_prefix _ _ ho).isInfix h
    rw [removeProlog_none c rest hn, ih]
    intro hi
    exact h (hi.trans (List.suffix_cons c rest).isInfix)

theorem mem_takeWhile (p : Char → Bool) (l : List Char) (c : Char) (h : c ∈ l.takeWhile p) : p c = true := by
  induction l with
  | nil => simp at h
  | cons d l ih =>
    rw [List.takeWhile_cons] at h
    split at h
    · rcases List.mem_cons.1 h with rfl | h
      · assumption
      · exact ih h
    · simp at h

theorem strip_trimmed (s : List Char) : Trimmed s (strip s) := by
  unfold strip
  set t := s.dropWhile isSpace with ht
  have h1 : s = s.takeWhile isSpace ++ t := (List.takeWhile_append_dropWhile).symm
  have h2 : t = (t.reverse.dropWhile isSpace).reverse ++ (t.reverse.takeWhile isSpace).reverse := by
    rw [← List.reverse_append, List.takeWhile_append_dropWhile, List.reverse_reverse]
  refine ⟨⟨s.takeWhile isSpace, (t.reverse.takeWhile isSpace).reverse, ?_, ?_, ?_⟩, ?_, ?_⟩
  · rw [List.append_assoc, ← h2]; exact h1
  · intro c hc; exact mem_takeWhile isSpace _ c hc
  · intro c hc; exact mem_takeWhile isSpace _ c (List.mem_reverse.1 hc)
  · intro c hc
    cases hr : (t.reverse.dropWhile isSpace).reverse with
    | nil => rw [hr] at hc; simp at hc
    | cons d ds =>
      rw [hr] at hc
      simp only [List.head?_cons, Option.some.injEq] at hc
      subst hc
      have : t.head? = some d := by rw [h2, hr]; simp
      have h3 := List.head?_dropWhile_not isSpace s
      rw [← ht, this] at h3
      simpa using h3
  · intro c hc
    rw [List.getLast?_reverse] at hc
    have h3 := List.head?_dropWhile_not isSpace t.reverse
    rw [hc] at h3
    simpa using h3

/-- **C39**: texts without an XML declaration are parsed as they are, up to white space around them. -/
theorem no_declaration_unchanged (metadata : List (List Char)) (h : ∀ s ∈ metadata, ¬ HasDeclaration s) :
    ∃ texts, List.Forall₂ Trimmed metadata texts ∧ ∀ parse, parsedLists parse metadata = texts.mapM parse := by
  refine ⟨metadata.map (fun s => strip (removeProlog s)), ?_, fun parse => by unfold parsedLists; rw [List.mapM_map]; rfl⟩
  rw [List.forall₂_map_right_iff, List.forall₂_same]
  intro s hs
  rw [removeProlog_plain s (h s hs)]
  exact strip_trimmed s

example : removeProlog "<SICD/>".toList = "<SICD/>".toList := by decide +kernel

theorem plain_suffix (a b : List Char) (h : Plain (a ++ b)) : Plain b := by
  intro x y hxy hy
  exact h (a ++ x) y (by rw [hxy, List.append_assoc]) hy

theorem plain_cons_open (c : Char) (t rest : List Char) (h : Plain (c :: t)) : openProlog (c :: t ++ rest) = none := by
  cases ho : openProlog (c :: t ++ rest) with
  | none => rfl
  | some a =>
    exfalso
    have hp := openProlog_prefix _ _ ho
    obtain ⟨h1, h2⟩ := h [] (c :: t) rfl (by simp)
    rcases List.prefix_or_prefix_of_prefix hp (List.prefix_append (c :: t) rest) with h | h
    · exact h1 h
    · exact h2 h

theorem removeProlog_plain_append (t rest : List Char) (h : Plain t) : removeProlog (t ++ rest) = t ++ removeProlog rest := by
  induction t with
  | nil => rfl
  | cons c t ih =>
    have := plain_cons_open c t rest h
    rw [List.cons_append] at this ⊢
    rw [removeProlog_none _ _ this, ih (plain_suffix [c] t h)]
    rfl

theorem closeProlog_body (body rest : List Char) (h1 : '\n' ∉ body) (h2 : ¬ "?>".toList <:+: body ++ ['?']) :
    closeProlog (body ++ '?' :: '>' :: rest) = some rest := by
  induction body with
  | nil => simp [closeProlog]
  | cons c body ih =>
    have hc : c ≠ '\n' := fun h => h1 (by simp [h])
    have ih := ih (fun h => h1 (by simp [h])) (fun h => h2 (h.trans (by rw [List.cons_append]; exact (List.suffix_cons c _).isInfix)))
    rw [List.cons_append, closeProlog]
    · rw [if_neg hc, ih]
    · intro r hq he
      subst hq
      apply h2
      cases body with
      | nil => simp at he
      | cons d ds =>
        simp only [List.cons_append, List.cons.injEq] at he
        obtain ⟨rfl, -⟩ := he
        exact ⟨[], ds ++ ['?'], by simp⟩

theorem openProlog_declaration (d rest : List Char) (h : IsDeclaration d) : openProlog (d ++ rest) = some rest := by
  obtain ⟨body, rfl, h1, h2⟩ := h
  unfold openProlog
  rw [if_pos (by rw [List.isPrefixOf_iff_prefix, List.append_assoc, List.append_assoc]; exact List.prefix_append _ _)]
  have : ("<?xml".toList ++ body ++ "?>".toList ++ rest).drop 5 = body ++ '?' :: '>' :: rest := by
    have : "<?xml".toList ++ body ++ "?>".toList ++ rest = "<?xml".toList ++ (body ++ '?' :: '>' :: rest) := by simp
    rw [this]
    exact List.drop_left' rfl
  rw [this]
  exact closeProlog_body body rest h1 h2

theorem removeProlog_declaration (d rest : List Char) (h : IsDeclaration d) : removeProlog (d ++ rest) = removeProlog rest := by
  have ho := openProlog_declaration d rest h
  cases hd : d ++ rest with
  | nil => rw [hd] at ho; simp [openProlog] at ho
  | cons c cs =>
    rw [hd] at ho
    exact removeProlog_some c cs rest ho

theorem plain_append_none (t u : List Char) (ht : Plain t) (hu : ¬ HasDeclaration u) : ¬ HasDeclaration (t ++ u) := by
  induction t with
  | nil => exact hu
  | cons c t ih =>
    rintro ⟨a, b, h⟩
    cases a with
    | nil =>
      obtain ⟨h1, h2⟩ := ht [] (c :: t) rfl (by simp)
      have hp : "<?xml".toList <+: c :: t ++ u := ⟨b, by simpa using h⟩
      rcases List.prefix_or_prefix_of_prefix hp (List.prefix_append (c :: t) u) with h | h
      · exact h1 h
      · exact h2 h
    | cons x a =>
      simp only [List.cons_append, List.cons.injEq] at h
      exact ih (plain_suffix [c] t ht) ⟨a, b, by simpa using h.2⟩

theorem prolog_removed (first : List Char) (parts : List (List Char × List Char)) (h0 : Plain first)
    (h : ∀ p ∈ parts, IsDeclaration p.1 ∧ Plain p.2) :
    removeProlog (first ++ parts.flatMap (fun p => p.1 ++ p.2)) = first ++ parts.flatMap (fun p => p.2) ∧
    ¬ HasDeclaration (strip (removeProlog (first ++ parts.flatMap (fun p => p.1 ++ p.2)))) := by
  have key : removeProlog (parts.flatMap (fun p => p.1 ++ p.2)) = parts.flatMap (fun p => p.2) ∧
      ¬ HasDeclaration (parts.flatMap (fun p => p.2)) := by
    induction parts with
    | nil =>
      refine ⟨by simp [removeProlog], ?_⟩
      rintro ⟨a, b, hab⟩
      have := congrArg List.length hab
      simp at this
    | cons p ps ih =>
      obtain ⟨h1, h2⟩ := h p (by simp)
      obtain ⟨i1, i2⟩ := ih (fun q hq => h q (by simp [hq]))
      simp only [List.flatMap_cons, List.append_assoc]
      rw [removeProlog_declaration _ _ h1, removeProlog_plain_append _ _ h2, i1]
      exact ⟨rfl, plain_append_none _ _ h2 i2⟩
  rw [removeProlog_plain_append _ _ h0, key.1]
  refine ⟨rfl, fun hd => plain_append_none _ _ h0 key.2 ?_⟩
  obtain ⟨⟨a, b, hab, _, _⟩, _, _⟩ := strip_trimmed (first ++ parts.flatMap (fun p => p.2))
  have hinf : strip (first ++ parts.flatMap (fun p => p.2)) <:+: first ++ parts.flatMap (fun p => p.2) := ⟨a, b, hab.symm⟩
  exact List.IsInfix.trans hd hinf

/-- **C39** (in part): of texts made of plain pieces with declarations between them, exactly the declarations and
the white space around the text are removed before parsing, and what is parsed contains no declaration.  Missing: texts in which a
declaration stands inside the beginning of another one, and declarations over several lines. -/
theorem prolog_removed_partial (docs : List (List Char × List (List Char × List Char)))
    (h : ∀ d ∈ docs, Plain d.1 ∧ ∀ p ∈ d.2, IsDeclaration p.1 ∧ Plain p.2) :
    ∃ texts, List.Forall₂ (fun d t => Trimmed (d.1 ++ d.2.flatMap (fun p => p.2)) t ∧ ¬ HasDeclaration t) docs texts ∧
      ∀ parse, parsedLists parse (docs.map (fun d => d.1 ++ d.2.flatMap (fun p => p.1 ++ p.2))) = texts.mapM parse := by
  refine ⟨docs.map (fun d => strip (removeProlog (d.1 ++ d.2.flatMap (fun p => p.1 ++ p.2)))), ?_,
    fun parse => by unfold parsedLists; rw [List.mapM_map, List.mapM_map]; rfl⟩
  rw [List.forall₂_map_right_iff, List.forall₂_same]
  intro d hd
  obtain ⟨h0, h1⟩ := h d hd
  obtain ⟨e, n⟩ := prolog_removed d.1 d.2 h0 h1
  refine ⟨?_, n⟩
  rw [e]
  exact strip_trimmed _

/-- The premises are met by a document with a prolog in front of the embedded document. -/
example : removeProlog ("<l>".toList ++ [("<?xml version='1.0'?>".toList, "<S/></l>".toList)].flatMap (fun p => p.1 ++ p.2)) = "<l><S/></l>".toList ∧
    IsDeclaration "<?xml version='1.0'?>".toList ∧ Plain "<l>".toList := by
  have hd : IsDeclaration "<?xml version='1.0'?>".toList := ⟨" version='1.0'".toList, by decide +kernel, by decide +kernel, by decide +kernel⟩
  have hplain : ∀ t : List Char, (∀ i < t.length, ¬ "<?xml".toList <+: t.drop i ∧ ¬ t.drop i <+: "<?xml".toList) → Plain t := by
    intro t ht a b hab hb
    have := ht a.length (by rw [hab]; simp; exact List.length_pos_iff.2 hb)
    rwa [hab, List.drop_left] at this
  have h1 : Plain "<l>".toList := hplain _ (by decide +kernel)
  have h2 : Plain "<S/></l>".toList := hplain _ (by decide +kernel)
  refine ⟨(prolog_removed _ [_] h1 (by
    intro p hp
    rw [List.mem_singleton.1 hp]
    exact ⟨hd, h2⟩)).1.trans rfl, hd, h1⟩

/-- **C39** is false for some texts: removing a declaration can put a new one together, and a
declaration with a line break in it is not removed. -/
theorem declaration_can_remain :
    (IsDeclaration "<?xml?>".toList ∧ HasDeclaration "<?xml ?>".toList ∧
      ∀ parse, parsedLists parse ["<<?xml?>?xml ?>".toList] = ["<?xml ?>".toList].mapM parse) ∧
    ∀ parse, parsedLists parse ["<?xml version='1.0'\n?><a/>".toList] = ["<?xml version='1.0'\n?><a/>".toList].mapM parse := by
  have e1 : removeProlog "<<?xml?>?xml ?>".toList = "<?xml ?>".toList := by decide +kernel
  have e2 : removeProlog "<?xml version='1.0'\n?><a/>".toList = "<?xml version='1.0'\n?><a/>".toList := by decide +kernel
  have s1 : strip "<?xml ?>".toList = "<?xml ?>".toList := by decide +kernel
  have s2 : strip "<?xml version='1.0'\n?><a/>".toList = "<?xml version='1.0'\n?><a/>".toList := by decide +kernel
  refine ⟨⟨⟨[], by decide +kernel, by decide +kernel, by decide +kernel⟩, ?_, ?_⟩, ?_⟩
  · unfold HasDeclaration; decide +kernel
  · intro parse
    unfold parsedLists
    rw [List.mapM_cons, List.mapM_cons, e1, s1]
    rfl
  · intro parse
    unfold parsedLists
    rw [List.mapM_cons, List.mapM_cons, e2, s2]
    rfl

/-! ## The embedded document (C93) -/

theorem content_some (k : Codec) (d y : Xml) (h : IsContent d y) : extractXml.extractContent k d = .ok (some (k.tostring y)) := by
  obtain ⟨pre, x, post, rest, h1, h2, h3, h4⟩ := h
  have hf : d.children.find? (fun x => decide (x.tag = "xml_content")) = some x := by
    rw [List.find?_eq_some_iff_append]
    exact ⟨by simpa using h2, pre, post, h1, fun p hp => by simpa using h3 p hp⟩
  unfold extractXml.extractContent
  rw [hf]
  simp only [h4]

theorem content_none (k : Codec) (d : Xml) (h : ∀ y, ¬ IsContent d y) : extractXml.extractContent k d = .ok none := by
  unfold extractXml.extractContent
  rcases hf : d.children.find? (fun x => decide (x.tag = "xml_content")) with _ | x
  · rw [hf]
  · have hf' := hf
    rw [List.find?_eq_some_iff_append] at hf
    obtain ⟨ht, pre, post, hd, hp⟩ := hf
    rcases hc : x.children with _ | ⟨y, rest⟩
    · rw [hf']; simp only [hc]
    · exact absurd ⟨pre, x, post, rest, hd, by simpa using ht, fun p hpp => by simpa using hp p hpp, hc⟩ (h y)

/-- **C93**: the embedded document.  Without a DESDATA field there is none.  A non-empty value of the (first) DESDATA
field is decoded, and what the decoder raises is passed on; whatever else the field holds does not matter then.
Without a value, or with an empty one, the result is the first element in the first `xml_content`, written as text, and
nothing when there is no such element. -/
theorem embedded_document (k : Codec) (des : Xml) :
    (Absent des "field" "DESDATA" → extractXml k des = .ok none) ∧
    ∀ d, IsFirst des "field" "DESDATA" d →
      (∀ v, d.get "value" = some v → v ≠ "" →
        (∀ text, k.b64 v = .ok text → extractXml k des = .ok (some text)) ∧
        (∀ e, k.b64 v = .error e → extractXml k des = .error e)) ∧
      (d.get "value" = none ∨ d.get "value" = some "" →
        (∀ y, IsContent d y → extractXml k des = .ok (some (k.tostring y))) ∧
        ((∀ y, ¬ IsContent d y) → extractXml k des = .ok none)) := by
  refine ⟨?_, ?_⟩
  · intro h
    unfold extractXml
    rw [(find_none des _ _).2 h]
  · intro d hd
    have hf := (find_some des _ _ d).2 hd
    refine ⟨?_, ?_⟩
    · intro v hv hne
      unfold extractXml
      rw [hf]
      simp only [hv, hne, ne_eq, not_false_eq_true, if_true]
      refine ⟨?_, ?_⟩
      · intro text ht; rw [ht]; rfl
      · intro e he; rw [he]; rfl
    · intro hv
      have : extractXml k des = extractXml.extractContent k d := by
        unfold extractXml
        rw [hf]
        rcases hv with hv | hv <;> simp [hv]
      rw [this]
      exact ⟨content_some k d, content_none k d⟩

/-- A field with a value and a content: the value wins; with an empty value the content is taken. -/
example : ∃ k : Codec, ∀ v, extractXml k (.node "des" [] [.node "field" [("name", "DESDATA"), ("value", v)]
      [.node "xml_content" [] [.node "SICD" [] []]]]) = .ok (some (if v = "" then "<SICD/>" else v)) := by
  refine ⟨⟨.ok, fun x => "<" ++ x.tag ++ "/>"⟩, fun v => ?_⟩
  by_cases h : v = ""
  · subst h; rfl
  · simp [extractXml, Xml.find, Xml.findall, Xml.children, Xml.tag, Xml.get, List.lookup, h]

end Verif.Props.Des
