import Verif.Model.DesText
import Verif.Spec.Base64
import Verif.Props.SicdFiles
import Mathlib.Data.List.TakeWhile

/-! # The text of a metadata segment: reading and writing -/

namespace Verif.Props.DesText

open Verif.DesText Verif.Des Verif.Spec.Base64

/-! ## Characters -/

theorem value_digit : ∀ n, n < 64 → value (digit n) = some n ∧ digit n ≠ '=' ∧ (digit n).toNat < 128 ∧ digit n ∈ alphabet := by decide +kernel

theorem value_iff (c : Char) : (value c).isSome ↔ c ∈ alphabet := by
  constructor
  · intro h
    unfold value at h
    have key : ∀ n, n < 128 → (Char.ofNat n ∈ alphabet ↔ (65 ≤ n ∧ n ≤ 90) ∨ (97 ≤ n ∧ n ≤ 122) ∨ (48 ≤ n ∧ n ≤ 57) ∨ n = 43 ∨ n = 47) := by decide +kernel
    have hc : Char.ofNat c.toNat = c := Char.ofNat_toNat c
    rw [← hc]
    have lt : c.toNat < 128 ∧ ((65 ≤ c.toNat ∧ c.toNat ≤ 90) ∨ (97 ≤ c.toNat ∧ c.toNat ≤ 122) ∨ (48 ≤ c.toNat ∧ c.toNat ≤ 57) ∨ c.toNat = 43 ∨ c.toNat = 47) := by
      split_ifs at h with h1 h2 h3 h4 h5
      · omega
      · omega
      · omega
      · subst h4; decide
      · subst h5; decide
      · simp at h
    exact (key _ lt.1).2 lt.2
  · have : ∀ c ∈ alphabet, (value c).isSome := by decide +kernel
    exact this c

theorem not_value_pad : value '=' = none := by decide +kernel

theorem scan_skip (q l p : Nat) (c : Char) (cs : List Char) (h1 : c ≠ '=') (h2 : value c = none) : scan q l p (c :: cs) = scan q l p cs := by
  rw [scan, if_neg h1, h2]

theorem scan_digit (q l p n : Nat) (hn : n < 64) (cs : List Char) : scan q l p (digit n :: cs) =
    if q = 0 then scan 1 n 0 cs
    else if q = 1 then (scan 2 (n % 16) 0 cs).map (UInt8.ofNat (l * 4 + n / 16) :: ·)
    else if q = 2 then (scan 3 (n % 4) 0 cs).map (UInt8.ofNat (l * 16 + n / 4) :: ·)
    else (scan 0 0 0 cs).map (UInt8.ofNat (l * 64 + n) :: ·) := by
  obtain ⟨h1, h2, -⟩ := value_digit n hn
  rw [scan, if_neg h2, h1]

/-- Only the characters of base64 matter. -/
theorem scan_filter (q l p : Nat) (s : List Char) : scan q l p (s.filter relevant) = scan q l p s := by
  induction s generalizing q l p with
  | nil => rfl
  | cons c cs ih =>
    by_cases hc : relevant c = true
    · rw [List.filter_cons_of_pos hc, scan, scan]
      simp only [ih]
    · rw [List.filter_cons_of_neg hc, ih]
      simp only [relevant, decide_eq_true_eq, not_or] at hc
      rw [scan_skip _ _ _ _ _ hc.1]
      have : ¬ (value c).isSome := fun h => hc.2 ((value_iff c).1 h)
      simpa using this

theorem byte (a : UInt8) : a.toNat < 256 := a.toNat_lt

theorem scan_encode (bs : List UInt8) (p : Nat) : scan 0 0 p (encode bs) = .ok bs := by
  fun_induction encode bs generalizing p with
  | case1 => rfl
  | case2 a =>
    have := byte a
    rw [scan_digit _ _ _ _ (by omega), if_pos rfl, scan_digit _ _ _ _ (by omega), if_neg one_ne_zero, if_pos rfl]
    rw [show a.toNat / 4 * 4 + a.toNat % 4 * 16 / 16 = a.toNat by omega, UInt8.ofNat_toNat]
    simp [scan, Except.map]
  | case3 a b =>
    have := byte a
    have := byte b
    rw [scan_digit _ _ _ _ (by omega), if_pos rfl, scan_digit _ _ _ _ (by omega), if_neg one_ne_zero, if_pos rfl, scan_digit _ _ _ _ (by omega), if_neg (by omega), if_neg (by omega), if_pos rfl]
    rw [show a.toNat / 4 * 4 + (a.toNat % 4 * 16 + b.toNat / 16) / 16 = a.toNat by omega, UInt8.ofNat_toNat,
      show (a.toNat % 4 * 16 + b.toNat / 16) % 16 * 16 + b.toNat % 16 * 4 / 4 = b.toNat by omega, UInt8.ofNat_toNat]
    simp [scan, Except.map]
  | case4 a b c rest ih =>
    have := byte a
    have := byte b
    have := byte c
    simp only [List.cons_append, List.nil_append]
    rw [scan_digit _ _ _ _ (by omega), if_pos rfl, scan_digit _ _ _ _ (by omega), if_neg one_ne_zero, if_pos rfl, scan_digit _ _ _ _ (by omega), if_neg (by omega), if_neg (by omega), if_pos rfl,
      scan_digit _ _ _ _ (by omega), if_neg (by omega), if_neg (by omega), if_neg (by omega)]
    rw [show a.toNat / 4 * 4 + (a.toNat % 4 * 16 + b.toNat / 16) / 16 = a.toNat by omega, UInt8.ofNat_toNat,
      show (a.toNat % 4 * 16 + b.toNat / 16) % 16 * 16 + (b.toNat % 16 * 4 + c.toNat / 64) / 4 = b.toNat by omega, UInt8.ofNat_toNat,
      show (b.toNat % 16 * 4 + c.toNat / 64) % 4 * 64 + c.toNat % 64 = c.toNat by omega, UInt8.ofNat_toNat, ih]
    rfl

theorem encode_ascii (bs : List UInt8) : ∀ c ∈ encode bs, c.toNat < 128 ∧ relevant c = true := by
  have hp : ('=' : Char).toNat < 128 ∧ relevant '=' = true := by decide
  have hd : ∀ n, n < 64 → (digit n).toNat < 128 ∧ relevant (digit n) = true := fun n hn => ⟨(value_digit n hn).2.2.1, by
    simp only [relevant, decide_eq_true_eq]; exact .inr (value_digit n hn).2.2.2⟩
  fun_induction encode bs with
  | case1 => simp
  | case2 a =>
    have := byte a
    simp only [List.mem_cons, List.not_mem_nil, or_false]
    rintro c (rfl | rfl | rfl | rfl)
    · exact hd _ (by omega)
    · exact hd _ (by omega)
    · exact hp
    · exact hp
  | case3 a b =>
    have := byte a
    have := byte b
    simp only [List.mem_cons, List.not_mem_nil, or_false]
    rintro c (rfl | rfl | rfl | rfl)
    · exact hd _ (by omega)
    · exact hd _ (by omega)
    · exact hd _ (by omega)
    · exact hp
  | case4 a b c rest ih =>
    have := byte a
    have := byte b
    have := byte c
    simp only [List.mem_append, List.mem_cons, List.not_mem_nil, or_false]
    rintro d ((rfl | rfl | rfl | rfl) | hdd)
    · exact hd _ (by omega)
    · exact hd _ (by omega)
    · exact hd _ (by omega)
    · exact hd _ (by omega)
    · exact ih d hdd

/-! ## Reading -/

theorem utf8decode_utf8 (t : List Char) : utf8decode (utf8 t) = .ok (String.ofList t) := by
  have : (utf8 t).toByteArray = t.utf8Encode := rfl
  rw [utf8decode, this, List.utf8Decode?_utf8Encode]

/-- **C161** Whatever bytes are encoded, decoding gives them back, also when line breaks, blanks or other ASCII characters outside of base64 have been put anywhere between the characters. -/
theorem bytes_read (bs : List UInt8) (v : List Char) (hv : v.filter relevant = encode bs) (ha : ∀ c ∈ v, c.toNat < 128) : b64decode v = .ok bs := by
  rw [b64decode, if_pos (by simpa [List.all_eq_true] using ha), ← scan_filter, hv, scan_encode]

/-- **C161** The document of a segment is read exactly as it is in the file: when the first DESDATA field holds the base64 form of the UTF-8 form of a text, possibly with line breaks and blanks in it, the text is
what the accessor extracts.  `tostring` is not used. -/
theorem text_read (tostring : Verif.Tre.Xml → String) (des d : Verif.Tre.Xml) (hd : Verif.Spec.Tre.IsFirst des "field" "DESDATA" d) (v text : String) (hv : d.get "value" = some v)
    (hne : text ≠ "") (he : v.toList.filter relevant = encode text.toByteArray.data.toList) (ha : ∀ c ∈ v.toList, c.toNat < 128) :
    extractXml ⟨decodeValue, tostring⟩ des = .ok (some text) := by
  have htext : text.toByteArray.data.toList = utf8 text.toList := by
    rw [← String.utf8Encode_toList]
    simp [List.utf8Encode, utf8]
  rw [htext] at he
  have hv0 : v ≠ "" := by
    rintro rfl
    have h1 : encode (utf8 text.toList) = [] := by rw [← he]; rfl
    have h2 := scan_encode (utf8 text.toList) 0
    rw [h1] at h2
    have h3 : utf8 text.toList = [] := by
      simp only [scan, if_true, Except.ok.injEq] at h2
      exact h2.symm
    have h4 : text.toList = [] := by
      cases h : text.toList with
      | nil => rfl
      | cons c cs =>
        rw [h, utf8, List.flatMap_cons, List.append_eq_nil_iff] at h3
        exact absurd h3.1 String.utf8EncodeChar_ne_nil
    exact hne (by simpa using h4)
  refine ((Verif.Props.Des.embedded_document ⟨decodeValue, tostring⟩ des).2 d hd).1 v hv hv0 |>.1 text ?_
  show decodeValue v = .ok text
  rw [decodeValue, bytes_read _ _ he ha]
  show utf8decode _ = _
  rw [utf8decode_utf8, String.ofList_toList]

/-- **C161** A value that was cut short is noticed, or cut at the end of a group of four, and then the bytes are those of the beginning. -/
theorem truncated (bs : List UInt8) (k : Nat) (hk : k < (encode bs).length) :
    b64decode ((encode bs).take k) = if k % 4 = 0 then .ok (bs.take (3 * (k / 4))) else .error .valueError := by
  have ha : ((encode bs).take k).all (fun c => decide (c.toNat < 128)) = true := by
    rw [List.all_eq_true]
    intro c hc
    exact decide_eq_true (encode_ascii bs c (List.mem_of_mem_take hc)).1
  rw [b64decode, if_pos ha]
  clear ha
  have one : ∀ n, n < 64 → scan 0 0 0 [digit n] = .error .valueError := fun n hn => by rw [scan_digit _ _ _ _ hn, if_pos rfl]; rfl
  have two : ∀ n m, n < 64 → m < 64 → scan 0 0 0 [digit n, digit m] = .error .valueError := fun n m hn hm => by
    rw [scan_digit _ _ _ _ hn, if_pos rfl, scan_digit _ _ _ _ hm, if_neg one_ne_zero, if_pos rfl]; rfl
  have three : ∀ n m o, n < 64 → m < 64 → o < 64 → scan 0 0 0 [digit n, digit m, digit o] = .error .valueError := fun n m o hn hm ho => by
    rw [scan_digit _ _ _ _ hn, if_pos rfl, scan_digit _ _ _ _ hm, if_neg one_ne_zero, if_pos rfl, scan_digit _ _ _ _ ho, if_neg (by omega), if_neg (by omega), if_pos rfl]; rfl
  have pad : ∀ n m, n < 64 → m < 64 → scan 0 0 0 [digit n, digit m, '='] = .error .valueError := fun n m hn hm => by
    rw [scan_digit _ _ _ _ hn, if_pos rfl, scan_digit _ _ _ _ hm, if_neg one_ne_zero, if_pos rfl]; rfl
  fun_induction encode bs generalizing k with
  | case1 => simp at hk
  | case2 a =>
    have := byte a
    simp only [List.length_cons, List.length_nil] at hk
    interval_cases k
    · rfl
    · exact one _ (by omega)
    · exact two _ _ (by omega) (by omega)
    · exact pad _ _ (by omega) (by omega)
  | case3 a b =>
    have := byte a
    have := byte b
    simp only [List.length_cons, List.length_nil] at hk
    interval_cases k
    · rfl
    · exact one _ (by omega)
    · exact two _ _ (by omega) (by omega)
    · exact three _ _ _ (by omega) (by omega) (by omega)
  | case4 a b c rest ih =>
    have := byte a
    have := byte b
    have := byte c
    rcases lt_or_ge k 4 with h4 | h4
    · interval_cases k
      · rfl
      · exact one _ (by omega)
      · exact two _ _ (by omega) (by omega)
      · exact three _ _ _ (by omega) (by omega) (by omega)
    · obtain ⟨j, rfl⟩ := Nat.exists_eq_add_of_le' h4
      simp only [List.length_append, List.length_cons, List.length_nil] at hk
      simp only [List.cons_append, List.nil_append, List.take_succ_cons]
      rw [scan_digit _ _ _ _ (by omega), if_pos rfl, scan_digit _ _ _ _ (by omega), if_neg one_ne_zero, if_pos rfl, scan_digit _ _ _ _ (by omega), if_neg (by omega), if_neg (by omega), if_pos rfl,
        scan_digit _ _ _ _ (by omega), if_neg (by omega), if_neg (by omega), if_neg (by omega)]
      rw [show a.toNat / 4 * 4 + (a.toNat % 4 * 16 + b.toNat / 16) / 16 = a.toNat by omega, UInt8.ofNat_toNat,
        show (a.toNat % 4 * 16 + b.toNat / 16) % 16 * 16 + (b.toNat % 16 * 4 + c.toNat / 64) / 4 = b.toNat by omega, UInt8.ofNat_toNat,
        show (b.toNat % 16 * 4 + c.toNat / 64) % 4 * 64 + c.toNat % 64 = c.toNat by omega, UInt8.ofNat_toNat, ih j (by omega)]
      rw [show (j + 4) % 4 = j % 4 by omega, show 3 * ((j + 4) / 4) = 3 * (j / 4) + 3 by omega]
      split_ifs
      · rfl
      · rfl

/-- The text of a value that was cut short: an error, or the beginning of the text. -/
theorem truncated_text (text : List Char) (k : Nat) (hk : k < (encode (utf8 text)).length) (t : String) (ht : decodeValue (String.ofList ((encode (utf8 text)).take k)) = .ok t) :
    t.toList <+: text := by
  rw [decodeValue, String.toList_ofList, truncated _ _ hk] at ht
  split_ifs at ht with h
  · change utf8decode _ = _ at ht
    unfold utf8decode at ht
    cases hd : ((utf8 text).take (3 * (k / 4))).toByteArray.utf8Decode? with
    | none => rw [hd] at ht; simp at ht
    | some cs =>
      rw [hd] at ht
      simp only [Except.ok.injEq] at ht
      subst ht
      have hs : (((utf8 text).take (3 * (k / 4))).toByteArray.utf8Decode?).isSome = true := by rw [hd]; rfl
      have e := ByteArray.utf8Encode_get_utf8Decode? (h := hs)
      simp only [hd, Option.get_some] at e
      rw [String.toList_ofList]
      refine List.isPrefix_of_utf8Encode_append_eq_utf8Encode ((utf8 text).drop (3 * (k / 4))).toByteArray ?_
      rw [e, ← List.toByteArray_append, List.take_append_drop]
      rfl
  · exact absurd ht (by simp [bind, Except.bind])

/-- An example: a document with a line break in the middle of its value. -/
example : decodeValue "PFNJQ0\nQvPg==" = .ok "<SICD/>" := by
  have h : b64decode "PFNJQ0\nQvPg==".toList = .ok "<SICD/>".toByteArray.data.toList := bytes_read _ _ (by decide +kernel) (by decide +kernel)
  have h2 : "<SICD/>".toByteArray.data.toList = utf8 "<SICD/>".toList := by decide +kernel
  rw [h2] at h
  simp only [decodeValue, h, bind, Except.bind]
  rw [utf8decode_utf8, String.ofList_toList]

/-- Cut after five characters it raises, cut after four the first three bytes are left. -/
example : b64decode "PFNJQ".toList = .error .valueError ∧ b64decode "PFNJ".toList = .ok (utf8 "<SI".toList) := by
  have e : encode (utf8 "<SICD/>".toList) = "PFNJQ0QvPg==".toList := by decide +kernel
  have h1 := truncated (utf8 "<SICD/>".toList) 5 (by rw [e]; decide)
  have h2 := truncated (utf8 "<SICD/>".toList) 4 (by rw [e]; decide)
  rw [e] at h1 h2
  refine ⟨h1, h2.trans (congrArg Except.ok ?_)⟩
  decide +kernel

/-! ## Writing -/

theorem unescape_length (t : List Char) : (unescape t).length ≤ t.length ∧ ('\\' ∈ t → (unescape t).length < t.length) := by
  fun_induction unescape t with
  | case1 => simp
  | case2 => simp
  | case3 c hc => simpa using fun h => hc h.symm
  | case4 d rest ih =>
    simp only [List.length_cons]
    exact ⟨by omega, fun _ => by omega⟩
  | case5 c d rest hc ih =>
    simp only [List.length_cons] at ih ⊢
    refine ⟨by omega, fun h => ?_⟩
    rw [List.mem_cons] at h
    rcases h with h | h
    · exact absurd h.symm hc
    · have := ih.2 h
      omega

theorem unescape_append (s t : List Char) (hs : '\\' ∉ s) : unescape (s ++ t) = s ++ unescape t := by
  induction s with
  | nil => rfl
  | cons c cs ih =>
    simp only [List.mem_cons, not_or] at hs
    have hc : c ≠ '\\' := fun h => hs.1 h.symm
    have step : ∀ r, unescape (c :: r) = c :: unescape r := by
      intro r
      cases r with
      | nil => simp [unescape, hc]
      | cons d r => rw [unescape, if_neg hc]
    rw [List.cons_append, step, ih hs.2, List.cons_append]

/-- A text goes through the option unchanged exactly when it has no backslash. -/
theorem unescape_eq_iff (t : List Char) : unescape t = t ↔ '\\' ∉ t := by
  constructor
  · intro h hm
    have := (unescape_length t).2 hm
    rw [h] at this
    exact lt_irrefl _ this
  · intro h
    have := unescape_append t [] h
    simpa [unescape] using this

/-- The columns of a segment header: 173 and DESSHL of them, with DESSHL in columns 170 to 173, in ASCII and without backslashes. -/
structure GoodHeader (s : List Char) (n : Nat) : Prop where
  length : s.length = 173 + n
  shl : Verif.Spec.Des.Decimal 4 n ((s.drop 169).take 4)
  ascii : ∀ c ∈ s, c.toNat < 128 ∧ c ≠ '\\'

/-- The header that the code makes is such a header when the values fit (C38) and are in ASCII without backslashes. -/
theorem header_good (c : Verif.Tre.Conv) (des : Verif.Tre.Xml) (ver n : Nat) (texts : List String) (user : String)
    (hver : Verif.Spec.Tre.HasField des "DESVER" c.int (ver : Int)) (hver' : ver < 100) (hn : Verif.Spec.Tre.HasField des "DESSHL" c.int (n : Int)) (hn' : n < 10000)
    (htexts : List.Forall₂ (fun f s => Verif.Spec.Tre.HasField des f.1 some s ∧ s.toList.length ≤ f.2) ((Verif.Spec.Des.columns.drop 1).take 16) texts)
    (huser : (0 < n → Verif.Spec.Tre.HasField des "DESSHF" some user) ∧ (n = 0 → user = "")) (huser' : user.toList.length ≤ n) (s : List Char) (hs : header c des = .ok s)
    (ha : ∀ ch ∈ s, ch.toNat < 128 ∧ ch ≠ '\\') : GoodHeader s n := by
  obtain ⟨s', v, outs, l, u, h1, h2, h3, -, h5, -, -⟩ := Verif.Props.Des.header_layout_partial c des ver n texts user hver hver' hn hn' htexts huser huser'
  rw [hs] at h1
  cases h1
  refine ⟨h2, ?_, ha⟩
  have hl : (s.drop 169).take 4 = l := by
    have e : ∃ X, Verif.Spec.Des.cut (Verif.Spec.Des.columns.map Prod.snd) s = X ++ [(s.drop 169).take 4, s.drop 173] := by
      refine ⟨(Verif.Spec.Des.cut (Verif.Spec.Des.columns.map Prod.snd) s).take 17, ?_⟩
      simp [Verif.Spec.Des.columns, Verif.Spec.Des.cut, List.drop_drop]
    obtain ⟨X, hX⟩ := e
    rw [h3] at hX
    have := (List.append_inj' hX rfl).2
    simp only [List.cons.injEq, and_true] at this
    exact this.1.symm
  rw [hl]
  exact h5

theorem utf8_ascii (s : List Char) (h : ∀ c ∈ s, c.toNat < 128) : utf8 s = s.map (fun c => UInt8.ofNat c.toNat) := by
  induction s with
  | nil => rfl
  | cons c cs ih =>
    have hc := h c (by simp)
    have h1 : c.utf8Size = 1 := by
      have h0 : c.val ≤ 0x7f := by
        rw [UInt32.le_iff_toNat_le]
        change c.toNat < 128 at hc
        change c.toNat ≤ 127
        omega
      simp [Char.utf8Size, h0]
    have h2 := ih (fun d hd => h d (by simp [hd]))
    unfold utf8 at h2 ⊢
    rw [List.flatMap_cons, h2, String.utf8EncodeChar_eq_singleton h1, List.map_cons]
    rfl

theorem atoi_digits (l : List Char) (h : ∀ c ∈ l, c.isDigit) : atoi (l.map (fun c => UInt8.ofNat c.toNat)) = Nat.ofDigitChars 10 l 0 := by
  have hb : ∀ c ∈ l, 48 ≤ c.toNat ∧ c.toNat ≤ 57 := by
    intro c hc
    have := h c hc
    simp only [Char.isDigit, ge_iff_le, Bool.and_eq_true, decide_eq_true_eq, UInt32.le_iff_toNat_le] at this
    exact this
  have hto : ∀ c ∈ l, (UInt8.ofNat c.toNat).toNat = c.toNat := by
    intro c hc
    have := hb c hc
    rw [UInt8.toNat_ofNat']
    omega
  unfold atoi
  rw [List.takeWhile_eq_self_iff.2]
  · have key : ∀ (l : List Char) (k : Nat), (∀ c ∈ l, (UInt8.ofNat c.toNat).toNat = c.toNat) →
        (l.map (fun c => UInt8.ofNat c.toNat)).foldl (fun n d => n * 10 + (d.toNat - 48)) k = Nat.ofDigitChars 10 l k := by
      intro l
      induction l with
      | nil => intro k _; rfl
      | cons c cs ih =>
        intro k hk
        rw [List.map_cons, List.foldl_cons, ih _ (fun d hd => hk d (by simp [hd])), hk c (by simp), Nat.ofDigitChars_cons]
        congr 1
        have : '0'.toNat = 48 := rfl
        rw [this]
        ring
    exact key l 0 hto
  · intro d hd
    obtain ⟨c, hc, rfl⟩ := List.mem_map.1 hd
    rw [hto c hc]
    exact decide_eq_true (hb c hc)

/-- GDAL finds the data where the header ends. -/
theorem data_written (s : List Char) (n : Nat) (hs : GoodHeader s n) (xml : List Char) : desData (utf8 (unescape (s ++ xml))) = utf8 (unescape xml) := by
  have ha : ∀ c ∈ s, c.toNat < 128 := fun c hc => (hs.ascii c hc).1
  rw [unescape_append _ _ (fun h => (hs.ascii _ h).2 rfl)]
  have e : utf8 (s ++ unescape xml) = s.map (fun c => UInt8.ofNat c.toNat) ++ utf8 (unescape xml) := by
    rw [← utf8_ascii s ha]
    simp [utf8]
  rw [e, desData]
  have hlen : (s.map (fun c => UInt8.ofNat c.toNat)).length = 173 + n := by rw [List.length_map, hs.length]
  have hcol : ((s.map (fun c => UInt8.ofNat c.toNat) ++ utf8 (unescape xml)).drop 169).take 4 = ((s.drop 169).take 4).map (fun c => UInt8.ofNat c.toNat) := by
    rw [List.drop_append_of_le_length (by omega), List.take_append_of_le_length (by rw [List.length_drop]; omega), ← List.map_drop, ← List.map_take]
  rw [hcol, atoi_digits _ hs.shl.2.1, hs.shl.2.2, ← hlen, List.drop_left']
  rfl

open Verif.Loading Verif.SarTiles Verif.TileFactory Verif.Sensors

/-- What GDAL (before 3.9) does with the `DES=` option of a call: the first XML_DATA_CONTENT segment of the file shows its data in base64. -/
def IsFile (lib : Verif.Factory.Lib) (call : Call) (t : Image) : Prop :=
  ∀ contents, "DES=XML_DATA_CONTENT=" ++ contents ∈ call.options → ∃ lists s rest d v,
    parsedLists lib.parse (t.dess.map String.toList) = .ok lists ∧ segments lists "XML_DATA_CONTENT" = s :: rest ∧ Verif.Spec.Tre.IsFirst s "field" "DESDATA" d ∧ d.get "value" = some v ∧
    v.toList.filter relevant = encode (desData (utf8 (unescape contents.toList))) ∧ ∀ c ∈ v.toList, c.toNat < 128

/-- **C162** What the accessor reads from the file of a tile is the text that was handed to GDAL, with every backslash and the character after it replaced by that character (a line break for `n`).
Missing: that it is always the text itself, see `backslash_lost`. -/
theorem text_of_tile_partial (lib : Verif.Factory.Lib) (hlib : lib.codec.b64 = decodeValue) (call : Call) (t : Image) (ht : IsFile lib call t) (s : List Char) (n : Nat) (hs : GoodHeader s n) (xml : String)
    (hopt : "DES=XML_DATA_CONTENT=" ++ (String.ofList s ++ xml) ∈ call.options) (hne : unescape xml.toList ≠ []) :
    ∃ lists seg rest text, parsedLists lib.parse (t.dess.map String.toList) = .ok lists ∧ segments lists "XML_DATA_CONTENT" = seg :: rest ∧ extractXml lib.codec seg = .ok (some text) ∧
      text.toList = unescape xml.toList ∧ (text = xml ↔ '\\' ∉ xml.toList) := by
  obtain ⟨lists, seg, rest, d, v, h1, h2, h3, h4, h5, h6⟩ := ht _ hopt
  rw [String.toList_append, String.toList_ofList, data_written s n hs] at h5
  have hb : (String.ofList (unescape xml.toList)).toByteArray.data.toList = utf8 (unescape xml.toList) := by
    rw [String.toByteArray_ofList]
    simp [List.utf8Encode, utf8]
  have hcodec : lib.codec = ⟨decodeValue, lib.codec.tostring⟩ := by rw [← hlib]
  refine ⟨lists, seg, rest, String.ofList (unescape xml.toList), h1, h2, ?_, String.toList_ofList, ?_⟩
  · rw [hcodec]
    refine text_read _ seg d h3 v _ h4 ?_ ?_ h6
    · intro h
      exact hne (by rw [← String.toList_ofList (l := unescape xml.toList), h]; rfl)
    · rw [h5, hb]
  · rw [← unescape_eq_iff]
    constructor
    · intro h
      rw [← String.toList_ofList (l := unescape xml.toList), h]
    · intro h
      rw [h, String.ofList_toList]

/-- **C162** So the assumption about GDAL in C127, C128, C156 and C157 holds for documents without backslashes. -/
theorem read_back_partial {D : Type} (lib : Verif.Factory.Lib) (hlib : lib.codec.b64 = decodeValue) (parse : String → Except PyErr D) (call : Call) (t : Image) (ht : IsFile lib call t) (s : List Char) (n : Nat)
    (hs : GoodHeader s n) (hx : ∀ xml, "DES=XML_DATA_CONTENT=" ++ (String.ofList s ++ xml) ∈ call.options → xml ≠ "" ∧ '\\' ∉ xml.toList) :
    Verif.Props.SicdFiles.ReadBack lib parse (String.ofList s) call t := by
  intro xml hopt
  obtain ⟨h0, h1⟩ := hx xml hopt
  have hu := (unescape_eq_iff _).2 h1
  obtain ⟨lists, seg, rest, text, e1, e2, e3, -, e5⟩ := text_of_tile_partial lib hlib call t ht s n hs xml hopt (by rw [hu]; intro h; exact h0 (by simpa using h))
  obtain rfl := e5.2 h1
  exact ⟨lists, seg, rest, text, e1, e2, e3, rfl, Iff.rfl, Iff.rfl⟩

/-! ## A library and files -/

/-- The header that the code makes of a segment meets the assumption. -/
theorem demo_header_good : ∃ s, header Verif.Props.Tre.demoReal (Verif.Props.Des.demoDes "U" "XY") = .ok s ∧ GoodHeader s 2 := by
  refine ⟨_, rfl, ⟨?_, ⟨?_, ?_, ?_⟩, ?_⟩⟩ <;> decide +kernel

/-- The document of a metadata segment is its text. -/
noncomputable def demoLib : Verif.Factory.Lib :=
  ⟨Verif.Props.Tre.demoReal, fun s => .ok (.node "des_list" [] [Verif.Props.SarTiles.demoSegment (String.ofList s)]), ⟨decodeValue, fun _ => ""⟩⟩

/-- The image whose segment shows these bytes. -/
def demoFile (bytes : List UInt8) : Image := ⟨1, 1, none, none, [], none, [], [String.ofList (encode bytes)]⟩

/-- Whatever the contents of the option are, there is a file for the call. -/
theorem demo_is_file (contents : String) (call : Call) (h : ∀ c, "DES=XML_DATA_CONTENT=" ++ c ∈ call.options → c = contents) :
    IsFile demoLib call (demoFile (desData (utf8 (unescape contents.toList)))) := by
  intro c hc
  obtain rfl := h c hc
  set bytes := desData (utf8 (unescape c.toList))
  have hc : ∀ ch ∈ encode bytes, ch.toNat < 128 ∧ relevant ch = true := encode_ascii bytes
  have hspace : ∀ ch, relevant ch = true → isSpace ch = false ∧ ch ≠ '<' := by
    intro ch h
    have : ∀ ch ∈ '=' :: alphabet, isSpace ch = false ∧ ch ≠ '<' := by decide +kernel
    refine this ch ?_
    simpa [relevant] using h
  have h1 : removeProlog (encode bytes) = encode bytes := Verif.Props.Des.removeProlog_plain _ (by
    intro h
    have : '<' ∈ encode bytes := h.subset (by decide)
    exact (hspace _ (hc _ this).2).2 rfl)
  have h2 : strip (encode bytes) = encode bytes := Verif.Props.SicdFiles.strip_id _ (fun ch h => (hspace ch (hc ch h).2).1)
  refine ⟨[.node "des_list" [] [Verif.Props.SarTiles.demoSegment (String.ofList (encode bytes))]], Verif.Props.SarTiles.demoSegment (String.ofList (encode bytes)), [],
    .node "field" [("name", "DESDATA"), ("value", String.ofList (encode bytes))] [], String.ofList (encode bytes), ?_, rfl, ?_, rfl, ?_, ?_⟩
  · simp only [parsedLists, demoFile, List.map_cons, List.map_nil, List.mapM_cons, List.mapM_nil, String.toList_ofList, h1, h2, demoLib]
    rfl
  · exact (Verif.Props.Tre.find_some _ _ _ _).1 rfl
  · rw [String.toList_ofList, List.filter_eq_self]
    exact fun ch h => (hc ch h).2
  · rw [String.toList_ofList]
    exact fun ch h => (hc ch h).1

/-- **C162** is false: a text with a backslash is not what is read from the file.  The path `C:\new` becomes `C:`, a line break and `ew`. -/
theorem backslash_lost : ∃ (call : Call) (t : Image) (s : List Char), GoodHeader s 2 ∧ IsFile demoLib call t ∧
    "DES=XML_DATA_CONTENT=" ++ (String.ofList s ++ "<SICD>C:\\new</SICD>") ∈ call.options ∧
    ∃ lists seg rest, parsedLists demoLib.parse (t.dess.map String.toList) = .ok lists ∧ segments lists "XML_DATA_CONTENT" = seg :: rest ∧
      extractXml demoLib.codec seg = .ok (some "<SICD>C:\new</SICD>") := by
  obtain ⟨s, -, hs⟩ := demo_header_good
  set contents := String.ofList s ++ "<SICD>C:\\new</SICD>" with hcont
  refine ⟨⟨⟨0, 0, 1, 1⟩, [], 1, .nitf, ["DES=XML_DATA_CONTENT=" ++ contents], none⟩, demoFile (desData (utf8 (unescape contents.toList))), s, hs, ?_⟩
  have hf := demo_is_file contents ⟨⟨0, 0, 1, 1⟩, [], 1, .nitf, ["DES=XML_DATA_CONTENT=" ++ contents], none⟩ (by
    intro c hc
    have h := List.mem_singleton.1 hc
    have := congrArg String.toList h
    rw [String.toList_append, String.toList_append] at this
    exact String.toList_inj.1 (List.append_cancel_left this))
  refine ⟨hf, List.mem_singleton.2 rfl, ?_⟩
  obtain ⟨lists, seg, rest, text, h1, h2, h3, h4, -⟩ := text_of_tile_partial demoLib rfl _ _ hf s 2 hs "<SICD>C:\\new</SICD>" (List.mem_singleton.2 rfl) (by decide +kernel)
  refine ⟨lists, seg, rest, h1, h2, ?_⟩
  rw [h3]
  congr 2
  apply String.toList_inj.1
  rw [h4]
  decide +kernel

end Verif.Props.DesText
