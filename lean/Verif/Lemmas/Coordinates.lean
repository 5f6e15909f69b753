import Mathlib.Tactic.IntervalCases
import Verif.Lemmas.Float64
import Verif.Model.Coordinates
import Verif.Spec.Coordinates

/-!
# Lemmas about DMS fields and the format language
-/

namespace Verif.Coordinates

open Verif.Float64 Verif.Spec.Float64

/-! ## Numbers as digits -/

theorem number_eq (s : List Char) : Spec.Coordinates.number s = Nat.ofDigitChars 10 s 0 := by
  rw [Nat.ofDigitChars_eq_foldl]; rfl

theorem number_zfill (w n : Nat) : Spec.Coordinates.number (zfill w (Nat.toDigits 10 n)) = n := by
  rw [number_eq, zfill, Nat.ofDigitChars_append, Nat.ofDigitChars_replicate_zero]
  simp [Nat.ofDigitChars_toDigits]

theorem zfill_length (w n : Nat) (hw : 0 < w) (h : n < 10 ^ w) : (zfill w (Nat.toDigits 10 n)).length = w := by
  have := (Nat.length_toDigits_le_iff (b := 10) (by norm_num) hw).mpr h
  simp only [zfill, List.length_append, List.length_replicate]
  omega

theorem zfill_digits (w n : Nat) : ∀ c ∈ zfill w (Nat.toDigits 10 n), c.isDigit := by
  intro c hc
  simp only [zfill, List.mem_append, List.mem_replicate] at hc
  rcases hc with ⟨-, rfl⟩ | hc
  · decide
  · exact Nat.isDigit_of_mem_toDigits (by norm_num) (by norm_num) hc

theorem fmt0d_nonneg (w : Nat) (n : Int) (h : 0 ≤ n) : fmt0d w n = zfill w (Nat.toDigits 10 n.natAbs) := by
  simp [fmt0d, not_lt.mpr h]

theorem list_of_length_two {l : List Char} (h : l.length = 2) : ∃ a b, l = [a, b] := by
  match l, h with
  | [a, b], _ => exact ⟨a, b, rfl⟩

theorem list_of_length_three {l : List Char} (h : l.length = 3) : ∃ a b c, l = [a, b, c] := by
  match l, h with
  | [a, b, c], _ => exact ⟨a, b, c, rfl⟩

/-! ## Rounded arithmetic -/

theorem pyInt_nonneg {x : ℚ} (h : 0 ≤ x) : 0 ≤ pyInt x := by
  simp only [pyInt, if_pos h]; exact Int.floor_nonneg.mpr h

theorem pyInt_le {x : ℚ} {n : Int} (hx : 0 ≤ x) (h : x ≤ n) : pyInt x ≤ n := by
  simp only [pyInt, if_pos hx]
  exact Int.floor_le_iff.mpr (by linarith)

section
variable {rnd : ℚ → ℚ} (G : GoodRounding rnd)
include G

theorem rnd_nat (n : Nat) (h : n ≤ 2 ^ 53) : rnd (n : ℚ) = n := by
  have := G.int n (by rw [abs_of_nonneg (by positivity)]; exact_mod_cast h)
  simpa using this

theorem rnd_le {x : ℚ} (n : Nat) (h : n ≤ 2 ^ 53) (hx : x ≤ n) : rnd x ≤ n := by
  have := G.mono x n hx; rwa [rnd_nat G n h] at this

theorem rnd_nonneg {x : ℚ} (hx : 0 ≤ x) : 0 ≤ rnd x := by
  have := G.mono 0 x hx
  have e := rnd_nat G 0 (by norm_num)
  simp only [Nat.cast_zero] at e
  rwa [e] at this

theorem rnd_nonpos {x : ℚ} (hx : x ≤ 0) : rnd x ≤ 0 := by
  have := rnd_nonneg G (x := -x) (by linarith)
  rw [G.neg] at this
  linarith

/-- Absolute error of one operation whose exact result is at most `M` in size. -/
theorem rnd_err {x M : ℚ} (h : |x| ≤ M) (hM : M ≤ 2 ^ 53) : |rnd x - x| ≤ M / 2 ^ 53 + 1 / 2 ^ 200 := by
  have h1 := G.err x (le_trans h hM)
  have : |x| / 2 ^ 53 ≤ M / 2 ^ 53 := div_le_div_of_nonneg_right h (by positivity)
  linarith

theorem round6_nonneg {x : ℚ} (hx : 0 ≤ x) : 0 ≤ round6 rnd x := by
  apply rnd_nonneg G
  have : 0 ≤ rint (rnd (x * 1000000)) := rint_nonneg (rnd_nonneg G (by positivity))
  have h : (0:ℚ) ≤ (rint (rnd (x * 1000000)) : ℚ) := by exact_mod_cast this
  positivity

theorem round6_le_one {x : ℚ} (hx : x ≤ 1) : round6 rnd x ≤ 1 := by
  have h1 : rnd (x * 1000000) ≤ (1000000 : Nat) := rnd_le G _ (by norm_num) (by push_cast; linarith)
  have h2 : rint (rnd (x * 1000000)) ≤ 1000000 := by
    have e : rint ((1000000 : Int) : ℚ) = 1000000 := rint_intCast _
    rw [← e]
    apply rint_mono
    simpa using h1
  have h3 : (rint (rnd (x * 1000000)) : ℚ) ≤ 1000000 := by exact_mod_cast h2
  have := rnd_le G (x := rint (rnd (x * 1000000)) / 1000000) 1 (by norm_num)
    (by rw [div_le_iff₀ (by norm_num)]; push_cast; linarith)
  simpa [round6] using this

/-- `round(x, 6)` moves `x` by at most half a millionth plus the rounding errors. -/
theorem round6_err {x : ℚ} (h : |x| ≤ 2) : |round6 rnd x - x| ≤ 51 / 100000000 := by
  have e1 := rnd_err G (x := x * 1000000) (M := 2000000)
    (by rw [abs_mul, abs_of_pos (by norm_num : (0:ℚ) < 1000000)]; linarith) (by norm_num)
  have e2 := rint_spec (rnd (x * 1000000))
  set y := rnd (x * 1000000)
  set k := (rint y : ℚ)
  have e1' := abs_le.mp e1
  have e2' := abs_le.mp e2
  have h' := abs_le.mp h
  have hk : |k / 1000000| ≤ 4 := by
    rw [abs_le]
    constructor
    · rw [le_div_iff₀ (by norm_num)]; norm_num at e1' ⊢; linarith
    · rw [div_le_iff₀ (by norm_num)]; norm_num at e1' ⊢; linarith
  have e3 := abs_le.mp (rnd_err G hk (by norm_num))
  change |rnd (k / 1000000) - x| ≤ _
  rw [abs_le]
  norm_num at e1' e2' e3 ⊢
  constructor <;> linarith

end

/-! ## The degree, minute and second fields -/

section
variable {rnd : ℚ → ℚ} (G : GoodRounding rnd)
include G

theorem fields_absDeg (d : ℚ) (hd : rnd d = d) : (fields rnd d).absDeg = |d| := by
  simp only [fields]
  split_ifs with h
  · rw [mul_neg_one, G.neg, hd, abs_of_neg h]
  · rw [abs_of_nonneg (not_lt.mp h)]

/-- Ranges of the three fields of a value of at most `n` degrees. -/
theorem fields_bounds (d : ℚ) (hd : rnd d = d) (n : Nat) (hn : |d| ≤ n) :
    0 ≤ (fields rnd d).d ∧ (fields rnd d).d ≤ n ∧
    ((fields rnd d).d : ℚ) ≤ |d| ∧ |d| < (fields rnd d).d + 1 ∧
    0 ≤ (fields rnd d).m ∧ (fields rnd d).m ≤ 60 ∧
    0 ≤ (fields rnd d).s ∧ (fields rnd d).s ≤ 60 ∧
    -(6 / 10000000) ≤ |d| - ((fields rnd d).d + (fields rnd d).m / 60 + (fields rnd d).s / 3600) ∧
    |d| - ((fields rnd d).d + (fields rnd d).m / 60 + (fields rnd d).s / 3600) ≤ 1 / 3600 + 6 / 10000000 := by
  have habs := fields_absDeg G d hd
  have hfd : (fields rnd d).d = pyInt (fields rnd d).absDeg := rfl
  have hfm : (fields rnd d).m = pyInt (rnd (round6 rnd (rnd ((fields rnd d).absDeg - (fields rnd d).d)) * 60)) := rfl
  have hfs : (fields rnd d).s = pyInt (rnd (round6 rnd (rnd (rnd ((fields rnd d).absDeg - (fields rnd d).d) -
      rnd ((fields rnd d).m / 60))) * 3600)) := rfl
  rw [habs] at hfd hfm hfs
  set D := (fields rnd d).d
  set m := (fields rnd d).m
  set s := (fields rnd d).s
  set a := |d|
  have ha : 0 ≤ a := abs_nonneg d
  have hD0 : 0 ≤ D := by rw [hfd]; exact pyInt_nonneg ha
  have hDn : D ≤ n := by rw [hfd]; exact pyInt_le ha (by exact_mod_cast hn)
  have hDfl : D = ⌊a⌋ := by rw [hfd]; simp [pyInt, ha]
  have hDle : (D:ℚ) ≤ a := by rw [hDfl]; exact Int.floor_le a
  have hDlt : a < D + 1 := by rw [hDfl]; exact Int.lt_floor_add_one a
  -- fraction
  set f := rnd (a - D) with hf
  have hf0 : 0 ≤ f := rnd_nonneg G (by linarith)
  have hf1 : f ≤ 1 := by
    have := rnd_le G (x := a - D) 1 (by norm_num) (by push_cast; linarith); simpa using this
  have hferr := abs_le.mp (rnd_err G (x := a - D) (M := 1) (by rw [abs_le]; constructor <;> linarith) (by norm_num))
  rw [← hf] at hferr
  -- minutes
  set r := round6 rnd f with hr
  have hr0 : 0 ≤ r := round6_nonneg G hf0
  have hr1 : r ≤ 1 := round6_le_one G hf1
  have hrerr := abs_le.mp (round6_err G (x := f) (by rw [abs_le]; constructor <;> linarith))
  rw [← hr] at hrerr
  set g := rnd (r * 60) with hg
  have hg0 : 0 ≤ g := rnd_nonneg G (by positivity)
  have hg60 : g ≤ 60 := by
    have := rnd_le G (x := r * 60) 60 (by norm_num) (by push_cast; linarith); simpa using this
  have hgerr := abs_le.mp (rnd_err G (x := r * 60) (M := 60) (by rw [abs_le]; constructor <;> linarith) (by norm_num))
  rw [← hg] at hgerr
  have hm0 : 0 ≤ m := by rw [hfm]; exact pyInt_nonneg hg0
  have hm60 : m ≤ 60 := by rw [hfm]; exact pyInt_le hg0 (by exact_mod_cast hg60)
  have hmfl : m = ⌊g⌋ := by rw [hfm]; simp [pyInt, hg0]
  have hmle : (m:ℚ) ≤ g := by rw [hmfl]; exact Int.floor_le g
  have hmlt : g < m + 1 := by rw [hmfl]; exact Int.lt_floor_add_one g
  have hm0q : (0:ℚ) ≤ m := by exact_mod_cast hm0
  have hm60q : (m:ℚ) ≤ 60 := by exact_mod_cast hm60
  -- seconds
  set q := rnd ((m:ℚ) / 60) with hq
  have hqerr := abs_le.mp (rnd_err G (x := (m:ℚ) / 60) (M := 1)
    (by rw [abs_of_nonneg (by positivity), div_le_iff₀ (by norm_num)]; linarith) (by norm_num))
  rw [← hq] at hqerr
  have hq0 : 0 ≤ q := rnd_nonneg G (by positivity)
  have hq1 : q ≤ 1 := by
    have := rnd_le G (x := (m:ℚ) / 60) 1 (by norm_num) (by rw [div_le_iff₀ (by norm_num)]; push_cast; linarith)
    simpa using this
  set e := rnd (f - q) with he
  have heerr := abs_le.mp (rnd_err G (x := f - q) (M := 1) (by rw [abs_le]; constructor <;> linarith) (by norm_num))
  rw [← he] at heerr
  norm_num at hferr hrerr hgerr hqerr heerr
  have hebound : |e| ≤ 2 := by rw [abs_le]; constructor <;> linarith
  set t := round6 rnd e with ht
  have hterr := abs_le.mp (round6_err G (x := e) hebound)
  rw [← ht] at hterr
  norm_num at hterr
  -- e is between -1/1000000 and 1/60 + small
  have he_lo : -(55 / 100000000) ≤ e := by linarith
  have he_hi : e ≤ 1 / 60 + 55 / 100000000 := by linarith
  set v := rnd (t * 3600) with hv
  have hverr := abs_le.mp (rnd_err G (x := t * 3600) (M := 3600)
    (by rw [abs_le]; constructor <;> linarith) (by norm_num))
  rw [← hv] at hverr
  norm_num at hverr
  have hs0 : 0 ≤ s := by
    rw [hfs]
    unfold pyInt
    split_ifs with h0
    · exact Int.floor_nonneg.mpr h0
    · have : -1 < ⌈v⌉ := by
        rw [Int.lt_ceil]
        push_cast
        linarith
      omega
  have hsv : (s:ℚ) ≤ v + 1 / 100 ∧ v ≤ s + 1 ∧ s ≤ 60 := by
    rw [hfs]
    unfold pyInt
    split_ifs with h0
    · refine ⟨?_, ?_, ?_⟩
      · have := Int.floor_le v; linarith
      · exact (Int.lt_floor_add_one v).le
      · have : ⌊v⌋ < 61 := by rw [Int.floor_lt]; push_cast; linarith
        omega
    · have hc : ⌈v⌉ = 0 := by
        rw [Int.ceil_eq_iff]
        push_cast
        constructor <;> linarith
      rw [hc]
      refine ⟨?_, ?_, by norm_num⟩ <;> push_cast <;> linarith
  obtain ⟨hs1, hs2, hs3⟩ := hsv
  refine ⟨hD0, hDn, hDle, hDlt, hm0, hm60, hs0, hs3, ?_, ?_⟩
  · -- value is at most |d| + 6e-7
    by_cases h0 : 0 ≤ v
    · have : (s:ℚ) ≤ v := by rw [hfs]; simp only [pyInt, if_pos h0]; exact Int.floor_le v
      linarith
    · have hc : s = 0 := by
        rw [hfs]
        simp only [pyInt, if_neg h0]
        rw [Int.ceil_eq_iff]
        push_cast
        constructor <;> linarith
      rw [hc]
      push_cast
      linarith
  · linarith

end

end Verif.Coordinates

/-! ## The format language -/

namespace Verif.Coordinates

open Verif.Spec.Coordinates

theorem partText_isSome (w : Nat) (a b c d : Char) (f : Fields) (p : Char) :
    (partText w a b c d f p).isSome ↔ p ∈ partLetters := by
  unfold partText partLetters
  split_ifs <;> simp_all

/-- What the loop prints for one piece, in terms of the computed fields. -/
def texts (A : Arith) (c : Geodetic) (la lo : Fields) : Texts where
  radians
    | .lat => A.str c.latitude
    | .lon => A.str c.longitude
  decimal
    | .lat => A.str la.absDeg
    | .lon => A.str lo.absDeg
  part
    | .lat, p => ((partText 2 'N' 'S' 'n' 's' la p).toList).flatten
    | .lon, p => ((partText 3 'E' 'W' 'e' 'w' lo p).toList).flatten
  elevation := A.str c.elevation

theorem run_cons2 (A : Arith) (c : Geodetic) (la lo : Fields) (x d : Char) (rest : List Char) :
    run A c la lo (x :: d :: rest) =
    if x = '%' then
      if d = 'L' then A.str c.latitude ++ run A c la lo rest
      else if d = 'O' then A.str c.longitude ++ run A c la lo rest
      else if d = 'l' then
        match rest with
        | [] => A.str la.absDeg
        | p :: rest' =>
          match partText 2 'N' 'S' 'n' 's' la p with
          | some t => t ++ run A c la lo rest'
          | none => A.str la.absDeg ++ run A c la lo (p :: rest')
      else if d = 'o' then
        match rest with
        | [] => A.str lo.absDeg
        | p :: rest' =>
          match partText 3 'E' 'W' 'e' 'w' lo p with
          | some t => t ++ run A c la lo rest'
          | none => A.str lo.absDeg ++ run A c la lo (p :: rest')
      else if d = 'E' then A.str c.elevation ++ run A c la lo rest
      else if d = '%' then '%' :: run A c la lo rest
      else run A c la lo rest
    else x :: run A c la lo (d :: rest) := by
  cases rest <;> rfl

theorem run_lit (A : Arith) (c : Geodetic) (la lo : Fields) (x : Char) (hx : x ≠ '%') (rest : List Char) :
    run A c la lo (x :: rest) = x :: run A c la lo rest := by
  cases rest with
  | nil => rfl
  | cons y ys => rw [run_cons2, if_neg hx]

theorem run_piece (A : Arith) (c : Geodetic) (la lo : Fields) (p : Piece) (rest : List Char) (hok : p.ok)
    (hdec : ∀ a, p = .decimal a → ∀ l ∈ partLetters, rest.head? ≠ some l) (hlone : p = .lone → rest = []) :
    run A c la lo (p.text ++ rest) = p.output (texts A c la lo) ++ run A c la lo rest := by
  cases p with
  | lit x => exact run_lit A c la lo x hok rest
  | percent => simp [Piece.text, Piece.output, run_cons2]
  | radians a => cases a <;> simp [Piece.text, Piece.output, run_cons2, texts]
  | elevation => simp [Piece.text, Piece.output, run_cons2, texts]
  | unknown x =>
    simp only [Piece.ok, List.mem_cons, List.not_mem_nil, or_false, not_or] at hok
    obtain ⟨h1, h2, h3, h4, h5, h6⟩ := hok
    simp [Piece.text, Piece.output, run_cons2, h1, h2, h3, h4, h5, h6]
  | lone =>
    rw [hlone rfl]
    simp [Piece.text, Piece.output, run]
  | decimal a =>
    have hd := hdec a rfl
    cases a with
    | lat =>
      cases rest with
      | nil => simp [Piece.text, Piece.output, axLetter, run_cons2, run, texts]
      | cons y ys =>
        have : partText 2 'N' 'S' 'n' 's' la y = none := by
          rw [← Option.not_isSome_iff_eq_none, partText_isSome]
          intro hy
          exact hd y hy rfl
        simp [Piece.text, Piece.output, axLetter, run_cons2, texts, this]
    | lon =>
      cases rest with
      | nil => simp [Piece.text, Piece.output, axLetter, run_cons2, run, texts]
      | cons y ys =>
        have : partText 3 'E' 'W' 'e' 'w' lo y = none := by
          rw [← Option.not_isSome_iff_eq_none, partText_isSome]
          intro hy
          exact hd y hy rfl
        simp [Piece.text, Piece.output, axLetter, run_cons2, texts, this]
  | part a l =>
    cases a with
    | lat =>
      have h := (partText_isSome 2 'N' 'S' 'n' 's' la l).mpr hok
      obtain ⟨t, ht⟩ := Option.isSome_iff_exists.mp h
      simp [Piece.text, Piece.output, axLetter, run_cons2, texts, ht]
    | lon =>
      have h := (partText_isSome 3 'E' 'W' 'e' 'w' lo l).mpr hok
      obtain ⟨t, ht⟩ := Option.isSome_iff_exists.mp h
      simp [Piece.text, Piece.output, axLetter, run_cons2, texts, ht]

theorem text_ne_nil (p : Piece) : p.text ≠ [] := by
  cases p with
  | radians a => cases a <;> simp [Piece.text]
  | _ => simp [Piece.text]

theorem head?_flatMap_cons (q : Piece) (rest : List Piece) :
    ((q :: rest).flatMap Piece.text).head? = q.text.head? := by
  rw [List.flatMap_cons]
  cases h : q.text with
  | nil => exact absurd h (text_ne_nil q)
  | cons x xs => simp

theorem run_pieces (A : Arith) (c : Geodetic) (la lo : Fields) : ∀ ps : List Piece, WellFormed ps →
    run A c la lo (ps.flatMap Piece.text) = ps.flatMap (Piece.output (texts A c la lo))
  | [], _ => rfl
  | [p], h => by
    have := run_piece A c la lo p [] h (by intro _ _ l _; simp) (fun _ => rfl)
    simpa [run] using this
  | p :: q :: rest, h => by
    obtain ⟨h1, h2, h3⟩ := h
    rw [List.flatMap_cons, run_piece A c la lo p _ h1, run_pieces A c la lo (q :: rest) h3, List.flatMap_cons (x := p)]
    · intro a ha l hl
      rw [head?_flatMap_cons]
      subst ha
      exact h2 l hl
    · intro hp
      subst hp
      exact absurd h2 (by simp [follows])

theorem wellFormed_cons {p : Piece} {ps : List Piece} (h1 : p.ok) (h2 : ∀ q, ps.head? = some q → follows p q)
    (h3 : WellFormed ps) : WellFormed (p :: ps) := by
  cases ps with
  | nil => exact h1
  | cons q rest => exact ⟨h1, h2 q rfl, h3⟩

/-- Every format specification is a well-formed sequence of pieces. -/
theorem exists_pieces : ∀ (n : Nat) (s : List Char), s.length ≤ n →
    ∃ ps, WellFormed ps ∧ ps.flatMap Piece.text = s := by
  intro n
  induction n with
  | zero =>
    intro s hs
    exact ⟨[], trivial, by simpa using (List.length_eq_zero_iff.mp (by omega)).symm⟩
  | succ n ih =>
    intro s hs
    match s, hs with
    | [], _ => exact ⟨[], trivial, rfl⟩
    | [x], _ =>
      by_cases hx : x = '%'
      · exact ⟨[.lone], trivial, by simp [hx, Piece.text]⟩
      · exact ⟨[.lit x], hx, by simp [Piece.text]⟩
    | x :: y :: rest, hs =>
      by_cases hx : x = '%'
      · subst hx
        have mk : ∀ p : Piece, p.text = ['%', y] → p.ok → (∀ q, follows p q) →
            ∃ ps, WellFormed ps ∧ ps.flatMap Piece.text = '%' :: y :: rest := by
          intro p ht hok hf
          obtain ⟨ps, h1, h2⟩ := ih rest (by simp only [List.length_cons] at hs; omega)
          exact ⟨p :: ps, wellFormed_cons hok (fun q _ => hf q) h1, by rw [List.flatMap_cons, h2, ht]; rfl⟩
        have ax : ∀ a : Ax, y = axLetter a → ∃ ps, WellFormed ps ∧ ps.flatMap Piece.text = '%' :: y :: rest := by
          intro a ha
          cases rest with
          | nil => exact ⟨[.decimal a], trivial, by simp [Piece.text, ha]⟩
          | cons p rest' =>
            by_cases hp : p ∈ partLetters
            · obtain ⟨ps, h1, h2⟩ := ih rest' (by simp only [List.length_cons] at hs; omega)
              exact ⟨.part a p :: ps, wellFormed_cons hp (fun q _ => trivial) h1, by
                rw [List.flatMap_cons, h2]; simp [Piece.text, ha]⟩
            · obtain ⟨ps, h1, h2⟩ := ih (p :: rest') (by simp only [List.length_cons] at hs ⊢; omega)
              refine ⟨.decimal a :: ps, wellFormed_cons trivial ?_ h1, by
                rw [List.flatMap_cons, h2]; simp [Piece.text, ha]⟩
              intro q hq l hl hcon
              cases ps with
              | nil => simp at h2
              | cons q' ps' =>
                simp only [List.head?_cons, Option.some.injEq] at hq
                subst hq
                have := head?_flatMap_cons q' ps'
                rw [h2, hcon] at this
                simp only [List.head?_cons, Option.some.injEq] at this
                exact hp (this ▸ hl)
        by_cases e1 : y = 'L'
        · exact mk (.radians .lat) (by simp [Piece.text, e1]) trivial (fun _ => trivial)
        by_cases e2 : y = 'O'
        · exact mk (.radians .lon) (by simp [Piece.text, e2]) trivial (fun _ => trivial)
        by_cases e3 : y = 'l'
        · exact ax .lat e3
        by_cases e4 : y = 'o'
        · exact ax .lon e4
        by_cases e5 : y = 'E'
        · exact mk .elevation (by simp [Piece.text, e5]) trivial (fun _ => trivial)
        by_cases e6 : y = '%'
        · exact mk .percent (by simp [Piece.text, e6]) trivial (fun _ => trivial)
        · exact mk (.unknown y) rfl (by simp [Piece.ok, e1, e2, e3, e4, e5, e6]) (fun _ => trivial)
      · obtain ⟨ps, h1, h2⟩ := ih (y :: rest) (by simp only [List.length_cons] at hs ⊢; omega)
        exact ⟨.lit x :: ps, wellFormed_cons hx (fun _ _ => trivial) h1, by rw [List.flatMap_cons, h2]; rfl⟩

/-! ## The shape of a DMS string -/

theorem toDmsString_eq (A : Arith) (c : Geodetic) :
    toDmsString A c =
      let la := fields A.rnd (A.deg c.latitude)
      let lo := fields A.rnd (A.deg c.longitude)
      fmt0d 2 la.d ++ (fmt0d 2 la.m ++ (fmt0d 2 la.s ++ ((if la.south then 'S' else 'N') ::
        (fmt0d 3 lo.d ++ (fmt0d 2 lo.m ++ (fmt0d 2 lo.s ++ [if lo.south then 'W' else 'E'])))))) := by
  simp [toDmsString, format, run, partText]

end Verif.Coordinates
