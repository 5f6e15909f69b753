import Verif.Lemmas.Coordinates

/-!
# Properties C14–C18: formatting geodetic coordinates
-/

namespace Verif.Props.Coordinates

open Verif.Coordinates Verif.Float64 Verif.Spec.Float64 Verif.Spec.Coordinates

/-- A latitude and longitude (in the degrees computed from them) for which DMS strings make sense. -/
structure OnGlobe (A : Arith) (c : Geodetic) : Prop where
  rounding : GoodRounding A.rnd
  lat_float : A.rnd (A.deg c.latitude) = A.deg c.latitude
  lon_float : A.rnd (A.deg c.longitude) = A.deg c.longitude
  lat_le : |A.deg c.latitude| ≤ 90
  lon_le : |A.deg c.longitude| ≤ 180

private theorem forall2_digits (n : Nat) (s : List Char) (h : s.length = n) (hd : ∀ c ∈ s, c.isDigit) :
    List.Forall₂ (fun (p : Char → Bool) c => p c = true) (List.replicate n (fun c : Char => c.isDigit)) s := by
  induction s generalizing n with
  | nil => simp at h; subst h; simp
  | cons x xs ih =>
    cases n with
    | zero => simp at h
    | succ n =>
      rw [List.replicate_succ]
      refine List.Forall₂.cons (hd x (by simp)) (ih n (by simpa using h) (fun c hc => hd c (by simp [hc])))

/-- **C14.** For every coordinate on the globe and every good rounding of the
arithmetic, `to_dms_string` has the form ddmmssXdddmmssY (so exactly 15 characters). -/
theorem dms_string_shape (A : Arith) (c : Geodetic) (h : OnGlobe A c) :
    DmsShape (toDmsString A c) ∧ (toDmsString A c).length = 15 := by
  obtain ⟨a1, a2, -, -, a3, a4, a5, a6, -, -⟩ := fields_bounds h.rounding _ h.lat_float 90 (by exact_mod_cast h.lat_le)
  obtain ⟨b1, b2, -, -, b3, b4, b5, b6, -, -⟩ := fields_bounds h.rounding _ h.lon_float 180 (by exact_mod_cast h.lon_le)
  have key : DmsShape (toDmsString A c) := by
    rw [toDmsString_eq]
    simp only
    rw [fmt0d_nonneg 2 _ a1, fmt0d_nonneg 2 _ a3, fmt0d_nonneg 2 _ a5, fmt0d_nonneg 3 _ b1, fmt0d_nonneg 2 _ b3,
      fmt0d_nonneg 2 _ b5]
    have len2 : ∀ n : Int, 0 ≤ n → n ≤ 90 → (zfill 2 (Nat.toDigits 10 n.natAbs)).length = 2 :=
      fun n h0 h1 => zfill_length 2 _ (by norm_num) (by omega)
    have len3 : ∀ n : Int, 0 ≤ n → n ≤ 180 → (zfill 3 (Nat.toDigits 10 n.natAbs)).length = 3 :=
      fun n h0 h1 => zfill_length 3 _ (by norm_num) (by omega)
    have f2 : ∀ n : Int, 0 ≤ n → n ≤ 90 → List.Forall₂ (fun (p : Char → Bool) c => p c = true)
        (List.replicate 2 (fun c : Char => c.isDigit)) (zfill 2 (Nat.toDigits 10 n.natAbs)) :=
      fun n h0 h1 => forall2_digits 2 _ (len2 n h0 h1) (zfill_digits _ _)
    have f3 : ∀ n : Int, 0 ≤ n → n ≤ 180 → List.Forall₂ (fun (p : Char → Bool) c => p c = true)
        (List.replicate 3 (fun c : Char => c.isDigit)) (zfill 3 (Nat.toDigits 10 n.natAbs)) :=
      fun n h0 h1 => forall2_digits 3 _ (len3 n h0 h1) (zfill_digits _ _)
    unfold DmsShape
    have e : dmsPattern = List.replicate 2 (fun c : Char => c.isDigit) ++ (List.replicate 2 (fun c : Char => c.isDigit) ++
      (List.replicate 2 (fun c : Char => c.isDigit) ++ ((fun c : Char => c == 'N' || c == 'S') ::
      (List.replicate 3 (fun c : Char => c.isDigit) ++ (List.replicate 2 (fun c : Char => c.isDigit) ++
      (List.replicate 2 (fun c : Char => c.isDigit) ++ [fun c : Char => c == 'E' || c == 'W'])))))) := rfl
    rw [e]
    refine List.rel_append (f2 _ a1 (by exact_mod_cast a2)) (List.rel_append (f2 _ a3 (by omega))
      (List.rel_append (f2 _ a5 (by omega)) (List.Forall₂.cons ?_ (List.rel_append (f3 _ b1 (by exact_mod_cast b2))
      (List.rel_append (f2 _ b3 (by omega)) (List.rel_append (f2 _ b5 (by omega)) (List.Forall₂.cons ?_ .nil)))))))
    · split_ifs <;> decide
    · split_ifs <;> decide
  exact ⟨key, by have := key.length_eq; simpa [dmsPattern] using this.symm⟩

/-- **C14 (IGEOLO).** Four corner coordinates on the globe make a field of 60 characters. -/
theorem igeolo_length (A : Arith) (ul ur lr ll : Geodetic) (h1 : OnGlobe A ul) (h2 : OnGlobe A ur) (h3 : OnGlobe A lr)
    (h4 : OnGlobe A ll) :
    (toDmsString A ul ++ toDmsString A ur ++ toDmsString A lr ++ toDmsString A ll).length = 60 := by
  simp [(dms_string_shape A ul h1).2, (dms_string_shape A ur h2).2, (dms_string_shape A lr h3).2,
    (dms_string_shape A ll h4).2]

/-- In IEEE double arithmetic every latitude and longitude of the closed radian
ranges `[-π/2, π/2]` and `[-π, π]` (π being `math.pi`) is on the globe. -/
theorem ieee_onGlobe (str : ℚ → List Char) (c : Geodetic) (hlat : |c.latitude| ≤ piDouble / 2)
    (hlon : |c.longitude| ≤ piDouble) : OnGlobe (ieee str) c := by
  have degNeg : ∀ x, degrees (-x) = -degrees x := by
    intro x; unfold degrees; rw [neg_mul, rne64_neg]
  have hk : (0:ℚ) ≤ rne64 (180 / piDouble) := by decide +kernel
  have degMono : ∀ x y, x ≤ y → degrees x ≤ degrees y := by
    intro x y hxy
    exact rne64_mono (mul_le_mul_of_nonneg_right hxy hk)
  have bound : ∀ x b : ℚ, |x| ≤ b → |degrees x| ≤ degrees b := by
    intro x b hx
    obtain ⟨h1, h2⟩ := abs_le.mp hx
    rw [abs_le]
    constructor
    · rw [← degNeg]; exact degMono _ _ h1
    · exact degMono _ _ h2
  have e90 : degrees (piDouble / 2) = 90 := by decide +kernel
  have e180 : degrees piDouble = 180 := by decide +kernel
  exact ⟨rne64_good, rne64_idem _, rne64_idem _, by rw [← e90]; exact bound _ _ hlat, by rw [← e180]; exact bound _ _ hlon⟩

/-- Washington, DC meets the hypotheses; its DMS string is as expected. -/
example : OnGlobe (ieee (fun _ => [])) ⟨radians (rne64 (-77365 / 10000 * 10)), radians (rne64 (388977 / 10000)), 0⟩ ∧
    toDmsString (ieee (fun _ => [])) ⟨radians (rne64 (-77365 / 10000 * 10)), radians (rne64 (388977 / 10000)), 0⟩ =
      "385351N0772154W".toList :=
  ⟨ieee_onGlobe _ _ (by decide +kernel) (by decide +kernel), by decide +kernel⟩

/-- Exact arithmetic in degrees is on the globe too. -/
example : OnGlobe ⟨id, id, fun _ => []⟩ ⟨-77, 38, 0⟩ :=
  ⟨id_good, rfl, rfl, by norm_num [abs_le], by norm_num [abs_le]⟩

/-- **C15 (negated).** In IEEE double arithmetic there is a coordinate whose
printed longitude minutes are 60 and whose latitude seconds are 60. -/
theorem dms_minutes_and_seconds_can_be_sixty :
    ∃ c : Geodetic, OnGlobe (ieee (fun _ => [])) c ∧
      format (ieee (fun _ => [])) c "%om".toList = "60".toList ∧ format (ieee (fun _ => [])) c "%ls".toList = "60".toList ∧
      toDmsString (ieee (fun _ => [])) c = "000160N0006000E".toList :=
  ⟨⟨2515283527940743 / 144115188075855872, 2682975535598533 / 4611686018427387904, 0⟩,
    ieee_onGlobe _ _ (by decide +kernel) (by decide +kernel), by decide +kernel, by decide +kernel, by decide +kernel⟩

/-- **C15 (what holds).** Printed minutes and seconds are numbers from 0 to 60, and
minutes are below 60 unless the fraction of a degree is within 6·10⁻⁷ of 1.
Missing from the full statement: the excluded value 60. -/
theorem dms_minutes_and_seconds_le_sixty_partial (A : Arith) (c : Geodetic) (h : OnGlobe A c) :
    (∀ spec ∈ ["%lm".toList, "%ls".toList, "%om".toList, "%os".toList],
      (format A c spec).length = 2 ∧ (∀ x ∈ format A c spec, x.isDigit) ∧ number (format A c spec) ≤ 60) ∧
    (number (format A c "%lm".toList) = 60 → (|A.deg c.latitude| + 6 / 10000000) - ⌊|A.deg c.latitude|⌋ ≥ 1) ∧
    (number (format A c "%om".toList) = 60 → (|A.deg c.longitude| + 6 / 10000000) - ⌊|A.deg c.longitude|⌋ ≥ 1) := by
  obtain ⟨a1, a2, u1, u2, a3, a4, a5, a6, a7, -⟩ := fields_bounds h.rounding _ h.lat_float 90 (by exact_mod_cast h.lat_le)
  obtain ⟨b1, b2, v1, v2, b3, b4, b5, b6, b7, -⟩ := fields_bounds h.rounding _ h.lon_float 180 (by exact_mod_cast h.lon_le)
  have one : ∀ n : Int, 0 ≤ n → n ≤ 60 → (fmt0d 2 n).length = 2 ∧ (∀ x ∈ fmt0d 2 n, x.isDigit) ∧ number (fmt0d 2 n) ≤ 60 := by
    intro n h0 h1
    rw [fmt0d_nonneg 2 n h0, number_zfill]
    exact ⟨zfill_length 2 _ (by norm_num) (by omega), zfill_digits _ _, by omega⟩
  have e1 : format A c "%lm".toList = fmt0d 2 (fields A.rnd (A.deg c.latitude)).m := by
    simp [format, run_cons2, run, partText]
  have e2 : format A c "%ls".toList = fmt0d 2 (fields A.rnd (A.deg c.latitude)).s := by
    simp [format, run_cons2, run, partText]
  have e3 : format A c "%om".toList = fmt0d 2 (fields A.rnd (A.deg c.longitude)).m := by
    simp [format, run_cons2, run, partText]
  have e4 : format A c "%os".toList = fmt0d 2 (fields A.rnd (A.deg c.longitude)).s := by
    simp [format, run_cons2, run, partText]
  have fl : ∀ (x : ℚ) (n : Int), (n:ℚ) ≤ x → x < n + 1 → ⌊x⌋ = n := fun x n h1 h2 => Int.floor_eq_iff.mpr ⟨h1, h2⟩
  refine ⟨?_, ?_, ?_⟩
  · intro spec hspec
    simp only [List.mem_cons, List.not_mem_nil, or_false] at hspec
    rcases hspec with rfl | rfl | rfl | rfl
    · rw [e1]; exact one _ a3 a4
    · rw [e2]; exact one _ a5 a6
    · rw [e3]; exact one _ b3 b4
    · rw [e4]; exact one _ b5 b6
  · rw [e1, fmt0d_nonneg 2 _ a3, number_zfill, fl _ _ u1 u2]
    intro hm
    have hm' : (fields A.rnd (A.deg c.latitude)).m = 60 := by omega
    have hs' : (0:ℚ) ≤ (fields A.rnd (A.deg c.latitude)).s := by exact_mod_cast a5
    rw [hm'] at a7
    push_cast at a7
    linarith
  · rw [e3, fmt0d_nonneg 2 _ b3, number_zfill, fl _ _ v1 v2]
    intro hm
    have hm' : (fields A.rnd (A.deg c.longitude)).m = 60 := by omega
    have hs' : (0:ℚ) ≤ (fields A.rnd (A.deg c.longitude)).s := by exact_mod_cast b5
    rw [hm'] at b7
    push_cast at b7
    linarith

private theorem readHalf_eq (w : Nat) (hw : 0 < w) (neg pos : Char) (hne : pos ≠ neg) (D m s : Int) (b : Bool)
    (hD0 : 0 ≤ D) (hD : D.natAbs < 10 ^ w) (hm0 : 0 ≤ m) (hm : m ≤ 60) (hs0 : 0 ≤ s) (hs : s ≤ 60) :
    readHalf w neg (fmt0d w D ++ (fmt0d 2 m ++ (fmt0d 2 s ++ [if b then neg else pos]))) =
      (if b then -1 else 1) * ((D:ℚ) + m / 60 + s / 3600) := by
  rw [fmt0d_nonneg w _ hD0, fmt0d_nonneg 2 _ hm0, fmt0d_nonneg 2 _ hs0]
  have l1 := zfill_length w D.natAbs hw hD
  have l2 := zfill_length 2 m.natAbs (by norm_num) (by omega)
  have l3 := zfill_length 2 s.natAbs (by norm_num) (by omega)
  have n1 := number_zfill w D.natAbs
  have n2 := number_zfill 2 m.natAbs
  have n3 := number_zfill 2 s.natAbs
  set x := zfill w (Nat.toDigits 10 D.natAbs)
  set y := zfill 2 (Nat.toDigits 10 m.natAbs)
  set z := zfill 2 (Nat.toDigits 10 s.natAbs)
  have t1 : (x ++ (y ++ (z ++ [if b then neg else pos]))).take w = x := by rw [← l1]; simp
  have t2 : (x ++ (y ++ (z ++ [if b then neg else pos]))).drop w = y ++ (z ++ [if b then neg else pos]) := by
    rw [← l1]; simp
  have t3 : (y ++ (z ++ [if b then neg else pos])).take 2 = y := by rw [← l2]; simp
  have t4 : (x ++ (y ++ (z ++ [if b then neg else pos]))).drop (w + 2) = z ++ [if b then neg else pos] := by
    rw [← List.drop_drop, t2, ← l2]; simp
  have t5 : (z ++ [if b then neg else pos]).take 2 = z := by rw [← l3]; simp
  have t6 : (x ++ (y ++ (z ++ [if b then neg else pos]))).drop (w + 4) = [if b then neg else pos] := by
    rw [show w + 4 = (w + 2) + 2 by omega, ← List.drop_drop, t4, ← l3]; simp
  unfold readHalf
  simp only [t1, t2, t3, t4, t5, t6, n1, n2, n3]
  have c1 : (D.natAbs : ℚ) = D := by rw [← Int.cast_natCast, Int.natAbs_of_nonneg hD0]
  have c2 : (m.natAbs : ℚ) = m := by rw [← Int.cast_natCast, Int.natAbs_of_nonneg hm0]
  have c3 : (s.natAbs : ℚ) = s := by rw [← Int.cast_natCast, Int.natAbs_of_nonneg hs0]
  rw [c1, c2, c3]
  cases b <;> simp [hne]

/-- **C16.** Reading the printed DMS string back gives the latitude and longitude
in degrees with an error of at most one second plus 6·10⁻⁷ degrees (0.0022 seconds),
for every coordinate on the globe and every good rounding. -/
theorem dms_string_denotes_coordinate (A : Arith) (c : Geodetic) (h : OnGlobe A c) :
    |(readDms (toDmsString A c)).1 - A.deg c.latitude| ≤ 1 / 3600 + 6 / 10000000 ∧
    |(readDms (toDmsString A c)).2 - A.deg c.longitude| ≤ 1 / 3600 + 6 / 10000000 := by
  obtain ⟨a1, a2, -, -, a3, a4, a5, a6, a7, a8⟩ := fields_bounds h.rounding _ h.lat_float 90 (by exact_mod_cast h.lat_le)
  obtain ⟨b1, b2, -, -, b3, b4, b5, b6, b7, b8⟩ := fields_bounds h.rounding _ h.lon_float 180 (by exact_mod_cast h.lon_le)
  have hsl : (fields A.rnd (A.deg c.latitude)).south = decide (A.deg c.latitude < 0) := rfl
  have hso : (fields A.rnd (A.deg c.longitude)).south = decide (A.deg c.longitude < 0) := rfl
  have hcut : ∀ (x y z v : List Char) (q : Char), x.length = 2 → y.length = 2 → z.length = 2 →
      (x ++ (y ++ (z ++ (q :: v)))).take 7 = x ++ (y ++ (z ++ [q])) ∧ (x ++ (y ++ (z ++ (q :: v)))).drop 7 = v := by
    intro x y z v q hx hy hz
    obtain ⟨x1, x2, rfl⟩ := list_of_length_two hx
    obtain ⟨y1, y2, rfl⟩ := list_of_length_two hy
    obtain ⟨z1, z2, rfl⟩ := list_of_length_two hz
    simp
  have len : ∀ n : Int, 0 ≤ n → n ≤ 90 → (fmt0d 2 n).length = 2 := by
    intro n h0 h1
    rw [fmt0d_nonneg 2 n h0]
    exact zfill_length 2 _ (by norm_num) (by omega)
  have cut := hcut _ _ _ (fmt0d 3 (fields A.rnd (A.deg c.longitude)).d ++ (fmt0d 2 (fields A.rnd (A.deg c.longitude)).m ++
      (fmt0d 2 (fields A.rnd (A.deg c.longitude)).s ++ [if (fields A.rnd (A.deg c.longitude)).south then 'W' else 'E'])))
    (if (fields A.rnd (A.deg c.latitude)).south then 'S' else 'N')
    (len _ a1 (by exact_mod_cast a2)) (len _ a3 (by omega)) (len _ a5 (by omega))
  have r1 := readHalf_eq 2 (by norm_num) 'S' 'N' (by decide) _ _ _ (fields A.rnd (A.deg c.latitude)).south
    a1 (by omega) a3 a4 a5 a6
  have r2 := readHalf_eq 3 (by norm_num) 'W' 'E' (by decide) _ _ _ (fields A.rnd (A.deg c.longitude)).south
    b1 (by omega) b3 b4 b5 b6
  have fin : ∀ d v : ℚ, -(6 / 10000000) ≤ |d| - v → |d| - v ≤ 1 / 3600 + 6 / 10000000 →
      |(if decide (d < 0) = true then -1 else 1) * v - d| ≤ 1 / 3600 + 6 / 10000000 := by
    intro d v h1 h2
    by_cases hd : d < 0
    · rw [abs_of_neg hd] at h1 h2
      simp only [hd, decide_true, if_true]
      rw [abs_le]; constructor <;> linarith
    · rw [abs_of_nonneg (not_lt.mp hd)] at h1 h2
      simp only [hd, decide_false, if_false, Bool.false_eq_true]
      rw [abs_le]; constructor <;> linarith
  rw [toDmsString_eq]
  simp only [readDms]
  rw [cut.1, cut.2, r1, r2, hsl, hso]
  exact ⟨fin _ _ a7 a8, fin _ _ b7 b8⟩

/-- 77.5 degrees west, 38.25 degrees north. -/
example : DmsShape (toDmsString ⟨id, id, fun _ => []⟩ ⟨-77 - 1 / 2, 38 + 1 / 4, 0⟩) ∧
    |(readDms (toDmsString ⟨id, id, fun _ => []⟩ ⟨-77 - 1 / 2, 38 + 1 / 4, 0⟩)).1 - (38 + 1 / 4)| ≤ 1 / 3600 + 6 / 10000000 ∧
    number (format ⟨id, id, fun _ => []⟩ ⟨-77 - 1 / 2, 38 + 1 / 4, 0⟩ "%lm".toList) ≤ 60 := by
  have h : OnGlobe ⟨id, id, fun _ => []⟩ ⟨-77 - 1 / 2, 38 + 1 / 4, 0⟩ := ⟨id_good, rfl, rfl, by norm_num [abs_le], by norm_num [abs_le]⟩
  exact ⟨(dms_string_shape _ _ h).1, (dms_string_denotes_coordinate _ _ h).1,
    ((dms_minutes_and_seconds_le_sixty_partial _ _ h).1 _ (by simp)).2.2⟩

/-- **C17 (a).** Formatting is piecewise: for every well-formed sequence of pieces
the result is the concatenation of what the pieces print, where literal characters
print themselves, `%%` prints `%`, unknown directives print nothing, the radian and
elevation directives print the stored numbers and the other directives print what
they print on their own. -/
theorem format_pieces (A : Arith) (c : Geodetic) (ps : List Piece) (hne : ps ≠ []) (h : WellFormed ps) :
    format A c (ps.flatMap Piece.text) = ps.flatMap (Piece.output
      { radians := fun a => A.str (match a with | .lat => c.latitude | .lon => c.longitude)
        decimal := fun a => format A c ['%', axLetter a]
        part := fun a p => format A c ['%', axLetter a, p]
        elevation := A.str c.elevation }) := by
  have hs : ps.flatMap Piece.text ≠ [] := by
    cases ps with
    | nil => exact absurd rfl hne
    | cons p rest =>
      intro hcon
      rw [List.flatMap_cons, List.append_eq_nil_iff] at hcon
      exact text_ne_nil p hcon.1
  have e : format A c (ps.flatMap Piece.text) =
      run A c (fields A.rnd (A.deg c.latitude)) (fields A.rnd (A.deg c.longitude)) (ps.flatMap Piece.text) := by
    simp [format, hs]
  rw [e, run_pieces A c _ _ ps h]
  have out : ∀ p : Piece, p.ok → p.output (texts A c (fields A.rnd (A.deg c.latitude)) (fields A.rnd (A.deg c.longitude))) =
      p.output { radians := fun a => A.str (match a with | .lat => c.latitude | .lon => c.longitude)
                 decimal := fun a => format A c ['%', axLetter a]
                 part := fun a p => format A c ['%', axLetter a, p]
                 elevation := A.str c.elevation } := by
    intro p hp
    cases p with
    | radians a => cases a <;> rfl
    | decimal a => cases a <;> simp [Piece.output, texts, format, axLetter, run_cons2]
    | part a l =>
      have hl : l ∈ partLetters := hp
      cases a with
      | lat =>
        obtain ⟨t, ht⟩ := Option.isSome_iff_exists.mp ((partText_isSome 2 'N' 'S' 'n' 's'
          (fields A.rnd (A.deg c.latitude)) l).mpr hl)
        simp [Piece.output, texts, format, axLetter, run_cons2, run, ht]
      | lon =>
        obtain ⟨t, ht⟩ := Option.isSome_iff_exists.mp ((partText_isSome 3 'E' 'W' 'e' 'w'
          (fields A.rnd (A.deg c.longitude)) l).mpr hl)
        simp [Piece.output, texts, format, axLetter, run_cons2, run, ht]
    | _ => rfl
  have oks : ∀ ps : List Piece, WellFormed ps → ∀ p ∈ ps, p.ok := by
    intro ps
    induction ps with
    | nil => intro _ p hp; simp at hp
    | cons q rest ih =>
      intro hwf p hp
      cases rest with
      | nil => simp at hp; subst hp; exact hwf
      | cons r rest' =>
        obtain ⟨h1, -, h3⟩ := hwf
        rcases List.mem_cons.mp hp with rfl | hp
        · exact h1
        · exact ih h3 p hp
  have hall := oks ps h
  clear e hs h hne
  induction ps with
  | nil => rfl
  | cons p rest ih =>
    rw [List.flatMap_cons, List.flatMap_cons, out p (hall p (by simp)), ih (fun q hq => hall q (by simp [hq]))]

/-- A specification with four kinds of pieces. -/
example (A : Arith) (c : Geodetic) : format A c "%ld:%%%E".toList = format A c "%ld".toList ++ ":%".toList ++ A.str c.elevation := by
  have h := format_pieces A c [.part .lat 'd', .lit ':', .percent, .elevation] (by simp) (by simp [WellFormed, Piece.ok, follows, partLetters])
  simpa [Piece.text, Piece.output, axLetter] using h

/-- **C17 (b).** Every format specification is such a sequence of pieces, and the empty one
means the default specification. -/
theorem format_spec_has_pieces (A : Arith) (c : Geodetic) :
    (∀ s : List Char, ∃ ps, WellFormed ps ∧ ps.flatMap Piece.text = s) ∧
    format A c [] = format A c "%ld%lm%ls%lH %od%om%os%oH %E".toList :=
  ⟨fun s => exists_pieces s.length s (le_refl _), rfl⟩

/-- **C17 (c).** Literal text is copied: a specification without `%` is printed unchanged. -/
theorem format_literal (A : Arith) (c : Geodetic) (s : List Char) (hne : s ≠ []) (h : '%' ∉ s) : format A c s = s := by
  have : ∀ s : List Char, '%' ∉ s → run A c (fields A.rnd (A.deg c.latitude)) (fields A.rnd (A.deg c.longitude)) s = s := by
    intro s
    induction s with
    | nil => intro _; rfl
    | cons x xs ih =>
      intro hx
      rw [run_lit A c _ _ x (by intro hc; simp [hc] at hx) xs, ih (by intro hc; simp [hc] at hx)]
  simp [format, hne, this s h]

example (A : Arith) (c : Geodetic) : format A c "dem/tile.tif".toList = "dem/tile.tif".toList := format_literal A c _ (by decide) (by decide)

/-- **C17 (d).** The hemisphere directives print N/S and E/W by the sign of the angle,
zero being north and east, `%lh` and `%oh` in lower case; the degree directives print
the whole degrees of the absolute value with two and three digits. -/
theorem hemisphere_and_degree_letters (A : Arith) (c : Geodetic) (h : OnGlobe A c) :
    format A c "%lH".toList = [if A.deg c.latitude < 0 then 'S' else 'N'] ∧
    format A c "%lh".toList = [if A.deg c.latitude < 0 then 's' else 'n'] ∧
    format A c "%oH".toList = [if A.deg c.longitude < 0 then 'W' else 'E'] ∧
    format A c "%oh".toList = [if A.deg c.longitude < 0 then 'w' else 'e'] ∧
    (format A c "%ld".toList).length = 2 ∧ (number (format A c "%ld".toList) : Int) = ⌊|A.deg c.latitude|⌋ ∧
    (format A c "%od".toList).length = 3 ∧ (number (format A c "%od".toList) : Int) = ⌊|A.deg c.longitude|⌋ := by
  obtain ⟨a1, a2, a3, a4, -⟩ := fields_bounds h.rounding _ h.lat_float 90 (by exact_mod_cast h.lat_le)
  obtain ⟨b1, b2, b3, b4, -⟩ := fields_bounds h.rounding _ h.lon_float 180 (by exact_mod_cast h.lon_le)
  have hsl : (fields A.rnd (A.deg c.latitude)).south = decide (A.deg c.latitude < 0) := rfl
  have hso : (fields A.rnd (A.deg c.longitude)).south = decide (A.deg c.longitude < 0) := rfl
  have ed : format A c "%ld".toList = fmt0d 2 (fields A.rnd (A.deg c.latitude)).d := by
    simp [format, run, partText]
  have eo : format A c "%od".toList = fmt0d 3 (fields A.rnd (A.deg c.longitude)).d := by
    simp [format, run, partText]
  refine ⟨?_, ?_, ?_, ?_, ?_, ?_, ?_, ?_⟩
  · simp [format, run, partText, hsl]
  · simp [format, run, partText, hsl]
  · simp [format, run, partText, hso]
  · simp [format, run, partText, hso]
  · rw [ed, fmt0d_nonneg 2 _ a1]
    exact zfill_length 2 _ (by norm_num) (by omega)
  · rw [ed, fmt0d_nonneg 2 _ a1, number_zfill, Int.natAbs_of_nonneg a1]
    exact (Int.floor_eq_iff.2 ⟨a3, a4⟩).symm
  · rw [eo, fmt0d_nonneg 3 _ b1]
    exact zfill_length 3 _ (by norm_num) (by omega)
  · rw [eo, fmt0d_nonneg 3 _ b1, number_zfill, Int.natAbs_of_nonneg b1]
    exact (Int.floor_eq_iff.2 ⟨b3, b4⟩).symm

example : format ⟨id, id, fun _ => []⟩ ⟨-77, 0, 0⟩ "%ld%lh %od%oH".toList = "00n 077W".toList := by decide +kernel

/-- A mixed specification is well formed: "N%%%ld-%q%l,". -/
example : WellFormed [.lit 'N', .percent, .part .lat 'd', .lit '-', .unknown 'q', .decimal .lat, .lit ','] ∧
    [Piece.lit 'N', .percent, .part .lat 'd', .lit '-', .unknown 'q', .decimal .lat, .lit ','].flatMap Piece.text =
      "N%%%ld-%q%l,".toList := by
  constructor
  · simp [WellFormed, Piece.ok, follows, partLetters, Piece.text]
  · decide

/-- **C18 (negated).** `%l` does not print the signed latitude: a coordinate and its
mirror image have the same `%l` text, whatever `str` is, for every latitude. -/
theorem decimal_degrees_lose_sign (str : ℚ → List Char) (lon lat elev : ℚ) :
    format (ieee str) ⟨lon, lat, elev⟩ "%l".toList = format (ieee str) ⟨lon, -lat, elev⟩ "%l".toList ∧
    format (ieee str) ⟨lat, lon, elev⟩ "%o".toList = format (ieee str) ⟨-lat, lon, elev⟩ "%o".toList := by
  have hneg : degrees (-lat) = -degrees lat := by unfold degrees; rw [neg_mul, rne64_neg]
  have hf : (fields rne64 (degrees (-lat))).absDeg = (fields rne64 (degrees lat)).absDeg := by
    rw [fields_absDeg rne64_good (degrees (-lat)) (rne64_idem _), fields_absDeg rne64_good (degrees lat) (rne64_idem _),
      hneg, abs_neg]
  constructor <;> simp [format, run_cons2, ieee, hf]

/-- **C18 (what holds).** `%l` and `%o` print the absolute value in decimal degrees.
Missing from the full statement: the sign. -/
theorem decimal_degrees_absolute_partial (A : Arith) (c : Geodetic) (h : GoodRounding A.rnd)
    (h1 : A.rnd (A.deg c.latitude) = A.deg c.latitude) (h2 : A.rnd (A.deg c.longitude) = A.deg c.longitude) :
    format A c "%l".toList = A.str |A.deg c.latitude| ∧ format A c "%o".toList = A.str |A.deg c.longitude| := by
  have e1 := fields_absDeg h _ h1
  have e2 := fields_absDeg h _ h2
  constructor <;> simp [format, run_cons2, e1, e2]

/-- The sign of a southern latitude is lost. -/
example (str : ℚ → List Char) : format ⟨id, id, str⟩ ⟨-77, -38, 0⟩ "%l".toList = str 38 := by
  have := (decimal_degrees_absolute_partial ⟨id, id, str⟩ ⟨-77, -38, 0⟩ id_good rfl rfl).1
  simpa using this

end Verif.Props.Coordinates
