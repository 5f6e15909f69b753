import Verif.Lemmas.Coordinates
import Verif.Model.DemTileSet

/-!
# Properties C19, C20: names of elevation tiles
-/

namespace Verif.Props.DemTileSet

open Verif.Coordinates Verif.DemTileSet Verif.Float64 Verif.Spec.Float64 Verif.Spec.Coordinates

private theorem floor_le_of {x : ℚ} (n : Int) (h : x ≤ n) : ⌊x⌋ ≤ n := by
  have := Int.floor_mono h; rwa [Int.floor_intCast] at this

theorem zfill_injective (w m n : Nat) (h : zfill w (Nat.toDigits 10 m) = zfill w (Nat.toDigits 10 n)) : m = n := by
  rw [← number_zfill w m, ← number_zfill w n, h]

/-- **C19 (coverage).** There is no SRTM tile exactly when the one-degree cell of the
location starts north of N59 or south of S56. -/
theorem srtm_coverage (t : Srtm) (deg : ℚ → ℚ) (c : Geodetic) :
    t.findTileId deg c = none ↔ 59 < ⌊deg c.latitude⌋ ∨ ⌊deg c.latitude⌋ < -56 := by
  by_cases h : ⌊deg c.latitude⌋ > 59 ∨ ⌊deg c.latitude⌋ < -56
  · simp only [Srtm.findTileId, if_pos h, true_iff]; omega
  · simp only [Srtm.findTileId, if_neg h, reduceCtorEq, false_iff]; omega

example : (Srtm.mk [] "1arc_v3".toList ".tif".toList).findTileId id ⟨10, 60, 0⟩ = none :=
  (srtm_coverage _ _ _).2 (.inl (by norm_num))

/-- **C19 (layout).** The name of a covered location consists of the prefix, `n` or `s`,
two digits giving the latitude of the south edge of its cell, `_`, `e` or `w`, at least
three digits giving the longitude of the west edge, `_`, the version and the extension. -/
theorem srtm_name_layout (t : Srtm) (deg : ℚ → ℚ) (c : Geodetic) (name : List Char)
    (h : t.findTileId deg c = some name) :
    ∃ latText lonText : List Char, ∃ ns ew : Char,
      name = t.pre ++ [ns] ++ latText ++ ['_', ew] ++ lonText ++ ['_'] ++ t.version ++ t.extension ∧
      latText.length = 2 ∧ (∀ x ∈ latText, x.isDigit) ∧ (∀ x ∈ lonText, x.isDigit) ∧
      (ns = 'n' ∧ ⌊deg c.latitude⌋ = (number latText : Int) ∨
        ns = 's' ∧ ⌊deg c.latitude⌋ < 0 ∧ ⌊deg c.latitude⌋ = -(number latText : Int)) ∧
      (ew = 'e' ∧ ⌊deg c.longitude⌋ = (number lonText : Int) ∨
        ew = 'w' ∧ ⌊deg c.longitude⌋ < 0 ∧ ⌊deg c.longitude⌋ = -(number lonText : Int)) ∧
      (|⌊deg c.longitude⌋| < 1000 → lonText.length = 3) := by
  have hc : ¬ (⌊deg c.latitude⌋ > 59 ∨ ⌊deg c.latitude⌋ < -56) := by
    intro hcon
    simp only [Srtm.findTileId, if_pos hcon] at h
    exact absurd h (by simp)
  simp only [Srtm.findTileId, if_neg hc, Option.some.injEq] at h
  push Not at hc
  set la := ⌊deg c.latitude⌋
  set lo := ⌊deg c.longitude⌋
  rw [fmt0d_nonneg 2 _ (abs_nonneg la), fmt0d_nonneg 3 _ (abs_nonneg lo)] at h
  refine ⟨zfill 2 (Nat.toDigits 10 (|la|).natAbs), zfill 3 (Nat.toDigits 10 (|lo|).natAbs),
    if la < 0 then 's' else 'n', if lo < 0 then 'w' else 'e', ?_, ?_, zfill_digits _ _, zfill_digits _ _, ?_, ?_, ?_⟩
  · rw [← h]; simp only [List.append_assoc, List.cons_append, List.nil_append]
  · refine zfill_length 2 _ (by norm_num) ?_
    rcases abs_cases la with ⟨e, -⟩ | ⟨e, -⟩ <;> omega
  · rw [number_zfill]
    by_cases hl : la < 0
    · right; simp only [hl, if_true, true_and]; rw [abs_of_neg hl]; omega
    · left; simp only [hl, if_false, true_and]; rw [abs_of_nonneg (by omega)]; omega
  · rw [number_zfill]
    by_cases hl : lo < 0
    · right; simp only [hl, if_true, true_and]; rw [abs_of_neg hl]; omega
    · left; simp only [hl, if_false, true_and]; rw [abs_of_nonneg (by omega)]; omega
  · intro hl
    refine zfill_length 3 _ (by norm_num) ?_
    obtain ⟨p, q⟩ := abs_lt.mp hl
    rw [Int.natAbs_abs]
    omega

/-- **C19.** Two covered locations have the same SRTM tile name exactly when they are in
the same one-degree cell. -/
theorem srtm_name_iff_same_cell (t : Srtm) (deg : ℚ → ℚ) (c c' : Geodetic)
    (hc : t.findTileId deg c ≠ none) (hc' : t.findTileId deg c' ≠ none) :
    t.findTileId deg c = t.findTileId deg c' ↔
      ⌊deg c.latitude⌋ = ⌊deg c'.latitude⌋ ∧ ⌊deg c.longitude⌋ = ⌊deg c'.longitude⌋ := by
  constructor
  · intro h
    rw [Ne, srtm_coverage] at hc hc'
    · have h1 : ¬ (⌊deg c.latitude⌋ > 59 ∨ ⌊deg c.latitude⌋ < -56) := hc
      have h2 : ¬ (⌊deg c'.latitude⌋ > 59 ∨ ⌊deg c'.latitude⌋ < -56) := hc'
      simp only [Srtm.findTileId, if_neg h1, if_neg h2, Option.some.injEq] at h
      push Not at h1 h2
      set la := ⌊deg c.latitude⌋
      set lo := ⌊deg c.longitude⌋
      set la' := ⌊deg c'.latitude⌋
      set lo' := ⌊deg c'.longitude⌋
      rw [fmt0d_nonneg 2 _ (abs_nonneg la), fmt0d_nonneg 3 _ (abs_nonneg lo), fmt0d_nonneg 2 _ (abs_nonneg la'),
        fmt0d_nonneg 3 _ (abs_nonneg lo')] at h
      have h := List.append_cancel_left h
      simp only [List.cons.injEq] at h
      obtain ⟨hd, h⟩ := h
      have l1 : (zfill 2 (Nat.toDigits 10 (|la|).natAbs)).length = 2 := by
        refine zfill_length 2 _ (by norm_num) ?_
        rcases abs_cases la with ⟨e, -⟩ | ⟨e, -⟩ <;> omega
      have l2 : (zfill 2 (Nat.toDigits 10 (|la'|).natAbs)).length = 2 := by
        refine zfill_length 2 _ (by norm_num) ?_
        rcases abs_cases la' with ⟨e, -⟩ | ⟨e, -⟩ <;> omega
      obtain ⟨k1, k2⟩ := List.append_inj h (by rw [l1, l2])
      simp only [List.cons.injEq, true_and] at k2
      obtain ⟨hd2, k2⟩ := k2
      obtain ⟨k3, -⟩ := List.append_inj' k2 rfl
      have n1 := zfill_injective _ _ _ k1
      have n2 := zfill_injective _ _ _ k3
      constructor
      · rcases abs_cases la with ⟨e, f⟩ | ⟨e, f⟩ <;> rcases abs_cases la' with ⟨e', f'⟩ | ⟨e', f'⟩
        · omega
        · rw [if_neg (by omega), if_pos (by omega)] at hd; exact absurd hd (by decide)
        · rw [if_pos (by omega), if_neg (by omega)] at hd; exact absurd hd (by decide)
        · omega
      · rcases abs_cases lo with ⟨e, f⟩ | ⟨e, f⟩ <;> rcases abs_cases lo' with ⟨e', f'⟩ | ⟨e', f'⟩
        · omega
        · rw [if_neg (by omega), if_pos (by omega)] at hd2; exact absurd hd2 (by decide)
        · rw [if_pos (by omega), if_neg (by omega)] at hd2; exact absurd hd2 (by decide)
        · omega
  · rintro ⟨h1, h2⟩
    simp only [Srtm.findTileId, h1, h2]

/-- Two locations of one cell in the southern hemisphere. -/
example : (Srtm.mk [] "1arc_v3".toList ".tif".toList).findTileId id ⟨-77 - 1/2, -3 - 1/3, 0⟩ = some "s04_w078_1arc_v3.tif".toList := by
  decide +kernel

/-! ## Generic tile sets -/

/-- **C20 (coverage).** For every set of limits and every format there is no tile exactly
when the south-west corner of the one-degree cell of the location is outside the limits. -/
theorem generic_coverage (t : Generic) (A : Arith) (rad : ℚ → ℚ) (c : Geodetic) :
    t.findTileId A rad c = none ↔
      ¬ (t.minLat ≤ ⌊A.deg c.latitude⌋ ∧ (⌊A.deg c.latitude⌋ : ℚ) ≤ t.maxLat ∧
         t.minLon ≤ ⌊A.deg c.longitude⌋ ∧ (⌊A.deg c.longitude⌋ : ℚ) ≤ t.maxLon) := by
  unfold Generic.findTileId
  simp only
  split_ifs with h
  · simp only [true_iff]
    rintro ⟨h1, h2, h3, h4⟩
    rcases h with h | h | h | h <;> linarith
  · push Not at h
    simp only [reduceCtorEq, false_iff, not_not]
    exact ⟨h.2.1, h.1, h.2.2.2, h.2.2.1⟩

/-- A tile set restricted to the northern hemisphere: the cell below the equator is left out. -/
example : (Generic.mk "%ld%lh".toList 0 90 (-180) 180).findTileId ⟨id, id, fun _ => []⟩ id ⟨5, -1/2, 0⟩ = none ∧
    (Generic.mk "%ld%lh".toList 0 90 (-180) 180).findTileId ⟨id, id, fun _ => []⟩ id ⟨5, 1/2, 0⟩ = some "00n".toList := by
  decide +kernel

/-- What the default format prints for the corner of a cell. -/
theorem generic_default_format (A : Arith) (c : Geodetic) :
    format A c Generic.default.spec =
      let lo := fields A.rnd (A.deg c.longitude)
      let la := fields A.rnd (A.deg c.latitude)
      fmt0d 3 lo.d ++ ((if lo.south then 'w' else 'e') :: '/' :: (fmt0d 2 la.d ++
        ((if la.south then 's' else 'n') :: ['.', 'd', 't', '2']))) := by
  have e : Generic.default.spec =
    ['%', 'o', 'd', '%', 'o', 'h', '/', '%', 'l', 'd', '%', 'l', 'h', '.', 'd', 't', '2'] := by rfl
  rw [e]
  simp only [format, reduceCtorEq, if_false]
  simp only [run_cons2, partText]
  simp [run]

/-- The default name of the cell with west edge `lo` and south edge `la`:
three digits of longitude, e/w, slash, two digits of latitude, n/s, ".dt2". -/
def IsCellName (lo la : Int) (name : List Char) : Prop :=
  ∃ lonText latText : List Char, ∃ ew ns : Char,
    name = lonText ++ [ew, '/'] ++ latText ++ [ns] ++ ['.', 'd', 't', '2'] ∧
    lonText.length = 3 ∧ latText.length = 2 ∧ (∀ x ∈ lonText, x.isDigit) ∧ (∀ x ∈ latText, x.isDigit) ∧
    (number lonText : Int) = |lo| ∧ (number latText : Int) = |la| ∧
    (ew = 'w' ∧ lo < 0 ∨ ew = 'e' ∧ 0 ≤ lo) ∧ (ns = 's' ∧ la < 0 ∨ ns = 'n' ∧ 0 ≤ la)

/-- A name of the default format is the name of at most one cell. -/
theorem cellName_unique (lo la lo' la' : Int) (name : List Char) (h : IsCellName lo la name)
    (h' : IsCellName lo' la' name) : lo = lo' ∧ la = la' := by
  obtain ⟨a, b, e, n, h1, h2, h3, -, -, h4, h5, h6, h7⟩ := h
  obtain ⟨a', b', e', n', k1, k2, k3, -, -, k4, k5, k6, k7⟩ := h'
  rw [h1] at k1
  simp only [List.append_assoc, List.cons_append, List.nil_append] at k1
  obtain ⟨q1, q2⟩ := List.append_inj k1 (by rw [h2, k2])
  simp only [List.cons.injEq, true_and] at q2
  obtain ⟨q3, q4⟩ := q2
  obtain ⟨q5, q6⟩ := List.append_inj q4 (by rw [h3, k3])
  simp only [List.cons.injEq] at q6
  obtain ⟨q7, -⟩ := q6
  subst q1 q3 q5 q7
  have two : ∀ (x : Char) (p q : Char) (i j m : Int), p ≠ q → (x = p ∧ i < 0 ∨ x = q ∧ 0 ≤ i) →
      (x = p ∧ j < 0 ∨ x = q ∧ 0 ≤ j) → m = |i| → m = |j| → i = j := by
    intro x p q i j m hpq hi hj e1 e2
    rcases hi with ⟨rfl, hi⟩ | ⟨rfl, hi⟩ <;> rcases hj with ⟨hx, hj⟩ | ⟨hx, hj⟩
    · rw [abs_of_neg hi] at e1; rw [abs_of_neg hj] at e2; omega
    · exact absurd hx hpq
    · exact absurd hx.symm hpq
    · rw [abs_of_nonneg hi] at e1; rw [abs_of_nonneg hj] at e2; omega
  exact ⟨two e 'w' 'e' lo lo' _ (by decide) h6 k6 h4 k4, two n 's' 'n' la la' _ (by decide) h7 k7 h5 k5⟩

/-- One axis: printing the corner of cell `n` gives `|n|` and its sign. -/
private def AxisExact (A : Arith) (rad : ℚ → ℚ) (n : Int) : Prop :=
  (fields A.rnd (A.deg (rad n))).d = |n| ∧ ((fields A.rnd (A.deg (rad n))).south = true ↔ n < 0)

private theorem name_of_axisExact (A : Arith) (rad : ℚ → ℚ) (c : Geodetic)
    (hlon : |A.deg c.longitude| ≤ 180) (hlat : |A.deg c.latitude| ≤ 90)
    (hlo : AxisExact A rad ⌊A.deg c.longitude⌋) (hla : AxisExact A rad ⌊A.deg c.latitude⌋) :
    ∃ name, Generic.default.findTileId A rad c = some name ∧
      IsCellName ⌊A.deg c.longitude⌋ ⌊A.deg c.latitude⌋ name := by
  obtain ⟨l1, l2⟩ := abs_le.mp hlon
  obtain ⟨l3, l4⟩ := abs_le.mp hlat
  have b1 : -180 ≤ ⌊A.deg c.longitude⌋ := Int.le_floor.mpr (by push_cast; linarith)
  have b2 : ⌊A.deg c.longitude⌋ ≤ 180 := by
    exact floor_le_of 180 (by exact_mod_cast l2)
  have b3 : -90 ≤ ⌊A.deg c.latitude⌋ := Int.le_floor.mpr (by push_cast; linarith)
  have b4 : ⌊A.deg c.latitude⌋ ≤ 90 := by
    exact floor_le_of 90 (by exact_mod_cast l4)
  refine ⟨format A ⟨rad ⌊A.deg c.longitude⌋, rad ⌊A.deg c.latitude⌋, 0⟩ Generic.default.spec, ?_, ?_⟩
  · simp only [Generic.findTileId]
    rw [if_neg]
    have d1 : Generic.default.maxLat = 90 := rfl
    have d2 : Generic.default.minLat = -90 := rfl
    have d3 : Generic.default.maxLon = 180 := rfl
    have d4 : Generic.default.minLon = -180 := rfl
    rw [d1, d2, d3, d4]
    simp only [gt_iff_lt, not_or, not_lt]
    refine ⟨?_, ?_, ?_, ?_⟩
    · exact_mod_cast b4
    · exact_mod_cast b3
    · exact_mod_cast b2
    · exact_mod_cast b1
  · rw [generic_default_format]
    set lo := ⌊A.deg c.longitude⌋
    set la := ⌊A.deg c.latitude⌋
    simp only
    rw [hlo.1, hla.1, fmt0d_nonneg 3 _ (abs_nonneg lo), fmt0d_nonneg 2 _ (abs_nonneg la)]
    refine ⟨zfill 3 (Nat.toDigits 10 (|lo|).natAbs), zfill 2 (Nat.toDigits 10 (|la|).natAbs),
      if (fields A.rnd (A.deg (rad lo))).south = true then 'w' else 'e',
      if (fields A.rnd (A.deg (rad la))).south = true then 's' else 'n',
      by simp only [List.append_assoc, List.cons_append, List.nil_append], ?_, ?_, zfill_digits _ _, zfill_digits _ _,
      ?_, ?_, ?_, ?_⟩
    · refine zfill_length 3 _ (by norm_num) ?_
      rcases abs_cases lo with ⟨e, -⟩ | ⟨e, -⟩ <;> omega
    · refine zfill_length 2 _ (by norm_num) ?_
      rcases abs_cases la with ⟨e, -⟩ | ⟨e, -⟩ <;> omega
    · rw [number_zfill, Int.natAbs_of_nonneg (abs_nonneg _)]
    · rw [number_zfill, Int.natAbs_of_nonneg (abs_nonneg _)]
    · by_cases hl : lo < 0
      · left; exact ⟨by rw [if_pos (hlo.2.mpr hl)], hl⟩
      · right
        refine ⟨?_, by omega⟩
        rw [if_neg]; intro hcon; exact hl (hlo.2.mp hcon)
    · by_cases hl : la < 0
      · left; exact ⟨by rw [if_pos (hla.2.mpr hl)], hl⟩
      · right
        refine ⟨?_, by omega⟩
        rw [if_neg]; intro hcon; exact hl (hla.2.mp hcon)

/-- **C20 (arithmetic in which radians and degrees cancel on integers).** With the
default format every location on the globe gets the name of the one-degree cell that contains it. -/
theorem generic_name_is_cell (A : Arith) (rad : ℚ → ℚ) (hG : GoodRounding A.rnd) (hexact : ∀ n : Int, |n| ≤ 180 → A.deg (rad n) = n)
    (c : Geodetic) (hlon : |A.deg c.longitude| ≤ 180) (hlat : |A.deg c.latitude| ≤ 90) :
    ∃ name, Generic.default.findTileId A rad c = some name ∧
      IsCellName ⌊A.deg c.longitude⌋ ⌊A.deg c.latitude⌋ name := by
  have ax : ∀ n : Int, |n| ≤ 180 → AxisExact A rad n := by
    intro n hn
    have e := hexact n hn
    have hr : A.rnd (A.deg (rad n)) = A.deg (rad n) := by
      rw [e]; exact hG.int n (by omega)
    have hd : (fields A.rnd (A.deg (rad n))).d = pyInt (fields A.rnd (A.deg (rad n))).absDeg := rfl
    have hs : (fields A.rnd (A.deg (rad n))).south = decide (A.deg (rad n) < 0) := rfl
    constructor
    · rw [hd, fields_absDeg hG _ hr, e]
      have : |(n:ℚ)| = ((|n| : Int) : ℚ) := by push_cast; rfl
      rw [this]
      have h0 : (0:ℚ) ≤ ((|n| : Int) : ℚ) := by exact_mod_cast abs_nonneg n
      rw [pyInt, if_pos h0, Int.floor_intCast]
    · rw [hs, e]
      simp
  refine name_of_axisExact A rad c hlon hlat (ax _ ?_) (ax _ ?_)
  · obtain ⟨l1, l2⟩ := abs_le.mp hlon
    rw [abs_le]
    exact ⟨Int.le_floor.mpr (by push_cast; linarith), floor_le_of 180 (by exact_mod_cast l2)⟩
  · obtain ⟨l1, l2⟩ := abs_le.mp hlat
    rw [abs_le]
    refine ⟨Int.le_floor.mpr (by push_cast; linarith), ?_⟩
    exact floor_le_of 180 (by push_cast; exact le_trans l2 (by norm_num))

/-- Exact arithmetic in degrees meets the hypotheses. -/
example : Generic.default.findTileId ⟨id, id, fun _ => []⟩ id ⟨115 + 1/2, -44 - 1/2, 0⟩ = some "115e/45s.dt2".toList := by
  decide +kernel

/-- The one-degree corners that IEEE double arithmetic does not reproduce. -/
def BadCorner (n : Int) : Prop := |n| = 15 ∨ |n| = 30 ∨ |n| = 60 ∨ |n| = 120

instance (n : Int) : Decidable (BadCorner n) := by unfold BadCorner; infer_instance

private theorem ieee_table (str : ℚ → List Char) : ∀ k : Fin 361, ¬ BadCorner ((k.val : Int) - 180) →
    (fields (ieee str).rnd ((ieee str).deg (radians (((k.val : Int) - 180 : Int) : ℚ)))).d = |(k.val : Int) - 180| ∧
    ((fields (ieee str).rnd ((ieee str).deg (radians (((k.val : Int) - 180 : Int) : ℚ)))).south = true ↔ (k.val : Int) - 180 < 0) := by
  change ∀ k : Fin 361, ¬ BadCorner ((k.val : Int) - 180) →
    (fields rne64 (degrees (radians (((k.val : Int) - 180 : Int) : ℚ)))).d = |(k.val : Int) - 180| ∧
    ((fields rne64 (degrees (radians (((k.val : Int) - 180 : Int) : ℚ)))).south = true ↔ (k.val : Int) - 180 < 0)
  decide +kernel

/-- **C20 (IEEE double arithmetic, what holds).** Every location on the globe whose cell
corner is not at ±15, ±30, ±60 or ±120 degrees gets the name of its cell.
Missing from the full statement: exactly those corners. -/
theorem generic_name_is_cell_ieee_partial (str : ℚ → List Char) (c : Geodetic)
    (hlon : |degrees c.longitude| ≤ 180) (hlat : |degrees c.latitude| ≤ 90)
    (h1 : ¬ BadCorner ⌊degrees c.longitude⌋) (h2 : ¬ BadCorner ⌊degrees c.latitude⌋) :
    ∃ name, Generic.default.findTileId (ieee str) radians c = some name ∧
      IsCellName ⌊degrees c.longitude⌋ ⌊degrees c.latitude⌋ name := by
  have ax : ∀ n : Int, -180 ≤ n → n ≤ 180 → ¬ BadCorner n → AxisExact (ieee str) radians n := by
    intro n h0 h1 hb
    have := ieee_table str ⟨(n + 180).toNat, by omega⟩
    have e : (((n + 180).toNat : Nat) : Int) - 180 = n := by omega
    simp only [e] at this
    exact this hb
  refine name_of_axisExact (ieee str) radians c hlon hlat (ax _ ?_ ?_ h1) (ax _ ?_ ?_ h2)
  · obtain ⟨l1, l2⟩ := abs_le.mp hlon
    exact Int.le_floor.mpr (by push_cast; exact l1)
  · obtain ⟨l1, l2⟩ := abs_le.mp hlon
    exact floor_le_of 180 (by exact_mod_cast l2)
  · obtain ⟨l1, l2⟩ := abs_le.mp hlat
    exact Int.le_floor.mpr (by push_cast; exact le_trans (by norm_num) l1)
  · obtain ⟨l1, l2⟩ := abs_le.mp hlat
    exact floor_le_of 180 (by push_cast; exact le_trans l2 (by norm_num))

/-- A location in Australia, in radians. -/
example (str : ℚ → List Char) : ∃ name, Generic.default.findTileId (ieee str) radians ⟨2, -3 / 4, 0⟩ = some name ∧ IsCellName 114 (-43) name := by
  have h1 : ⌊degrees (2 : ℚ)⌋ = 114 := by decide +kernel
  have h2 : ⌊degrees (-3 / 4 : ℚ)⌋ = -43 := by decide +kernel
  have := generic_name_is_cell_ieee_partial str ⟨2, -3 / 4, 0⟩ (by decide +kernel) (by decide +kernel) (by simp only [h1]; decide) (by simp only [h2]; decide)
  simpa only [h1, h2] using this

/-- **C20 (negated).** In IEEE double arithmetic two locations in the different cells
14..15 and 15..16 degrees east share the tile `014e/10n.dt2`. -/
theorem generic_name_collision_ieee (str : ℚ → List Char) :
    ∃ c c' : Geodetic, |degrees c.longitude| ≤ 180 ∧ |degrees c.latitude| ≤ 90 ∧
      |degrees c'.longitude| ≤ 180 ∧ |degrees c'.latitude| ≤ 90 ∧
      ⌊degrees c.longitude⌋ = 14 ∧ ⌊degrees c'.longitude⌋ = 15 ∧
      ⌊degrees c.latitude⌋ = ⌊degrees c'.latitude⌋ ∧
      Generic.default.findTileId (ieee str) radians c = some "014e/10n.dt2".toList ∧
      Generic.default.findTileId (ieee str) radians c' = some "014e/10n.dt2".toList := by
  have key : ∀ c : Geodetic, Generic.default.findTileId (ieee str) radians c =
      Generic.default.findTileId (ieee (fun _ => [])) radians c := by
    intro c
    simp only [Generic.findTileId, generic_default_format]
    rfl
  refine ⟨⟨1 / 4, 3 / 16, 0⟩, ⟨139 / 512, 3 / 16, 0⟩, ?_⟩
  rw [key, key]
  decide +kernel

end Verif.Props.DemTileSet
