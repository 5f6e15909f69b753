import Verif.Spec.GdalUtils
import Verif.Props.DRA
import Mathlib.Tactic.NormNum
import Mathlib.Tactic.Linarith
import Mathlib.Tactic.FieldSimp

/-!
# Theorems about `gdal_utils.py` and `gdal_dem_tile_factory.py`
-/

namespace Verif.Props.GdalUtils

open Verif.GdalUtils Verif.Spec.GdalUtils

/-! ## Type limits (C53) -/

/-- **C53** (in part): an integer is between the limits of an integer type exactly when the type can hold it.
Missing: the signed 8-bit type, see `int8_limits_wrong`. -/
theorem integer_limits_partial (t : Int) (bits : Nat) (signed : Bool) (h : (t, bits, signed) ∈ integerTypes) (h8 : t ≠ 14) (v : Int) :
    ((minmaxForType t).1 ≤ v ∧ (v : ℚ) ≤ (minmaxForType t).2) ↔ Storable bits signed v := by
  have cast : ∀ (lo hi : Int) (a b : ℚ), a = lo → b = hi → ((a ≤ v ∧ (v : ℚ) ≤ b) ↔ (lo ≤ v ∧ v ≤ hi)) := by
    intro lo hi a b ha hb
    rw [ha, hb, Int.cast_le, Int.cast_le]
  simp only [integerTypes, List.mem_cons, Prod.mk.injEq, List.not_mem_nil, or_false] at h
  rcases h with ⟨rfl, rfl, rfl⟩ | ⟨rfl, rfl, rfl⟩ | ⟨rfl, rfl, rfl⟩ | ⟨rfl, rfl, rfl⟩ | ⟨rfl, rfl, rfl⟩ | ⟨rfl, rfl, rfl⟩ | ⟨rfl, rfl, rfl⟩ | ⟨rfl, rfl, rfl⟩
  · rw [cast 0 255 _ _ (by decide +kernel) (by decide +kernel)]; simp [Storable]; omega
  · rw [cast 0 65535 _ _ (by decide +kernel) (by decide +kernel)]; simp [Storable]; omega
  · rw [cast (-32768) 32767 _ _ (by decide +kernel) (by decide +kernel)]; simp [Storable]; omega
  · rw [cast 0 4294967295 _ _ (by decide +kernel) (by decide +kernel)]; simp [Storable]; omega
  · rw [cast (-2147483648) 2147483647 _ _ (by decide +kernel) (by decide +kernel)]; simp [Storable]; omega
  · rw [cast 0 18446744073709551615 _ _ (by decide +kernel) (by decide +kernel)]; simp [Storable]; omega
  · rw [cast (-9223372036854775808) 9223372036854775807 _ _ (by decide +kernel) (by decide +kernel)]; simp [Storable]; omega
  · exact absurd rfl h8

/-- The premises can be met. -/
example : ((3 : Int), 16, true) ∈ integerTypes ∧ Storable 16 true (-32768) ∧ ¬ Storable 16 true 32768 := by
  simp [integerTypes, Storable]

/-- **C53**: a type that is neither a listed integer type nor a float type has the 8-bit range. -/
theorem unknown_type_limits (t : Int) (h : t ∉ [1, 2, 3, 4, 5, 6, 7, 12, 13]) : minmaxForType t = (0, 255) := by
  simp only [List.mem_cons, List.not_mem_nil, or_false, not_or] at h
  simp only [minmaxForType, gdtByte, gdtUInt16, gdtInt16, gdtUInt32, gdtInt32, gdtUInt64, gdtInt64, gdtFloat32, gdtFloat64, h, if_false]

/-- **C53** is false for `GDT_Int8` (14): the limits are those of unsigned bytes. -/
theorem int8_limits_wrong : ((14 : Int), 8, true) ∈ integerTypes ∧ minmaxForType 14 = (0, 255) ∧ ¬ Storable 8 true 255 ∧ Storable 8 true (-1) := by
  refine ⟨by simp [integerTypes], unknown_type_limits 14 (by decide), by simp [Storable], by simp [Storable]⟩

/-- The single precision limit of the code is greater than every finite single precision number. -/
theorem float32_limit_not_representable : maxFloat32 < (minmaxForType 6).2 ∧ (minmaxForType 6).1 < -maxFloat32 := by
  decide +kernel

/-- **C53**: the float limits are symmetric, and nearest to them among the numbers of their own type is the greatest
finite one (the distance is less than half of the last place of that number). -/
theorem float_limits :
    (minmaxForType 6).1 = -(minmaxForType 6).2 ∧ |(minmaxForType 6).2 - maxFloat32| < 2 ^ 103 ∧
    (minmaxForType 7).1 = -(minmaxForType 7).2 ∧ |(minmaxForType 7).2 - maxFloat64| < 2 ^ 970 := by
  decide +kernel

/-! ## Types and scales (C52) -/

theorem bind_ok {α β : Type} (x : Except PyErr α) (f : α → Except PyErr β) (b : β) :
    (x >>= f) = .ok b ↔ ∃ a, x = .ok a ∧ f a = .ok b := by
  cases x <;> simp [bind, Except.bind]

theorem pure_ok {α : Type} (a b : α) : (pure a : Except PyErr α) = .ok b ↔ a = b := by
  simp [pure, Except.pure]

theorem isBucketCount (b : Band) : IsBucketCount b.type b.stats.1 b.stats.2 (numBuckets b) := by
  refine ⟨fun h => if_pos h, fun h6 h7 => ?_⟩
  have hn : numBuckets b = truncate (b.stats.2 - b.stats.1) := if_neg (by rintro (h | h); exacts [h6 h, h7 h])
  rw [hn]
  refine ⟨fun h => ?_, fun h => ?_⟩
  · rw [truncate, if_pos (sub_nonneg.2 h)]
    exact ⟨Int.floor_le _, Int.lt_floor_add_one _⟩
  · rw [truncate, if_neg (by linarith)]
    exact ⟨Int.le_ceil _, Int.ceil_lt_add_one _⟩

theorem addBand_ok (desired : Option Code) (adjust : Adjust) (st st' : Code × List Scale) (b : Band)
    (h : addBand desired adjust st b = .ok st') :
    st'.1 = desired.getD b.type ∧ ∃ s, st'.2 = st.2 ++ [s] ∧ IsScale desired adjust b s := by
  unfold addBand at h
  simp only [bind_ok, pure_ok] at h
  obtain ⟨sel, hsel, rfl⟩ := h
  refine ⟨rfl, _, rfl, ?_⟩
  refine ⟨?_, ?_, ?_, ?_, ?_⟩
  · rintro d rfl; rfl
  · rintro rfl; rfl
  · rintro (rfl | rfl)
    · simp only [inputRange, Except.ok.injEq] at hsel
      rw [hsel]
    · simp only [inputRange, bind_ok, pure_ok] at hsel
      obtain ⟨_, _, _, _, hs⟩ := hsel
      rw [hs]
  · rintro rfl
    simp only [inputRange, bind_ok, pure_ok] at hsel
    obtain ⟨c, hc, d, hd, rfl⟩ := hsel
    exact ⟨numBuckets b, c, isBucketCount b, hc, d, hd, rfl, rfl⟩
  · rintro rfl
    simp only [inputRange, bind_ok, pure_ok] at hsel
    obtain ⟨c, hc, d, hd, rfl⟩ := hsel
    exact ⟨numBuckets b, c, isBucketCount b, hc, d, hd, rfl, rfl⟩

/-- **C52**: a result has exactly one scale per band, each as specified, and its type is the desired type,
else the type of the last band (byte for an image without bands). -/
theorem scales_match_bands (bands : List Band) (desired : Option Code) (adjust : Adjust) (t : Code) (scales : List Scale)
    (h : typeAndScales bands desired adjust = .ok (t, scales)) :
    List.Forall₂ (IsScale desired adjust) bands scales ∧
    (bands = [] → t = 1) ∧ ∀ init last, bands = init ++ [last] → t = desired.getD last.type := by
  unfold typeAndScales at h
  induction bands using List.reverseRecOn generalizing t scales with
  | nil =>
    simp only [List.foldlM_nil, pure_ok, Prod.mk.injEq] at h
    obtain ⟨rfl, rfl⟩ := h
    refine ⟨.nil, fun _ => rfl, fun init last hc => ?_⟩
    simp at hc
  | append_singleton bs b ih =>
    rw [List.foldlM_append, bind_ok] at h
    obtain ⟨⟨t0, s0⟩, h0, h1⟩ := h
    rw [List.foldlM_cons, bind_ok] at h1
    obtain ⟨st, h1, h2⟩ := h1
    simp only [List.foldlM_nil, pure_ok] at h2
    subst h2
    obtain ⟨ht, s, hs, hsp⟩ := addBand_ok _ _ _ _ _ h1
    simp only at ht hs
    refine ⟨?_, by simp, ?_⟩
    · rw [hs]
      exact List.rel_append (ih t0 s0 h0).1 (.cons hsp .nil)
    · intro init last hc
      have := List.append_inj' hc rfl
      simp only [List.cons.injEq, and_true] at this
      rw [← this.2]
      exact ht

/-- **C52** (in part): when a type is asked for, or all bands have the same type, the output limits of every band are the
limits of the output type.  Missing: bands of different types, see `mixed_types_get_last_type`. -/
theorem output_type_fits_partial (bands : List Band) (desired : Option Code) (adjust : Adjust) (t : Code) (scales : List Scale)
    (h : typeAndScales bands desired adjust = .ok (t, scales)) (hsame : desired ≠ none ∨ ∀ b ∈ bands, ∀ b' ∈ bands, b.type = b'.type) :
    ∀ s ∈ scales, (s.outMin, s.outMax) = minmaxForType t := by
  obtain ⟨hf, -, hlast⟩ := scales_match_bands bands desired adjust t scales h
  intro s hs
  obtain ⟨b, hb, hbs⟩ : ∃ b ∈ bands, IsScale desired adjust b s := by
    clear h hlast hsame
    induction hf with
    | nil => simp at hs
    | cons hd _ ih =>
      rcases List.mem_cons.1 hs with rfl | hs
      · exact ⟨_, by simp, hd⟩
      · obtain ⟨b, hb, hbs⟩ := ih hs
        exact ⟨b, by simp [hb], hbs⟩
  rcases List.eq_nil_or_concat' bands with rfl | ⟨init, last, rfl⟩
  · simp at hb
  · rw [hlast init last rfl]
    cases desired with
    | some d => exact hbs.1 d rfl
    | none =>
      rw [hbs.2.1 rfl, Option.getD_none]
      rw [(hsame.resolve_left (by simp)) b hb last (by simp)]

/-- Two bands of 16 bits, kept as they are: `scales_match_bands` and this theorem apply. -/
example : ∃ scales, typeAndScales [⟨2, (10, 14), fun _ _ _ => .ok [1, 0, 0, 3]⟩, ⟨2, (0, 7), fun _ _ _ => .ok [1, 1]⟩] none .none = .ok (2, scales) ∧
    (∀ s ∈ scales, (s.outMin, s.outMax) = minmaxForType 2) ∧ scales.length = 2 := by
  obtain ⟨scales, h⟩ : ∃ scales, typeAndScales [⟨2, (10, 14), fun _ _ _ => .ok [1, 0, 0, 3]⟩, ⟨2, (0, 7), fun _ _ _ => .ok [1, 1]⟩] none .none = .ok (2, scales) :=
    ⟨_, rfl⟩
  refine ⟨scales, h, output_type_fits_partial _ _ _ _ _ h (.inr ?_), (scales_match_bands _ _ _ _ _ h).1.length_eq.symm⟩
  simp only [List.mem_cons, List.not_mem_nil, or_false]
  rintro b (rfl | rfl) b' (rfl | rfl) <;> rfl

/-- **C52** is false for bands of different types: the type is the last band's, whatever the others need. -/
theorem mixed_types_get_last_type : ∃ bands t scales, typeAndScales bands none .none = .ok (t, scales) ∧ t = 1 ∧
    ∃ s ∈ scales, (minmaxForType t).2 < s.outMax := by
  refine ⟨[⟨2, (0, 0), fun _ _ _ => .ok []⟩, ⟨1, (0, 0), fun _ _ _ => .ok []⟩], 1, _, rfl, rfl, ⟨0, 65535, 0, 65535⟩, ?_, by decide +kernel⟩
  simp only [List.nil_append, List.cons_append, List.mem_cons, Scale.mk.injEq]
  left
  decide +kernel

/-- A 16-bit image with a histogram, scaled to bytes. -/
example : typeAndScales [⟨2, (10, 14), fun _ _ _ => .ok [1, 0, 0, 3]⟩] (some 1) .minmax = .ok (1, [⟨10, 13, 0, 255⟩]) := by
  decide +kernel

/-! ## Constant images and the maximum (C80, C81) -/

/-- **C80** is false: for a band of integers whose values differ by less than one the code asks for a histogram with no
buckets, and fails with `IndexError` when it gets one. -/
theorem constant_band_raises (bands : List Band) (b : Band) (rest : List Band) (desired : Option Code) (adjust : Adjust)
    (ha : adjust ≠ .none) (hb : bands = b :: rest) (ht : b.type ≠ 6 ∧ b.type ≠ 7) (hc : b.stats.1 ≤ b.stats.2 ∧ b.stats.2 - b.stats.1 < 1)
    (hh : ∀ lo hi, b.histogram 0 lo hi = .ok []) : typeAndScales bands desired adjust = .error .indexError := by
  have hn : numBuckets b = 0 := by
    unfold numBuckets truncate
    rw [if_neg (by simpa [gdtFloat32, gdtFloat64] using ht), if_pos (by linarith)]
    rw [Int.floor_eq_iff]
    constructor
    · simpa using hc.1
    · simpa using hc.2
  have hi : inputRange adjust b = .error .indexError := by
    cases adjust with
    | none => exact absurd rfl ha
    | _ => simp only [inputRange, hn, hh, bind, Except.bind, Verif.DRA.fromCountsDefault, Verif.Props.DRA.dra_empty_raises]
  subst hb
  unfold typeAndScales
  rw [List.foldlM_cons]
  simp only [addBand, hi, bind, Except.bind]

/-- Premises: a byte image that is 7 everywhere. -/
example : typeAndScales [⟨1, (7, 7), fun n _ _ => .ok (List.replicate n.toNat 1)⟩] none .minmax = .error .indexError := by
  refine constant_band_raises _ _ [] _ _ (by decide) rfl (by decide) (by norm_num) (fun _ _ => rfl)

/-- **C80**, the part that holds: when every band is of a floating point type or has values at least one apart, and GDAL's histograms with at least one bucket are not
empty, then every adjustment gives one scale for each band. -/
theorem varied_bands_have_scales_partial (bands : List Band) (desired : Option Code) (adjust : Adjust)
    (hb : ∀ b ∈ bands, (b.type = 6 ∨ b.type = 7 ∨ 1 ≤ b.stats.2 - b.stats.1) ∧
      ∀ n lo hi, 1 ≤ n → ∃ c counts, b.histogram n lo hi = .ok (c :: counts)) :
    ∃ t scales, typeAndScales bands desired adjust = .ok (t, scales) ∧ scales.length = bands.length := by
  have hrange : ∀ b ∈ bands, ∃ r, inputRange adjust b = .ok r := by
    intro b hmem
    obtain ⟨ht, hh⟩ := hb b hmem
    have hn : 1 ≤ numBuckets b := by
      unfold numBuckets truncate
      by_cases h : b.type = gdtFloat32 ∨ b.type = gdtFloat64
      · rw [if_pos h]; norm_num
      · rw [if_neg h]
        have h1 : 1 ≤ b.stats.2 - b.stats.1 := by
          rcases ht with h' | h' | h'
          · exact absurd (Or.inl h') h
          · exact absurd (Or.inr h') h
          · exact h'
        rw [if_pos (by linarith)]
        exact Int.le_floor.2 (by simpa using h1)
    obtain ⟨c, counts, hc⟩ := hh (numBuckets b) b.stats.1 b.stats.2 hn
    cases hl : (Verif.DRA.cumulative (c :: counts)).getLast? with
    | none =>
      rw [List.getLast?_eq_none_iff] at hl
      simp [Verif.DRA.cumulative, Verif.DRA.cumulativeFrom] at hl
    | some mx =>
      cases adjust <;>
        simp only [inputRange, hc, bind, Except.bind, Verif.DRA.fromCountsDefault, Verif.DRA.fromCounts, hl, pure, Except.pure] <;>
        exact ⟨_, rfl⟩
  have main : ∀ (bs : List Band) (st : Code × List Scale), (∀ b ∈ bs, ∃ r, inputRange adjust b = .ok r) →
      ∃ t scales, bs.foldlM (addBand desired adjust) st = .ok (t, scales) ∧ scales.length = st.2.length + bs.length := by
    intro bs
    induction bs with
    | nil => intro st _; exact ⟨st.1, st.2, rfl, by simp⟩
    | cons b bs ih =>
      intro st h
      obtain ⟨r, hr⟩ := h b List.mem_cons_self
      obtain ⟨t, scales, h1, h2⟩ := ih (desired.getD b.type,
        st.2 ++ [⟨r.1, r.2, (minmaxForType (desired.getD b.type)).1, (minmaxForType (desired.getD b.type)).2⟩]) (fun b' hb' => h b' (List.mem_cons_of_mem _ hb'))
      refine ⟨t, scales, ?_, by rw [h2]; simp; omega⟩
      rw [List.foldlM_cons]
      simp only [addBand, hr, bind, Except.bind, pure, Except.pure]
      exact h1
  obtain ⟨t, scales, h1, h2⟩ := main bands (gdtByte, []) hrange
  exact ⟨t, scales, h1, by simpa using h2⟩

/-- A constant band of floats and a band of bytes. -/
example : ∃ t scales, typeAndScales [⟨6, (7, 7), fun n _ _ => .ok (List.replicate n.toNat 1)⟩, ⟨1, (0, 200), fun n _ _ => .ok (List.replicate n.toNat 1)⟩] none .minmax
    = .ok (t, scales) ∧ scales.length = 2 := by
  apply varied_bands_have_scales_partial
  intro b hb
  have hr : ∀ n : Int, 1 ≤ n → ∃ c counts, List.replicate n.toNat (1 : ℚ) = c :: counts := by
    intro n hn
    obtain ⟨k, hk⟩ : ∃ k, n.toNat = k + 1 := ⟨n.toNat - 1, by omega⟩
    exact ⟨1, List.replicate k 1, by rw [hk]; rfl⟩
  simp only [List.mem_cons, List.not_mem_nil, or_false] at hb
  rcases hb with rfl | rfl
  · exact ⟨Or.inl rfl, fun n _ _ hn => by obtain ⟨c, l, h⟩ := hr n hn; exact ⟨c, l, congrArg Except.ok h⟩⟩
  · exact ⟨Or.inr (Or.inr (by norm_num)), fun n _ _ hn => by obtain ⟨c, l, h⟩ := hr n hn; exact ⟨c, l, congrArg Except.ok h⟩⟩

/-- **C81** is false: the upper input limit of MINMAX is below the band's maximum, so the brightest values are cut off. -/
theorem minmax_cuts_maximum (b : Band) (counts : List ℚ) (r : ℚ × ℚ) (hc : b.histogram (numBuckets b) b.stats.1 b.stats.2 = .ok counts)
    (hne : ∃ c ∈ counts, c ≠ 0) (hlt : b.stats.1 < b.stats.2) (h0 : b.stats.2 ≠ 0) (hr : inputRange .minmax b = .ok r) : r.2 < b.stats.2 := by
  simp only [inputRange, hc, bind_ok, pure_ok, Except.ok.injEq, exists_eq_left'] at hr
  obtain ⟨d, hd, rfl⟩ := hr
  obtain ⟨r', h1, -, ⟨i, hi, hm⟩, -⟩ := Verif.Props.DRA.dra_suggested_within_actual counts hne (some b.stats.1) (some b.stats.2)
    (2 / 100) (98 / 100) (2 / 10) (4 / 10) _ _ (.both _ _) (by simpa using h0) hlt.le
  have : d = r' := by
    have h2 : Verif.DRA.fromCountsDefault counts (some b.stats.1) (some b.stats.2) = .ok r' := h1
    rw [hd] at h2
    simpa using h2
  subst this
  simp only
  rw [hm]
  unfold Verif.Spec.DRA.bucketValue
  obtain ⟨⟨c, hic, -⟩, -⟩ := hi
  have hil : i < counts.length := (List.getElem?_eq_some_iff.1 hic).1
  have hn : (0 : ℚ) < counts.length := by exact_mod_cast (by omega : 0 < counts.length)
  have hil' : (i : ℚ) + 1 ≤ counts.length := by exact_mod_cast hil
  rw [mul_div_assoc', div_add' _ _ _ hn.ne', div_lt_iff₀ hn]
  nlinarith

/-- **C81**, the part that holds: when the histogram has values in its first and last bucket, the lower limit is the minimum and the upper limit is short of the maximum by
the width of one bucket. -/
theorem minmax_within_one_bucket_partial (b : Band) (counts : List ℚ) (hc : b.histogram (numBuckets b) b.stats.1 b.stats.2 = .ok counts)
    (c0 c1 : ℚ) (hfirst : counts.head? = some c0) (h0 : c0 ≠ 0) (hlast : counts.getLast? = some c1) (h1 : c1 ≠ 0)
    (hle : b.stats.1 ≤ b.stats.2) (hz : b.stats.2 ≠ 0) :
    inputRange .minmax b = .ok (b.stats.1, b.stats.2 - (b.stats.2 - b.stats.1) / counts.length) := by
  have hne : counts ≠ [] := by rintro rfl; simp at hfirst
  have hpos : 0 < counts.length := List.length_pos_iff.2 hne
  have g0 : counts[0]? = some c0 := by rw [← List.head?_eq_getElem?]; exact hfirst
  have g1 : counts[counts.length - 1]? = some c1 := by rw [← List.getLast?_eq_getElem?]; exact hlast
  obtain ⟨d, hd, ⟨i, hi, hm⟩, ⟨j, hj, hM⟩, -⟩ := Verif.Props.DRA.dra_suggested_within_actual counts ⟨c0, List.mem_of_getElem? g0, h0⟩ (some b.stats.1)
    (some b.stats.2) (2 / 100) (98 / 100) (2 / 10) (4 / 10) _ _ (.both _ _) (by simpa using hz) hle
  have ei : i = 0 := by
    by_contra hi0
    have := hi.2 0 (by omega)
    rw [g0] at this
    exact h0 (Option.some.inj this)
  have ej : j = counts.length - 1 := by
    obtain ⟨c, hjc, -⟩ := hj.1
    have hjl : j < counts.length := (List.getElem?_eq_some_iff.1 hjc).1
    by_contra hne'
    have := hj.2 (counts.length - 1) (by omega) (by omega)
    rw [g1] at this
    exact h1 (Option.some.inj this)
  have hd' : Verif.DRA.fromCountsDefault counts (some b.stats.1) (some b.stats.2) = .ok d := hd
  simp only [inputRange, hc, hd', bind, Except.bind, pure, Except.pure]
  rw [hm, hM, ei, ej]
  unfold Verif.Spec.DRA.bucketValue
  have hn : (counts.length : ℚ) ≠ 0 := by exact_mod_cast hpos.ne'
  rw [Nat.cast_sub hpos]
  congr 2
  · simp
  · field_simp; push_cast; ring

example : inputRange .minmax ⟨1, (0, 255), fun n _ _ => .ok (List.replicate n.toNat 1)⟩ = .ok (0, 254) := by decide +kernel

/-! ## Extensions (C54) -/

theorem toUpper_toUpper (c : Char) : c.toUpper.toUpper = c.toUpper := by
  unfold Char.toUpper
  split
  · rename_i h
    split
    · rename_i h2
      exfalso
      simp only [UInt32.le_iff_toNat_le] at h h2
      simp at h h2
      omega
    · rfl
  · rfl

theorem upper_upper (s : List Char) : upper (upper s) = upper s := by
  simp [upper, toUpper_toUpper]

theorem mentions_iff (s w : List Char) : upper w <:+: upper s ↔ Mentions s w := by
  unfold Mentions EqIgnoreCase upper
  rw [List.infix_map_iff]
  exact exists_congr fun t => and_congr_right fun _ => eq_comm

theorem searches_iff (words : List String) (hw : ∀ w ∈ words, upper w.toList = w.toList) (s : List Char) :
    searches words (upper s) = true ↔ ∃ w ∈ words, Mentions s w.toList := by
  simp only [searches, List.any_eq_true, decide_eq_true_eq, upper_upper]
  refine exists_congr fun w => and_congr_right fun hm => ?_
  rw [← mentions_iff, hw w hm]

/-- **C54**: the decision of `normalize_extension`: the first of NITF, TIFF, JPEG that is mentioned in any letter case, else the
upper-case input. -/
theorem normalize_decision (s : List Char) :
    (Mentions s "nitf".toList ∨ Mentions s "ntf".toList → normalizeExtension s = "NITF".toList) ∧
    (¬ Mentions s "nitf".toList → ¬ Mentions s "ntf".toList →
      (Mentions s "tif".toList ∨ Mentions s "tiff".toList → normalizeExtension s = "TIFF".toList) ∧
      (¬ Mentions s "tif".toList → ¬ Mentions s "tiff".toList →
        (Mentions s "jpeg".toList ∨ Mentions s "jpg".toList → normalizeExtension s = "JPEG".toList) ∧
        (¬ Mentions s "jpeg".toList → ¬ Mentions s "jpg".toList → normalizeExtension s = s.map Char.toUpper))) := by
  have lift : ∀ a b : String, a.toList.map Char.toUpper = b.toList.map Char.toUpper → (Mentions s a.toList ↔ Mentions s b.toList) := by
    intro a b hab
    simp only [Mentions, EqIgnoreCase]
    rw [hab]
  have key : ∀ (w v W V : String), w.toList.map Char.toUpper = W.toList.map Char.toUpper → v.toList.map Char.toUpper = V.toList.map Char.toUpper →
      (∀ x ∈ [W, V], upper x.toList = x.toList) →
      ((Mentions s w.toList ∨ Mentions s v.toList) ↔ searches [W, V] (upper s) = true) := by
    intro w v W V h1 h2 h3
    rw [searches_iff _ h3, lift w W h1, lift v V h2]
    simp only [List.mem_cons, List.not_mem_nil, or_false, exists_eq_or_imp, exists_eq_left]
  have h1 := key "nitf" "ntf" "NITF" "NTF" (by decide +kernel) (by decide +kernel) (by decide +kernel)
  have h2 := key "tif" "tiff" "TIF" "TIFF" (by decide +kernel) (by decide +kernel) (by decide +kernel)
  have h3 := key "jpeg" "jpg" "JPEG" "JPG" (by decide +kernel) (by decide +kernel) (by decide +kernel)
  clear key lift
  unfold normalizeExtension
  dsimp only
  generalize searches ["NITF", "NTF"] (upper s) = b1 at h1 ⊢
  generalize searches ["TIF", "TIFF"] (upper s) = b2 at h2 ⊢
  generalize searches ["JPEG", "JPG"] (upper s) = b3 at h3 ⊢
  refine ⟨fun h => if_pos (h1.1 h), fun a b => ?_⟩
  rw [if_neg (fun h => (h1.2 h).elim a b)]
  refine ⟨fun h => if_pos (h2.1 h), fun a b => ?_⟩
  rw [if_neg (fun h => (h2.2 h).elim a b)]
  refine ⟨fun h => if_pos (h3.1 h), fun a b => ?_⟩
  rw [if_neg (fun h => (h3.2 h).elim a b)]
  rfl

/-- All four branches are reached. -/
example : normalizeExtension "Ntf".toList = "NITF".toList ∧ normalizeExtension "tIf".toList = "TIFF".toList ∧
    normalizeExtension "jpg".toList = "JPEG".toList ∧ normalizeExtension "png".toList = "PNG".toList := by decide +kernel

/-- **C54**: letter case does not matter. -/
theorem normalize_ignores_case (s t : List Char) (h : EqIgnoreCase s t) : normalizeExtension s = normalizeExtension t := by
  have : upper s = upper t := h
  unfold normalizeExtension
  rw [this]

example : EqIgnoreCase "JpEg".toList "jPEG".toList := by unfold EqIgnoreCase; decide +kernel

/-- **C54**: normalising twice is the same as once. -/
theorem normalize_idempotent (s : List Char) : normalizeExtension (normalizeExtension s) = normalizeExtension s := by
  have key : normalizeExtension s = "NITF".toList ∨ normalizeExtension s = "TIFF".toList ∨ normalizeExtension s = "JPEG".toList ∨
      normalizeExtension s = upper s := by
    unfold normalizeExtension
    dsimp only
    split_ifs <;> simp
  rcases key with h | h | h | h
  · rw [h]; decide +kernel
  · rw [h]; decide +kernel
  · rw [h]; decide +kernel
  · conv_lhs => rw [h]
    exact normalize_ignores_case _ _ (upper_upper s)

theorem select_fold (path : List Char) (es : List (List Char)) (k : Nat) (init : List Char) :
    ((es.zipIdx (k + 1)).foldl (fun sel e => if e.2 = 0 then upper e.1
      else if upper ('.' :: e.1) <:+: upper path then upper e.1 else sel) init) =
    es.foldl (fun sel e => if upper ('.' :: e) <:+: upper path then upper e else sel) init := by
  induction es generalizing k init with
  | nil => rfl
  | cons e es ih =>
    rw [List.zipIdx_cons, List.foldl_cons, List.foldl_cons, ih]
    rfl

/-- **C54**: `select_extension` gives UNKNOWN for an empty list. -/
theorem select_empty (path : List Char) : selectExtension path [] = "UNKNOWN".toList := rfl

theorem select_fold_none (path : List Char) (es : List (List Char)) (init : List Char) (h : ∀ e ∈ es, ¬ Mentions path ('.' :: e)) :
    es.foldl (fun sel e => if upper ('.' :: e) <:+: upper path then upper e else sel) init = init := by
  induction es generalizing init with
  | nil => rfl
  | cons e es ih =>
    rw [List.foldl_cons, if_neg (by rw [mentions_iff]; exact h e (by simp))]
    exact ih _ fun e' he' => h e' (by simp [he'])

/-- **C54**: when the path mentions none of the extensions after the first, the first one is taken. -/
theorem select_first (path first : List Char) (es : List (List Char)) (h : ∀ e ∈ es, ¬ Mentions path ('.' :: e)) :
    selectExtension path (first :: es) = first.map Char.toUpper := by
  unfold selectExtension
  rw [List.zipIdx_cons, List.foldl_cons, select_fold, select_fold_none _ _ _ h]
  rfl

/-- **C54**: otherwise the last extension that the path mentions is taken. -/
theorem select_last_mentioned (path first e : List Char) (before after : List (List Char)) (he : Mentions path ('.' :: e))
    (h : ∀ e' ∈ after, ¬ Mentions path ('.' :: e')) :
    selectExtension path (first :: (before ++ e :: after)) = e.map Char.toUpper := by
  unfold selectExtension
  rw [List.zipIdx_cons, List.foldl_cons, select_fold, List.foldl_append, List.foldl_cons, select_fold_none _ _ _ h, if_pos]
  · rfl
  · rw [mentions_iff]; exact he

/-- Both cases occur. -/
example : selectExtension "a/b.tif".toList ["tif".toList, "tiff".toList] = "TIF".toList ∧
    selectExtension "b.tiff".toList ["tif".toList, "tiff".toList] = "TIFF".toList := by decide +kernel

/-- **C54** is false for `select_extension`: a directory name counts as much as the ending of the file, and so does the beginning of
a longer ending. -/
theorem select_not_by_ending :
    (∃ path exts, ".tif".toList <:+ path ∧ "tif".toList ∈ exts ∧ selectExtension path exts = "TIFF".toList) ∧
    (∃ path exts, ".jp2x".toList <:+ path ∧ "jp2x".toList ∈ exts ∧ selectExtension path exts = "JP2".toList) :=
  ⟨⟨"x.tiff/b.tif".toList, ["tif".toList, "tiff".toList], by decide +kernel, by decide +kernel, by decide +kernel⟩,
   ⟨"b.jp2x".toList, ["j2k".toList, "jp2x".toList, "jp2".toList], by decide +kernel, by decide +kernel, by decide +kernel⟩⟩

/-! ## Elevation tiles (C70) -/

/-- **C70**: a directory that starts with `s3:/` is opened through GDAL's S3 file system. -/
theorem s3_location (rest path : List Char) :
    tileLocation ("s3:/".toList ++ rest) path = "/vsis3".toList ++ rest ++ '/' :: path := by
  simp [tileLocation, replaceFirst]

/-- **C70** (in part): a location in which `s3:/` does not occur is opened as it is.  Missing: locations with `s3:/` inside, see
`s3_inside_is_rewritten`. -/
theorem local_location_partial (dir path : List Char) (h : ¬ "s3:/".toList <:+: dir ++ '/' :: path) :
    tileLocation dir path = dir ++ '/' :: path := by
  unfold tileLocation
  generalize dir ++ '/' :: path = s at h ⊢
  induction s with
  | nil => rfl
  | cons c cs ih =>
    unfold replaceFirst
    rw [if_neg (fun hp => h hp.isInfix), ih (fun hi => h (List.infix_cons hi))]

example : ¬ "s3:/".toList <:+: "/data".toList ++ '/' :: "n00.dt2".toList := by decide +kernel

/-- **C70** is false for a local directory whose name contains `s3:/`. -/
theorem s3_inside_is_rewritten : ∃ dir path, ¬ "s3:/".toList <+: dir ∧ tileLocation dir path ≠ dir ++ '/' :: path :=
  ⟨"/cache/s3:".toList, "n00.dt2".toList, by decide +kernel, by decide +kernel⟩

/-- **C70**: no data when the tile cannot be opened or has no geo transform; otherwise a failure to make the sensor model is passed on,
and what is returned is the content of the file. -/
theorem tile_decision {M : Type} (open' : List Char → Option Dataset) (model : List ℚ → Except PyErr M)
    (spacing : M → List (List ℚ) → ℚ) (dir path : List Char) :
    (open' (tileLocation dir path) = none → getTile open' model spacing dir path = .ok none) ∧
    (∀ ds, open' (tileLocation dir path) = some ds → ds.geo = none → getTile open' model spacing dir path = .ok none) ∧
    (∀ ds g e, open' (tileLocation dir path) = some ds → ds.geo = some g → model g = .error e →
      getTile open' model spacing dir path = .error e) ∧
    (∀ ds g m, open' (tileLocation dir path) = some ds → ds.geo = some g → model g = .ok m →
      ∃ s, getTile open' model spacing dir path = .ok (some (ds.posts, m, s)) ∧ s.minElevation = ds.stats.1 ∧
        s.maxElevation = ds.stats.2 ∧ s.noData = ds.noData) := by
  unfold getTile
  refine ⟨fun h => by rw [h], fun ds h hg => by rw [h]; simp only [hg], fun ds g e h hg he => ?_, fun ds g m h hg hm => ?_⟩
  · rw [h]; simp only [hg, he, bind, Except.bind]
  · rw [h]; simp only [hg, hm, bind, Except.bind, pure, Except.pure]
    exact ⟨_, rfl, rfl, rfl, rfl⟩

/-- A tile that is read. -/
example : ∃ r, getTile (M := Unit) (fun l => if l = "/vsis3/b/t".toList then some ⟨some [0, 1, 0, 0, 0, 1], [[5]], (5, 5), none⟩ else none)
    (fun _ => .ok ()) (fun _ _ => 0) "s3://b".toList "t".toList = .ok r := ⟨_, rfl⟩

end Verif.Props.GdalUtils
