import Verif.Model.Sar
import Mathlib.Tactic.Linarith
import Mathlib.Tactic.FieldSimp
import Mathlib.Tactic.Ring
import Mathlib.Algebra.Order.BigOperators.Group.List
import Mathlib.Data.List.MinMax
import Mathlib.Analysis.SpecialFunctions.Trigonometric.Basic

/-!
# Theorems about the SAR image functions
-/

namespace Verif.Props.Sar

open Verif.Sar

/-! ## Power (C48) -/

/-- **C48**: floating-point complex pixels. -/
theorem complex_power (ptype : Option String) (h : ptype = none ∨ ptype = some "RE32F_IM32F" ∨ ptype = some "RE16I_IM16I")
    (table : Option (List ℝ)) (re im : ℝ) : ∃ px, toComplex ptype table (.reals re im) = .ok px ∧ power px = re ^ 2 + im ^ 2 := by
  refine ⟨.reals re im, by unfold toComplex; rw [if_pos h], ?_⟩
  simp only [power]; ring

/-- **C48**: amplitude and phase, without a table the amplitude is the pixel's, with one it is the table's entry. -/
theorem amplitude_power (bits : Nat) (signed : Bool) (a p : Nat) :
    (∃ px, toComplex (some "AMP8I_PHS8I") none (.ints bits signed a p) = .ok px ∧ power px = (a : ℝ) ^ 2) ∧
    (∀ (table : List ℝ) (v : ℝ), table[a]? = some v →
      ∃ px, toComplex (some "AMP8I_PHS8I") (some table) (.ints bits signed a p) = .ok px ∧ power px = v ^ 2) ∧
    (∀ table : List ℝ, table.length ≤ a → toComplex (some "AMP8I_PHS8I") (some table) (.ints bits signed a p) = .error .indexError) := by
  have key : ∀ m ph : ℝ, power (polar m ph) = m ^ 2 := by
    intro m ph
    simp only [polar, power]
    have := Real.sin_sq_add_cos_sq (2 * Real.pi * (ph / 256))
    linear_combination m ^ 2 * this
  have hc : ¬ ((some "AMP8I_PHS8I" : Option String) = none ∨ (some "AMP8I_PHS8I" : Option String) = some "RE32F_IM32F" ∨
      (some "AMP8I_PHS8I" : Option String) = some "RE16I_IM16I") := by decide
  refine ⟨⟨polar a p, ?_, key _ _⟩, fun table v hv => ⟨polar v p, ?_, key _ _⟩, fun table hl => ?_⟩
  · unfold toComplex; rw [if_neg hc, if_pos rfl]; simp
  · unfold toComplex; rw [if_neg hc, if_pos rfl]
    simp only [lookup, Int.toNat_natCast, hv, bind, Except.bind, pure, Except.pure, Int.cast_natCast]
  · unfold toComplex; rw [if_neg hc, if_pos rfl]
    simp only [lookup, Int.toNat_natCast, List.getElem?_eq_none hl, bind, Except.bind]

example : ([0, 3, 7] : List ℝ)[2]? = some 7 := rfl

/-- **C48**: the complex number of an amplitude and a phase: 256 steps of the phase are one turn.  The amplitude is the pixel's or
the table's entry for it. -/
theorem amplitude_phase_value (bits : Nat) (signed : Bool) (a p : Nat) (table : Option (List ℝ)) (v : ℝ)
    (hv : (table = none ∧ v = a) ∨ ∃ t, table = some t ∧ t[a]? = some v) :
    ∃ re im : ℝ, toComplex (some "AMP8I_PHS8I") table (.ints bits signed a p) = .ok (.reals re im) ∧
      (re + im * Complex.I : ℂ) = v * Complex.exp (2 * Real.pi * Complex.I * (p / 256)) := by
  refine ⟨v * Real.cos (2 * Real.pi * ((p : ℝ) / 256)), v * Real.sin (2 * Real.pi * ((p : ℝ) / 256)), ?_, ?_⟩
  · rcases hv with ⟨rfl, rfl⟩ | ⟨t, rfl, ht⟩
    · simp [toComplex, polar]
    · simp [toComplex, polar, lookup, ht, bind, Except.bind, pure, Except.pure]
  · have e : (2 * Real.pi * Complex.I * (p / 256) : ℂ) = ((2 * Real.pi * ((p : ℝ) / 256) : ℝ) : ℂ) * Complex.I := by
      push_cast; ring
    rw [e, Complex.exp_mul_I]
    push_cast
    ring

example : ([0, 3, 7] : List ℝ)[2]? = some 7 := rfl

/-- **C48**: an unknown pixel type is rejected. -/
theorem unknown_pixel_type (t : String) (h : t ∉ ["RE32F_IM32F", "RE16I_IM16I", "AMP8I_PHS8I"]) (table : Option (List ℝ)) (px : Px) :
    toComplex (some t) table px = .error .valueError := by
  simp only [List.mem_cons, List.not_mem_nil, or_false, not_or] at h
  unfold toComplex
  rw [if_neg (by simp [h]), if_neg (by simp [h])]

example : "AMP16I_PHS16I" ∉ ["RE32F_IM32F", "RE16I_IM16I", "AMP8I_PHS8I"] := by decide

theorem wrap16_le (z : Int) (h : 0 ≤ z) : wrap 16 true z ≤ z ∧ (wrap 16 true z = z ↔ z < 32768) := by
  simp only [wrap, if_true]
  norm_num
  omega

/-- **C48** (in part): 16-bit complex pixels have the right power exactly when both components are at most 181 in
absolute value.  Missing: all larger values, for which the squares overflow and the claim is false. -/
theorem int16_power_partial (re im : Int) :
    (∃ px, toComplex (some "RE16I_IM16I") none (.ints 16 true re im) = .ok px ∧ power px = (re : ℝ) ^ 2 + (im : ℝ) ^ 2) ↔
      |re| ≤ 181 ∧ |im| ≤ 181 := by
  have e : toComplex (some "RE16I_IM16I") none (.ints 16 true re im) = .ok (.ints 16 true re im) := by
    unfold toComplex; rw [if_pos (by simp)]
  rw [e]
  simp only [Except.ok.injEq, exists_eq_left', power]
  have hr := wrap16_le (re * re) (mul_self_nonneg re)
  have hi := wrap16_le (im * im) (mul_self_nonneg im)
  have small : ∀ z : Int, z * z < 32768 ↔ |z| ≤ 181 := by
    intro z
    rw [← abs_mul_abs_self z]
    have := abs_nonneg z
    generalize |z| = a at *
    constructor
    · intro h; by_contra hc; nlinarith
    · intro h; nlinarith
  rw [← small, ← small, ← hr.2, ← hi.2]
  constructor
  · intro h
    have h' : wrap 16 true (re * re) + wrap 16 true (im * im) = re * re + im * im := by
      have : ((wrap 16 true (re * re) + wrap 16 true (im * im) : Int) : ℝ) = ((re * re + im * im : Int) : ℝ) := by
        rw [h]; push_cast; ring
      exact_mod_cast this
    omega
  · rintro ⟨h1, h2⟩
    rw [h1, h2]; push_cast; ring

/-- **C48** is false: the brightest pixel has power 2, and a bright one negative power. -/
theorem int16_power_overflows : power (.ints 16 true 32767 32767) = 2 ∧ power (.ints 16 true 200 0) < 0 := by
  constructor
  · simp only [power]
    have : wrap 16 true (32767 * 32767) + wrap 16 true (32767 * 32767) = 2 := by decide
    rw [this]; norm_num
  · simp only [power]
    have : wrap 16 true (200 * 200) + wrap 16 true (0 * 0) = -25536 := by decide
    rw [this]; norm_num

/-! ## Stretches (C49) -/

theorem clip_range (x : ℝ) : 0 ≤ clip x 0 255 ∧ clip x 0 255 ≤ 255 := by
  unfold clip
  exact ⟨le_min (le_max_right _ _) (by norm_num), min_le_right _ _⟩

theorem clip_mono {x y : ℝ} (h : x ≤ y) : clip x 0 255 ≤ clip y 0 255 := by
  unfold clip
  exact min_le_min (max_le_max h le_rfl) le_rfl

theorem stretchOne_range (scale : ℝ) (mean v : Option ℝ) (r : ℝ) (h : stretchOne scale mean v = some r) : 0 ≤ r ∧ r ≤ 255 := by
  unfold stretchOne at h
  split at h
  · split_ifs at h
    · simp only [Option.some.injEq] at h; subst h; norm_num
    · simp only [Option.some.injEq] at h; subst h; norm_num
    · simp only [Option.some.injEq] at h; subst h; exact clip_range _
  · exact absurd h (by simp)

/-- **C49**: every number in a stretched image is in [0, 255]. -/
theorem stretch_in_range (scale : ℝ) (given : Option ℝ) (vs : List (Option ℝ)) (r : ℝ) :
    (some r ∈ histogramStretch scale vs → 0 ≤ r ∧ r ≤ 255) ∧ (some r ∈ quarterPower scale given vs → 0 ≤ r ∧ r ≤ 255) := by
  constructor
  · intro h
    obtain ⟨v, -, hv⟩ := List.mem_map.1 h
    exact stretchOne_range _ _ _ _ hv
  · intro h
    obtain ⟨v, -, hv⟩ := List.mem_map.1 h
    exact stretchOne_range _ _ _ _ hv

/-- A pixel of an image of three. -/
example : ∃ r, some r ∈ histogramStretch 24 [some 1, none, some 3] ∧ 0 ≤ r ∧ r ≤ 255 := by
  obtain ⟨r, hr⟩ : ∃ r, some r ∈ histogramStretch 24 [some 1, none, some 3] := by
    refine ⟨255 / 48, List.mem_map.2 ⟨some 1, by simp, ?_⟩⟩
    have e : finiteMean [some 1, none, some 3] = some 2 := by norm_num [finiteMean, List.filterMap]; simp
    rw [e]
    norm_num [stretchOne, clip]
  exact ⟨r, hr, (stretch_in_range 24 none _ r).1 hr⟩

theorem finiteMean_pos (vs : List (Option ℝ)) (hn : ∀ x, some x ∈ vs → 0 ≤ x) (hp : ∃ x, some x ∈ vs ∧ 0 < x) :
    ∃ m, finiteMean vs = some m ∧ 0 < m := by
  obtain ⟨x, hx, hx0⟩ := hp
  have hmem : x ∈ vs.filterMap id := List.mem_filterMap.2 ⟨some x, hx, rfl⟩
  have hall : ∀ y ∈ vs.filterMap id, 0 ≤ y := by
    intro y hy
    obtain ⟨o, ho, hoy⟩ := List.mem_filterMap.1 hy
    simp only [id] at hoy
    subst hoy
    exact hn y ho
  have hne : vs.filterMap id ≠ [] := List.ne_nil_of_mem hmem
  refine ⟨_, by unfold finiteMean; dsimp only; rw [if_neg hne], ?_⟩
  have hsum : x ≤ (vs.filterMap id).sum := List.single_le_sum hall _ hmem
  have hlen : (0 : ℝ) < (vs.filterMap id).length := by exact_mod_cast List.length_pos_iff.2 hne
  exact div_pos (by linarith) hlen

theorem stretchOne_mono (scale m x y : ℝ) (hs : 0 < scale) (hm : 0 < m) (h : x ≤ y) :
    ∃ a b, stretchOne scale (some m) (some x) = some a ∧ stretchOne scale (some m) (some y) = some b ∧ a ≤ b := by
  have hne : scale * m ≠ 0 := (mul_pos hs hm).ne'
  refine ⟨clip (255 * (1 / (scale * m)) * x) 0 255, clip (255 * (1 / (scale * m)) * y) 0 255, ?_, ?_, clip_mono ?_⟩
  · simp only [stretchOne, if_neg hne]
  · simp only [stretchOne, if_neg hne]
  · exact mul_le_mul_of_nonneg_left h (by have := mul_pos hs hm; positivity)

/-- **C49** (in part): for magnitudes that are not all zero, the histogram stretch maps numbers to numbers and never a larger magnitude to
a darker pixel.  Missing: images that are zero everywhere, see `black_image_is_nan`. -/
theorem histogram_stretch_monotone_partial (scale : ℝ) (hs : 0 < scale) (vs : List (Option ℝ)) (hn : ∀ x, some x ∈ vs → 0 ≤ x)
    (hp : ∃ x, some x ∈ vs ∧ 0 < x) (i j : Nat) (x y : ℝ) (hi : vs[i]? = some (some x)) (hj : vs[j]? = some (some y)) (hxy : x ≤ y) :
    ∃ a b, (histogramStretch scale vs)[i]? = some (some a) ∧ (histogramStretch scale vs)[j]? = some (some b) ∧ a ≤ b := by
  obtain ⟨m, hm, hm0⟩ := finiteMean_pos vs hn hp
  obtain ⟨a, b, ha, hb, hab⟩ := stretchOne_mono scale m x y hs hm0 hxy
  refine ⟨a, b, ?_, ?_, hab⟩
  · unfold histogramStretch; rw [List.getElem?_map, hi, hm, Option.map_some, ha]
  · unfold histogramStretch; rw [List.getElem?_map, hj, hm, Option.map_some, hb]

/-- Premises. -/
example : (∀ x, some x ∈ [some (0 : ℝ), none, some 3] → 0 ≤ x) ∧ ∃ x, some x ∈ [some (0 : ℝ), none, some 3] ∧ 0 < x := by
  refine ⟨fun x hx => ?_, 3, by simp, by norm_num⟩
  simp only [List.mem_cons, Option.some.injEq, reduceCtorEq, List.not_mem_nil, or_false, false_or] at hx
  rcases hx with rfl | rfl <;> norm_num

/-- **C49** (in part): the same for the quarter power image, with the mean of the image or a given positive one. -/
theorem quarter_power_monotone_partial (scale : ℝ) (hs : 0 < scale) (given : Option ℝ) (hg : ∀ m, given = some m → 0 < m) (vs : List (Option ℝ))
    (hp : given = none → ∃ x, some x ∈ vs ∧ x ≠ 0) (i j : Nat) (x y : ℝ) (hi : vs[i]? = some (some x)) (hj : vs[j]? = some (some y))
    (hxy : |x| ≤ |y|) :
    ∃ a b, (quarterPower scale given vs)[i]? = some (some a) ∧ (quarterPower scale given vs)[j]? = some (some b) ∧ a ≤ b := by
  obtain ⟨m, hm, hm0⟩ : ∃ m, given.or (finiteMean (vs.map (Option.map (fun x => Real.sqrt |x|)))) = some m ∧ 0 < m := by
    cases given with
    | some m => exact ⟨m, rfl, hg m rfl⟩
    | none =>
      refine finiteMean_pos _ ?_ ?_
      · intro z hz
        obtain ⟨o, -, ho⟩ := List.mem_map.1 hz
        cases o with
        | none => simp at ho
        | some w => simp only [Option.map_some, Option.some.injEq] at ho; subst ho; exact Real.sqrt_nonneg _
      · obtain ⟨z, hz, hz0⟩ := hp rfl
        exact ⟨Real.sqrt |z|, List.mem_map.2 ⟨some z, hz, rfl⟩, Real.sqrt_pos.2 (abs_pos.2 hz0)⟩
  obtain ⟨a, b, ha, hb, hab⟩ := stretchOne_mono scale m (Real.sqrt |x|) (Real.sqrt |y|) hs hm0 (Real.sqrt_le_sqrt hxy)
  refine ⟨a, b, ?_, ?_, hab⟩
  · unfold quarterPower; dsimp only; rw [hm, List.getElem?_map, List.getElem?_map, hi, Option.map_some, Option.map_some, Option.map_some, ha]
  · unfold quarterPower; dsimp only; rw [hm, List.getElem?_map, List.getElem?_map, hj, Option.map_some, Option.map_some, Option.map_some, hb]

/-- The first and third pixel of an image with a gap. -/
example : ∃ a b, (quarterPower 3 none [some (-1), none, some 4])[0]? = some (some a) ∧ (quarterPower 3 none [some (-1), none, some 4])[2]? = some (some b) ∧ a ≤ b :=
  quarter_power_monotone_partial 3 (by norm_num) none (by simp) _ (fun _ => ⟨4, by simp, by norm_num⟩) 0 2 (-1) 4 rfl rfl (by norm_num)

/-- `m` is the arithmetic mean of the numbers in a list with gaps. -/
def IsMean (vs : List (Option ℝ)) (m : ℝ) : Prop := (vs.filterMap id) ≠ [] ∧ m * (vs.filterMap id).length = (vs.filterMap id).sum

theorem finiteMean_isMean (vs : List (Option ℝ)) (m : ℝ) (h : finiteMean vs = some m) : IsMean vs m := by
  unfold finiteMean at h
  dsimp only at h
  split at h
  · cases h
  · rename_i hne
    cases h
    have hlen : ((vs.filterMap id).length : ℝ) ≠ 0 := by
      have := List.length_pos_iff.2 hne
      positivity
    exact ⟨hne, by field_simp⟩

/-- Straight line from 0 to 255 at `top`, constant after that. -/
def Stretched (top x r : ℝ) : Prop := (x ≤ top → r = 255 * (x / top)) ∧ (top ≤ x → r = 255)

theorem stretchOne_value (scale m x : ℝ) (hs : 0 < scale) (hm : 0 < m) (hx : 0 ≤ x) :
    ∃ r, stretchOne scale (some m) (some x) = some r ∧ Stretched (scale * m) x r := by
  have hp := mul_pos hs hm
  have e : 255 * (1 / (scale * m)) * x = 255 * (x / (scale * m)) := by ring
  refine ⟨clip (255 * (1 / (scale * m)) * x) 0 255, by simp only [stretchOne, if_neg hp.ne'], ?_, ?_⟩
  · intro h
    have h1 : x / (scale * m) ≤ 1 := by rw [div_le_one hp]; exact h
    have h0 : 0 ≤ x / (scale * m) := div_nonneg hx hp.le
    unfold clip
    rw [e, max_eq_left (by linarith), min_eq_left (by linarith)]
  · intro h
    have h1 : 1 ≤ x / (scale * m) := by rw [le_div_iff₀ hp]; linarith
    unfold clip
    rw [e, max_eq_left (by linarith), min_eq_right (by linarith)]

/-- **C49**: the values of the histogram stretch: a magnitude is shown in proportion to `scale` times the mean of the image, which is
white; greater magnitudes are white. -/
theorem histogram_stretch_values (scale : ℝ) (hs : 0 < scale) (vs : List (Option ℝ)) (hn : ∀ x, some x ∈ vs → 0 ≤ x)
    (hp : ∃ x, some x ∈ vs ∧ 0 < x) :
    ∃ m, IsMean vs m ∧ ∀ (i : Nat) (x : ℝ), vs[i]? = some (some x) → ∃ r, (histogramStretch scale vs)[i]? = some (some r) ∧ Stretched (scale * m) x r := by
  obtain ⟨m, hm, hm0⟩ := finiteMean_pos vs hn hp
  refine ⟨m, finiteMean_isMean vs m hm, fun i x hi => ?_⟩
  obtain ⟨r, h1, h2⟩ := stretchOne_value scale m x hs hm0 (hn x (List.mem_of_getElem? hi))
  exact ⟨r, by unfold histogramStretch; rw [List.getElem?_map, hi, hm, Option.map_some, h1], h2⟩

/-- **C49**: the values of the quarter power image: the root of a pixel (the quarter power of its power, when pixels are
magnitudes) is shown in proportion to `scale` times the given mean, or else the mean of the roots. -/
theorem quarter_power_values (scale : ℝ) (hs : 0 < scale) (given : Option ℝ) (hg : ∀ m, given = some m → 0 < m) (vs : List (Option ℝ))
    (hp : given = none → ∃ x, some x ∈ vs ∧ x ≠ 0) :
    ∃ m, (∀ g, given = some g → m = g) ∧ (given = none → IsMean (vs.map (Option.map (fun x => Real.sqrt |x|))) m) ∧
      ∀ (i : Nat) (x : ℝ), vs[i]? = some (some x) → ∃ r, (quarterPower scale given vs)[i]? = some (some r) ∧ Stretched (scale * m) (Real.sqrt |x|) r := by
  obtain ⟨m, hm, hm0⟩ : ∃ m, given.or (finiteMean (vs.map (Option.map (fun x => Real.sqrt |x|)))) = some m ∧ 0 < m := by
    cases given with
    | some m => exact ⟨m, rfl, hg m rfl⟩
    | none =>
      refine finiteMean_pos _ ?_ ?_
      · intro z hz
        obtain ⟨o, -, ho⟩ := List.mem_map.1 hz
        cases o with
        | none => simp at ho
        | some w => simp only [Option.map_some, Option.some.injEq] at ho; subst ho; exact Real.sqrt_nonneg _
      · obtain ⟨z, hz, hz0⟩ := hp rfl
        exact ⟨Real.sqrt |z|, List.mem_map.2 ⟨some z, hz, rfl⟩, Real.sqrt_pos.2 (abs_pos.2 hz0)⟩
  refine ⟨m, ?_, ?_, ?_⟩
  · rintro g rfl; simpa using hm.symm
  · rintro rfl; exact finiteMean_isMean _ _ (by simpa using hm)
  · intro i x hi
    obtain ⟨r, h1, h2⟩ := stretchOne_value scale m (Real.sqrt |x|) hs hm0 (Real.sqrt_nonneg _)
    refine ⟨r, ?_, h2⟩
    unfold quarterPower
    dsimp only
    rw [hm, List.getElem?_map, List.getElem?_map, hi, Option.map_some, Option.map_some, Option.map_some, h1]

/-- Premises of the two theorems. -/
example : ∃ vs : List (Option ℝ), (∀ x, some x ∈ vs → 0 ≤ x) ∧ (∃ x, some x ∈ vs ∧ 0 < x) ∧ IsMean vs 2 :=
  ⟨[some 1, none, some 3], by
    intro x hx
    simp only [List.mem_cons, Option.some.injEq, reduceCtorEq, List.not_mem_nil, or_false, false_or] at hx
    rcases hx with rfl | rfl <;> norm_num, ⟨3, by simp, by norm_num⟩, by simp, by
      simp only [List.filterMap_cons, List.filterMap_nil, id]
      norm_num⟩

/-- **C49** is false for an image without any signal: every pixel becomes NaN. -/
theorem black_image_is_nan (scale : ℝ) (n : Nat) :
    histogramStretch scale (List.replicate n (some 0)) = List.replicate n none ∧
    quarterPower scale none (List.replicate n (some 0)) = List.replicate n none := by
  have key : ∀ n : Nat, (List.replicate n (some (0 : ℝ))).map (stretchOne scale (finiteMean (List.replicate n (some 0)))) = List.replicate n none := by
    intro n
    cases n with
    | zero => rfl
    | succ n =>
      have hm : finiteMean (List.replicate (n + 1) (some (0 : ℝ))) = some 0 := by
        have hf : (List.replicate (n + 1) (some (0 : ℝ))).filterMap id = List.replicate (n + 1) 0 := by
          induction n with
          | zero => rfl
          | succ n ih => rw [List.replicate_succ, List.filterMap_cons, ih]; rfl
        unfold finiteMean
        dsimp only
        rw [hf, if_neg (by simp)]
        simp
      rw [hm, List.map_replicate]
      simp [stretchOne]
  refine ⟨key n, ?_⟩
  unfold quarterPower
  have : (List.replicate n (some (0 : ℝ))).map (Option.map (fun x => Real.sqrt |x|)) = List.replicate n (some 0) := by
    rw [List.map_replicate]; simp
  dsimp only
  rw [this]
  exact key n

/-! ## Linear mapping (C49) -/

theorem linearMapping_cases (f32 : ℚ → ℚ) (vs : List ℚ) (lo hi : ℚ) (h1 : vs.min? = some lo) (h2 : vs.max? = some hi) :
    linearMapping f32 vs = if hi = lo then .ok (vs.map (fun _ => some (1 / 2))) else .ok (vs.map (linearOne f32 lo hi)) := by
  unfold linearMapping
  simp only [h1, h2]

/-- `lo` is the least and `hi` the greatest element. -/
def Extremes (vs : List ℚ) (lo hi : ℚ) : Prop := lo ∈ vs ∧ hi ∈ vs ∧ ∀ v ∈ vs, lo ≤ v ∧ v ≤ hi

theorem extremes_iff (vs : List ℚ) (lo hi : ℚ) (h : Extremes vs lo hi) : vs.min? = some lo ∧ vs.max? = some hi := by
  obtain ⟨h1, h2, h3⟩ := h
  exact ⟨List.min?_eq_some_iff.2 ⟨h1, fun v hv => (h3 v hv).1⟩, List.max?_eq_some_iff.2 ⟨h2, fun v hv => (h3 v hv).2⟩⟩

/-- **C49** (in part): when the least and the greatest value are single precision numbers, `linear_mapping` maps the least value to 0, the
greatest to 1, all others in between and in order; a constant image becomes 1/2.  Missing: other values, see
`linear_mapping_nan`. -/
theorem linear_mapping_partial (f32 : ℚ → ℚ) (hmono : ∀ x y, x ≤ y → f32 x ≤ f32 y) (vs : List ℚ) (lo hi : ℚ) (he : Extremes vs lo hi)
    (hlo : f32 lo = lo) (hhi : f32 hi = hi) :
    (lo = hi → linearMapping f32 vs = .ok (vs.map (fun _ => some (1 / 2)))) ∧
    (lo < hi → ∃ f : ℚ → ℚ, linearMapping f32 vs = .ok (vs.map (fun v => some (f v))) ∧ f lo = 0 ∧ f hi = 1 ∧
      (∀ v ∈ vs, 0 ≤ f v ∧ f v ≤ 1) ∧ ∀ v ∈ vs, ∀ w ∈ vs, v ≤ w → f v ≤ f w) := by
  obtain ⟨h1, h2⟩ := extremes_iff vs lo hi he
  rw [linearMapping_cases f32 vs lo hi h1 h2]
  refine ⟨fun h => if_pos h.symm, fun hlt => ?_⟩
  have hd : f32 hi - lo ≠ 0 := by rw [hhi]; exact sub_ne_zero.2 hlt.ne'
  have hpos : 0 < hi - lo := sub_pos.2 hlt
  refine ⟨fun v => min (max ((f32 v - lo) / (f32 hi - lo)) 0) 1, ?_, ?_, ?_, ?_, ?_⟩
  · rw [if_neg hlt.ne']
    congr 1
    refine List.map_congr_left fun v _ => ?_
    unfold linearOne
    dsimp only
    rw [if_neg hd]
  · simp only [hlo, sub_self, zero_div, max_self]; norm_num
  · simp only [hhi, div_self hpos.ne']; norm_num
  · intro v _
    exact ⟨le_min (le_max_right _ _) (by norm_num), min_le_right _ _⟩
  · intro v _ w _ hvw
    refine min_le_min (max_le_max ?_ le_rfl) le_rfl
    rw [hhi]
    exact div_le_div_of_nonneg_right (sub_le_sub_right (hmono v w hvw) lo) hpos.le

/-- Premises: 16-bit values. -/
example : Extremes [3, 65535, 0] 0 65535 ∧ rne32 0 = 0 ∧ rne32 65535 = 65535 := by
  refine ⟨?_, by decide +kernel, by decide +kernel⟩
  norm_num [Extremes]

/-- **C49** is false for values beyond 24 bits: both pixels of this image become NaN. -/
theorem linear_mapping_nan : ∃ vs lo hi, Extremes vs lo hi ∧ lo < hi ∧ linearMapping rne32 vs = .ok [none, none] :=
  ⟨[16777216, 16777217], 16777216, 16777217, by norm_num [Extremes], by norm_num, by decide +kernel⟩

end Verif.Props.Sar
