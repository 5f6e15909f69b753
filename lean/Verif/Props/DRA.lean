import Mathlib.Algebra.BigOperators.Ring.List
import Mathlib.Data.Rat.Floor
import Mathlib.Tactic.FieldSimp
import Mathlib.Tactic.NormNum
import Mathlib.Tactic.IntervalCases
import Verif.Lemmas.DRA

/-!
# Properties C01, C02, C03: dynamic range adjustment
-/

set_option linter.unusedSectionVars false

namespace Verif.Props.DRA

open Verif.DRA Verif.Spec.DRA

variable {K : Type*} [Field K] [LinearOrder K] [IsStrictOrderedRing K]

private theorem orDefault_first {n : K} {first last : Option K} {f l : K}
    (h : Bounds n first last f l) : orDefault first 0 = f := by
  cases h <;> simp [orDefault, eq_comm]

private theorem orDefault_last {n : K} {first last : Option K} {f l : K}
    (h : Bounds n first last f l) (hl : last ≠ some 0) : orDefault last n = l := by
  cases h with
  | both f l => simp only [orDefault]; rw [if_neg]; rintro rfl; exact hl rfl
  | onlyFirst f => rfl
  | onlyLast l => simp only [orDefault]; rw [if_neg]; rintro rfl; exact hl rfl
  | neither => rfl

private theorem fromCounts_eq (counts : List K) (hne : counts ≠ []) (first last : Option K)
    (minPct maxPct a b f l : K)
    (hB : Bounds (counts.length : K) first last f l) (hl : last ≠ some 0) :
    let eMin : K := (eMinIndex (cumulative counts) (minPct * counts.sum) : K)
    let eMax : K := (eMaxIndex (cumulative counts) (maxPct * counts.sum) : K)
    fromCounts counts first last minPct maxPct a b = .ok
      { suggestedMin := bucketValue counts.length f l
          (max (actualMinIndex counts : K) (eMin - a * (eMax - eMin)))
        suggestedMax := bucketValue counts.length f l
          (min (actualMaxIndex counts : K) (eMax + b * (eMax - eMin)))
        actualMin := bucketValue counts.length f l (actualMinIndex counts)
        actualMax := bucketValue counts.length f l (actualMaxIndex counts) } := by
  intro eMin eMax
  simp only [fromCounts, cumulative_getLast counts hne, orDefault_first hB, orDefault_last hB hl]
  rfl

private theorem ne_nil_of_exists {l : List K} (h : ∃ c ∈ l, c ≠ 0) : l ≠ [] := by
  rintro rfl; simp at h

private theorem bucketValue_mono {n : Nat} {f l x y : K} (hfl : f ≤ l) (h : x ≤ y) :
    bucketValue n f l x ≤ bucketValue n f l y := by
  unfold bucketValue
  have : 0 ≤ (l - f) / (n : K) := div_nonneg (by linarith) (Nat.cast_nonneg n)
  have := mul_le_mul_of_nonneg_right h this
  linarith

private theorem bucketValue_strictMono {n : Nat} {f l x y : K} (hn : 0 < n) (hfl : f < l) :
    bucketValue n f l x ≤ bucketValue n f l y ↔ x ≤ y := by
  unfold bucketValue
  have : 0 < (l - f) / (n : K) := div_pos (by linarith) (by exact_mod_cast hn)
  constructor
  · intro h
    exact le_of_mul_le_mul_right (by linarith) this
  · intro h
    have := mul_le_mul_of_nonneg_right h this.le
    linarith

/-- **C01.** For every histogram with a non-zero bucket, every cut-off and
expansion factor and every requested bucket range `f ≤ l` (`last_bucket_value`
not 0, see `dra_zero_last_bucket_ignored`), `from_counts` succeeds, the actual
range it reports is given by the first and the last non-empty bucket, and the
suggested range lies inside it. -/
theorem dra_suggested_within_actual (counts : List K) (hne : ∃ c ∈ counts, c ≠ 0)
    (first last : Option K) (minPct maxPct a b f l : K)
    (hB : Bounds (counts.length : K) first last f l) (hl : last ≠ some 0) (hfl : f ≤ l) :
    ∃ r, fromCounts counts first last minPct maxPct a b = .ok r ∧
      (∃ i, IsFirstNonzero counts i ∧ r.actualMin = bucketValue counts.length f l i) ∧
      (∃ i, IsLastNonzero counts i ∧ r.actualMax = bucketValue counts.length f l i) ∧
      r.actualMin ≤ r.suggestedMin ∧ r.suggestedMax ≤ r.actualMax := by
  refine ⟨_, fromCounts_eq counts (ne_nil_of_exists hne) first last minPct maxPct a b f l hB hl,
    ⟨_, actualMin_first counts hne, rfl⟩, ⟨_, actualMax_last counts hne, rfl⟩, ?_, ?_⟩
  · exact bucketValue_mono hfl (le_max_left _ _)
  · exact bucketValue_mono hfl (min_le_left _ _)

/-- The hypotheses of `dra_suggested_within_actual` are met by an ordinary histogram. -/
example : (∃ c ∈ ([0, 5, 90, 5, 0] : List ℚ), c ≠ 0) ∧
    Bounds (([0, 5, 90, 5, 0] : List ℚ).length : ℚ) (some 10) (some 60) 10 60 ∧
    (some (60 : ℚ)) ≠ some 0 ∧ (10 : ℚ) ≤ 60 :=
  ⟨⟨5, by simp, by norm_num⟩, .both 10 60, by simp, by norm_num⟩

/-- **C01.** A `last_bucket_value` of 0 counts as not given, so the theorem above with `none` covers this case too. -/
theorem dra_zero_last_is_default (counts : List K) (first : Option K) (minPct maxPct a b : K) :
    fromCounts counts first (some 0) minPct maxPct a b = fromCounts counts first none minPct maxPct a b := by
  have h : ∀ n : K, orDefault (some 0) n = orDefault none n := fun n => if_pos rfl
  simp only [fromCounts, h]

/-- Such a call is not vacuous: with a last bucket value of 0 a histogram of two buckets gets the range 0 to 2. -/
example : fromCountsDefault ([1, 1] : List ℚ) (some (-2)) (some 0) = fromCountsDefault [1, 1] (some (-2)) none ∧
    (fromCountsDefault ([1, 1] : List ℚ) (some (-2)) (some 0)).toOption.map (·.actualMax) = some 0 := by decide +kernel

/-- **C90.** The suggested range runs from the bucket at which the lower share of the pixels is reached to the
bucket at which the upper share is not yet exceeded, is widened by the factors `a` below and `b` above, and is
then limited to the actual range. -/
theorem dra_suggested_range_values (counts : List K) (hne : ∃ c ∈ counts, c ≠ 0)
    (first last : Option K) (minPct maxPct a b f l : K)
    (hB : Bounds (counts.length : K) first last f l) (hl : last ≠ some 0) :
    ∃ r lo hi i j, fromCounts counts first last minPct maxPct a b = .ok r ∧
      IsLowBucket counts (minPct * counts.sum) lo ∧ IsHighBucket counts (maxPct * counts.sum) hi ∧
      IsFirstNonzero counts i ∧ IsLastNonzero counts j ∧
      r.suggestedMin = bucketValue counts.length f l (max (i : K) (lo - a * ((hi : K) - lo))) ∧
      r.suggestedMax = bucketValue counts.length f l (min (j : K) (hi + b * ((hi : K) - lo))) := by
  have hne' := ne_nil_of_exists hne
  refine ⟨_, _, _, _, _, fromCounts_eq counts hne' first last minPct maxPct a b f l hB hl, ?_, ?_,
    actualMin_first counts hne, actualMax_last counts hne, rfl, rfl⟩
  · obtain ⟨m1, m2, m3⟩ := eMin_spec counts hne' (minPct * counts.sum)
    refine ⟨m1, m2, ?_⟩
    rcases Nat.lt_or_ge (eMinIndex (cumulative counts) (minPct * counts.sum)) (counts.length - 1) with h | h
    · exact Or.inl (m3 h)
    · right; omega
  · obtain ⟨x1, x2, x3⟩ := eMax_spec counts hne' (maxPct * counts.sum)
    refine ⟨x1, x2, ?_⟩
    rcases Nat.eq_zero_or_pos (eMaxIndex (cumulative counts) (maxPct * counts.sum)) with h | h
    · exact Or.inr h
    · exact Or.inl (x3 h)

/-- **C90.** The buckets are determined by the histogram, so the values above are the only possible ones. -/
theorem dra_percentile_buckets_unique (counts : List K) (t : K) (i j : Nat) :
    (IsLowBucket counts t i → IsLowBucket counts t j → i = j) ∧
    (IsHighBucket counts t i → IsHighBucket counts t j → i = j) := by
  constructor
  · rintro ⟨a1, a2, a3⟩ ⟨b1, b2, b3⟩
    rcases lt_trichotomy i j with h | h | h
    · rcases a3 with a3 | a3
      · exact absurd (b2 i h) (not_lt.mpr a3)
      · omega
    · exact h
    · rcases b3 with b3 | b3
      · exact absurd (a2 j h) (not_lt.mpr b3)
      · omega
  · rintro ⟨a1, a2, a3⟩ ⟨b1, b2, b3⟩
    rcases lt_trichotomy i j with h | h | h
    · rcases b3 with b3 | b3
      · exact absurd (a2 j h b1) (not_lt.mpr b3)
      · omega
    · exact h
    · rcases a3 with a3 | a3
      · exact absurd (b2 i h a1) (not_lt.mpr a3)
      · omega

/-- **C90.** Without further arguments the shares are 2 % and 98 % and the factors 0.2 and 0.4. -/
theorem dra_default_arguments (counts : List K) (first last : Option K) :
    fromCountsDefault counts first last = fromCounts counts first last (1 / 50) (49 / 50) (1 / 5) (2 / 5) := by
  unfold fromCountsDefault
  norm_num

/-- The hypotheses are met; the low bucket of this histogram at 2 % is 1, the high bucket at 98 % is 2. -/
example : IsLowBucket ([1, 10, 78, 10, 1] : List ℚ) (2 / 100 * 100) 1 ∧
    IsHighBucket ([1, 10, 78, 10, 1] : List ℚ) (98 / 100 * 100) 2 := by
  refine ⟨⟨by decide, ?_, Or.inl (by decide +kernel)⟩, ⟨by decide, ?_, Or.inl (by decide +kernel)⟩⟩
  · intro j hj
    interval_cases j
    decide +kernel
  · intro j hj hj'
    have : j < 5 := hj'
    interval_cases j <;> decide +kernel

/-- **C02 (negated).** The suggested range can be inverted: a histogram whose
pixels all fall in one bucket gives a suggested minimum above the suggested maximum. -/
theorem dra_suggested_range_can_be_inverted :
    ¬ ∀ counts : List ℚ, (∀ c ∈ counts, 0 ≤ c) → 0 < counts.sum →
      ∀ r, fromCountsDefault counts none none = .ok r → r.suggestedMin ≤ r.suggestedMax := by
  intro h
  have h1 := h [0, 0, 0, 0, 0, 100, 0, 0, 0, 0] (by decide +kernel) (by decide +kernel)
    { suggestedMin := 26 / 5, suggestedMax := 18 / 5, actualMin := 5, actualMax := 5 }
    (by decide +kernel)
  norm_num at h1

/-- **C02 (exact condition).** For a histogram of non-negative counts with a
positive total, cut-offs `0 < min% ≤ max% < 1`, non-negative expansion factors
and an increasing bucket range, the suggested range is ordered *if and only if*
some bucket has a cumulative share inside `[min%, max%]`, or the first bucket
alone exceeds `max%`.  Missing from the full statement: the converse case, which
really is inverted (see `dra_suggested_range_can_be_inverted`). -/
theorem dra_suggested_range_ordered_iff_partial (counts : List K) (hnn : ∀ c ∈ counts, 0 ≤ c)
    (hpos : 0 < counts.sum) (first last : Option K) (minPct maxPct a b f l : K)
    (hB : Bounds (counts.length : K) first last f l) (hl : last ≠ some 0) (hfl : f < l)
    (h0 : 0 < minPct) (hmm : minPct ≤ maxPct) (h1 : maxPct < 1) (ha : 0 ≤ a) (hb : 0 ≤ b) :
    ∃ r, fromCounts counts first last minPct maxPct a b = .ok r ∧
      (r.suggestedMin ≤ r.suggestedMax ↔
        (∃ i < counts.length, minPct * counts.sum ≤ upTo counts i ∧
          upTo counts i ≤ maxPct * counts.sum) ∨ maxPct * counts.sum < upTo counts 0) := by
  have hne : counts ≠ [] := by rintro rfl; simp at hpos
  have hlen : 0 < counts.length := List.length_pos_iff.mpr hne
  have hex : ∃ c ∈ counts, c ≠ 0 := by
    by_contra hcon
    push Not at hcon
    have : counts.sum = 0 := List.sum_eq_zero hcon
    linarith
  refine ⟨_, fromCounts_eq counts hne first last minPct maxPct a b f l hB hl, ?_⟩
  have hstep := @bucketValue_strictMono K _ _ _ counts.length f l
  simp only
  rw [hstep hlen hfl]
  set low := minPct * counts.sum with hlow
  set high := maxPct * counts.sum with hhigh
  have hlowpos : 0 < low := mul_pos h0 hpos
  have hlh : low ≤ high := mul_le_mul_of_nonneg_right hmm hpos.le
  have hhs : high < counts.sum := by
    have := mul_lt_mul_of_pos_right h1 hpos
    simpa using this
  obtain ⟨m1, m2, m3⟩ := eMin_spec counts hne low
  obtain ⟨x1, x2, x3⟩ := eMax_spec counts hne high
  obtain ⟨⟨ca, hca, hca0⟩, hfirst⟩ := actualMin_first counts hex
  obtain ⟨⟨cb, hcb, hcb0⟩, hlast⟩ := actualMax_last counts hex
  set eMin := eMinIndex (cumulative counts) low
  set eMax := eMaxIndex (cumulative counts) high
  set amin := actualMinIndex counts
  set amax := actualMaxIndex counts
  have hamin_lt : amin < counts.length := (List.getElem?_eq_some_iff.mp hca).1
  have hamax_lt : amax < counts.length := (List.getElem?_eq_some_iff.mp hcb).1
  -- the cumulative count at the last index is the total
  have hlastTot : upTo counts (counts.length - 1) = counts.sum := upTo_last counts
  have mem_of : ∀ i, i < counts.length → 0 < upTo counts i → amin ≤ i := by
    intro i hi hp
    by_contra hcon
    have : upTo counts i = 0 := by
      unfold upTo
      apply List.sum_eq_zero
      intro c hc
      obtain ⟨j, hj, rfl⟩ := List.getElem_of_mem hc
      have hj' : j < i + 1 := by
        simp at hj; omega
      have := hfirst j (by omega)
      rw [List.getElem_take]
      have h2 : j < counts.length := by omega
      rw [List.getElem?_eq_getElem h2] at this
      simpa using this
    linarith
  have hloMin : low ≤ upTo counts eMin := by
    rcases Nat.lt_or_ge eMin (counts.length - 1) with h | h
    · exact m3 h
    · have : eMin = counts.length - 1 := by omega
      rw [this, hlastTot]; linarith
  have hamin_emin : amin ≤ eMin := mem_of eMin m1 (by linarith)
  have hamaxTot : upTo counts amax = counts.sum := by
    rw [← hlastTot]
    apply le_antisymm (upTo_mono counts hnn (by omega))
    have : ∀ k, amax + k < counts.length → upTo counts (amax + k) = upTo counts amax := by
      intro k
      induction k with
      | zero => intro _; rfl
      | succ k ih =>
        intro hk
        rw [← ih (by omega)]
        have hz := hlast (amax + (k + 1)) (by omega) hk
        unfold upTo
        rw [show amax + (k + 1) + 1 = (amax + k + 1) + 1 by omega, List.take_add_one]
        rw [show amax + k + 1 = amax + (k + 1) by omega, hz]
        simp
    have h2 := this (counts.length - 1 - amax) (by omega)
    rw [show amax + (counts.length - 1 - amax) = counts.length - 1 by omega] at h2
    exact h2.le
  have hemin_amax : eMin ≤ amax := by
    by_contra hcon
    have := m2 amax (by omega)
    rw [hamaxTot] at this
    linarith
  have hamin_amax : amin ≤ amax := by omega
  constructor
  · intro hle
    by_contra hcon
    push Not at hcon
    obtain ⟨hc1, hc2⟩ := hcon
    -- no bucket inside the window and the first bucket is not above it
    have hEq : eMin = eMax + 1 := by
      have hlow0 : upTo counts eMax < low := by
        by_contra hge
        have := hc1 eMax x1 (by linarith)
        rcases Nat.eq_zero_or_pos eMax with h0 | hp
        · rw [h0] at this; linarith
        · have := x3 hp; linarith
      have hlt : eMax < eMin := by
        by_contra hge
        have := upTo_mono counts hnn (show eMin ≤ eMax by omega)
        linarith
      by_contra hne'
      have hh := m2 (eMax + 1) (by omega)
      have := x2 (eMax + 1) (by omega) (by omega)
      linarith
    have hK : (eMin : K) = (eMax : K) + 1 := by exact_mod_cast hEq
    have hA := le_trans (le_max_right (amin : K) _) hle
    have hC := le_trans hA (min_le_right (amax : K) _)
    rw [hK] at hC
    nlinarith
  · intro hor
    have hmM : eMin ≤ eMax := by
      rcases hor with ⟨i, hi, hi1, hi2⟩ | h0'
      · have e1 : eMin ≤ i := by
          by_contra hcon
          have := m2 i (by omega); linarith
        have e2 : i ≤ eMax := by
          by_contra hcon
          have := x2 i (by omega) hi; linarith
        omega
      · have : eMin = 0 := by
          by_contra hcon
          have := m2 0 (by omega)
          linarith
        omega
    have hK : (eMin : K) ≤ (eMax : K) := by exact_mod_cast hmM
    have hd : 0 ≤ (eMax : K) - eMin := by linarith
    have k1 : (amin : K) ≤ eMin := by exact_mod_cast hamin_emin
    have k2 : (eMin : K) ≤ amax := by exact_mod_cast hemin_amax
    have k3 : (amin : K) ≤ amax := by exact_mod_cast hamin_amax
    have ka := mul_nonneg ha hd
    have kb := mul_nonneg hb hd
    apply max_le <;> apply le_min <;> linarith

/-- The ordered case is met by an ordinary histogram … -/
example : (∀ c ∈ ([1, 10, 78, 10, 1] : List ℚ), 0 ≤ c) ∧ (0 : ℚ) < ([1, 10, 78, 10, 1] : List ℚ).sum ∧
    ∃ i < ([1, 10, 78, 10, 1] : List ℚ).length,
      (2 / 100 : ℚ) * ([1, 10, 78, 10, 1] : List ℚ).sum ≤ upTo ([1, 10, 78, 10, 1] : List ℚ) i ∧
      upTo ([1, 10, 78, 10, 1] : List ℚ) i ≤ (98 / 100 : ℚ) * ([1, 10, 78, 10, 1] : List ℚ).sum :=
  ⟨by decide +kernel, by decide +kernel, 1, by decide, by decide +kernel, by decide +kernel⟩

/-- **C03 (a).** An empty histogram raises `IndexError`. -/
theorem dra_empty_raises (first last : Option K) (minPct maxPct a b : K) :
    fromCounts ([] : List K) first last minPct maxPct a b = .error .indexError := rfl

/-- **C03 (b).** Multiplying every count by the same positive factor does not
change the result, whatever the other arguments. -/
theorem dra_scale_invariant (counts : List K) (k : K) (hk : 0 < k) (first last : Option K)
    (minPct maxPct a b : K) :
    fromCounts (counts.map (k * ·)) first last minPct maxPct a b =
      fromCounts counts first last minPct maxPct a b := by
  rcases eq_or_ne counts [] with rfl | hne
  · rfl
  have hne' : counts.map (k * ·) ≠ [] := by simpa using hne
  have hk0 : k ≠ 0 := hk.ne'
  have hsum : (counts.map (k * ·)).sum = k * counts.sum := by
    simpa using List.sum_map_mul_left (l := counts) (f := id) (r := k)
  have e1 : actualMinIndex (counts.map (k * ·)) = actualMinIndex counts := by
    unfold actualMinIndex
    rw [List.length_map]
    exact scanUp_congr (map_mul_get_zero k hk0 counts) _ _
  have e2 : actualMaxIndex (counts.map (k * ·)) = actualMaxIndex counts := by
    unfold actualMaxIndex
    rw [List.length_map]
    exact scanDown_congr (map_mul_get_zero k hk0 counts) _
  have e3 : ∀ p, eMinIndex (cumulative (counts.map (k * ·))) (p * (counts.map (k * ·)).sum) =
      eMinIndex (cumulative counts) (p * counts.sum) := by
    intro p
    rw [hsum, cumulative_map_mul]
    unfold eMinIndex
    rw [List.length_map]
    apply scanUp_congr
    intro i
    rw [List.getElem?_map]
    cases (cumulative counts)[i]? with
    | none => rfl
    | some v =>
      simp only [Option.map_some, Option.any_some, decide_eq_decide]
      rw [mul_left_comm p k, mul_lt_mul_iff_right₀ hk]
  have e4 : ∀ p, eMaxIndex (cumulative (counts.map (k * ·))) (p * (counts.map (k * ·)).sum) =
      eMaxIndex (cumulative counts) (p * counts.sum) := by
    intro p
    rw [hsum, cumulative_map_mul]
    unfold eMaxIndex
    rw [List.length_map]
    apply scanDown_congr
    intro i
    rw [List.getElem?_map]
    cases (cumulative counts)[i]? with
    | none => rfl
    | some v =>
      simp only [Option.map_some, Option.any_some, decide_eq_decide]
      rw [mul_left_comm p k, mul_lt_mul_iff_right₀ hk]
  simp only [fromCounts, cumulative_getLast _ hne', cumulative_getLast _ hne, e1, e2, e3, e4,
    List.length_map]

/-- Counting every pixel three times changes nothing. -/
example : fromCounts ([0, 5, 90, 5, 0].map (3 * ·) : List ℚ) (some 10) (some 60) (2 / 100) (98 / 100) (2 / 10) (4 / 10)
    = fromCounts [0, 5, 90, 5, 0] (some 10) (some 60) (2 / 100) (98 / 100) (2 / 10) (4 / 10) :=
  dra_scale_invariant _ 3 (by norm_num) _ _ _ _ _ _

/-- **C03 (c).** Passing a bucket range maps all four values of the result for
the default range (bucket positions) by the affine map that takes `[0, n]` to `[f, l]`. -/
theorem dra_bucket_range_affine (counts : List K) (hne : counts ≠ []) (first last : Option K)
    (minPct maxPct a b f l : K)
    (hB : Bounds (counts.length : K) first last f l) (hl : last ≠ some 0) :
    ∃ r0 r, fromCounts counts none none minPct maxPct a b = .ok r0 ∧
      fromCounts counts first last minPct maxPct a b = .ok r ∧
      r.suggestedMin = bucketValue counts.length f l r0.suggestedMin ∧
      r.suggestedMax = bucketValue counts.length f l r0.suggestedMax ∧
      r.actualMin = bucketValue counts.length f l r0.actualMin ∧
      r.actualMax = bucketValue counts.length f l r0.actualMax := by
  have hn : (counts.length : K) ≠ 0 := by
    have : 0 < counts.length := List.length_pos_iff.mpr hne
    exact_mod_cast this.ne'
  have unit : ∀ x : K, bucketValue counts.length 0 (counts.length : K) x = x := by
    intro x
    unfold bucketValue
    field_simp
    ring
  refine ⟨_, _, fromCounts_eq counts hne none none minPct maxPct a b 0 counts.length .neither
    (by simp), fromCounts_eq counts hne first last minPct maxPct a b f l hB hl, ?_, ?_, ?_, ?_⟩ <;>
  simp only [unit]

/-- Five buckets that span 10 to 60: the largest value 3 of the histogram of indices becomes 40. -/
example : ∃ r0 r, fromCounts ([0, 5, 90, 5, 0] : List ℚ) none none (2 / 100) (98 / 100) (2 / 10) (4 / 10) = .ok r0 ∧
    fromCounts ([0, 5, 90, 5, 0] : List ℚ) (some 10) (some 60) (2 / 100) (98 / 100) (2 / 10) (4 / 10) = .ok r ∧ r0.actualMax = 3 ∧ r.actualMax = 40 := by
  obtain ⟨r0, r, h1, h2, -, -, -, h6⟩ := dra_bucket_range_affine ([0, 5, 90, 5, 0] : List ℚ) (by simp) (some 10) (some 60) (2 / 100) (98 / 100) (2 / 10) (4 / 10)
    10 60 (.both 10 60) (by simp)
  have h3 : r0.actualMax = 3 := by
    have : (fromCounts ([0, 5, 90, 5, 0] : List ℚ) none none (2 / 100) (98 / 100) (2 / 10) (4 / 10)).toOption.map (·.actualMax) = some 3 := by decide +kernel
    rw [h1] at this
    exact Option.some.inj this
  exact ⟨r0, r, h1, h2, h3, by rw [h6, h3]; norm_num [bucketValue]⟩

/-- **C03 (d, negated).** A `last_bucket_value` of 0 is not used: the range
`[-2, 0]` is treated as `[-2, 2]`, so the reported maximum `0` of two non-empty
buckets is the upper bound instead of the lower edge `-1` of the last bucket. -/
theorem dra_zero_last_bucket_ignored :
    ¬ ∀ (counts : List ℚ) (f l : ℚ), counts ≠ [] → f < l →
      ∃ r0 r, fromCountsDefault counts none none = .ok r0 ∧
        fromCountsDefault counts (some f) (some l) = .ok r ∧
        r.actualMax = bucketValue counts.length f l r0.actualMax := by
  intro h
  obtain ⟨r0, r, h0, hr, he⟩ := h [1, 1] (-2) 0 (by simp) (by norm_num)
  have e0 : fromCountsDefault ([1, 1] : List ℚ) none none = .ok ⟨0, 0, 0, 1⟩ := by decide +kernel
  have e1 : fromCountsDefault ([1, 1] : List ℚ) (some (-2)) (some 0) = .ok ⟨-2, -2, -2, 0⟩ := by
    decide +kernel
  rw [e0] at h0
  rw [e1] at hr
  cases h0
  cases hr
  norm_num [bucketValue] at he

end Verif.Props.DRA
