import Mathlib.Tactic.Linarith
import Mathlib.Tactic.Ring
import Mathlib.Algebra.Order.BigOperators.Group.List
import Verif.Model.DRA
import Verif.Spec.DRA

set_option linter.unusedSectionVars false

namespace Verif.DRA

open Verif.Spec.DRA

variable {K : Type*} [Field K] [LinearOrder K]

theorem scanUp_spec (p : Nat → Bool) : ∀ fuel i,
    i ≤ scanUp p fuel i ∧ scanUp p fuel i ≤ i + fuel ∧
    (∀ j, i ≤ j → j < scanUp p fuel i → p j = true) ∧
    (scanUp p fuel i < i + fuel → p (scanUp p fuel i) = false)
  | 0, i => by simp [scanUp]; omega
  | fuel + 1, i => by
    unfold scanUp
    by_cases h : p i
    · simp only [h, if_true]
      obtain ⟨h1, h2, h3, h4⟩ := scanUp_spec p fuel (i + 1)
      refine ⟨by omega, by omega, ?_, ?_⟩
      · intro j hj hj'
        rcases Nat.eq_or_lt_of_le hj with rfl | hlt
        · exact h
        · exact h3 j hlt hj'
      · intro hlt
        exact h4 (by omega)
    · simp only [h]
      refine ⟨by simp, by simp, ?_, ?_⟩
      · intro j hj hj'
        simp at hj'
        omega
      · intro _
        simpa using h

theorem scanDown_spec (p : Nat → Bool) : ∀ i,
    scanDown p i ≤ i ∧
    (∀ j, scanDown p i < j → j ≤ i → p j = true) ∧
    (0 < scanDown p i → p (scanDown p i) = false)
  | 0 => by
    refine ⟨by simp [scanDown], ?_, by simp [scanDown]⟩
    intro j h1 h2
    simp [scanDown] at h1
    omega
  | i + 1 => by
    unfold scanDown
    by_cases h : p (i + 1)
    · simp only [h, if_true]
      obtain ⟨h1, h2, h3⟩ := scanDown_spec p i
      refine ⟨by omega, ?_, h3⟩
      intro j hj hj'
      rcases Nat.eq_or_lt_of_le hj' with rfl | hlt
      · exact h
      · exact h2 j hj (by omega)
    · simp only [h]
      refine ⟨by simp, ?_, ?_⟩
      · intro j hj hj'
        simp at hj
        omega
      · intro _
        simpa using h

theorem cumulativeFrom_length (acc : K) (l : List K) : (cumulativeFrom acc l).length = l.length := by
  induction l generalizing acc with
  | nil => rfl
  | cons c cs ih => simp [cumulativeFrom, ih]

theorem cumulative_length (l : List K) : (cumulative l).length = l.length :=
  cumulativeFrom_length 0 l

theorem cumulativeFrom_get (acc : K) (l : List K) (i : Nat) (hi : i < l.length) :
    (cumulativeFrom acc l)[i]? = some (acc + (l.take (i + 1)).sum) := by
  induction l generalizing acc i with
  | nil => simp at hi
  | cons c cs ih =>
    cases i with
    | zero => simp [cumulativeFrom]
    | succ i =>
      have hi' : i < cs.length := by simpa using hi
      simp only [cumulativeFrom, List.getElem?_cons_succ]
      rw [ih (acc + c) i hi']
      simp [List.take_succ_cons, add_assoc]

theorem cumulative_get (l : List K) (i : Nat) (hi : i < l.length) :
    (cumulative l)[i]? = some (upTo l i) := by
  simpa [upTo, cumulative] using cumulativeFrom_get 0 l i hi

theorem upTo_last (l : List K) : upTo l (l.length - 1) = l.sum := by
  unfold upTo
  rw [List.take_of_length_le (by omega)]

theorem cumulative_getLast (l : List K) (h : l ≠ []) : (cumulative l).getLast? = some l.sum := by
  have hl : 0 < l.length := List.length_pos_iff.mpr h
  rw [List.getLast?_eq_getElem?, cumulative_length, cumulative_get l _ (by omega), upTo_last]

theorem upTo_mono [IsStrictOrderedRing K] (l : List K) (hnn : ∀ c ∈ l, 0 ≤ c) {i j : Nat} (hij : i ≤ j) :
    upTo l i ≤ upTo l j := by
  unfold upTo
  exact (List.take_sublist_take_left (by omega)).sum_le_sum
    (fun a ha => hnn a (List.take_subset _ _ ha))

theorem upTo_nonneg [IsStrictOrderedRing K] (l : List K) (hnn : ∀ c ∈ l, 0 ≤ c) (i : Nat) : 0 ≤ upTo l i :=
  List.sum_nonneg (fun a ha => hnn a (List.take_subset _ _ ha))

theorem actualMin_first (l : List K) (h : ∃ c ∈ l, c ≠ 0) : IsFirstNonzero l (actualMinIndex l) := by
  obtain ⟨-, h2, h3, h4⟩ := scanUp_spec (fun i => l[i]? == some 0) l.length 0
  change _ ≤ _ at h2
  simp only [Nat.zero_add] at h2 h4
  have hlt : actualMinIndex l < l.length := by
    rcases Nat.lt_or_ge (actualMinIndex l) l.length with h | hge
    · exact h
    · obtain ⟨c, hc, hc0⟩ := h
      obtain ⟨i, hi, rfl⟩ := List.getElem_of_mem hc
      have := h3 i (Nat.zero_le _) (by unfold actualMinIndex at hge; omega)
      simp [List.getElem?_eq_getElem hi] at this
      exact absurd this hc0
  refine ⟨⟨l[actualMinIndex l], List.getElem?_eq_getElem hlt, ?_⟩, ?_⟩
  · have := h4 hlt
    change (l[actualMinIndex l]? == some 0) = false at this
    simpa [List.getElem?_eq_getElem hlt] using this
  · intro j hj
    have := h3 j (Nat.zero_le _) hj
    simpa using this

theorem actualMax_last (l : List K) (h : ∃ c ∈ l, c ≠ 0) : IsLastNonzero l (actualMaxIndex l) := by
  obtain ⟨h1, h2, h3⟩ := scanDown_spec (fun i => l[i]? == some 0) (l.length - 1)
  change actualMaxIndex l ≤ _ at h1
  change ∀ j, actualMaxIndex l < j → _ at h2
  change 0 < actualMaxIndex l → (l[actualMaxIndex l]? == some 0) = false at h3
  obtain ⟨c, hc, hc0⟩ := h
  obtain ⟨i, hi, rfl⟩ := List.getElem_of_mem hc
  have hlt : actualMaxIndex l < l.length := by omega
  have hge : i ≤ actualMaxIndex l := by
    by_contra hcon
    have := h2 i (by omega) (by omega)
    simp [List.getElem?_eq_getElem hi] at this
    exact hc0 this
  refine ⟨⟨l[actualMaxIndex l], List.getElem?_eq_getElem hlt, ?_⟩, ?_⟩
  · rcases Nat.eq_zero_or_pos (actualMaxIndex l) with h0 | hp
    · have : i = actualMaxIndex l := by omega
      subst this; exact hc0
    · simpa [List.getElem?_eq_getElem hlt] using h3 hp
  · intro j hj hjl
    simpa using h2 j hj (by omega)

/-- What the `e_min` loop computes. -/
theorem eMin_spec (l : List K) (hl : l ≠ []) (low : K) :
    eMinIndex (cumulative l) low < l.length ∧
    (∀ j < eMinIndex (cumulative l) low, upTo l j < low) ∧
    (eMinIndex (cumulative l) low < l.length - 1 → low ≤ upTo l (eMinIndex (cumulative l) low)) := by
  have hpos : 0 < l.length := List.length_pos_iff.mpr hl
  obtain ⟨-, h2, h3, h4⟩ := scanUp_spec
    (fun i => ((cumulative l)[i]?).any (fun c => decide (c < low))) ((cumulative l).length - 1) 0
  change eMinIndex (cumulative l) low ≤ _ at h2
  change ∀ j, 0 ≤ j → j < eMinIndex (cumulative l) low → _ at h3
  change eMinIndex (cumulative l) low < _ → _ = false at h4
  have hL := cumulative_length l
  refine ⟨by omega, ?_, ?_⟩
  · intro j hj
    have := h3 j (Nat.zero_le _) hj
    rw [cumulative_get l j (by omega)] at this
    simpa using this
  · intro h
    have := h4 (by omega)
    change ((cumulative l)[eMinIndex (cumulative l) low]?).any _ = false at this
    rw [cumulative_get l _ (by omega)] at this
    simpa using this

/-- What the `e_max` loop computes. -/
theorem eMax_spec (l : List K) (hl : l ≠ []) (high : K) :
    eMaxIndex (cumulative l) high < l.length ∧
    (∀ j, eMaxIndex (cumulative l) high < j → j < l.length → high < upTo l j) ∧
    (0 < eMaxIndex (cumulative l) high → upTo l (eMaxIndex (cumulative l) high) ≤ high) := by
  have hpos : 0 < l.length := List.length_pos_iff.mpr hl
  obtain ⟨h1, h2, h3⟩ := scanDown_spec
    (fun i => ((cumulative l)[i]?).any (fun c => decide (high < c))) ((cumulative l).length - 1)
  change eMaxIndex (cumulative l) high ≤ _ at h1
  change ∀ j, eMaxIndex (cumulative l) high < j → _ at h2
  change 0 < eMaxIndex (cumulative l) high → _ at h3
  have hL := cumulative_length l
  refine ⟨by omega, ?_, ?_⟩
  · intro j hj hjl
    have := h2 j hj (by omega)
    rw [cumulative_get l j (by omega)] at this
    simpa using this
  · intro h
    have := h3 h
    change ((cumulative l)[eMaxIndex (cumulative l) high]?).any _ = false at this
    rw [cumulative_get l _ (by omega)] at this
    simpa using this

theorem scanUp_congr {p q : Nat → Bool} (h : ∀ i, p i = q i) (fuel i : Nat) :
    scanUp p fuel i = scanUp q fuel i := by
  have : p = q := funext h
  rw [this]

theorem scanDown_congr {p q : Nat → Bool} (h : ∀ i, p i = q i) (i : Nat) :
    scanDown p i = scanDown q i := by
  have : p = q := funext h
  rw [this]

theorem cumulativeFrom_map_mul (k acc : K) (l : List K) :
    cumulativeFrom (k * acc) (l.map (k * ·)) = (cumulativeFrom acc l).map (k * ·) := by
  induction l generalizing acc with
  | nil => rfl
  | cons c cs ih => simp only [List.map_cons, cumulativeFrom, ← mul_add, ih]

theorem cumulative_map_mul (k : K) (l : List K) :
    cumulative (l.map (k * ·)) = (cumulative l).map (k * ·) := by
  have := cumulativeFrom_map_mul k 0 l
  simpa [cumulative] using this

theorem map_mul_get_zero (k : K) (hk : k ≠ 0) (l : List K) (i : Nat) :
    ((l.map (k * ·))[i]? == some 0) = (l[i]? == some 0) := by
  rw [List.getElem?_map]
  cases l[i]? with
  | none => rfl
  | some v =>
    by_cases hv : v = 0
    · simp [hv]
    · simp [hv, hk]

end Verif.DRA
