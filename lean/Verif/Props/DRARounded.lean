import Verif.Model.DRARounded
import Verif.Spec.DRA
import Verif.Lemmas.DRA
import Verif.Lemmas.Float64
import Mathlib.Tactic.Linarith
import Mathlib.Algebra.Order.Group.MinMax
import Mathlib.Algebra.BigOperators.Ring.List
import Mathlib.Tactic.NormNum

/-!
# Theorems about dynamic range adjustment in double precision
-/

namespace Verif.Props.DRARounded

open Verif.Spec.DRA Verif.Spec.Float64 Verif.Float64 Verif.DRA
open Verif.Float64 (rne64 rint ulpExp)
open Verif.DRA (DRAParameters actualMinIndex actualMaxIndex eMinIndex eMaxIndex orDefault)

theorem cumulativeFrom_ne {rnd : ℚ → ℚ} {counts : List ℚ} (h : counts ≠ []) : ∃ m, (DRARounded.cumulative rnd counts).getLast? = some m := by
  cases counts with
  | nil => exact absurd rfl h
  | cons c cs => exact ⟨_, List.getLast?_eq_some_getLast (by simp [DRARounded.cumulative])⟩

theorem first_default {n : ℚ} {first last : Option ℚ} {f l : ℚ} (h : Bounds n first last f l) : orDefault first 0 = f := by
  cases h <;> simp [orDefault, eq_comm]

theorem last_default {n : ℚ} {first last : Option ℚ} {f l : ℚ} (h : Bounds n first last f l) (hl : last ≠ some 0) : orDefault last n = l := by
  cases h with
  | both f l => simp only [orDefault]; rw [if_neg]; rintro rfl; exact hl rfl
  | onlyFirst f => rfl
  | onlyLast l => simp only [orDefault]; rw [if_neg]; rintro rfl; exact hl rfl
  | neither => rfl

/-- **C136**: in doubles, too, the suggested range is in the actual range, whatever the counts, percentages and factors. -/
theorem rounded_suggested_within_actual (rnd : ℚ → ℚ) (hr : GoodRounding rnd) (counts : List ℚ) (hne : counts ≠ []) (first last : Option ℚ)
    (minPct maxPct a b f l : ℚ) (hB : Bounds (counts.length : ℚ) first last f l) (hl : last ≠ some 0) (hfl : f ≤ l) :
    ∃ r, DRARounded.fromCounts rnd counts first last minPct maxPct a b = .ok r ∧ r.actualMin ≤ r.suggestedMin ∧ r.suggestedMax ≤ r.actualMax := by
  obtain ⟨m, hm⟩ := cumulativeFrom_ne (rnd := rnd) hne
  have z : rnd 0 = 0 := by simpa using hr.int 0 (by norm_num)
  have step : 0 ≤ rnd (rnd (l - f) / (counts.length : ℚ)) := by
    have h1 := hr.mono 0 (l - f) (by linarith)
    rw [z] at h1
    have h2 := hr.mono 0 _ (div_nonneg h1 (Nat.cast_nonneg counts.length))
    rwa [z] at h2
  unfold DRARounded.fromCounts
  simp only [hm, first_default hB, last_default hB hl]
  refine ⟨_, rfl, ?_, ?_⟩
  · exact hr.mono _ _ (add_le_add_left (hr.mono _ _ (mul_le_mul_of_nonneg_right (le_max_left _ _) step)) f)
  · exact hr.mono _ _ (add_le_add_left (hr.mono _ _ (mul_le_mul_of_nonneg_right (min_le_left _ _) step)) f)

/-- In binary64, for a histogram of eight buckets. -/
example := rounded_suggested_within_actual rne64 rne64_good [0, 100, 2000, 1800, 1000, 99, 1, 0] (by simp) (some (-7 / 2)) (some 12) (2 / 100) (98 / 100) (2 / 10) (4 / 10)
  (-7 / 2) 12 (.both _ _) (by simp) (by norm_num)

/-- A value within a quarter of a unit in the last place of a double is rounded to it. -/
theorem rne64_near (k e : Int) (hk : 2 ^ 52 ≤ k) (hk' : k < 2 ^ 53) (he : -1073 ≤ e) (x : ℚ) (hx : |x - k * 2 ^ e| < 2 ^ e / 4) :
    rne64 x = k * 2 ^ e := by
  have p : (0:ℚ) < 2 ^ e := zpow_pos (by norm_num) _
  have k1 : (2:ℚ) ^ 52 ≤ k := by exact_mod_cast hk
  have k2 : (k:ℚ) + 1 ≤ 2 ^ 53 := by exact_mod_cast hk'
  obtain ⟨l1, l2⟩ := abs_lt.mp hx
  have big : (2:ℚ) ^ 52 * 2 ^ e ≤ k * 2 ^ e := mul_le_mul_of_nonneg_right k1 p.le
  have big2 : ((k:ℚ) + 1) * 2 ^ e ≤ 2 ^ 53 * 2 ^ e := mul_le_mul_of_nonneg_right k2 p.le
  have x0 : 0 < x := by
    have : (1:ℚ) * 2 ^ e ≤ 2 ^ 52 * 2 ^ e := mul_le_mul_of_nonneg_right (by norm_num) p.le
    linarith
  have near : ∀ (y : ℚ) (n : Int), |y - n| < 1 / 2 → rint y = n := by
    intro y n h
    obtain ⟨h1, h2⟩ := abs_lt.mp h
    obtain ⟨h3, h4⟩ := abs_le.mp (rint_spec y)
    have a1 : (rint y : ℚ) < n + 1 := by linarith
    have a2 : (n : ℚ) < rint y + 1 := by linarith
    have b1 : rint y < n + 1 := by exact_mod_cast a1
    have b2 : n < rint y + 1 := by exact_mod_cast a2
    omega
  have logs : ∀ a : Int, (2:ℚ) ^ a ≤ x → x < 2 ^ (a + 1) → Int.log 2 |x| = a := by
    intro a h1 h2
    rw [abs_of_pos x0]
    have e1 := (Int.zpow_le_iff_le_log (b := 2) (by norm_num) x0 (x := a)).mp (by exact_mod_cast h1)
    have e2 := (Int.lt_zpow_iff_log_lt (b := 2) (by norm_num) x0 (x := a + 1)).mp (by exact_mod_cast h2)
    omega
  unfold rne64
  rw [if_neg x0.ne']
  have two : (2:ℚ) ≠ 0 := by norm_num
  by_cases c : (2:ℚ) ^ (e + 52) ≤ x
  · have u : ulpExp x = e := by
      unfold ulpExp
      rw [logs (e + 52) c ?_]
      · omega
      · rw [show e + 52 + 1 = 53 + e by ring, zpow_add₀ two]
        have : (2:ℚ) ^ (53:Int) = 2 ^ 53 := by norm_cast
        rw [this]; linarith
    rw [u, near (x / 2 ^ e) k]
    rw [show x / 2 ^ e - k = (x - k * 2 ^ e) / 2 ^ e by field_simp, abs_div, abs_of_pos p, div_lt_iff₀ p]
    linarith
  · have c' := not_le.mp c
    have low : (2:ℚ) ^ (e + 52) = 2 ^ 52 * 2 ^ e := by
      rw [zpow_add₀ two, mul_comm]; norm_cast
    have half : (2:ℚ) ^ e = 2 * 2 ^ (e - 1) := by
      rw [zpow_sub₀ two, zpow_one]; field_simp
    have q : (0:ℚ) < 2 ^ (e - 1) := zpow_pos (by norm_num) _
    have u : ulpExp x = e - 1 := by
      unfold ulpExp
      rw [logs (e + 51) ?_ ?_]
      · omega
      · have : (2:ℚ) ^ (e + 51) = 2 ^ 51 * 2 ^ e := by
          rw [zpow_add₀ two, mul_comm]; norm_cast
        rw [this]
        have : (2:ℚ) ^ 52 * 2 ^ e = 2 * (2 ^ 51 * 2 ^ e) := by ring
        have : (1:ℚ) * 2 ^ e ≤ 2 ^ 51 * 2 ^ e := mul_le_mul_of_nonneg_right (by norm_num) p.le
        linarith
      · rw [show e + 51 + 1 = e + 52 by ring]; exact c'
    rw [u, near (x / 2 ^ (e - 1)) (2 * k)]
    · rw [half]; push_cast; ring
    · push_cast
      rw [show x / 2 ^ (e - 1) - 2 * k = (x - k * 2 ^ e) / 2 ^ (e - 1) by rw [half]; field_simp, abs_div, abs_of_pos q, div_lt_iff₀ q]
      linarith

/-- A value within a relative error of 2⁻⁵⁵ of an integer is rounded to it. -/
theorem rne64_near_int (t : Nat) (h0 : 0 < t) (ht : t < 2 ^ 53) (x : ℚ) (hx : |x - t| ≤ t / 2 ^ 55) : rne64 x = t := by
  have hlog : Nat.log 2 t ≤ 52 := by
    have := (Nat.log_lt_iff_lt_pow (b := 2) (by norm_num) (by omega)).mpr ht
    omega
  have lo : 2 ^ Nat.log 2 t ≤ t := Nat.pow_log_le_self 2 (by omega)
  have hi : t < 2 ^ (Nat.log 2 t + 1) := Nat.lt_pow_succ_log_self (by norm_num) t
  generalize Nat.log 2 t = a at *
  have s1 : 2 ^ 52 ≤ t * 2 ^ (52 - a) := by
    calc 2 ^ 52 = 2 ^ a * 2 ^ (52 - a) := by rw [← pow_add]; congr 1; omega
      _ ≤ t * 2 ^ (52 - a) := Nat.mul_le_mul_right _ lo
  have s2 : t * 2 ^ (52 - a) < 2 ^ 53 := by
    calc t * 2 ^ (52 - a) < 2 ^ (a + 1) * 2 ^ (52 - a) := Nat.mul_lt_mul_of_pos_right hi (by positivity)
      _ = 2 ^ 53 := by rw [← pow_add]; congr 1; omega
  have val : ((t * 2 ^ (52 - a) : ℕ) : Int) * (2:ℚ) ^ (-(52 - a : ℕ) : Int) = t := by
    push_cast
    rw [zpow_neg, zpow_natCast]
    field_simp
  have key := rne64_near ((t * 2 ^ (52 - a) : ℕ) : Int) (-(52 - a : ℕ) : Int) (by exact_mod_cast s1) (by exact_mod_cast s2) (by omega) x ?_
  · rw [key, val]
  · rw [val]
    refine lt_of_le_of_lt hx ?_
    have p : (0:ℚ) < 2 ^ (-(52 - a : ℕ) : Int) := zpow_pos (by norm_num) _
    have s3 : (((t * 2 ^ (52 - a) : ℕ) : Int) : ℚ) < 2 ^ 53 := by exact_mod_cast s2
    have := mul_lt_mul_of_pos_right s3 p
    rw [val] at this
    rw [div_lt_iff₀ (by norm_num)]
    linarith

/-- The threshold in doubles lies between the same integers as the exact one. -/
theorem threshold (num : Nat) (pct : ℚ) (h1 : 0 < num) (h2 : num ≤ 50) (hp : |pct - num / 50| ≤ num / 50 / 2 ^ 55) (N c : Nat) (hN : N ≤ 2 ^ 47) :
    ((c:ℚ) < rne64 (pct * N) ↔ (c:ℚ) < num / 50 * N) ∧ (rne64 (pct * N) < c ↔ num / 50 * N < (c:ℚ)) := by
  have np : (0:ℚ) < num := by exact_mod_cast h1
  have nq : (num:ℚ) ≤ 50 := by exact_mod_cast h2
  rcases Nat.eq_zero_or_pos N with rfl | N0
  · simp [rne64_zero]
  have Np : (0:ℚ) < N := by exact_mod_cast N0
  have Nq : (N:ℚ) ≤ 2 ^ 47 := by exact_mod_cast hN
  have dist : |pct * N - num / 50 * N| ≤ num / 50 * N / 2 ^ 55 := by
    rw [← sub_mul, abs_mul, abs_of_pos Np]
    have := mul_le_mul_of_nonneg_right hp Np.le
    linarith
  by_cases d : 50 ∣ num * N
  · obtain ⟨t, ht⟩ := d
    have et : (num:ℚ) / 50 * N = t := by
      have : (num:ℚ) * N = 50 * t := by exact_mod_cast ht
      linarith
    rw [et] at dist ⊢
    have t0 : 0 < t := by
      rcases Nat.eq_zero_or_pos t with rfl | h
      · simp at ht; omega
      · exact h
    have tq : (t:ℚ) ≤ 2 ^ 47 := by
      rw [← et]
      have := mul_le_mul_of_nonneg_right nq Np.le
      linarith
    have tN : t ≤ 2 ^ 47 := by exact_mod_cast tq
    rw [rne64_near_int t t0 (lt_of_le_of_lt tN (by norm_num)) _ dist]
    exact ⟨Iff.rfl, Iff.rfl⟩
  · have m0 : (0:ℚ) ≤ num / 50 * N := by positivity
    have mle : (num:ℚ) / 50 * N ≤ N := by
      have := mul_le_mul_of_nonneg_right nq Np.le
      linarith
    obtain ⟨d1, d2⟩ := abs_le.mp dist
    have x0 : 0 ≤ pct * N := by
      have : (num:ℚ) / 50 * N / 2 ^ 55 ≤ num / 50 * N := div_le_self m0 (by norm_num)
      linarith
    have err := rne64_good.err (pct * N) (by rw [abs_of_nonneg x0]; linarith)
    rw [abs_of_nonneg x0] at err
    obtain ⟨e1, e2⟩ := abs_le.mp err
    have close : |rne64 (pct * N) - num / 50 * N| < 1 / 50 := by
      rw [abs_lt]
      constructor <;> linarith
    obtain ⟨f1, f2⟩ := abs_lt.mp close
    have apart : num * N ≠ 50 * c := fun h => d ⟨c, h⟩
    rcases Nat.lt_or_gt_of_ne apart with h | h
    · have : (num:ℚ) * N + 1 ≤ 50 * c := by exact_mod_cast h
      constructor <;> constructor <;> intro _ <;> linarith
    · have : (50:ℚ) * c + 1 ≤ num * N := by exact_mod_cast h
      constructor <;> constructor <;> intro _ <;> linarith

theorem low_default (N c : Nat) (hN : N ≤ 2 ^ 47) : (c:ℚ) < rne64 (rne64 (2 / 100) * N) ↔ (c:ℚ) < 2 / 100 * N := by
  have := (threshold 1 (rne64 (2 / 100)) (by norm_num) (by norm_num) (by decide +kernel) N c hN).1
  rw [this]
  norm_num

theorem high_default (N c : Nat) (hN : N ≤ 2 ^ 47) : rne64 (rne64 (98 / 100) * N) < c ↔ 98 / 100 * N < (c:ℚ) := by
  have := (threshold 49 (rne64 (98 / 100)) (by norm_num) (by norm_num) (by decide +kernel) N c hN).2
  rw [this]
  norm_num

/-- A histogram of pixels: numbers of pixels are integers. -/
def pixels (counts : List Nat) : List ℚ := List.map (Nat.cast : ℕ → ℚ) counts

theorem cumulativeFrom_exact (counts : List Nat) (acc : Nat) (h : acc + counts.sum ≤ 2 ^ 53) :
    DRARounded.cumulativeFrom rne64 acc (pixels counts) = Verif.DRA.cumulativeFrom (acc : ℚ) (pixels counts) ∧
    ∀ x ∈ Verif.DRA.cumulativeFrom (acc : ℚ) (pixels counts), ∃ c : Nat, x = c := by
  induction counts generalizing acc with
  | nil => exact ⟨rfl, by simp [pixels, Verif.DRA.cumulativeFrom]⟩
  | cons c cs ih =>
    simp only [List.sum_cons] at h
    have e : rne64 ((acc:ℚ) + c) = ((acc + c : ℕ) : ℚ) := by
      have := rne64_int ((acc + c : ℕ) : Int) (by rw [abs_of_nonneg (by positivity)]; exact_mod_cast (by omega : acc + c ≤ 2 ^ 53))
      push_cast at this ⊢
      exact this
    obtain ⟨h1, h2⟩ := ih (acc + c) (by omega)
    simp only [pixels, List.map_cons, DRARounded.cumulativeFrom, Verif.DRA.cumulativeFrom, e]
    simp only [pixels] at h1 h2
    constructor
    · rw [h1]; push_cast; rfl
    · intro x hx
      rcases List.mem_cons.mp hx with rfl | hx
      · exact ⟨acc + c, by push_cast; rfl⟩
      · exact h2 x (by push_cast; exact hx)

theorem cumulative_exact (counts : List Nat) (h : counts.sum ≤ 2 ^ 53) :
    DRARounded.cumulative rne64 (pixels counts) = Verif.DRA.cumulative (pixels counts) ∧
    ∀ x ∈ Verif.DRA.cumulative (pixels counts), ∃ c : Nat, x = c := by
  cases counts with
  | nil => exact ⟨rfl, by simp [pixels, Verif.DRA.cumulative, Verif.DRA.cumulativeFrom]⟩
  | cons c cs =>
    simp only [List.sum_cons] at h
    obtain ⟨h1, h2⟩ := cumulativeFrom_exact cs c h
    have e : Verif.DRA.cumulative (pixels (c :: cs)) = (c:ℚ) :: Verif.DRA.cumulativeFrom (c:ℚ) (pixels cs) := by
      simp [Verif.DRA.cumulative, Verif.DRA.cumulativeFrom, pixels]
    rw [e]
    constructor
    · show _ :: DRARounded.cumulativeFrom rne64 c (pixels cs) = _
      rw [h1]
    · intro x hx
      rcases List.mem_cons.mp hx with rfl | hx
      · exact ⟨c, rfl⟩
      · exact h2 x hx

theorem pixels_sum (counts : List Nat) : (pixels counts).sum = (counts.sum : ℕ) := by
  induction counts with
  | nil => simp [pixels]
  | cons c cs ih => simp only [pixels, List.map_cons, List.sum_cons] at *; rw [ih]; push_cast; rfl

/-- The buckets of the double and the exact computation. -/
theorem same_buckets (counts : List Nat) (h : counts.sum ≤ 2 ^ 47) :
    eMinIndex (Verif.DRA.cumulative (pixels counts)) (rne64 (rne64 (2 / 100) * (counts.sum : ℕ))) =
      eMinIndex (Verif.DRA.cumulative (pixels counts)) (2 / 100 * (counts.sum : ℕ)) ∧
    eMaxIndex (Verif.DRA.cumulative (pixels counts)) (rne64 (rne64 (98 / 100) * (counts.sum : ℕ))) =
      eMaxIndex (Verif.DRA.cumulative (pixels counts)) (98 / 100 * (counts.sum : ℕ)) := by
  have nat := (cumulative_exact counts (by omega)).2
  constructor
  · unfold eMinIndex
    apply Verif.DRA.scanUp_congr
    intro i
    cases hi : (Verif.DRA.cumulative (pixels counts))[i]? with
    | none => rfl
    | some v =>
      obtain ⟨c, rfl⟩ := nat v (List.mem_of_getElem? hi)
      simp only [Option.any_some, decide_eq_decide]
      exact low_default _ _ h
  · unfold eMaxIndex
    apply Verif.DRA.scanDown_congr
    intro i
    cases hi : (Verif.DRA.cumulative (pixels counts))[i]? with
    | none => rfl
    | some v =>
      obtain ⟨c, rfl⟩ := nat v (List.mem_of_getElem? hi)
      simp only [Option.any_some, decide_eq_decide]
      exact high_default _ _ h

/-- The four values of the doubles, given the buckets. -/
def inDoubles (n : Nat) (f l : ℚ) (i j lo hi : Nat) : DRAParameters ℚ :=
  let step := rne64 (rne64 (l - f) / n)
  { suggestedMin := rne64 (rne64 (max (i:ℚ) (rne64 (lo - rne64 (rne64 (2 / 10) * ((hi:ℚ) - lo)))) * step) + f)
    suggestedMax := rne64 (rne64 (min (j:ℚ) (rne64 (hi + rne64 (rne64 (4 / 10) * ((hi:ℚ) - lo)))) * step) + f)
    actualMin := rne64 (rne64 (i * step) + f)
    actualMax := rne64 (rne64 (j * step) + f) }

def exactly (n : Nat) (f l : ℚ) (i j lo hi : Nat) : DRAParameters ℚ :=
  { suggestedMin := bucketValue n f l (max (i:ℚ) (lo - 2 / 10 * ((hi:ℚ) - lo)))
    suggestedMax := bucketValue n f l (min (j:ℚ) (hi + 4 / 10 * ((hi:ℚ) - lo)))
    actualMin := bucketValue n f l i
    actualMax := bucketValue n f l j }

theorem pixels_ne {counts : List Nat} (h : counts ≠ []) : pixels counts ≠ [] := by
  unfold pixels; simpa using h

theorem both (counts : List Nat) (hne : counts ≠ []) (hN : counts.sum ≤ 2 ^ 47) (first last : Option ℚ) (f l : ℚ)
    (hB : Bounds (counts.length : ℚ) first last f l) (hl : last ≠ some 0) :
    ∃ i j lo hi : Nat, i ≤ counts.length ∧ j < counts.length ∧ lo < counts.length ∧ hi < counts.length ∧
      DRARounded.fromCountsDefault rne64 (pixels counts) first last = .ok (inDoubles counts.length f l i j lo hi) ∧
      Verif.DRA.fromCountsDefault (pixels counts) first last = .ok (exactly counts.length f l i j lo hi) := by
  have hne' := pixels_ne hne
  have len : (pixels counts).length = counts.length := by simp [pixels]
  have last' : (Verif.DRA.cumulative (pixels counts)).getLast? = some ((counts.sum : ℕ) : ℚ) := by
    rw [Verif.DRA.cumulative_getLast _ hne', pixels_sum]
  obtain ⟨s1, s2⟩ := same_buckets counts hN
  refine ⟨actualMinIndex (pixels counts), actualMaxIndex (pixels counts), eMinIndex (Verif.DRA.cumulative (pixels counts)) (2 / 100 * (counts.sum : ℕ)),
    eMaxIndex (Verif.DRA.cumulative (pixels counts)) (98 / 100 * (counts.sum : ℕ)), ?_, ?_, ?_, ?_, ?_, ?_⟩
  · have := (Verif.DRA.scanUp_spec (fun i => (pixels counts)[i]? == some 0) (pixels counts).length 0).2.1
    rw [len] at this
    simpa [actualMinIndex, len] using this
  · have := (Verif.DRA.scanDown_spec (fun i => (pixels counts)[i]? == some 0) ((pixels counts).length - 1)).1
    have p : 0 < counts.length := List.length_pos_iff.mpr hne
    rw [len] at this
    unfold actualMaxIndex
    rw [len]
    omega
  · have := (Verif.DRA.eMin_spec (pixels counts) hne' (2 / 100 * (counts.sum : ℕ))).1
    rwa [len] at this
  · have := (Verif.DRA.eMax_spec (pixels counts) hne' (98 / 100 * (counts.sum : ℕ))).1
    rwa [len] at this
  · unfold DRARounded.fromCountsDefault DRARounded.fromCounts
    simp only [(cumulative_exact counts (by omega)).1, last', s1, s2, len, first_default hB, last_default hB hl]
    rfl
  · unfold Verif.DRA.fromCountsDefault Verif.DRA.fromCounts
    simp only [last', len, first_default hB, last_default hB hl]
    rfl

theorem round_close {x y ε M : ℚ} (h : |x - y| ≤ ε) (hM : |y| ≤ M) (hs : M + ε ≤ 2 ^ 53) :
    |rne64 x - y| ≤ ε + (M + ε) / 2 ^ 53 + 1 / 2 ^ 200 := by
  have hx : |x| ≤ M + ε := by
    have := abs_add_le (x - y) y
    rw [sub_add_cancel] at this
    linarith
  have e := rne64_good.err x (le_trans hx hs)
  have t := abs_sub_le (rne64 x) x y
  have : |x| / 2 ^ 53 ≤ (M + ε) / 2 ^ 53 := div_le_div_of_nonneg_right hx (by norm_num)
  linarith

theorem mul_close {x y x' y' ε ε' M M' : ℚ} (h : |x - y| ≤ ε) (h' : |x' - y'| ≤ ε') (hM : |y| ≤ M) (hM' : |y'| ≤ M') :
    |x * x' - y * y'| ≤ ε * (M' + ε') + M * ε' := by
  have hx : |x'| ≤ M' + ε' := by
    have := abs_add_le (x' - y') y'
    rw [sub_add_cancel] at this
    linarith
  have e : x * x' - y * y' = (x - y) * x' + y * (x' - y') := by ring
  rw [e]
  refine le_trans (abs_add_le _ _) ?_
  rw [abs_mul, abs_mul]
  exact add_le_add (mul_le_mul h hx (abs_nonneg _) (le_trans (abs_nonneg _) h)) (mul_le_mul hM h' (abs_nonneg _) (le_trans (abs_nonneg _) hM))

theorem value_close (n : Nat) (f l : ℚ) (h0 : 0 < n) (hn : n ≤ 2 ^ 31) (hf : |f| ≤ 2 ^ 50) (hl : |l| ≤ 2 ^ 50) (x y : ℚ) (hy : |y| ≤ 3 / 2 * n)
    (hx : |x - y| ≤ 5 / 2 * n / 2 ^ 53) :
    |rne64 (rne64 (x * rne64 (rne64 (l - f) / n)) + f) - bucketValue n f l y| ≤ (12 * |l - f| + 2 * |f|) / 2 ^ 53 + 1 / 2 ^ 150 := by
  have n1 : (1:ℚ) ≤ n := by exact_mod_cast h0
  have np : (0:ℚ) < n := by linarith
  have nq : (n:ℚ) ≤ 2 ^ 31 := by exact_mod_cast hn
  unfold bucketValue
  set W := |l - f| with hW
  have W0 : 0 ≤ W := abs_nonneg _
  have Wq : W ≤ 2 ^ 51 := by
    have := abs_sub l f
    linarith
  set S := (l - f) / (n:ℚ) with hS
  set s := W / (n:ℚ) with hs
  have s0 : 0 ≤ s := div_nonneg W0 np.le
  have ns : n * s = W := by rw [hs]; field_simp
  have sW : s ≤ W := div_le_self W0 n1
  have Ss : |S| = s := by rw [hS, abs_div, abs_of_pos np]
  have r1 := round_close (x := l - f) (y := l - f) (ε := 0) (M := W) (by simp) le_rfl (by linarith)
  have r2 : |rne64 (l - f) / n - S| ≤ s / 2 ^ 53 + 1 / 2 ^ 200 := by
    rw [hS, ← sub_div, abs_div, abs_of_pos np, div_le_iff₀ np]
    have : (s / 2 ^ 53 + 1 / 2 ^ 200) * n = W / 2 ^ 53 + n / 2 ^ 200 := by rw [← ns]; ring
    rw [this]
    have : (1:ℚ) / 2 ^ 200 ≤ n / 2 ^ 200 := div_le_div_of_nonneg_right n1 (by norm_num)
    linarith
  have r3 := round_close r2 Ss.le (by linarith)
  have r3' : |rne64 (rne64 (l - f) / n) - S| ≤ 5 / 2 * s / 2 ^ 53 + 3 / 2 ^ 200 := by linarith
  have r4 := mul_close hx r3' hy Ss.le
  have e4 : 5 / 2 * (n:ℚ) / 2 ^ 53 * (s + (5 / 2 * s / 2 ^ 53 + 3 / 2 ^ 200)) + 3 / 2 * n * (5 / 2 * s / 2 ^ 53 + 3 / 2 ^ 200) ≤
      7 * W / 2 ^ 53 + 1 / 2 ^ 160 := by
    have : 5 / 2 * (n:ℚ) / 2 ^ 53 * (s + (5 / 2 * s / 2 ^ 53 + 3 / 2 ^ 200)) + 3 / 2 * n * (5 / 2 * s / 2 ^ 53 + 3 / 2 ^ 200) =
      5 / 2 * (n * s) / 2 ^ 53 * (1 + 5 / 2 / 2 ^ 53) + 5 / 2 * n / 2 ^ 53 * (3 / 2 ^ 200) + 15 / 4 * (n * s) / 2 ^ 53 + 9 / 2 * n / 2 ^ 200 := by ring
    rw [this, ns]
    linarith
  have r5 := le_trans r4 e4
  have yS : |y * S| ≤ 3 / 2 * W := by
    rw [abs_mul, Ss, ← ns, ← mul_assoc]
    exact mul_le_mul_of_nonneg_right hy s0
  have r6 := round_close r5 yS (by linarith)
  have r7 : |rne64 (x * rne64 (rne64 (l - f) / n)) + f - (y * S + f)| ≤ 9 * W / 2 ^ 53 + 1 / 2 ^ 158 := by
    rw [add_sub_add_right_eq_sub]
    linarith
  have v : |y * S + f| ≤ 3 / 2 * W + |f| := le_trans (abs_add_le _ _) (by linarith)
  have f0 := abs_nonneg f
  have r8 := round_close r7 v (by linarith)
  linarith

theorem position_close (n lo hi : Nat) (h0 : 0 < n) (hn : n ≤ 2 ^ 31) (h1 : lo < n) (h2 : hi < n) :
    (|rne64 (lo - rne64 (rne64 (2 / 10) * ((hi:ℚ) - lo))) - (lo - 2 / 10 * ((hi:ℚ) - lo))| ≤ 5 / 2 * n / 2 ^ 53 ∧
      |lo - 2 / 10 * ((hi:ℚ) - lo)| ≤ 3 / 2 * n) ∧
    (|rne64 (hi + rne64 (rne64 (4 / 10) * ((hi:ℚ) - lo))) - (hi + 4 / 10 * ((hi:ℚ) - lo))| ≤ 5 / 2 * n / 2 ^ 53 ∧
      |hi + 4 / 10 * ((hi:ℚ) - lo)| ≤ 3 / 2 * n) := by
  have n1 : (1:ℚ) ≤ n := by exact_mod_cast h0
  have nq : (n:ℚ) ≤ 2 ^ 31 := by exact_mod_cast hn
  have l0 : (0:ℚ) ≤ lo := Nat.cast_nonneg _
  have u0 : (0:ℚ) ≤ hi := Nat.cast_nonneg _
  have l1 : (lo:ℚ) ≤ n := by exact_mod_cast h1.le
  have u1 : (hi:ℚ) ≤ n := by exact_mod_cast h2.le
  have D : |(hi:ℚ) - lo| ≤ n := by rw [abs_le]; constructor <;> linarith
  have part : ∀ (c : ℚ), 0 ≤ c → c ≤ 2 / 5 → |rne64 c - c| ≤ c / 2 ^ 53 →
      |rne64 (rne64 c * ((hi:ℚ) - lo)) - c * ((hi:ℚ) - lo)| ≤ 17 / 20 * n / 2 ^ 53 := by
    intro c c0 c1 h
    have cn : c * n ≤ 2 / 5 * n := mul_le_mul_of_nonneg_right c1 (by linarith)
    have a1 : |rne64 c * ((hi:ℚ) - lo) - c * ((hi:ℚ) - lo)| ≤ c * n / 2 ^ 53 := by
      rw [← sub_mul, abs_mul]
      have := mul_le_mul h D (abs_nonneg _) (div_nonneg c0 (by norm_num))
      linarith
    have a2 : |c * ((hi:ℚ) - lo)| ≤ c * n := by
      rw [abs_mul, abs_of_nonneg c0]; exact mul_le_mul_of_nonneg_left D c0
    have := round_close a1 a2 (by linarith)
    linarith
  have p1 := part (2 / 10) (by norm_num) (by norm_num) (by decide +kernel)
  have p2 := part (4 / 10) (by norm_num) (by norm_num) (by decide +kernel)
  have m1 : |(lo:ℚ) - 2 / 10 * ((hi:ℚ) - lo)| ≤ 3 / 2 * n := by rw [abs_le]; constructor <;> linarith
  have m2 : |(hi:ℚ) + 4 / 10 * ((hi:ℚ) - lo)| ≤ 3 / 2 * n := by rw [abs_le]; constructor <;> linarith
  refine ⟨⟨?_, m1⟩, ?_, m2⟩
  · have q : |(lo:ℚ) - rne64 (rne64 (2 / 10) * ((hi:ℚ) - lo)) - (lo - 2 / 10 * ((hi:ℚ) - lo))| ≤ 17 / 20 * n / 2 ^ 53 := by
      rw [sub_sub_sub_cancel_left, abs_sub_comm]; exact p1
    have := round_close q m1 (by linarith)
    linarith
  · have q : |(hi:ℚ) + rne64 (rne64 (4 / 10) * ((hi:ℚ) - lo)) - (hi + 4 / 10 * ((hi:ℚ) - lo))| ≤ 17 / 20 * n / 2 ^ 53 := by
      rw [add_sub_add_left_eq_sub]; exact p2
    have := round_close q m2 (by linarith)
    linarith

/-- **C136**: for a histogram of pixels the double computation with the default arguments chooses the same buckets as the exact one: the
four values are right to a few units in the last place. -/
theorem rounded_from_counts (counts : List Nat) (hne : counts ≠ []) (hlen : counts.length ≤ 2 ^ 31) (hN : counts.sum ≤ 2 ^ 47)
    (first last : Option ℚ) (f l : ℚ) (hB : Bounds (counts.length : ℚ) first last f l) (hl : last ≠ some 0) (hf : |f| ≤ 2 ^ 50) (hl' : |l| ≤ 2 ^ 50) :
    ∃ d r, DRARounded.fromCountsDefault rne64 (pixels counts) first last = .ok d ∧ Verif.DRA.fromCountsDefault (pixels counts) first last = .ok r ∧
      let u := (12 * |l - f| + 2 * |f|) / 2 ^ 53 + 1 / 2 ^ 150
      |d.suggestedMin - r.suggestedMin| ≤ u ∧ |d.suggestedMax - r.suggestedMax| ≤ u ∧ |d.actualMin - r.actualMin| ≤ u ∧
      |d.actualMax - r.actualMax| ≤ u := by
  obtain ⟨i, j, lo, hi, hi1, hj1, hlo, hhi, e1, e2⟩ := both counts hne hN first last f l hB hl
  refine ⟨_, _, e1, e2, ?_⟩
  have n0 : 0 < counts.length := List.length_pos_iff.mpr hne
  have np : (0:ℚ) ≤ counts.length := Nat.cast_nonneg _
  obtain ⟨⟨p1, p2⟩, p3, p4⟩ := position_close counts.length lo hi n0 hlen hlo hhi
  have ib : |(i:ℚ)| ≤ 3 / 2 * counts.length := by
    have : (i:ℚ) ≤ counts.length := by exact_mod_cast hi1
    rw [abs_of_nonneg (Nat.cast_nonneg _)]; linarith
  have jb : |(j:ℚ)| ≤ 3 / 2 * counts.length := by
    have : (j:ℚ) ≤ counts.length := by exact_mod_cast hj1.le
    rw [abs_of_nonneg (Nat.cast_nonneg _)]; linarith
  have z : ∀ x : ℚ, |x - x| ≤ 5 / 2 * counts.length / 2 ^ 53 := by intro x; rw [sub_self, abs_zero]; positivity
  have val := value_close counts.length f l n0 hlen hf hl'
  refine ⟨val _ _ ?_ ?_, val _ _ ?_ ?_, val _ _ ib (z _), val _ _ jb (z _)⟩
  · rw [abs_le] at *
    exact ⟨le_trans ib.1 (le_max_left _ _), max_le ib.2 p2.2⟩
  · exact le_trans (abs_max_sub_max_le_max _ _ _ _) (max_le (z _) p1)
  · rw [abs_le] at *
    exact ⟨le_min jb.1 p4.1, le_trans (min_le_left _ _) jb.2⟩
  · exact le_trans (abs_min_sub_min_le_max _ _ _ _) (max_le (z _) p3)

/-- **C136**: counting every pixel `k` times gives the same doubles, to the last bit. -/
theorem rounded_scale_invariant (counts : List Nat) (k : Nat) (hk : 0 < k) (hN : k * counts.sum ≤ 2 ^ 47) (first last : Option ℚ) :
    DRARounded.fromCountsDefault rne64 (pixels (counts.map (k * ·))) first last = DRARounded.fromCountsDefault rne64 (pixels counts) first last := by
  rcases eq_or_ne counts [] with rfl | hne
  · rfl
  have hne' := pixels_ne hne
  have kq : (0:ℚ) < k := by exact_mod_cast hk
  have scaled : pixels (counts.map (k * ·)) = (pixels counts).map ((k:ℚ) * ·) := by
    unfold pixels
    rw [List.map_map, List.map_map]
    congr 1
    funext c
    simp
  have total : (counts.map (k * ·)).sum = k * counts.sum := by
    simpa using List.sum_map_mul_left (l := counts) (f := id) (r := k)
  have small : counts.sum ≤ 2 ^ 47 := le_trans (Nat.le_mul_of_pos_left _ hk) hN
  have len : (pixels counts).length = counts.length := by simp [pixels]
  have len' : ((pixels counts).map ((k:ℚ) * ·)).length = counts.length := by simp [pixels]
  have c1 := (cumulative_exact counts (by omega)).1
  have c2 := (cumulative_exact (counts.map (k * ·)) (by omega)).1
  obtain ⟨s1, s2⟩ := same_buckets counts small
  obtain ⟨s3, s4⟩ := same_buckets (counts.map (k * ·)) (by omega)
  have g1 : (Verif.DRA.cumulative (pixels counts)).getLast? = some ((counts.sum : ℕ) : ℚ) := by
    rw [Verif.DRA.cumulative_getLast _ hne', pixels_sum]
  have g2 : (Verif.DRA.cumulative (pixels (counts.map (k * ·)))).getLast? = some (((counts.map (k * ·)).sum : ℕ) : ℚ) := by
    rw [Verif.DRA.cumulative_getLast _ (pixels_ne (by simpa using hne)), pixels_sum]
  have e1 : actualMinIndex ((pixels counts).map ((k:ℚ) * ·)) = actualMinIndex (pixels counts) := by
    unfold actualMinIndex
    rw [List.length_map]
    exact Verif.DRA.scanUp_congr (Verif.DRA.map_mul_get_zero (k:ℚ) kq.ne' _) _ _
  have e2 : actualMaxIndex ((pixels counts).map ((k:ℚ) * ·)) = actualMaxIndex (pixels counts) := by
    unfold actualMaxIndex
    rw [List.length_map]
    exact Verif.DRA.scanDown_congr (Verif.DRA.map_mul_get_zero (k:ℚ) kq.ne' _) _
  have e3 : ∀ p, eMinIndex (Verif.DRA.cumulative ((pixels counts).map ((k:ℚ) * ·))) (p * ((counts.map (k * ·)).sum : ℕ)) =
      eMinIndex (Verif.DRA.cumulative (pixels counts)) (p * (counts.sum : ℕ)) := by
    intro p
    rw [total, Verif.DRA.cumulative_map_mul]
    unfold eMinIndex
    rw [List.length_map]
    apply Verif.DRA.scanUp_congr
    intro i
    rw [List.getElem?_map]
    cases (Verif.DRA.cumulative (pixels counts))[i]? with
    | none => rfl
    | some v =>
      simp only [Option.map_some, Option.any_some, decide_eq_decide]
      rw [Nat.cast_mul, mul_left_comm p (k:ℚ), mul_lt_mul_iff_right₀ kq]
  have e4 : ∀ p, eMaxIndex (Verif.DRA.cumulative ((pixels counts).map ((k:ℚ) * ·))) (p * ((counts.map (k * ·)).sum : ℕ)) =
      eMaxIndex (Verif.DRA.cumulative (pixels counts)) (p * (counts.sum : ℕ)) := by
    intro p
    rw [total, Verif.DRA.cumulative_map_mul]
    unfold eMaxIndex
    rw [List.length_map]
    apply Verif.DRA.scanDown_congr
    intro i
    rw [List.getElem?_map]
    cases (Verif.DRA.cumulative (pixels counts))[i]? with
    | none => rfl
    | some v =>
      simp only [Option.map_some, Option.any_some, decide_eq_decide]
      rw [Nat.cast_mul, mul_left_comm p (k:ℚ), mul_lt_mul_iff_right₀ kq]
  unfold DRARounded.fromCountsDefault DRARounded.fromCounts
  rw [scaled] at c2 g2 s3 s4
  rw [scaled]
  simp only [c1, c2, g1, g2, s1, s2, s3, s4, e1, e2, e3, e4, len, len']

/-- **C136**: with counts that are not integers this fails in doubles; with exact arithmetic it does not (C03).  Weighting 50 pixels by 0.7
moves the lower end of the range by a bucket. -/
theorem rounded_scale_not_invariant :
    ¬ ∀ (counts : List ℚ) (k : ℚ), (∀ c ∈ counts, 0 ≤ c ∧ rne64 c = c) → 0 < k → rne64 k = k →
      DRARounded.fromCountsDefault rne64 (counts.map (fun c => rne64 (k * c))) none none = DRARounded.fromCountsDefault rne64 counts none none := by
  intro h
  have := h [1, 48, 1] (rne64 (7 / 10)) (by decide +kernel) (by decide +kernel) (by decide +kernel)
  revert this
  decide +kernel

/-- A histogram of 5000 pixels between the values -3.5 and 11.2: Python gives 7.524999999999999 for the upper end of the actual range, exact
arithmetic 7.525. -/
example : DRARounded.fromCountsDefault rne64 (pixels [0, 100, 2000, 1800, 1000, 99, 1, 0]) (some (-7 / 2)) (some (rne64 (112 / 10))) =
      .ok ⟨rne64 (-16625 / 10000), rne64 (6055 / 1000), rne64 (-16625 / 10000), 1059049599873843 / 140737488355328⟩ := by
  decide +kernel

/-- The hypotheses of `rounded_from_counts` and `rounded_scale_invariant` are met by this histogram. -/
example := rounded_from_counts [0, 100, 2000, 1800, 1000, 99, 1, 0] (by simp) (by simp) (by decide) (some (-7 / 2)) (some 12) (-7 / 2) 12
  (.both _ _) (by simp) (by rw [abs_of_neg] <;> norm_num) (by rw [abs_of_pos] <;> norm_num)

example := rounded_scale_invariant [0, 100, 2000, 1800, 1000, 99, 1, 0] 7 (by norm_num) (by decide) none (some 12)

end Verif.Props.DRARounded
