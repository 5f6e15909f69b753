import Verif.Props.Rounded
import Verif.Props.RsmModel

/-!
# Theorems about rounding errors of RSM models
-/

namespace Verif.Props.RoundedRsm

open Verif.Rsm hiding grow
open Verif.Sensors Verif.Rpc Verif.Rounded Verif.Spec.Rounded Verif.Spec.Rpc Verif.Spec.Rsm Verif.Lemmas.Rounded
open Verif.Props.Rounded

theorem grow_pow_linear : ∀ n : ℕ, n ≤ 1000 → grow ^ n ≤ 1 + n / 2 ^ 53 * (1 + 1 / 2 ^ 30)
  | 0, _ => by simp
  | n + 1, h => by
    have ih := grow_pow_linear n (by omega)
    have hn : (n : ℝ) ≤ 1000 := by exact_mod_cast (by omega : n ≤ 1000)
    have n0 : (0:ℝ) ≤ n := Nat.cast_nonneg _
    rw [pow_succ]
    have : grow ^ n * grow ≤ (1 + n / 2 ^ 53 * (1 + 1 / 2 ^ 30)) * grow :=
      mul_le_mul_of_nonneg_right ih (by linarith [one_le_grow])
    refine le_trans this ?_
    unfold grow
    push_cast
    nlinarith

theorem grow_pow_le_two {n : ℕ} (h : n ≤ 1000) : grow ^ n ≤ 2 := by
  refine le_trans (grow_pow_linear n h) ?_
  have hn : (n : ℝ) ≤ 1000 := by exact_mod_cast h
  have : (n : ℝ) / 2 ^ 53 * (1 + 1 / 2 ^ 30) ≤ 1000 / 2 ^ 53 * (1 + 1 / 2 ^ 30) :=
    mul_le_mul_of_nonneg_right (div_le_div_of_nonneg_right hn (by positivity)) (by positivity)
  refine le_trans (add_le_add_right this _) (by norm_num)

/-- A power as the code computes it. -/
theorem pow_approx {pow : ℝ → Nat → ℝ} (hp : PowRounds pow) {x : ℝ} {i : ℕ} (hx : |x| ≤ 4) (hi : i ≤ 5) :
    Approx 2 (1 / 2 ^ 200) (pow x i) (x ^ i) (|x| ^ i) ∧ |x| ^ i ≤ 2 ^ 10 := by
  have b : |x| ^ i ≤ 2 ^ 10 := by
    calc |x| ^ i ≤ (4:ℝ) ^ i := pow_le_pow_left₀ (abs_nonneg _) hx i
      _ ≤ 4 ^ 5 := pow_le_pow_right₀ (by norm_num) hi
      _ = 2 ^ 10 := by norm_num
  refine ⟨⟨by rw [abs_pow], by positivity, ?_⟩, b⟩
  have h := hp.err x i (by rw [abs_pow]; exact le_trans b (by norm_num))
  rw [abs_pow] at h
  refine le_trans h ?_
  have : 0 ≤ |x| ^ i := by positivity
  have g : grow ^ 2 = 1 + 1 / 2 ^ 52 + 1 / 2 ^ 106 := by unfold grow; norm_num
  rw [g]
  have h2 : (1:ℝ) / 2 ^ 200 ≤ (1 + 1 / 2 ^ 52 + 1 / 2 ^ 106) * (1 / 2 ^ 200) := by norm_num
  have h3 : 0 ≤ 1 / 2 ^ 106 * |x| ^ i := by positivity
  have : (1 + 1 / 2 ^ 52 + 1 / 2 ^ 106) * (|x| ^ i + 1 / 2 ^ 200) - |x| ^ i
      = |x| ^ i / 2 ^ 52 + 1 / 2 ^ 106 * |x| ^ i + (1 + 1 / 2 ^ 52 + 1 / 2 ^ 106) * (1 / 2 ^ 200) := by ring
  rw [this]; linarith

/-- A factor more. -/
theorem factor {rnd : ℝ → ℝ} (hr : Rounds rnd) {k : ℕ} {d s S a t T b : ℝ} (h : Approx k d s S a) (g : Approx 2 (1 / 2 ^ 200) t T b)
    (hk : k ≤ 100) (ha : a ≤ 2 ^ 60) (hd : d ≤ 1 / 2 ^ 100) (hb : b ≤ 2 ^ 10) {d' : ℝ} (hd' : a / 2 ^ 200 + d * 2 ^ 10 + 2 / 2 ^ 200 ≤ d') :
    Approx (k + 3) d' (rnd (s * t)) (S * T) (a * b) := by
  have a0 := h.nonneg
  have b0 := g.nonneg
  have d0 := h.2.1
  have m := h.mul g
  have ab : a * b ≤ 2 ^ 70 := by
    calc a * b ≤ 2 ^ 60 * 2 ^ 10 := mul_le_mul ha hb b0 (by positivity)
      _ = 2 ^ 70 := by norm_num
  have db : d * b ≤ d * 2 ^ 10 := mul_le_mul_of_nonneg_left hb d0
  have d1 : d * (1 / 2 ^ 200) ≤ 1 / 2 ^ 200 := by
    have : d ≤ 1 := le_trans hd (by norm_num)
    have := mul_le_mul_of_nonneg_right this (show (0:ℝ) ≤ 1 / 2 ^ 200 by positivity)
    linarith
  have e1 : a * (1 / 2 ^ 200) = a / 2 ^ 200 := by ring
  have D : a * (1 / 2 ^ 200) + d * b + d * (1 / 2 ^ 200) ≤ 1 := by
    rw [e1]
    have h1 : a / 2 ^ 200 ≤ 2 ^ 60 / 2 ^ 200 := div_le_div_of_nonneg_right ha (by positivity)
    have h2 : d * 2 ^ 10 ≤ 1 / 2 ^ 100 * 2 ^ 10 := mul_le_mul_of_nonneg_right hd (by positivity)
    have h3 : (2:ℝ) ^ 60 / 2 ^ 200 + 1 / 2 ^ 100 * 2 ^ 10 + 1 / 2 ^ 200 ≤ 1 := by norm_num
    linarith
  have r := m.round hr (by
    have := grow_pow_le_two (n := k + 2) (by omega)
    calc grow ^ (k + 2) * (a * b + (a * (1 / 2 ^ 200) + d * b + d * (1 / 2 ^ 200))) ≤ 2 * (2 ^ 70 + 1) := by
          refine mul_le_mul this (by linarith) ?_ (by norm_num)
          have : 0 ≤ a * b := mul_nonneg a0 b0
          have : 0 ≤ d * b := mul_nonneg d0 b0
          have : 0 ≤ d * (1 / 2 ^ 200) := by positivity
          have : 0 ≤ a * (1 / 2 ^ 200) := by positivity
          linarith
      _ ≤ 2 ^ 250 := by norm_num)
  refine r.weaken (le_refl _) (le_trans ?_ hd')
  rw [e1]
  have : (2:ℝ) / 2 ^ 200 = 1 / 2 ^ 200 + 1 / 2 ^ 200 := by norm_num
  linarith

/-- A term of the polynomial. -/
theorem rsm_term {rnd : ℝ → ℝ} (hr : Rounds rnd) {pow : ℝ → Nat → ℝ} (hp : PowRounds pow) {a x y z : ℝ} {i j k : ℕ} (ha : |a| ≤ 2 ^ 40)
    (hx : |x| ≤ 4) (hy : |y| ≤ 4) (hz : |z| ≤ 4) (hi : i ≤ 5) (hj : j ≤ 5) (hk : k ≤ 5) :
    Approx 9 (1 / 2 ^ 135) (rnd (rnd (rnd (a * pow x i) * pow y j) * pow z k)) (a * (x ^ i * y ^ j * z ^ k))
      (|a| * (|x| ^ i * |y| ^ j * |z| ^ k)) ∧ |a| * (|x| ^ i * |y| ^ j * |z| ^ k) ≤ 2 ^ 70 := by
  obtain ⟨px, bx⟩ := pow_approx hp hx hi
  obtain ⟨py, by'⟩ := pow_approx hp hy hj
  obtain ⟨pz, bz⟩ := pow_approx hp hz hk
  have m1 : |a| * |x| ^ i ≤ 2 ^ 50 := by
    calc |a| * |x| ^ i ≤ 2 ^ 40 * 2 ^ 10 := mul_le_mul ha bx (by positivity) (by positivity)
      _ = 2 ^ 50 := by norm_num
  have m2 : |a| * |x| ^ i * |y| ^ j ≤ 2 ^ 60 := by
    calc |a| * |x| ^ i * |y| ^ j ≤ 2 ^ 50 * 2 ^ 10 := mul_le_mul m1 by' (by positivity) (by positivity)
      _ = 2 ^ 60 := by norm_num
  have m3 : |a| * |x| ^ i * |y| ^ j * |z| ^ k ≤ 2 ^ 70 := by
    calc |a| * |x| ^ i * |y| ^ j * |z| ^ k ≤ 2 ^ 60 * 2 ^ 10 := mul_le_mul m2 bz (by positivity) (by positivity)
      _ = 2 ^ 70 := by norm_num
  have dv : ∀ {u e : ℝ}, u ≤ e → u / 2 ^ 200 ≤ e / 2 ^ 200 := fun h => div_le_div_of_nonneg_right h (by positivity)
  have f1 := factor hr (Approx.exact a) px (by norm_num) (le_trans ha (by norm_num)) (by positivity) bx (d' := 1 / 2 ^ 159) (by
    refine le_trans (add_le_add_left (add_le_add_left (dv ha) _) _) ?_
    norm_num)
  have f2 := factor hr f1 py (by norm_num) (le_trans m1 (by norm_num)) (by norm_num) by' (d' := 1 / 2 ^ 147) (by
    refine le_trans (add_le_add_left (add_le_add_left (dv m1) _) _) ?_
    norm_num)
  have f3 := factor hr f2 pz (by norm_num) (le_trans m2 (by norm_num)) (by norm_num) bz (d' := 1 / 2 ^ 135) (by
    refine le_trans (add_le_add_left (add_le_add_left (dv m2) _) _) ?_
    norm_num)
  have e1 : a * (x ^ i * y ^ j * z ^ k) = a * x ^ i * y ^ j * z ^ k := by ring
  have e2 : |a| * (|x| ^ i * |y| ^ j * |z| ^ k) = |a| * |x| ^ i * |y| ^ j * |z| ^ k := by ring
  rw [e1, e2]
  exact ⟨f3, m3⟩

/-- The state of the sum after `n` terms. -/
def Partial (n : ℕ) (r S A : ℝ) : Prop := Approx (9 + n) (n * (1 / 2 ^ 134)) r S A ∧ A ≤ n * 2 ^ 70

theorem Partial.step {rnd : ℝ → ℝ} (hr : Rounds rnd) {n : ℕ} {r S A t T B : ℝ} (h : Partial n r S A) (hn : n ≤ 500)
    (g : Approx 9 (1 / 2 ^ 135) t T B ∧ B ≤ 2 ^ 70) : Partial (n + 1) (rnd (r + t)) (S + T) (A + B) := by
  obtain ⟨h1, h2⟩ := h
  have hn' : (n : ℝ) ≤ 500 := by exact_mod_cast hn
  have n0 : (0:ℝ) ≤ n := Nat.cast_nonneg _
  have m := (h1.add (g.1.weaken (k' := 9 + n) (by omega) (le_refl _))).round hr (by
    have := grow_pow_le_two (n := 9 + n) (by omega)
    have A0 := h1.nonneg
    have B0 := g.1.nonneg
    calc grow ^ (9 + n) * (A + B + (n * (1 / 2 ^ 134) + 1 / 2 ^ 135)) ≤ 2 * (501 * 2 ^ 70 + 501) := by
          refine mul_le_mul this ?_ (by positivity) (by norm_num)
          have h3 : (n:ℝ) * 2 ^ 70 ≤ 500 * 2 ^ 70 := mul_le_mul_of_nonneg_right hn' (by positivity)
          have h4 : (n:ℝ) * (1 / 2 ^ 134) ≤ 500 * (1 / 2 ^ 134) := mul_le_mul_of_nonneg_right hn' (by positivity)
          have h5 : (500:ℝ) * (1 / 2 ^ 134) + 1 / 2 ^ 135 ≤ 501 := by norm_num
          linarith [g.2]
      _ ≤ 2 ^ 250 := by norm_num)
  refine ⟨?_, ?_⟩
  · refine m.weaken (by omega) ?_
    push_cast
    have : (1:ℝ) / 2 ^ 135 + 1 / 2 ^ 200 ≤ 1 / 2 ^ 134 := by norm_num
    linarith
  · push_cast; linarith [g.2]

/-- A loop with an invariant and a running index. -/
theorem loop_invariant {K : Type} (f : K × Nat → Nat → Except PyErr (K × Nat)) (P : Nat → K → Prop) (step t n : Nat) (r : K) (h0 : P 0 r)
    (h : ∀ i, i < n → ∀ r, P i r → ∃ r', f (r, t + step * i) i = .ok (r', t + step * (i + 1)) ∧ P (i + 1) r') :
    ∃ r', (List.range n).foldlM f (r, t) = .ok (r', t + step * n) ∧ P n r' := by
  induction n with
  | zero => exact ⟨r, by simp; rfl, h0⟩
  | succ n ih =>
    obtain ⟨r1, e1, p1⟩ := ih (fun i hi => h i (by omega))
    obtain ⟨r2, e2, p2⟩ := h n (by omega) r1 p1
    refine ⟨r2, ?_, p2⟩
    rw [List.range_succ, List.foldlM_append, e1]
    show (List.foldlM f (r1, t + step * n) [n]) = _
    simp only [List.foldlM_cons, List.foldlM_nil, e2]
    rfl

theorem coefficient_get {p : RsmPoly ℝ} (hc : Complete p) {i j k : Nat} (hi : i < (p.px + 1).toNat) (hj : j < (p.py + 1).toNat)
    (hk : k < (p.pz + 1).toNat) :
    pyGet p.coefficients ((i + (p.px + 1).toNat * (j + (p.py + 1).toNat * k) : Nat) : Int) = .ok (coefficient p i j k) ∧
      |coefficient p i j k| ≤ 2 ^ 40 := by
  have hl := hc.length
  unfold coefficient
  generalize (p.px + 1).toNat = nx at *
  generalize (p.py + 1).toNat = ny at *
  generalize (p.pz + 1).toNat = nz at *
  have hlt : i + nx * (j + ny * k) < p.coefficients.length := by
    rw [hl]
    have h1 : j + ny * k + 1 ≤ ny * nz := by nlinarith
    have h2 : nx * (j + ny * k + 1) ≤ nx * (ny * nz) := Nat.mul_le_mul_left _ h1
    nlinarith
  have e : p.coefficients.getD (i + nx * (j + ny * k)) 0 = p.coefficients[i + nx * (j + ny * k)] := by
    simp [List.getD, List.getElem?_eq_getElem hlt]
  rw [e]
  exact ⟨Verif.Props.Rsm.pyGet_nat _ _ _ (List.getElem?_eq_getElem hlt), hc.size _ (List.getElem_mem hlt)⟩

/-- Evaluated in doubles, an RSM polynomial is exact up to 226 roundings of the sum of the magnitudes of its terms. -/
theorem rsm_polynomial_rounding {rnd : ℝ → ℝ} (hr : Rounds rnd) {pow : ℝ → Nat → ℝ} (hp : PowRounds pow) (p : RsmPoly ℝ) (hc : Complete p)
    (x y z : ℝ) (hx : |x| ≤ 4) (hy : |y| ≤ 4) (hz : |z| ≤ 4) :
    ∃ v, rsmEvaluate rnd pow p x y z = .ok v ∧
      |v - value p x y z| ≤ 226 / 2 ^ 53 * rsmMagnitude p x y z + 1 / 2 ^ 120 ∧ |value p x y z| ≤ rsmMagnitude p x y z := by
  have hpow := hc.powers
  have get := fun {i j k : Nat} => coefficient_get hc (i := i) (j := j) (k := k)
  have main : ∃ r', (do
      let r ← (range (p.pz + 1)).foldlM (fun st k =>
        (range (p.py + 1)).foldlM (fun st j =>
          (range (p.px + 1)).foldlM (fun st i => do
            let a ← pyGet p.coefficients (st.2 : Nat)
            pure (rnd (st.1 + rnd (rnd (rnd (a * pow x i) * pow y j) * pow z k)), st.2 + 1)) st) st) ((0 : ℝ), (0 : Nat))
      pure r.1 : Except PyErr ℝ) = .ok r' ∧
      Partial ((p.pz + 1).toNat * ((p.px + 1).toNat * (p.py + 1).toNat)) r' (value p x y z) (rsmMagnitude p x y z) := by
    unfold value rsmMagnitude triple range
    have x5 : (p.px + 1).toNat ≤ 6 := by omega
    have y5 : (p.py + 1).toNat ≤ 6 := by omega
    have z5 : (p.pz + 1).toNat ≤ 6 := by omega
    generalize (p.px + 1).toNat = nx at *
    generalize (p.py + 1).toNat = ny at *
    generalize (p.pz + 1).toNat = nz at *
    generalize coefficient p = c at *
    have nxy : nx * ny ≤ 36 := Nat.mul_le_mul x5 y5
    obtain ⟨r', e, inv⟩ := loop_invariant (fun st k => (List.range ny).foldlM (fun st j =>
          (List.range nx).foldlM (fun st i => do
            let a ← pyGet p.coefficients (st.2 : Nat)
            pure (rnd (st.1 + rnd (rnd (rnd (a * pow x i) * pow y j) * pow z k)), st.2 + 1)) st) st)
      (fun k r => Partial (k * (nx * ny)) r
        (∑ k ∈ Finset.range k, ∑ j ∈ Finset.range ny, ∑ i ∈ Finset.range nx, c i j k * (x ^ i * y ^ j * z ^ k))
        (∑ k ∈ Finset.range k, ∑ j ∈ Finset.range ny, ∑ i ∈ Finset.range nx, |c i j k| * (|x| ^ i * |y| ^ j * |z| ^ k)))
      (nx * ny) 0 nz 0
      (by
        simp only [zero_mul, Finset.range_zero, Finset.sum_empty]
        exact ⟨by simpa using (Approx.zero.weaken (k' := 9) (d' := 0) (by norm_num) (le_refl _)), by simp⟩)
      (by
        intro k hk r hP
        obtain ⟨r', e, inv⟩ := loop_invariant (fun st j =>
            (List.range nx).foldlM (fun st i => do
              let a ← pyGet p.coefficients (st.2 : Nat)
              pure (rnd (st.1 + rnd (rnd (rnd (a * pow x i) * pow y j) * pow z k)), st.2 + 1)) st)
          (fun j r => Partial (k * (nx * ny) + j * nx) r
            (∑ k ∈ Finset.range k, ∑ j ∈ Finset.range ny, ∑ i ∈ Finset.range nx, c i j k * (x ^ i * y ^ j * z ^ k)
              + ∑ j ∈ Finset.range j, ∑ i ∈ Finset.range nx, c i j k * (x ^ i * y ^ j * z ^ k))
            (∑ k ∈ Finset.range k, ∑ j ∈ Finset.range ny, ∑ i ∈ Finset.range nx, |c i j k| * (|x| ^ i * |y| ^ j * |z| ^ k)
              + ∑ j ∈ Finset.range j, ∑ i ∈ Finset.range nx, |c i j k| * (|x| ^ i * |y| ^ j * |z| ^ k)))
          nx (0 + nx * ny * k) ny r (by simpa using hP)
          (by
            intro j hj r hP
            obtain ⟨r', e, inv⟩ := loop_invariant (fun st i => do
                let a ← pyGet p.coefficients (st.2 : Nat)
                pure (rnd (st.1 + rnd (rnd (rnd (a * pow x i) * pow y j) * pow z k)), st.2 + 1))
              (fun i r => Partial (k * (nx * ny) + j * nx + i) r
                (∑ k ∈ Finset.range k, ∑ j ∈ Finset.range ny, ∑ i ∈ Finset.range nx, c i j k * (x ^ i * y ^ j * z ^ k)
                  + ∑ j ∈ Finset.range j, ∑ i ∈ Finset.range nx, c i j k * (x ^ i * y ^ j * z ^ k)
                  + ∑ i ∈ Finset.range i, c i j k * (x ^ i * y ^ j * z ^ k))
                (∑ k ∈ Finset.range k, ∑ j ∈ Finset.range ny, ∑ i ∈ Finset.range nx, |c i j k| * (|x| ^ i * |y| ^ j * |z| ^ k)
                  + ∑ j ∈ Finset.range j, ∑ i ∈ Finset.range nx, |c i j k| * (|x| ^ i * |y| ^ j * |z| ^ k)
                  + ∑ i ∈ Finset.range i, |c i j k| * (|x| ^ i * |y| ^ j * |z| ^ k)))
              1 (0 + nx * ny * k + nx * j) nx r (by simpa using hP)
              (by
                intro i hi r hP
                have hidx : 0 + nx * ny * k + nx * j + 1 * i = i + nx * (j + ny * k) := by ring
                obtain ⟨g1, g2⟩ := get hi hj hk
                have hcnt : k * (nx * ny) + j * nx + i ≤ 500 := by
                  have h1 : k * (nx * ny) ≤ 5 * 36 := Nat.mul_le_mul (by omega) nxy
                  have h2 : j * nx ≤ 5 * 6 := Nat.mul_le_mul (by omega) x5
                  omega
                have st := hP.step hr hcnt (rsm_term hr hp g2 hx hy hz (by omega : i ≤ 5) (by omega : j ≤ 5) (by omega : k ≤ 5))
                refine ⟨rnd (r + rnd (rnd (rnd (c i j k * pow x i) * pow y j) * pow z k)), ?_, ?_⟩
                · simp only [hidx, g1]
                  show Except.ok _ = _
                  congr 2
                  ring
                · simp only [Finset.sum_range_succ _ i, ← add_assoc]
                  exact st)
            refine ⟨r', ?_, ?_⟩
            · rw [e]; congr 2; ring
            · rw [Finset.sum_range_succ _ j, Finset.sum_range_succ _ j, ← add_assoc, ← add_assoc]
              have : k * (nx * ny) + (j + 1) * nx = k * (nx * ny) + j * nx + nx := by ring
              rw [this]; exact inv)
        refine ⟨r', ?_, ?_⟩
        · rw [e]; congr 2; ring
        · rw [Finset.sum_range_succ _ k, Finset.sum_range_succ _ k]
          have : (k + 1) * (nx * ny) = k * (nx * ny) + ny * nx := by ring
          rw [this]; exact inv)
    refine ⟨r', ?_, inv⟩
    rw [e]; rfl
  obtain ⟨v, e, ⟨k1, -, k3⟩, -⟩ := main
  refine ⟨v, e, ?_, k1⟩
  refine le_trans k3 ?_
  have A0 : 0 ≤ rsmMagnitude p x y z := le_trans (abs_nonneg _) k1
  generalize rsmMagnitude p x y z = A at A0 ⊢
  have n6 : (p.pz + 1).toNat * ((p.px + 1).toNat * (p.py + 1).toNat) ≤ 216 := by
    have x5 : (p.px + 1).toNat ≤ 6 := by omega
    have y5 : (p.py + 1).toNat ≤ 6 := by omega
    have z5 : (p.pz + 1).toNat ≤ 6 := by omega
    exact Nat.mul_le_mul z5 (Nat.mul_le_mul x5 y5)
  generalize (p.pz + 1).toNat * ((p.px + 1).toNat * (p.py + 1).toNat) = n at n6
  have g : grow ^ (9 + n) ≤ 1 + 226 / 2 ^ 53 := by
    refine le_trans (pow_le_pow_right₀ one_le_grow (show 9 + n ≤ 225 by omega)) ?_
    refine le_trans (grow_pow_linear 225 (by norm_num)) ?_
    norm_num
  have nr : (n : ℝ) ≤ 216 := by exact_mod_cast n6
  have d : (n : ℝ) * (1 / 2 ^ 134) ≤ 1 / 2 ^ 126 := by
    refine le_trans (mul_le_mul_of_nonneg_right nr (by positivity)) (by norm_num)
  have : grow ^ (9 + n) * (A + n * (1 / 2 ^ 134)) ≤ (1 + 226 / 2 ^ 53) * (A + 1 / 2 ^ 126) :=
    mul_le_mul g (by linarith) (by positivity) (by norm_num)
  have h2 : (1 + 226 / 2 ^ 53 : ℝ) * (1 / 2 ^ 126) ≤ 1 / 2 ^ 120 := by norm_num
  linarith

/-- Rounding moves a normalised coordinate as if the coordinate was another one. -/
theorem normalised {rnd : ℝ → ℝ} (hr : Rounds rnd) {v off scale b : ℝ} (h : InRange v off scale b) :
    ∃ x, Verif.Rounded.norm1 rnd v off scale = .ok x ∧ |x| ≤ b ∧ |x * scale + off - v| ≤ (2 * (|v| + |off|) + 1) / 2 ^ 53 := by
  have sp : 0 < |scale| := lt_of_lt_of_le (by positivity) h.scale_min
  have sne : scale ≠ 0 := abs_pos.mp sp
  have h3 := normalise_err hr (d := v) (D := v) (off := off) (e := 0) (by simp) (m := |v| + |off|) (le_refl _) h.size (by norm_num)
    h.scale_min h.scale_max
  have h3' : |rnd (rnd (v - off) / scale) * scale + off - v| ≤ (2 * (|v| + |off|) + 1) / 2 ^ 53 := by
    refine le_trans h3 ?_
    have : (0:ℝ) + (2 * (|v| + |off|) + 3 * (0 + 1 / 2 ^ 20)) / 2 ^ 53 + 1 / 2 ^ 150
        = (2 * (|v| + |off|)) / 2 ^ 53 + ((3 * (0 + 1 / 2 ^ 20)) / 2 ^ 53 + 1 / 2 ^ 150) := by ring
    rw [this, add_div]
    exact add_le_add_right (by norm_num) _
  refine ⟨_, if_neg sne, ?_, h3'⟩
  set l := rnd (rnd (v - off) / scale)
  have e : l - (v - off) / scale = (l * scale + off - v) / scale := by field_simp; ring
  have d : |l - (v - off) / scale| ≤ 1 / 1000 := by
    rw [e, abs_div, div_le_iff₀ sp]
    refine le_trans h3' ?_
    have := h.ratio
    have v0 := abs_nonneg v
    have o0 := abs_nonneg off
    calc (2 * (|v| + |off|) + 1) / 2 ^ 53 ≤ (2 * (2 ^ 40 * |scale|)) / 2 ^ 53 :=
          div_le_div_of_nonneg_right (by linarith) (by positivity)
      _ = 2 ^ 41 / 2 ^ 53 * |scale| := by ring
      _ ≤ 1 / 1000 * |scale| := mul_le_mul_of_nonneg_right (by norm_num) sp.le
  exact le_trans (size_of d (le_refl _)) h.inside

/-- **C133**: whatever the rounding of doubles does and whichever power function (right up to one unit in the last place) is used,
`ground_domain_to_image` of an RSM model gives the exact projection of a ground domain coordinate that differs from the given one by
about two roundings of it and the offset, up to `468 κ²` roundings of the scale and two of the offset of the
image, where `κ` is the condition number of the rational polynomials. -/
theorem rsm_rounding {rnd : ℝ → ℝ} (hr : Rounds rnd) {pow : ℝ → Nat → ℝ} (hp : PowRounds pow) (m : PolyModel) (b κ : ℝ) (hb : b ≤ 4)
    (hκ : κ ≤ 2 ^ 20) (hcol : RsmTame m.colNum m.colDen b κ) (hrow : RsmTame m.rowNum m.rowDen b κ)
    (himage : ∀ x, x = m.rowScale ∨ x = m.colScale ∨ x = m.rowOff ∨ x = m.colOff → |x| ≤ 2 ^ 40) (v : Vec)
    (hx : InRange (v 0) m.xOff m.xScale b) (hy : InRange (v 1) m.yOff m.yScale b) (hz : InRange (v 2) m.zOff m.zScale b) :
    ∃ q v' q', rsmDomainToImage rnd pow m v = .ok q ∧ RsmProjects m v' q' ∧
      |v' 0 - v 0| ≤ (2 * (|v 0| + |m.xOff|) + 1) / 2 ^ 53 ∧ |v' 1 - v 1| ≤ (2 * (|v 1| + |m.yOff|) + 1) / 2 ^ 53 ∧
      |v' 2 - v 2| ≤ (2 * (|v 2| + |m.zOff|) + 1) / 2 ^ 53 ∧
      |q.1 - q'.1| ≤ (468 * κ ^ 2 * |m.colScale| + 2 * |m.colOff|) / 2 ^ 53 + 1 / 2 ^ 100 ∧
      |q.2 - q'.2| ≤ (468 * κ ^ 2 * |m.rowScale| + 2 * |m.rowOff|) / 2 ^ 53 + 1 / 2 ^ 100 := by
  obtain ⟨x, ex, bx, dx⟩ := normalised hr hx
  obtain ⟨y, ey, by', dy⟩ := normalised hr hy
  obtain ⟨z, ez, bz, dz⟩ := normalised hr hz
  have quotient : ∀ num den, RsmTame num den b κ → ∃ n d, rsmEvaluate rnd pow num x y z = .ok n ∧
      rsmEvaluate rnd pow den x y z = .ok d ∧ ∀ scale off : ℝ, |scale| ≤ 2 ^ 40 → |off| ≤ 2 ^ 40 →
        d ≠ 0 ∧ value den x y z ≠ 0 ∧ |rnd (rnd (rnd (n / d) * scale) + off) - (off + scale * (value num x y z / value den x y z))| ≤
          (468 * κ ^ 2 * |scale| + 2 * |off|) / 2 ^ 53 + 1 / 2 ^ 100 := by
    intro num den ht
    obtain ⟨n, en, n1, n2⟩ := rsm_polynomial_rounding hr hp num ht.complete.1 x y z (le_trans bx hb) (le_trans by' hb) (le_trans bz hb)
    obtain ⟨d, ed, d1, d2⟩ := rsm_polynomial_rounding hr hp den ht.complete.2 x y z (le_trans bx hb) (le_trans by' hb) (le_trans bz hb)
    obtain ⟨c1, c2, c3⟩ := ht.condition x y z bx by' bz
    exact ⟨n, d, en, ed, fun scale off h1 h2 => by
      have := pixel_err hr n1 n2 d1 d2 c1 c2 c3 hκ (by norm_num) (by norm_num) h1 h2
      rwa [show (2 * 226 + 16 : ℝ) = 468 by norm_num] at this⟩
  obtain ⟨n1, d1, en1, ed1, q1⟩ := quotient _ _ hcol
  obtain ⟨n2, d2, en2, ed2, q2⟩ := quotient _ _ hrow
  obtain ⟨z1, w1, k1⟩ := q1 m.colScale m.colOff (himage _ (by simp)) (himage _ (by simp))
  obtain ⟨z2, w2, k2⟩ := q2 m.rowScale m.rowOff (himage _ (by simp)) (himage _ (by simp))
  refine ⟨(rnd (rnd (rnd (n1 / d1) * m.colScale) + m.colOff), rnd (rnd (rnd (n2 / d2) * m.rowScale) + m.rowOff)),
    ![x * m.xScale + m.xOff, y * m.yScale + m.yOff, z * m.zScale + m.zOff], _, ?_,
    ⟨x, y, z, rfl, rfl, rfl, w1, w2, rfl⟩, dx, dy, dz, k1, k2⟩
  unfold rsmDomainToImage
  rw [ex, ey, ez]
  simp only [bind, Except.bind, en1, ed1, en2, ed2, raise, Verif.Rounded.npDiv, if_neg z1, if_neg z2]
  rfl

theorem evaluate_value {p : RsmPoly ℝ} (hc : Complete p) (x y z : ℝ) : p.evaluate x y z = .ok (value p x y z) := by
  refine Verif.Props.Rsm.evaluate_inOrder p (coefficient p) ?_ x y z
  intro i j k hi hj hk
  have hl := hc.length
  unfold coefficient
  generalize (p.px + 1).toNat = nx at *
  generalize (p.py + 1).toNat = ny at *
  generalize (p.pz + 1).toNat = nz at *
  have hlt : i + nx * (j + ny * k) < p.coefficients.length := by
    rw [hl]
    have h1 : j + ny * k + 1 ≤ ny * nz := by nlinarith
    have h2 : nx * (j + ny * k + 1) ≤ nx * (ny * nz) := Nat.mul_le_mul_left _ h1
    nlinarith
  simp [List.getD, List.getElem?_eq_getElem hlt]

/-- **C133**: for images of up to a quarter of a million rows and columns and condition numbers up to 16, the result in
doubles is within a hundred thousandth of a pixel of the result of the exact model for such a ground domain coordinate. -/
theorem rsm_rounding_pixels {rnd : ℝ → ℝ} (hr : Rounds rnd) {pow : ℝ → Nat → ℝ} (hp : PowRounds pow) (m : PolyModel) (b : ℝ) (hb : b ≤ 4)
    (hcol : RsmTame m.colNum m.colDen b 16) (hrow : RsmTame m.rowNum m.rowDen b 16)
    (hsize : ∀ x, x = m.rowScale ∨ x = m.colScale ∨ x = m.rowOff ∨ x = m.colOff → |x| ≤ 2 ^ 18) (v : Vec)
    (hx : InRange (v 0) m.xOff m.xScale b) (hy : InRange (v 1) m.yOff m.yScale b) (hz : InRange (v 2) m.zOff m.zScale b) :
    ∃ q v' q', rsmDomainToImage rnd pow m v = .ok q ∧ m.domainToImage v' = .ok q' ∧
      |v' 0 - v 0| ≤ (2 * (|v 0| + |m.xOff|) + 1) / 2 ^ 53 ∧ |v' 1 - v 1| ≤ (2 * (|v 1| + |m.yOff|) + 1) / 2 ^ 53 ∧
      |v' 2 - v 2| ≤ (2 * (|v 2| + |m.zOff|) + 1) / 2 ^ 53 ∧ |q.1 - q'.1| ≤ 1 / 100000 ∧ |q.2 - q'.2| ≤ 1 / 100000 := by
  obtain ⟨q, v', q', e, ⟨x, y, z, x1, x2, x3, d1, d2, rfl⟩, l1, l2, l3, k1, k2⟩ :=
    rsm_rounding hr hp m b 16 hb (by norm_num) hcol hrow (fun x h => le_trans (hsize x h) (by norm_num)) v hx hy hz
  have bound : ∀ {s o : ℝ}, |s| ≤ 2 ^ 18 → |o| ≤ 2 ^ 18 → (468 * 16 ^ 2 * |s| + 2 * |o|) / 2 ^ 53 + 1 / 2 ^ 100 ≤ 1 / 100000 := by
    intro s o h1 h2
    have : (468 * 16 ^ 2 * |s| + 2 * |o|) / 2 ^ 53 ≤ (468 * 16 ^ 2 * 2 ^ 18 + 2 * 2 ^ 18) / 2 ^ 53 :=
      div_le_div_of_nonneg_right (by linarith) (by positivity)
    refine le_trans (add_le_add_left this _) (by norm_num)
  have nz : ∀ {v off s : ℝ}, InRange v off s b → s ≠ 0 := fun h => abs_pos.mp (lt_of_lt_of_le (by positivity) h.scale_min)
  refine ⟨q, v', _, e, ?_, l1, l2, l3, le_trans k1 (bound ?_ ?_), le_trans k2 (bound ?_ ?_)⟩
  · have e1 : (v' 0 - m.xOff) / m.xScale = x := by rw [div_eq_iff (nz hx)]; linarith
    have e2 : (v' 1 - m.yOff) / m.yScale = y := by rw [div_eq_iff (nz hy)]; linarith
    have e3 : (v' 2 - m.zOff) / m.zScale = z := by rw [div_eq_iff (nz hz)]; linarith
    have hn : m.normalizeWorld v' = .ok ![x, y, z] := by
      simp only [PolyModel.normalizeWorld, Verif.Rsm.norm1, Verif.Rpc.npDiv, if_neg (nz hx), if_neg (nz hy), if_neg (nz hz), e1, e2, e3]
      rfl
    simp only [PolyModel.domainToImage, hn, raise, bind, Except.bind, Matrix.cons_val_zero, Matrix.cons_val_one, Matrix.cons_val,
      evaluate_value hcol.complete.1, evaluate_value hcol.complete.2, evaluate_value hrow.complete.1, evaluate_value hrow.complete.2,
      Verif.Rpc.npDiv, if_neg d1, if_neg d2]
    show Except.ok _ = _
    simp only [PolyModel.denormalizeImage, Verif.Rsm.denorm1]
    congr 2 <;> ring
  all_goals exact hsize _ (by simp)

/-- An RSM model of an image of 2000 by 2000 pixels. -/
noncomputable def sampleRsm : PolyModel :=
  { domain := Verif.Props.RsmModel.easternDomain .geodetic, rowSection := 1, colSection := 1, rowOff := 1000, colOff := 1000, xOff := 3 / 2,
    yOff := 1 / 2, zOff := 100, rowScale := 1000, colScale := 1000, xScale := 1 / 100, yScale := 1 / 100, zScale := 500,
    rowNum := ⟨0, 2, 0, [0, -1, 1 / 50]⟩, rowDen := ⟨0, 1, 0, [1, 1 / 100]⟩, colNum := ⟨1, 0, 1, [0, 1, 1 / 30, 1 / 1000]⟩,
    colDen := ⟨1, 0, 0, [1, 1 / 64]⟩ }

theorem power_rounds : PowRounds (fun x i => double (x ^ i)) := by
  refine ⟨fun x i _ => le_trans (double_err _) ?_⟩
  have : |x ^ i| / 2 ^ 53 ≤ |x ^ i| / 2 ^ 52 := div_le_div_of_nonneg_left (abs_nonneg _) (by positivity) (by norm_num)
  linarith

/-- The hypotheses are met for binary64 arithmetic and that model. -/
example : Rounds double ∧ PowRounds (fun x i => double (x ^ i)) ∧ RsmTame sampleRsm.colNum sampleRsm.colDen 2 16 ∧
    RsmTame sampleRsm.rowNum sampleRsm.rowDen 2 16 ∧
    (∀ x, x = sampleRsm.rowScale ∨ x = sampleRsm.colScale ∨ x = sampleRsm.rowOff ∨ x = sampleRsm.colOff → |x| ≤ 2 ^ 18) ∧
    InRange 1.51 sampleRsm.xOff sampleRsm.xScale 2 ∧ InRange 0.495 sampleRsm.yOff sampleRsm.yScale 2 ∧
    InRange 312 sampleRsm.zOff sampleRsm.zScale 2 := by
  have key : ∀ x y a : ℝ, |x| ≤ 2 → a = 1 + y * x → 0 ≤ y → y ≤ 1 / 4 → 1 / 2 ≤ |a| := by
    intro x y a hx ha h0 h1
    have h2 := abs_le.mp hx
    rw [ha, abs_of_pos] <;> nlinarith
  refine ⟨double_rounds, power_rounds, ⟨⟨⟨?_, rfl, ?_⟩, ⟨?_, rfl, ?_⟩⟩, ?_⟩, ⟨⟨⟨?_, rfl, ?_⟩, ⟨?_, rfl, ?_⟩⟩, ?_⟩, ?_, ?_, ?_, ?_⟩
  · simp [sampleRsm]
  · intro a ha
    simp only [sampleRsm, List.mem_cons, List.not_mem_nil, or_false] at ha
    rcases ha with h | h | h | h <;> rw [h] <;> norm_num
  · simp [sampleRsm]
  · intro a ha
    simp only [sampleRsm, List.mem_cons, List.not_mem_nil, or_false] at ha
    rcases ha with h | h <;> rw [h] <;> norm_num
  · intro x y z hx hy hz
    have e1 : value sampleRsm.colDen x y z = 1 + 1 / 64 * x := by
      simp [sampleRsm, value, triple, coefficient, Finset.sum_range_succ]
    have e2 : rsmMagnitude sampleRsm.colNum x y z = |x| + 1 / 30 * |z| + 1 / 1000 * (|x| * |z|) := by
      simp [sampleRsm, rsmMagnitude, triple, coefficient, Finset.sum_range_succ]; ring
    have e3 : rsmMagnitude sampleRsm.colDen x y z = 1 + 1 / 64 * |x| := by
      simp [sampleRsm, rsmMagnitude, triple, coefficient, Finset.sum_range_succ]
    have := key x (1 / 64) _ hx e1 (by norm_num) (by norm_num)
    rw [e2, e3]
    have m : |x| * |z| ≤ 2 * 2 := mul_le_mul hx hz (abs_nonneg _) (by norm_num)
    refine ⟨by linarith, by linarith, le_trans (by norm_num) this⟩
  · simp [sampleRsm]
  · intro a ha
    simp only [sampleRsm, List.mem_cons, List.not_mem_nil, or_false] at ha
    rcases ha with h | h | h <;> rw [h] <;> norm_num
  · simp [sampleRsm]
  · intro a ha
    simp only [sampleRsm, List.mem_cons, List.not_mem_nil, or_false] at ha
    rcases ha with h | h <;> rw [h] <;> norm_num
  · intro x y z hx hy hz
    have e1 : value sampleRsm.rowDen x y z = 1 + 1 / 100 * y := by
      simp [sampleRsm, value, triple, coefficient, Finset.sum_range_succ]
    have e2 : rsmMagnitude sampleRsm.rowNum x y z = |y| + 1 / 50 * |y| ^ 2 := by
      simp [sampleRsm, rsmMagnitude, triple, coefficient, Finset.sum_range_succ]
    have e3 : rsmMagnitude sampleRsm.rowDen x y z = 1 + 1 / 100 * |y| := by
      simp [sampleRsm, rsmMagnitude, triple, coefficient, Finset.sum_range_succ]
    have := key y (1 / 100) _ hy e1 (by norm_num) (by norm_num)
    rw [e2, e3]
    have m : |y| ^ 2 ≤ 2 ^ 2 := pow_le_pow_left₀ (abs_nonneg _) hy 2
    refine ⟨by linarith, by linarith, le_trans (by norm_num) this⟩
  · rintro x (rfl | rfl | rfl | rfl) <;> simp only [sampleRsm] <;> norm_num
  all_goals constructor <;> simp only [sampleRsm] <;> norm_num

end Verif.Props.RoundedRsm
