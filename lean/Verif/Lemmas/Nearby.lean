import Mathlib.Topology.MetricSpace.Contracting
import Mathlib.Analysis.Real.Sqrt
import Mathlib.Tactic.LinearCombination
import Mathlib.Tactic.Linarith
import Mathlib.Tactic.FieldSimp

/-!
# Lemmas about rational functions that are close to linear ones
-/

namespace Verif.Lemmas.Nearby

/-! ## How much monomials change -/

theorem pow_change {x y b : ℝ} (hx : |x| ≤ b) (hy : |y| ≤ b) (n : ℕ) : |x ^ n - y ^ n| ≤ n * b ^ (n - 1) * |x - y| := by
  have b0 : 0 ≤ b := le_trans (abs_nonneg _) hx
  induction n with
  | zero => simp
  | succ n ih =>
    have e : x ^ (n + 1) - y ^ (n + 1) = x ^ n * (x - y) + (x ^ n - y ^ n) * y := by ring
    have h1 : |x ^ n| ≤ b ^ n := by rw [abs_pow]; exact pow_le_pow_left₀ (abs_nonneg _) hx n
    have t := abs_add_le (x ^ n * (x - y)) ((x ^ n - y ^ n) * y)
    rw [← e, abs_mul, abs_mul] at t
    have h2 := mul_le_mul_of_nonneg_right h1 (abs_nonneg (x - y))
    have h3 := mul_le_mul ih hy (abs_nonneg _) (by positivity)
    have h4 : (n * b ^ (n - 1) * |x - y|) * b = n * b ^ n * |x - y| := by
      cases n with
      | zero => simp
      | succ k => rw [Nat.add_sub_cancel]; ring
    have h5 : ((n + 1 : ℕ) : ℝ) * b ^ (n + 1 - 1) * |x - y| = b ^ n * |x - y| + n * b ^ n * |x - y| := by
      rw [Nat.add_sub_cancel]; push_cast; ring
    rw [h5]; linarith

theorem monomial_change {l p h l' p' h' b s d : ℝ} (hl : |l| ≤ b) (hp : |p| ≤ b) (hh : |h| ≤ b) (hl' : |l'| ≤ b) (hp' : |p'| ≤ b)
    (hh' : |h'| ≤ b) (dl : |l - l'| ≤ d) (dp : |p - p'| ≤ d) (dh : |h - h'| ≤ s * d) (i j k : ℕ) :
    |l ^ i * p ^ j * h ^ k - l' ^ i * p' ^ j * h' ^ k| ≤ (i + j + s * k) * b ^ (i + j + k - 1) * d := by
  have b0 : 0 ≤ b := le_trans (abs_nonneg _) hl
  have d0 : 0 ≤ d := le_trans (abs_nonneg _) dl
  have sd : 0 ≤ s * d := le_trans (abs_nonneg _) dh
  have pw : ∀ {x : ℝ} (n : ℕ), |x| ≤ b → |x ^ n| ≤ b ^ n := by
    intro x n hx; rw [abs_pow]; exact pow_le_pow_left₀ (abs_nonneg _) hx n
  have e : l ^ i * p ^ j * h ^ k - l' ^ i * p' ^ j * h' ^ k
      = (l ^ i - l' ^ i) * p ^ j * h ^ k + (l' ^ i * (p ^ j - p' ^ j) * h ^ k + l' ^ i * p' ^ j * (h ^ k - h' ^ k)) := by ring
  have c1 : |(l ^ i - l' ^ i) * p ^ j * h ^ k| ≤ i * b ^ (i - 1) * d * b ^ j * b ^ k := by
    rw [abs_mul, abs_mul]
    refine mul_le_mul (mul_le_mul (le_trans (pow_change hl hl' i) ?_) (pw j hp) (abs_nonneg _) (by positivity)) (pw k hh) (abs_nonneg _) (by positivity)
    exact mul_le_mul_of_nonneg_left dl (by positivity)
  have c2 : |l' ^ i * (p ^ j - p' ^ j) * h ^ k| ≤ b ^ i * (j * b ^ (j - 1) * d) * b ^ k := by
    rw [abs_mul, abs_mul]
    refine mul_le_mul (mul_le_mul (pw i hl') (le_trans (pow_change hp hp' j) ?_) (abs_nonneg _) (by positivity)) (pw k hh) (abs_nonneg _) (by positivity)
    exact mul_le_mul_of_nonneg_left dp (by positivity)
  have c3 : |l' ^ i * p' ^ j * (h ^ k - h' ^ k)| ≤ b ^ i * b ^ j * (k * b ^ (k - 1) * (s * d)) := by
    rw [abs_mul, abs_mul]
    refine mul_le_mul (mul_le_mul (pw i hl') (pw j hp') (abs_nonneg _) (by positivity)) (le_trans (pow_change hh hh' k) ?_) (abs_nonneg _) (by positivity)
    exact mul_le_mul_of_nonneg_left dh (by positivity)
  have f1 : (i:ℝ) * b ^ (i - 1) * d * b ^ j * b ^ k = i * b ^ (i + j + k - 1) * d := by
    cases i with
    | zero => simp
    | succ n =>
      have : n + 1 + j + k - 1 = n + j + k := by omega
      rw [this, Nat.add_sub_cancel, pow_add, pow_add]; ring
  have f2 : b ^ i * ((j:ℝ) * b ^ (j - 1) * d) * b ^ k = j * b ^ (i + j + k - 1) * d := by
    cases j with
    | zero => simp
    | succ n =>
      have : i + (n + 1) + k - 1 = i + n + k := by omega
      rw [this, Nat.add_sub_cancel, pow_add, pow_add]; ring
  have f3 : b ^ i * b ^ j * ((k:ℝ) * b ^ (k - 1) * (s * d)) = s * k * b ^ (i + j + k - 1) * d := by
    cases k with
    | zero => simp
    | succ n =>
      have : i + j + (n + 1) - 1 = i + j + n := by omega
      rw [this, Nat.add_sub_cancel, pow_add, pow_add]; ring
  rw [f1] at c1
  rw [f2] at c2
  rw [f3] at c3
  rw [e]
  have t1 := abs_add_le ((l ^ i - l' ^ i) * p ^ j * h ^ k) (l' ^ i * (p ^ j - p' ^ j) * h ^ k + l' ^ i * p' ^ j * (h ^ k - h' ^ k))
  have t2 := abs_add_le (l' ^ i * (p ^ j - p' ^ j) * h ^ k) (l' ^ i * p' ^ j * (h ^ k - h' ^ k))
  have : ((i:ℝ) + j + s * k) * b ^ (i + j + k - 1) * d
      = i * b ^ (i + j + k - 1) * d + j * b ^ (i + j + k - 1) * d + s * k * b ^ (i + j + k - 1) * d := by ring
  linarith

/-- Points of the box at most `d` apart, with heights at most `s d` apart. -/
structure Close (b s d l p h l' p' h' : ℝ) : Prop where
  hl : |l| ≤ b
  hp : |p| ≤ b
  hh : |h| ≤ b
  hl' : |l'| ≤ b
  hp' : |p'| ≤ b
  hh' : |h'| ≤ b
  dl : |l - l'| ≤ d
  dp : |p - p'| ≤ d
  dh : |h - h'| ≤ s * d

/-- Solving for the linear terms. -/
theorem solve {a c a' c' σ : ℝ} (hσ : 0 < σ) (h : ∀ l p, σ * max |l| |p| ≤ max |a * l + c * p| |a' * l + c' * p|) (u v : ℝ) :
    ∃ l p, a * l + c * p = u ∧ a' * l + c' * p = v := by
  have det : a * c' - c * a' ≠ 0 := by
    intro h0
    have zero : ∀ l p, a * l + c * p = 0 → a' * l + c' * p = 0 → l = 0 ∧ p = 0 := by
      intro l p h1 h2
      have := h l p
      rw [h1, h2, abs_zero, max_self] at this
      have m0 : max |l| |p| ≤ 0 := by
        by_contra hn
        push Not at hn
        have := mul_pos hσ hn
        linarith
      exact ⟨abs_eq_zero.mp (le_antisymm (le_trans (le_max_left _ _) m0) (abs_nonneg _)),
        abs_eq_zero.mp (le_antisymm (le_trans (le_max_right _ _) m0) (abs_nonneg _))⟩
    obtain ⟨h1, h2⟩ := zero c' (-a') (by linarith) (by ring)
    obtain ⟨h3, h4⟩ := zero c (-a) (by ring) (by linarith)
    have ha : a = 0 := by linarith
    have ha' : a' = 0 := by linarith
    have := zero 1 0 (by rw [ha]; ring) (by rw [ha']; ring)
    linarith [this.1]
  refine ⟨(c' * u - c * v) / (a * c' - c * a'), (a * v - a' * u) / (a * c' - c * a'), ?_, ?_⟩
  · rw [mul_div_assoc', mul_div_assoc', ← add_div, div_eq_iff det]; ring
  · rw [mul_div_assoc', mul_div_assoc', ← add_div, div_eq_iff det]; ring

/-- A rational function whose numerator is `a l + c p` and a rest that changes by at most `vn` per unit, whose denominator changes by at most
`vd` per unit. -/
structure Rational (num den : ℝ → ℝ → ℝ → ℝ) (a c vn vd b s steep q most gain : ℝ) : Prop where
  rest : ∀ {d l p h l' p' h'}, Close b s d l p h l' p' h' →
    |(num l p h - (a * l + c * p)) - (num l' p' h' - (a * l' + c * p'))| ≤ vn * d
  change : ∀ {d l p h l' p' h'}, Close b s d l p h l' p' h' → |den l p h - den l' p' h'| ≤ vd * d
  den_ne : ∀ l p h, |l| ≤ b → |p| ≤ b → |h| ≤ b → den l p h ≠ 0
  den_le : ∀ l p h, |l| ≤ b → |p| ≤ b → |h| ≤ b → |den l p h| ≤ most
  quotient : ∀ l p h, |l| ≤ b → |p| ≤ b → |h| ≤ b → |num l p h / den l p h| ≤ q
  slack : gain + vn + q * vd ≤ steep

/-- One rational function at two points. -/
theorem quotient_gap {num den : ℝ → ℝ → ℝ → ℝ} {a c vn vd b s steep q most gain : ℝ} (B : Rational num den a c vn vd b s steep q most gain)
    {d l p h l' p' h' : ℝ} (H : Close b s d l p h l' p' h') :
    |a * (l - l') + c * (p - p')| ≤ most * |num l p h / den l p h - num l' p' h' / den l' p' h'| + (steep - gain) * d := by
  have d0 : 0 ≤ d := le_trans (abs_nonneg _) H.dl
  have n0 := B.den_ne l p h H.hl H.hp H.hh
  have n1 := B.den_ne l' p' h' H.hl' H.hp' H.hh'
  have m0 := B.den_le l p h H.hl H.hp H.hh
  have k := B.quotient l' p' h' H.hl' H.hp' H.hh'
  have v1 := B.rest H
  have v2 := B.change H
  set N := num l p h
  set N' := num l' p' h'
  set D := den l p h
  set D' := den l' p' h'
  have key : a * (l - l') + c * (p - p')
      = (N / D - N' / D') * D + ((N' / D') * (D - D') - ((N - (a * l + c * p)) - (N' - (a * l' + c * p')))) := by
    have a1 : N / D * D = N := div_mul_cancel₀ _ n0
    have a2 : N' / D' * D' = N' := div_mul_cancel₀ _ n1
    linear_combination a1 * (-1) + a2
  rw [key]
  refine le_trans (abs_add_le _ _) (add_le_add ?_ (le_trans (abs_sub _ _) ?_))
  · rw [abs_mul, mul_comm most]
    exact mul_le_mul_of_nonneg_left m0 (abs_nonneg _)
  · rw [abs_mul]
    have q0 : 0 ≤ q := le_trans (abs_nonneg _) k
    have := mul_le_mul k v2 (abs_nonneg _) q0
    have sl := mul_le_mul_of_nonneg_right B.slack d0
    have : (steep - gain) * d = steep * d - gain * d := by ring
    have : (gain + vn + q * vd) * d = gain * d + vn * d + q * (vd * d) := by ring
    linarith

/-- Two rational functions on a surface. -/
structure Camera (n1 d1 n2 d2 : ℝ → ℝ → ℝ → ℝ) (a1 c1 a2 c2 vn1 vd1 vn2 vd2 b s steep q most gain : ℝ) (height : ℝ → ℝ → ℝ) : Prop where
  first : Rational n1 d1 a1 c1 vn1 vd1 b s steep q most gain
  second : Rational n2 d2 a2 c2 vn2 vd2 b s steep q most gain
  nonneg : 0 ≤ vn1 ∧ 0 ≤ vd1
  positive : 0 < b ∧ 0 ≤ s ∧ 0 < gain
  regular : ∀ l p, steep * max |l| |p| ≤ max |a1 * l + c1 * p| |a2 * l + c2 * p|
  inside : ∀ l p, |l| ≤ b → |p| ≤ b → |height l p| ≤ b
  gentle : ∀ l p l' p', |l| ≤ b → |p| ≤ b → |l'| ≤ b → |p'| ≤ b → |height l p - height l' p'| ≤ s * max |l - l'| |p - p'|

section
variable {n1 d1 n2 d2 : ℝ → ℝ → ℝ → ℝ} {a1 c1 a2 c2 vn1 vd1 vn2 vd2 b s steep q most gain : ℝ} {height : ℝ → ℝ → ℝ}

theorem Camera.most_nonneg (C : Camera n1 d1 n2 d2 a1 c1 a2 c2 vn1 vd1 vn2 vd2 b s steep q most gain height) : 0 ≤ most :=
  le_trans (abs_nonneg _) (C.first.den_le 0 0 0 (by simpa using C.positive.1.le) (by simpa using C.positive.1.le) (by simpa using C.positive.1.le))

theorem Camera.close (C : Camera n1 d1 n2 d2 a1 c1 a2 c2 vn1 vd1 vn2 vd2 b s steep q most gain height) {l p l' p' : ℝ} (hl : |l| ≤ b) (hp : |p| ≤ b)
    (hl' : |l'| ≤ b) (hp' : |p'| ≤ b) : Close b s (max |l - l'| |p - p'|) l p (height l p) l' p' (height l' p') :=
  ⟨hl, hp, C.inside l p hl hp, hl', hp', C.inside l' p' hl' hp', le_max_left _ _, le_max_right _ _, C.gentle l p l' p' hl hp hl' hp'⟩

theorem Camera.separates (C : Camera n1 d1 n2 d2 a1 c1 a2 c2 vn1 vd1 vn2 vd2 b s steep q most gain height) {l p l' p' : ℝ} (hl : |l| ≤ b)
    (hp : |p| ≤ b) (hl' : |l'| ≤ b) (hp' : |p'| ≤ b) :
    gain * max |l - l'| |p - p'| ≤
      most * max |n1 l p (height l p) / d1 l p (height l p) - n1 l' p' (height l' p') / d1 l' p' (height l' p')|
        |n2 l p (height l p) / d2 l p (height l p) - n2 l' p' (height l' p') / d2 l' p' (height l' p')| := by
  have H := C.close hl hp hl' hp'
  have g1 := quotient_gap C.first H
  have g2 := quotient_gap C.second H
  have reg := C.regular (l - l') (p - p')
  rw [mul_max_of_nonneg _ _ C.most_nonneg]
  rcases le_max_iff.mp reg with h | h
  · exact le_trans (by linarith) (le_max_left _ _)
  · exact le_trans (by linarith) (le_max_right _ _)

/-- Pixels with the quotients `t1`, `t2` have exactly one place in the box. -/
theorem Camera.one_place (C : Camera n1 d1 n2 d2 a1 c1 a2 c2 vn1 vd1 vn2 vd2 b s steep q most gain height) {t1 t2 : ℝ} (ht1 : |t1| ≤ q)
    (ht2 : |t2| ≤ q) (r1 : |n1 0 0 (height 0 0) - t1 * d1 0 0 (height 0 0)| ≤ gain * b) (r2 : |n2 0 0 (height 0 0) - t2 * d2 0 0 (height 0 0)| ≤ gain * b) :
    ∃! u : ℝ × ℝ, (|u.1| ≤ b ∧ |u.2| ≤ b) ∧ n1 u.1 u.2 (height u.1 u.2) / d1 u.1 u.2 (height u.1 u.2) = t1 ∧
      n2 u.1 u.2 (height u.1 u.2) / d2 u.1 u.2 (height u.1 u.2) = t2 := by
  obtain ⟨b0, s0, g0⟩ := C.positive
  have z0 : |(0:ℝ)| ≤ b := by simpa using b0.le
  have q0 : 0 ≤ q := le_trans (abs_nonneg _) ht1
  have gs : gain ≤ steep := by
    have := C.first.slack
    have := C.nonneg.1
    have := mul_nonneg q0 C.nonneg.2
    linarith
  have steep0 : 0 < steep := by linarith
  -- what is left of `num - t den` without its linear terms
  let rest := fun (num den : ℝ → ℝ → ℝ → ℝ) (a c t : ℝ) (u : ℝ × ℝ) =>
    num u.1 u.2 (height u.1 u.2) - (a * u.1 + c * u.2) - t * den u.1 u.2 (height u.1 u.2)
  have rest_change : ∀ {num den : ℝ → ℝ → ℝ → ℝ} {a c vn vd t : ℝ}, Rational num den a c vn vd b s steep q most gain → |t| ≤ q →
      ∀ u v : ℝ × ℝ, |u.1| ≤ b → |u.2| ≤ b → |v.1| ≤ b → |v.2| ≤ b →
      |rest num den a c t u - rest num den a c t v| ≤ (steep - gain) * max |u.1 - v.1| |u.2 - v.2| := by
    intro num den a c vn vd t B ht u v u1 u2 v1 v2
    have K := C.close u1 u2 v1 v2
    set d := max |u.1 - v.1| |u.2 - v.2|
    have d0 : 0 ≤ d := le_trans (abs_nonneg _) K.dl
    have e1 := B.rest K
    have e2 := B.change K
    have e3 : rest num den a c t u - rest num den a c t v
        = ((num u.1 u.2 (height u.1 u.2) - (a * u.1 + c * u.2)) - (num v.1 v.2 (height v.1 v.2) - (a * v.1 + c * v.2)))
          - t * (den u.1 u.2 (height u.1 u.2) - den v.1 v.2 (height v.1 v.2)) := by simp only [rest]; ring
    rw [e3]
    refine le_trans (abs_sub _ _) ?_
    rw [abs_mul]
    have c3 := mul_le_mul ht e2 (abs_nonneg _) q0
    have sl := mul_le_mul_of_nonneg_right B.slack d0
    have : (gain + vn + q * vd) * d = gain * d + vn * d + q * (vd * d) := by ring
    have : (steep - gain) * d = steep * d - gain * d := by ring
    linarith
  -- one step of the iteration
  have step : ∀ u : ℝ × ℝ, ∃ w : ℝ × ℝ, a1 * w.1 + c1 * w.2 = -rest n1 d1 a1 c1 t1 u ∧ a2 * w.1 + c2 * w.2 = -rest n2 d2 a2 c2 t2 u := by
    intro u
    obtain ⟨l, p, h1, h2⟩ := solve steep0 C.regular (-rest n1 d1 a1 c1 t1 u) (-rest n2 d2 a2 c2 t2 u)
    exact ⟨(l, p), h1, h2⟩
  choose T hT1 hT2 using step
  have T_change : ∀ u v : ℝ × ℝ, |u.1| ≤ b → |u.2| ≤ b → |v.1| ≤ b → |v.2| ≤ b →
      steep * max |(T u).1 - (T v).1| |(T u).2 - (T v).2| ≤ (steep - gain) * max |u.1 - v.1| |u.2 - v.2| := by
    intro u v u1 u2 v1 v2
    refine le_trans (C.regular _ _) ?_
    have f1 : a1 * ((T u).1 - (T v).1) + c1 * ((T u).2 - (T v).2) = -(rest n1 d1 a1 c1 t1 u - rest n1 d1 a1 c1 t1 v) := by
      linear_combination hT1 u - hT1 v
    have f2 : a2 * ((T u).1 - (T v).1) + c2 * ((T u).2 - (T v).2) = -(rest n2 d2 a2 c2 t2 u - rest n2 d2 a2 c2 t2 v) := by
      linear_combination hT2 u - hT2 v
    rw [f1, f2, abs_neg, abs_neg]
    exact max_le (rest_change C.first ht1 u v u1 u2 v1 v2) (rest_change C.second ht2 u v u1 u2 v1 v2)
  have T_zero : steep * max |(T (0, 0)).1| |(T (0, 0)).2| ≤ gain * b := by
    refine le_trans (C.regular _ _) ?_
    rw [hT1, hT2, abs_neg, abs_neg]
    have e : ∀ (num den : ℝ → ℝ → ℝ → ℝ) (a c t : ℝ), rest num den a c t (0, 0) = num 0 0 (height 0 0) - t * den 0 0 (height 0 0) := by
      intro num den a c t; simp only [rest]; ring
    rw [e, e]
    exact max_le r1 r2
  -- the box is mapped into itself
  have T_box : ∀ u : ℝ × ℝ, |u.1| ≤ b → |u.2| ≤ b → |(T u).1| ≤ b ∧ |(T u).2| ≤ b := by
    intro u u1 u2
    have c := T_change u (0, 0) u1 u2 z0 z0
    simp only [sub_zero] at c
    have mb : max |u.1| |u.2| ≤ b := max_le u1 u2
    have c' := le_trans c (mul_le_mul_of_nonneg_left mb (show 0 ≤ steep - gain by linarith))
    have a1 := abs_add_le ((T u).1 - (T (0, 0)).1) (T (0, 0)).1
    have a2 := abs_add_le ((T u).2 - (T (0, 0)).2) (T (0, 0)).2
    rw [sub_add_cancel] at a1 a2
    have f1 := mul_le_mul_of_nonneg_left (le_max_left |(T u).1 - (T (0, 0)).1| |(T u).2 - (T (0, 0)).2|) steep0.le
    have f2 := mul_le_mul_of_nonneg_left (le_max_right |(T u).1 - (T (0, 0)).1| |(T u).2 - (T (0, 0)).2|) steep0.le
    have f3 := mul_le_mul_of_nonneg_left (le_max_left |(T (0, 0)).1| |(T (0, 0)).2|) steep0.le
    have f4 := mul_le_mul_of_nonneg_left (le_max_right |(T (0, 0)).1| |(T (0, 0)).2|) steep0.le
    have k1 := mul_le_mul_of_nonneg_left a1 steep0.le
    have k2 := mul_le_mul_of_nonneg_left a2 steep0.le
    rw [mul_add] at k1 k2
    have : (steep - gain) * b + gain * b = steep * b := by ring
    exact ⟨le_of_mul_le_mul_left (by linarith) steep0, le_of_mul_le_mul_left (by linarith) steep0⟩
  have inside : ∀ u : ℝ × ℝ, u ∈ Metric.closedBall ((0, 0) : ℝ × ℝ) b ↔ |u.1| ≤ b ∧ |u.2| ≤ b := by
    intro u
    rw [Metric.mem_closedBall, Prod.dist_eq, max_le_iff, Real.dist_eq, Real.dist_eq, sub_zero, sub_zero]
  have maps : Set.MapsTo T (Metric.closedBall ((0, 0) : ℝ × ℝ) b) (Metric.closedBall ((0, 0) : ℝ × ℝ) b) := by
    intro u hu
    rw [inside] at hu ⊢
    exact T_box u hu.1 hu.2
  have ratio : 0 ≤ (steep - gain) / steep := div_nonneg (by linarith) steep0.le
  have contr : ContractingWith ⟨(steep - gain) / steep, ratio⟩ (maps.restrict T _ _) := by
    refine ⟨?_, LipschitzWith.of_dist_le_mul ?_⟩
    · refine (show ((steep - gain) / steep : ℝ) < 1 from ?_)
      rw [div_lt_one steep0]; linarith
    · rintro ⟨u, hu⟩ ⟨v, hv⟩
      have hu' := (inside u).mp hu
      have hv' := (inside v).mp hv
      have c := T_change u v hu'.1 hu'.2 hv'.1 hv'.2
      simp only [Subtype.dist_eq, Set.MapsTo.val_restrict_apply, Prod.dist_eq, Real.dist_eq]
      show max |(T u).1 - (T v).1| |(T u).2 - (T v).2| ≤ (steep - gain) / steep * max |u.1 - v.1| |u.2 - v.2|
      rw [div_mul_eq_mul_div, le_div_iff₀ steep0, mul_comm]
      exact c
  obtain ⟨u, hu, fix, _⟩ := ContractingWith.exists_fixedPoint' Metric.isClosed_closedBall.isComplete maps contr
    (x := (0, 0)) (Metric.mem_closedBall_self b0.le) (edist_ne_top _ _)
  have hu' := (inside u).mp hu
  have f : T u = u := fix
  have h1 := hT1 u
  have h2 := hT2 u
  rw [f] at h1 h2
  have hh := C.inside _ _ hu'.1 hu'.2
  have e1 : n1 u.1 u.2 (height u.1 u.2) / d1 u.1 u.2 (height u.1 u.2) = t1 := by
    rw [div_eq_iff (C.first.den_ne _ _ _ hu'.1 hu'.2 hh)]; simp only [rest] at h1; linarith
  have e2 : n2 u.1 u.2 (height u.1 u.2) / d2 u.1 u.2 (height u.1 u.2) = t2 := by
    rw [div_eq_iff (C.second.den_ne _ _ _ hu'.1 hu'.2 hh)]; simp only [rest] at h2; linarith
  refine ⟨u, ⟨hu', e1, e2⟩, ?_⟩
  rintro v ⟨⟨v1, v2⟩, k1, k2⟩
  have sep := C.separates v1 v2 hu'.1 hu'.2
  rw [k1, k2, e1, e2, sub_self, sub_self, abs_zero, max_self, mul_zero] at sep
  have m0 : max |v.1 - u.1| |v.2 - u.2| ≤ 0 := by
    by_contra hn
    push Not at hn
    have := mul_pos g0 hn
    linarith
  have w1 := abs_eq_zero.mp (le_antisymm (le_trans (le_max_left _ _) m0) (abs_nonneg _))
  have w2 := abs_eq_zero.mp (le_antisymm (le_trans (le_max_right _ _) m0) (abs_nonneg _))
  exact Prod.ext (by linarith) (by linarith)

end

end Verif.Lemmas.Nearby
