import Mathlib.Tactic.Linarith
import Mathlib.Tactic.Ring
import Mathlib.Tactic.NormNum
import Mathlib.Tactic.Positivity
import Mathlib.Tactic.FieldSimp
import Verif.Model.RoundedSicd
import Verif.Spec.RoundedSicd
import Verif.Lemmas.Sicd

/-!
# Rounding errors of vector operations
-/

namespace Verif.Lemmas.RoundedSicd

open Verif.Sicd
open Verif.Sicd.V3 Verif.RoundedSicd Verif.Spec.Rounded Verif.Spec.RoundedSicd

noncomputable section

/-- The unit roundoff of doubles. -/
def eps : ℝ := 1 / 2 ^ 53

theorem eps_pos : 0 < eps := by unfold eps; positivity
theorem eps_small : eps ≤ 1 / 10 ^ 15 := by unfold eps; norm_num

/-! ## Lengths -/

theorem length_eq (a : V3) : length a = norm a := by
  unfold length V3.norm dot
  congr 1
  ring

theorem dot_sq_le (a b : V3) : dot a b * dot a b ≤ dot a a * dot b b := by
  have h := dot_self_nonneg (cross a b)
  rw [dot_cross_self] at h
  linarith

theorem abs_dot_le (a b : V3) : |dot a b| ≤ norm a * norm b := by
  refine abs_le_of_sq_le_sq ?_ (mul_nonneg (norm_nonneg a) (norm_nonneg b))
  calc dot a b ^ 2 = dot a b * dot a b := by ring
    _ ≤ dot a a * dot b b := dot_sq_le a b
    _ = (norm a * norm b) ^ 2 := by rw [← norm_mul_self a, ← norm_mul_self b]; ring

theorem norm_le_of {a : V3} {X : ℝ} (hX : 0 ≤ X) (h : dot a a ≤ X ^ 2) : norm a ≤ X :=
  Real.sqrt_le_iff.mpr ⟨hX, h⟩

theorem norm_sq (a : V3) : norm a ^ 2 = dot a a := by rw [← norm_mul_self]; ring

theorem norm_add_le (a b : V3) : norm (add a b) ≤ norm a + norm b := by
  refine norm_le_of (add_nonneg (norm_nonneg a) (norm_nonneg b)) ?_
  have h := le_trans (le_abs_self _) (abs_dot_le a b)
  rw [dot_add_left, dot_add_right, dot_add_right, dot_comm b a]
  nlinarith [norm_sq a, norm_sq b]

theorem norm_smul (k : ℝ) (a : V3) : norm (smul k a) = |k| * norm a := by
  unfold V3.norm
  rw [dot_smul_left, dot_smul_right, ← mul_assoc, Real.sqrt_mul (mul_self_nonneg k), Real.sqrt_mul_self_eq_abs]

theorem sub_eq (a b : V3) : sub a b = add a (smul (-1) b) := by ext <;> simp [sub, add, smul] <;> ring

theorem norm_sub_le (a b : V3) : norm (sub a b) ≤ norm a + norm b := by
  have := norm_add_le a (smul (-1) b)
  rw [norm_smul] at this
  rw [sub_eq]
  simpa using this

theorem norm_sub_comm (a b : V3) : norm (sub a b) = norm (sub b a) := by
  unfold V3.norm; congr 1; simp only [dot, sub]; ring

/-- The triangle inequality. -/
theorem tri (a b c : V3) : norm (sub a c) ≤ norm (sub a b) + norm (sub b c) := by
  have := norm_add_le (sub a b) (sub b c)
  have e : add (sub a b) (sub b c) = sub a c := by ext <;> simp [sub, add]
  rwa [e] at this

theorem norm_near (a b : V3) : norm a ≤ norm b + norm (sub a b) := by
  have := norm_add_le b (sub a b)
  have e : add b (sub a b) = a := by ext <;> simp [sub, add]
  rwa [e] at this

theorem norm_cross_le (a b : V3) : norm (cross a b) ≤ norm a * norm b := by
  refine norm_le_of (mul_nonneg (norm_nonneg a) (norm_nonneg b)) ?_
  rw [dot_cross_self, mul_pow, norm_sq, norm_sq]
  nlinarith [mul_self_nonneg (dot a b)]

theorem norm_mono {a b : V3} (hx : |a.x| ≤ b.x) (hy : |a.y| ≤ b.y) (hz : |a.z| ≤ b.z) : norm a ≤ norm b := by
  unfold V3.norm dot
  refine Real.sqrt_le_sqrt ?_
  have q : ∀ s t : ℝ, |s| ≤ t → s * s ≤ t * t := fun s t h => by
    have := mul_self_le_mul_self (abs_nonneg s) h
    rwa [abs_mul_abs_self] at this
  linarith [q _ _ hx, q _ _ hy, q _ _ hz]

theorem absInner3_le (a b : V3) : absInner3 a b ≤ norm a * norm b := by
  have h := abs_dot_le ⟨|a.x|, |a.y|, |a.z|⟩ ⟨|b.x|, |b.y|, |b.z|⟩
  have e : ∀ c : V3, V3.norm ⟨|c.x|, |c.y|, |c.z|⟩ = norm c := fun c => by
    unfold V3.norm dot; simp only [abs_mul_abs_self]
  rw [e, e] at h
  exact le_trans (le_abs_self _) h

/-! ## One operation -/

variable {rnd : ℝ → ℝ} {dot3 : V3 → V3 → ℝ}

theorem near (hr : Rounds rnd) {x X : ℝ} (h : |x| ≤ X) (h1 : 1 / 2 ^ 100 ≤ X) (h2 : X ≤ 2 ^ 250) : |rnd x - x| ≤ 1.001 * eps * X := by
  have := hr.err x (le_trans h h2)
  have a : |x| / 2 ^ 53 ≤ eps * X := by
    unfold eps
    rw [div_eq_mul_one_div, mul_comm]
    exact mul_le_mul_of_nonneg_left h (by positivity)
  have b : (1:ℝ) / 2 ^ 200 ≤ 0.001 * eps * X := by
    have : (1:ℝ) / 2 ^ 200 ≤ 0.001 * eps * (1 / 2 ^ 100) := by unfold eps; norm_num
    exact le_trans this (mul_le_mul_of_nonneg_left h1 (by have := eps_pos; positivity))
  nlinarith

/-- The size of a rounded number. -/
theorem near_size (hr : Rounds rnd) {x X : ℝ} (h : |x| ≤ X) (h1 : 1 / 2 ^ 100 ≤ X) (h2 : X ≤ 2 ^ 250) : |rnd x| ≤ 1.001 * X := by
  have a := near hr h h1 h2
  have b : |rnd x| ≤ |rnd x - x| + |x| := by
    have := abs_add_le (rnd x - x) x
    simpa using this
  have c : 1.001 * eps * X ≤ 0.001 * X := by
    have : (0:ℝ) ≤ X := le_trans (by positivity) h1
    have := eps_small
    nlinarith
  linarith

theorem vnear (hr : Rounds rnd) {a : V3} {X : ℝ} (h : norm a ≤ X) (h1 : 1 / 2 ^ 90 ≤ X) (h2 : X ≤ 2 ^ 250) :
    norm (sub (rv rnd a) a) ≤ 1.001 * eps * X := by
  have comp : |a.x| ≤ norm a ∧ |a.y| ≤ norm a ∧ |a.z| ≤ norm a := by
    refine ⟨?_, ?_, ?_⟩ <;> refine abs_le_of_sq_le_sq ?_ (norm_nonneg a) <;> rw [norm_sq] <;> simp only [dot] <;>
      nlinarith [mul_self_nonneg a.x, mul_self_nonneg a.y, mul_self_nonneg a.z]
  have e1 := hr.err a.x (by linarith [comp.1])
  have e2 := hr.err a.y (by linarith [comp.2.1])
  have e3 := hr.err a.z (by linarith [comp.2.2])
  have m : norm (sub (rv rnd a) a) ≤ norm (add (smul eps ⟨|a.x|, |a.y|, |a.z|⟩) (smul (1 / 2 ^ 200) ⟨1, 1, 1⟩)) := by
    refine norm_mono ?_ ?_ ?_ <;> simp only [sub, rv, add, smul]
    · refine le_trans e1 (le_of_eq ?_); unfold eps; ring
    · refine le_trans e2 (le_of_eq ?_); unfold eps; ring
    · refine le_trans e3 (le_of_eq ?_); unfold eps; ring
  refine le_trans m (le_trans (norm_add_le _ _) ?_)
  rw [norm_smul, norm_smul, abs_of_pos eps_pos, abs_of_pos (by positivity : (0:ℝ) < 1 / 2 ^ 200)]
  have n1 : V3.norm ⟨|a.x|, |a.y|, |a.z|⟩ = norm a := by unfold V3.norm dot; simp only [abs_mul_abs_self]
  have n2 : V3.norm ⟨1, 1, 1⟩ ≤ 2 := norm_le_of (by norm_num) (by simp only [dot]; norm_num)
  rw [n1]
  have b : (1:ℝ) / 2 ^ 200 * 2 ≤ 0.001 * eps * X := by
    have : (1:ℝ) / 2 ^ 200 * 2 ≤ 0.001 * eps * (1 / 2 ^ 90) := by unfold eps; norm_num
    exact le_trans this (mul_le_mul_of_nonneg_left h1 (by have := eps_pos; positivity))
  have c : 1 / 2 ^ 200 * V3.norm ⟨1, 1, 1⟩ ≤ 1 / 2 ^ 200 * 2 := mul_le_mul_of_nonneg_left n2 (by positivity)
  have d := mul_le_mul_of_nonneg_left h eps_pos.le
  linarith

theorem dot3_near (hd : Dot3Rounds dot3) {a b : V3} {A B : ℝ} (ha : norm a ≤ A) (hb : norm b ≤ B) (h1 : 1 / 2 ^ 90 ≤ A * B) (h2 : A * B ≤ 2 ^ 200) :
    |dot3 a b - dot a b| ≤ 4.001 * eps * (A * B) := by
  have hA : 0 ≤ A := le_trans (norm_nonneg a) ha
  have m : absInner3 a b ≤ A * B := le_trans (absInner3_le a b) (mul_le_mul ha hb (norm_nonneg b) hA)
  have := hd.err a b (le_trans m h2)
  have e : inner3 a b = dot a b := rfl
  rw [e] at this
  have x : 4 / 2 ^ 53 * absInner3 a b ≤ 4 * eps * (A * B) := by
    unfold eps
    have := mul_le_mul_of_nonneg_left m (by positivity : (0:ℝ) ≤ 4 / 2 ^ 53)
    linarith
  have y : (1:ℝ) / 2 ^ 190 ≤ 0.001 * eps * (A * B) := by
    have : (1:ℝ) / 2 ^ 190 ≤ 0.001 * eps * (1 / 2 ^ 90) := by unfold eps; norm_num
    exact le_trans this (mul_le_mul_of_nonneg_left h1 (by have := eps_pos; positivity))
  linarith

/-- A difference of two rounded products, rounded. -/
theorem minor_err (hr : Rounds rnd) {p q X : ℝ} (h : |p| + |q| ≤ X) (h2 : X ≤ 2 ^ 240) :
    |rnd (rnd p - rnd q) - (p - q)| ≤ 2.01 * eps * (|p| + |q|) + 4 / 2 ^ 200 := by
  have hp := hr.err p (by linarith [abs_nonneg q, abs_nonneg p, (by norm_num : (2:ℝ) ^ 240 ≤ 2 ^ 250)])
  have hq := hr.err q (by linarith [abs_nonneg q, abs_nonneg p, (by norm_num : (2:ℝ) ^ 240 ≤ 2 ^ 250)])
  have hp' : |p| / 2 ^ 53 = eps * |p| := by unfold eps; ring
  have hq' : |q| / 2 ^ 53 = eps * |q| := by unfold eps; ring
  rw [hp'] at hp
  rw [hq'] at hq
  have n : |rnd p - rnd q| ≤ (1 + eps) * (|p| + |q|) + 2 / 2 ^ 200 := by
    have e : rnd p - rnd q = (rnd p - p) - (rnd q - q) + (p - q) := by ring
    rw [e]
    have h1 := abs_add_le ((rnd p - p) - (rnd q - q)) (p - q)
    have h3 := abs_sub (rnd p - p) (rnd q - q)
    have h4 := abs_sub p q
    have : (2:ℝ) / 2 ^ 200 = 1 / 2 ^ 200 + 1 / 2 ^ 200 := by ring
    linarith
  have s0 := abs_nonneg p
  have s1 := abs_nonneg q
  have es := eps_small
  have ep := eps_pos
  have hX : (1 + eps) * (|p| + |q|) + 2 / 2 ^ 200 ≤ 2 ^ 250 := by
    have : (1 + eps) * (|p| + |q|) ≤ 2 * 2 ^ 240 := by
      refine mul_le_mul (by linarith) (le_trans h h2) (by positivity) (by norm_num)
    have : (2:ℝ) * 2 ^ 240 + 2 / 2 ^ 200 ≤ 2 ^ 250 := by norm_num
    linarith
  have hm := hr.err (rnd p - rnd q) (le_trans n hX)
  have hm' : |rnd p - rnd q| / 2 ^ 53 ≤ eps * ((1 + eps) * (|p| + |q|) + 2 / 2 ^ 200) := by
    have : |rnd p - rnd q| / 2 ^ 53 = eps * |rnd p - rnd q| := by unfold eps; ring
    rw [this]
    exact mul_le_mul_of_nonneg_left n ep.le
  have e : rnd (rnd p - rnd q) - (p - q) = (rnd (rnd p - rnd q) - (rnd p - rnd q)) + ((rnd p - p) - (rnd q - q)) := by ring
  rw [e]
  have h1 := abs_add_le (rnd (rnd p - rnd q) - (rnd p - rnd q)) ((rnd p - p) - (rnd q - q))
  have h3 := abs_sub (rnd p - p) (rnd q - q)
  have k : eps * ((1 + eps) * (|p| + |q|) + 2 / 2 ^ 200) ≤ 1.01 * eps * (|p| + |q|) + 1 / 2 ^ 200 := by
    have a1 : eps * ((1 + eps) * (|p| + |q|)) ≤ eps * (1.01 * (|p| + |q|)) := by
      refine mul_le_mul_of_nonneg_left (mul_le_mul_of_nonneg_right (by linarith) (by positivity)) ep.le
    have a2 : eps * (2 / 2 ^ 200) ≤ 1 / 2 ^ 200 := by
      have : eps * (2 / 2 ^ 200) ≤ (1 / 10 ^ 15) * (2 / 2 ^ 200) := mul_le_mul_of_nonneg_right es (by positivity)
      have : (1 / 10 ^ 15 : ℝ) * (2 / 2 ^ 200) ≤ 1 / 2 ^ 200 := by norm_num
      linarith
    linarith
  have t : (4:ℝ) / 2 ^ 200 = 1 / 2 ^ 200 + 1 / 2 ^ 200 + 1 / 2 ^ 200 + 1 / 2 ^ 200 := by ring
  linarith

theorem cross_near (hr : Rounds rnd) {a b : V3} {A B : ℝ} (ha : norm a ≤ A) (hb : norm b ≤ B) (h1 : 1 / 2 ^ 90 ≤ A * B) (h2 : A * B ≤ 2 ^ 200) :
    norm (sub (crossD rnd a b) (cross a b)) ≤ 3 * eps * (A * B) := by
  have hA : 0 ≤ A := le_trans (norm_nonneg a) ha
  have comp : ∀ c : V3, |c.x| ≤ norm c ∧ |c.y| ≤ norm c ∧ |c.z| ≤ norm c := fun c => by
    refine ⟨?_, ?_, ?_⟩ <;> refine abs_le_of_sq_le_sq ?_ (norm_nonneg c) <;> rw [norm_sq] <;> simp only [dot] <;>
      nlinarith [mul_self_nonneg c.x, mul_self_nonneg c.y, mul_self_nonneg c.z]
  have AB : norm a * norm b ≤ A * B := mul_le_mul ha hb (norm_nonneg b) hA
  have pr : ∀ s t, |s| ≤ norm a → |t| ≤ norm b → |s * t| ≤ A * B := fun s t hs ht => by
    rw [abs_mul]
    exact le_trans (mul_le_mul hs ht (abs_nonneg t) (norm_nonneg a)) AB
  obtain ⟨ax, ay, az⟩ := comp a
  obtain ⟨bx, by', bz⟩ := comp b
  have lim : A * B + A * B ≤ 2 ^ 240 := by
    have : (2:ℝ) ^ 200 + 2 ^ 200 ≤ 2 ^ 240 := by norm_num
    linarith
  have m1 := minor_err hr (add_le_add (pr _ _ ay bz) (pr _ _ az by')) lim
  have m2 := minor_err hr (add_le_add (pr _ _ az bx) (pr _ _ ax bz)) lim
  have m3 := minor_err hr (add_le_add (pr _ _ ax by') (pr _ _ ay bx)) lim
  have m : norm (sub (crossD rnd a b) (cross a b)) ≤
      norm (add (smul (2.01 * eps) ⟨|a.y * b.z| + |a.z * b.y|, |a.z * b.x| + |a.x * b.z|, |a.x * b.y| + |a.y * b.x|⟩) (smul (4 / 2 ^ 200) ⟨1, 1, 1⟩)) := by
    refine norm_mono ?_ ?_ ?_ <;> simp only [sub, crossD, cross, add, smul, mul_one]
    · exact m1
    · exact m2
    · exact m3
  refine le_trans m (le_trans (norm_add_le _ _) ?_)
  have ep := eps_pos
  rw [norm_smul, norm_smul, abs_of_pos (by positivity : 0 < 2.01 * eps), abs_of_pos (by positivity : (0:ℝ) < 4 / 2 ^ 200)]
  have n2 : V3.norm ⟨1, 1, 1⟩ ≤ 2 := norm_le_of (by norm_num) (by simp only [dot]; norm_num)
  have n1 : V3.norm ⟨|a.y * b.z| + |a.z * b.y|, |a.z * b.x| + |a.x * b.z|, |a.x * b.y| + |a.y * b.x|⟩ ≤ 1.42 * (A * B) := by
    have : V3.norm ⟨|a.y * b.z| + |a.z * b.y|, |a.z * b.x| + |a.x * b.z|, |a.x * b.y| + |a.y * b.x|⟩ ≤ 1.42 * (norm a * norm b) := by
      refine norm_le_of (by have := norm_nonneg a; have := norm_nonneg b; positivity) ?_
      have q : ∀ s t : ℝ, (|s| + |t|) * (|s| + |t|) ≤ 2 * (s * s + t * t) := fun s t => by
        nlinarith [mul_self_nonneg (|s| - |t|), abs_mul_abs_self s, abs_mul_abs_self t]
      rw [mul_pow, mul_pow, norm_sq, norm_sq]
      simp only [dot]
      nlinarith [q (a.y * b.z) (a.z * b.y), q (a.z * b.x) (a.x * b.z), q (a.x * b.y) (a.y * b.x),
        mul_self_nonneg (a.x * b.x), mul_self_nonneg (a.y * b.y), mul_self_nonneg (a.z * b.z),
        mul_self_nonneg (a.y * b.z), mul_self_nonneg (a.z * b.y), mul_self_nonneg (a.z * b.x), mul_self_nonneg (a.x * b.z),
        mul_self_nonneg (a.x * b.y), mul_self_nonneg (a.y * b.x)]
    linarith
  have b' : (4:ℝ) / 2 ^ 200 * 2 ≤ 0.001 * eps * (A * B) := by
    have : (4:ℝ) / 2 ^ 200 * 2 ≤ 0.001 * eps * (1 / 2 ^ 90) := by unfold eps; norm_num
    exact le_trans this (mul_le_mul_of_nonneg_left h1 (by positivity))
  have c : (4:ℝ) / 2 ^ 200 * V3.norm ⟨1, 1, 1⟩ ≤ 4 / 2 ^ 200 * 2 := mul_le_mul_of_nonneg_left n2 (by positivity)
  have d := mul_le_mul_of_nonneg_left n1 (by positivity : 0 ≤ 2.01 * eps)
  have AB0 : 0 ≤ eps * (A * B) := mul_nonneg ep.le (le_trans (by positivity) h1)
  linarith

/-- A rounded square root, squared. -/
theorem sqrt_near (hr : Rounds rnd) {x X : ℝ} (h0 : 0 ≤ x) (h : x ≤ X ^ 2) (h1 : 1 / 2 ^ 100 ≤ X) (h2 : X ≤ 2 ^ 250) :
    |rnd √x - √x| ≤ 1.001 * eps * X ∧ |rnd √x * rnd √x - x| ≤ 2.003 * eps * X ^ 2 := by
  have hX : 0 ≤ X := le_trans (by positivity) h1
  have s : |√x| ≤ X := by
    rw [abs_of_nonneg (Real.sqrt_nonneg x)]
    exact Real.sqrt_le_iff.mpr ⟨hX, h⟩
  have n := near hr s h1 h2
  refine ⟨n, ?_⟩
  have e : rnd √x * rnd √x - x = (rnd √x - √x) * (2 * √x + (rnd √x - √x)) := by
    have := Real.mul_self_sqrt h0
    linear_combination this
  rw [e, abs_mul]
  have ep := eps_pos
  have es := eps_small
  have t : |2 * √x + (rnd √x - √x)| ≤ 2.0001 * X := by
    have := abs_add_le (2 * √x) (rnd √x - √x)
    rw [abs_mul, abs_two] at this
    have : 1.001 * eps * X ≤ 0.0001 * X := mul_le_mul_of_nonneg_right (by linarith) hX
    linarith
  have := mul_le_mul n t (abs_nonneg _) (by positivity)
  have e2 : 1.001 * eps * X * (2.0001 * X) = 2.0021001 * (eps * X ^ 2) := by ring
  have : 0 ≤ eps * X ^ 2 := by positivity
  linarith

end

end Verif.Lemmas.RoundedSicd
