import Mathlib.Analysis.Convex.Deriv
import Verif.Props.GridRounded

/-!
# The geolocation grid and smooth sensor models, in doubles
-/

namespace Verif.Props.GridSmooth

open Verif.GridRounded Verif.Props.GridRounded Verif.Lemmas.Rounded
open Verif.Spec.Rounded (Rounds)

/-! ## What it has to be -/

/-- Between `a` and `b` the function leaves its chord by no more than a parabola with second derivative `M` does. -/
def Bends (M : ℝ) (f : ℝ → ℝ) (a b : ℝ) : Prop :=
  ∀ t : ℝ, 0 ≤ t → t ≤ 1 → |(1 - t) * f a + t * f b - f ((1 - t) * a + t * b)| ≤ M / 2 * (t * (1 - t) * (b - a) ^ 2)

/-- A location that bends by at most `M` along rows of pixels and by at most `N` along columns, around the features. -/
structure Smooth (lo hi : ℝ × ℝ) (f : ℝ × ℝ → ℝ) (M N : ℝ) : Prop where
  along : ∀ a a' b, Around lo hi (a, b) → Around lo hi (a', b) → Bends M (fun x => f (x, b)) a a'
  across : ∀ a b b', Around lo hi (a, b) → Around lo hi (a, b') → Bends N (fun y => f (a, y)) b b'

/-! ## Second derivatives -/

theorem convex_of_second {D : Set ℝ} (hD : Convex ℝ D) {g g1 g2 : ℝ → ℝ} (h1 : ∀ x ∈ D, HasDerivAt g (g1 x) x) (h2 : ∀ x ∈ D, HasDerivAt g1 (g2 x) x) (h0 : ∀ x ∈ D, 0 ≤ g2 x) :
    ConvexOn ℝ D g := by
  have near : ∀ x ∈ interior D, deriv g =ᶠ[nhds x] g1 := fun x hx =>
    Filter.eventually_of_mem (isOpen_interior.mem_nhds hx) (fun y hy => (h1 y (interior_subset hy)).deriv)
  have second : ∀ x ∈ interior D, HasDerivAt (deriv g) (g2 x) x := fun x hx => (h2 x (interior_subset hx)).congr_of_eventuallyEq (near x hx)
  refine convexOn_of_deriv2_nonneg hD (fun x hx => (h1 x hx).continuousAt.continuousWithinAt) (fun x hx => (h1 x (interior_subset hx)).differentiableAt.differentiableWithinAt)
    (fun x hx => (second x hx).differentiableAt.differentiableWithinAt) (fun x hx => ?_)
  have : deriv^[2] g x = deriv (deriv g) x := rfl
  rw [this, (second x hx).deriv]
  exact h0 x (interior_subset hx)

/-- A bound of the second derivative is a bound of the bend. -/
theorem bends_of_second {D : Set ℝ} (hD : Convex ℝ D) {f f1 f2 : ℝ → ℝ} {M : ℝ} (h1 : ∀ x ∈ D, HasDerivAt f (f1 x) x) (h2 : ∀ x ∈ D, HasDerivAt f1 (f2 x) x) (hM : ∀ x ∈ D, |f2 x| ≤ M) {a b : ℝ}
    (ha : a ∈ D) (hb : b ∈ D) : Bends M f a b := by
  intro t t0 t1
  have up : ConvexOn ℝ D (fun x => M / 2 * x ^ 2 + f x) := by
    refine convex_of_second hD (g1 := fun x => M * x + f1 x) (g2 := fun x => M + f2 x) (fun x hx => ?_) (fun x hx => ?_) (fun x hx => by linarith [(abs_le.mp (hM x hx)).1])
    · have := ((hasDerivAt_pow 2 x).const_mul (M / 2)).add (h1 x hx)
      exact this.congr_deriv (by simp; ring)
    · have := ((hasDerivAt_id x).const_mul M).add (h2 x hx)
      exact this.congr_deriv (by simp)
  have down : ConvexOn ℝ D (fun x => M / 2 * x ^ 2 - f x) := by
    refine convex_of_second hD (g1 := fun x => M * x - f1 x) (g2 := fun x => M - f2 x) (fun x hx => ?_) (fun x hx => ?_) (fun x hx => by linarith [(abs_le.mp (hM x hx)).2])
    · have := ((hasDerivAt_pow 2 x).const_mul (M / 2)).sub (h1 x hx)
      exact this.congr_deriv (by simp; ring)
    · have := ((hasDerivAt_id x).const_mul M).sub (h2 x hx)
      exact this.congr_deriv (by simp)
  have u := up.2 ha hb (show 0 ≤ 1 - t by linarith) t0 (by ring)
  have d := down.2 ha hb (show 0 ≤ 1 - t by linarith) t0 (by ring)
  simp only [smul_eq_mul] at u d
  have e : M / 2 * (t * (1 - t) * (b - a) ^ 2) = (1 - t) * (M / 2 * a ^ 2) + t * (M / 2 * b ^ 2) - M / 2 * ((1 - t) * a + t * b) ^ 2 := by ring
  rw [e, abs_le]
  constructor <;> linarith

/-! ## Places of features -/

theorem bend_le {M : ℝ} (hM : 0 ≤ M) {f : ℝ → ℝ} {a b s : ℝ} (h : Bends M f a b) (hs : |b - a| ≤ s) (t : ℝ) (t0 : 0 ≤ t) (t1 : t ≤ 1) :
    |(1 - t) * f a + t * f b - f ((1 - t) * a + t * b)| ≤ M * s ^ 2 / 8 := by
  refine (h t t0 t1).trans ?_
  have q : t * (1 - t) ≤ 1 / 4 := by nlinarith [sq_nonneg (t - 1 / 2)]
  have q0 : 0 ≤ t * (1 - t) := mul_nonneg t0 (by linarith)
  have r : (b - a) ^ 2 ≤ s ^ 2 := sq_le_sq' (by linarith [(abs_le.mp hs).1]) (abs_le.mp hs).2
  have m := mul_le_mul q r (sq_nonneg _) (by norm_num)
  have := mul_le_mul_of_nonneg_left m (show 0 ≤ M / 2 by linarith)
  linarith

/-- **C178**: where the location that the sensor model computes is, up to `δ`, a function whose second derivatives along rows and columns are at most `M` and `N`, places in doubles are
right up to an eighth of these times the squares of the intervals of the grid (and `δ`, and the rounding of C173). -/
theorem smooth_located {rnd : ℝ → ℝ} (hr : Rounds rnd) {lo hi : ℝ × ℝ} {n : Nat} {w : ℝ × ℝ → ℝ} {Z : ℝ} {c : Nat → Nat → ℝ} (h : Sampled rnd lo hi n w Z c) (f : ℝ × ℝ → ℝ) (M N δ : ℝ) (hM : 0 ≤ M)
    (hN : 0 ≤ N) (hf : Smooth lo hi f M N) (hw : ∀ q, Around lo hi q → |w q - f q| ≤ δ) (p : ℝ × ℝ) (hp : Covered lo hi p) :
    |located rnd lo hi n c p - f p| ≤
      M * ((hi.1 - lo.1 + 20) / ((n : ℝ) - 1) + 1 / 2 ^ 11) ^ 2 / 8 + N * ((hi.2 - lo.2 + 20) / ((n : ℝ) - 1) + 1 / 2 ^ 11) ^ 2 / 8 + δ + slack Z := by
  obtain ⟨x, y, u, v, u0, u1, v0, v1, e, hin, gx, gy, hl⟩ := located_between_nodes hr h p hp
  have sx0 : 0 ≤ (hi.1 - lo.1 + 20) / ((n : ℝ) - 1) := by
    have : (2:ℝ) ≤ n := by exact_mod_cast h.columns.two
    exact div_nonneg (by linarith [h.columns.order]) (by linarith)
  have sy0 : 0 ≤ (hi.2 - lo.2 + 20) / ((n : ℝ) - 1) := by
    have : (2:ℝ) ≤ n := by exact_mod_cast h.rows.two
    exact div_nonneg (by linarith [h.rows.order]) (by linarith)
  have gx' := abs_le.mp gx
  have gy' := abs_le.mp gy
  generalize (hi.1 - lo.1 + 20) / ((n : ℝ) - 1) = sx at *
  generalize (hi.2 - lo.2 + 20) / ((n : ℝ) - 1) = sy at *
  have wx : |x.2 - x.1| ≤ sx + 1 / 2 ^ 11 := by rw [abs_le]; constructor <;> linarith
  have wy : |y.2 - y.1| ≤ sy + 1 / 2 ^ 11 := by rw [abs_le]; constructor <;> linarith
  have px : p.1 = (1 - u) * x.1 + u * x.2 := congrArg Prod.fst e
  have py : p.2 = (1 - v) * y.1 + v * y.2 := congrArg Prod.snd e
  have row : ∀ b ∈ [y.1, y.2], |(1 - u) * f (x.1, b) + u * f (x.2, b) - f (p.1, b)| ≤ M * (sx + 1 / 2 ^ 11) ^ 2 / 8 := by
    intro b hb
    have := bend_le hM (hf.along x.1 x.2 b (hin _ (by simp) b hb) (hin _ (by simp) b hb)) wx u u0 u1
    rw [← px] at this
    exact this
  have at_p : ∀ b ∈ [y.1, y.2], Around lo hi (p.1, b) := fun b hb => ⟨hp.around.1, hp.around.2.1, (hin x.1 (by simp) b hb).2.2.1, (hin x.1 (by simp) b hb).2.2.2⟩
  have column := bend_le hN (hf.across p.1 y.1 y.2 (at_p _ (by simp)) (at_p _ (by simp))) wy v v0 v1
  rw [← py] at column
  have mean := mean_within u v _ _ _ _ ((1 - u) * (1 - v) * w (x.1, y.1) + (1 - u) * v * w (x.1, y.2) + u * (1 - v) * w (x.2, y.1) + u * v * w (x.2, y.2) -
      ((1 - u) * (1 - v) * f (x.1, y.1) + (1 - u) * v * f (x.1, y.2) + u * (1 - v) * f (x.2, y.1) + u * v * f (x.2, y.2))) δ
    u0 u1 v0 v1 (hw (x.1, y.1) (hin _ (by simp) _ (by simp))) (hw (x.1, y.2) (hin _ (by simp) _ (by simp))) (hw (x.2, y.1) (hin _ (by simp) _ (by simp)))
    (hw (x.2, y.2) (hin _ (by simp) _ (by simp))) (by ring)
  have r1 := abs_le.mp (row y.1 (by simp))
  have r2 := abs_le.mp (row y.2 (by simp))
  have v1' : 0 ≤ 1 - v := by linarith
  have a1 := mul_le_mul_of_nonneg_left r1.1 v1'
  have a2 := mul_le_mul_of_nonneg_left r1.2 v1'
  have a3 := mul_le_mul_of_nonneg_left r2.1 v0
  have a4 := mul_le_mul_of_nonneg_left r2.2 v0
  have c' := abs_le.mp column
  have l := abs_le.mp hl
  have m' := abs_le.mp mean
  simp only [Prod.mk.eta] at c'
  rw [abs_le]
  constructor <;> linarith

/-- The bound cannot be improved: a parabola leaves its chord by exactly an eighth of its second derivative times the square of the interval. -/
theorem parabola_bends (M s a : ℝ) : (1 / 2 : ℝ) * (M / 2 * a ^ 2) + 1 / 2 * (M / 2 * (a + s) ^ 2) - M / 2 * ((1 / 2 : ℝ) * a + 1 / 2 * (a + s)) ^ 2 = M * s ^ 2 / 8 := by ring

/-! ## An example: a location that bends by a millionth per pixel -/

noncomputable def bent (q : ℝ × ℝ) : ℝ := q.1 ^ 2 / 2000000 + q.2 / 1000

theorem bent_smooth (lo hi : ℝ × ℝ) : Smooth lo hi bent (1 / 1000000) 0 where
  along a a' b _ _ := by
    refine bends_of_second (D := Set.univ) convex_univ (f1 := fun x => x / 1000000) (f2 := fun _ => 1 / 1000000) (fun x _ => ?_) (fun x _ => ?_) (fun x _ => by norm_num [abs_of_pos]) (Set.mem_univ _)
      (Set.mem_univ _)
    · have := ((hasDerivAt_pow 2 x).div_const 2000000).add_const (b / 1000)
      exact this.congr_deriv (by simp; ring)
    · have := (hasDerivAt_id x).div_const 1000000
      exact this.congr_deriv (by simp)
  across a b b' _ _ := by
    intro t _ _
    simp only [bent]
    rw [show (1 - t) * (a ^ 2 / 2000000 + b / 1000) + t * (a ^ 2 / 2000000 + b' / 1000) - (a ^ 2 / 2000000 + ((1 - t) * b + t * b') / 1000) = 0 by ring]
    simp

/-- Features over a thousand columns, 103 nodes: intervals of ten pixels, and places to 0.0000127. -/
example (c : Nat → Nat → ℝ) (hc : Fits 103 c (fun i j => bent (node Verif.Rounded.double 0 1000 103 i, node Verif.Rounded.double 0 1000 103 j))) (p : ℝ × ℝ) (hp : Covered (0, 0) (1000, 1000) p) :
    |located Verif.Rounded.double (0, 0) (1000, 1000) 103 c p - bent p| ≤ 127 / 10 ^ 7 := by
  have h : Sampled Verif.Rounded.double (0, 0) (1000, 1000) 103 bent 2 c := by
    refine ⟨⟨by norm_num, by norm_num, by norm_num, by norm_num, by norm_num⟩, ⟨by norm_num, by norm_num, by norm_num, by norm_num, by norm_num⟩, hc, ?_, by norm_num⟩
    rintro q ⟨h1, h2, h3, h4⟩
    simp only at h1 h2 h3 h4
    have s : q.1 ^ 2 ≤ 1011 ^ 2 := sq_le_sq' (by linarith) (by linarith)
    have s0 := sq_nonneg q.1
    unfold bent
    rw [abs_le]
    constructor <;> linarith
  have := smooth_located double_rounds h bent (1 / 1000000) 0 0 (by norm_num) (le_refl _) (bent_smooth _ _) (fun q _ => by simp) p hp
  refine this.trans ?_
  unfold slack
  norm_num

end Verif.Props.GridSmooth
