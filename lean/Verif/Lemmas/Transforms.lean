import Mathlib.Tactic.LinearCombination
import Mathlib.Tactic.Linarith
import Mathlib.Tactic.FieldSimp
import Mathlib.Tactic.Ring
import Mathlib.Algebra.Order.BigOperators.Group.List
import Verif.Spec.Transforms

/-!
# Linear algebra for `transforms.py`
-/

set_option linter.unusedSectionVars false

namespace Verif.Transforms

open Verif.Spec.Transforms

variable {K : Type} [Field K] [LinearOrder K] [IsStrictOrderedRing K]

theorem ndiv_some {a b : K} (h : b ≠ 0) : ndiv a b = some (a / b) := by
  unfold ndiv; rw [if_neg h]

theorem forward_some (t : Projective K) (p : K × K) (h : t.den p ≠ 0) :
    t.forward p = some ((t.a0 + t.a1 * p.1 + t.a2 * p.2) / t.den p, (t.b0 + t.b1 * p.1 + t.b2 * p.2) / t.den p) := by
  unfold Projective.den at h ⊢
  simp only [Projective.forward, ndiv_some h]
  rfl

theorem forward_isSome (t : Projective K) (p : K × K) : (t.forward p).isSome ↔ t.den p ≠ 0 := by
  constructor
  · intro h hz
    unfold Projective.den at hz
    unfold Projective.forward ndiv at h
    simp [hz] at h
  · intro h
    rw [forward_some t p h]; rfl

/-- The denominator of the inverse. -/
def Projective.iden (t : Projective K) (q : K × K) : K :=
  t.a1 * t.b2 - t.a2 * t.b1 + (t.b1 * t.c1 - t.b2 * t.c0) * q.1 + (t.a2 * t.c0 - t.a1 * t.c1) * q.2

theorem inverse_some (t : Projective K) (q : K × K) (h : t.iden q ≠ 0) :
    t.inverse q = some ((t.a2 * t.b0 - t.a0 * t.b2 + (t.b2 - t.b0 * t.c1) * q.1 + (t.a0 * t.c1 - t.a2) * q.2) / t.iden q,
      (t.a0 * t.b1 - t.a1 * t.b0 + (t.b0 * t.c0 - t.b1) * q.1 + (t.a1 - t.a0 * t.c0) * q.2) / t.iden q) := by
  unfold Projective.iden at h ⊢
  simp only [Projective.inverse, ndiv_some h]
  rfl

theorem inverse_isSome (t : Projective K) (q : K × K) : (t.inverse q).isSome ↔ t.iden q ≠ 0 := by
  constructor
  · intro h hz
    unfold Projective.iden at hz
    unfold Projective.inverse ndiv at h
    simp [hz] at h
  · intro h
    rw [inverse_some t q h]; rfl

/-- A function `u + v x + w y` that vanishes at three points not on a line vanishes. -/
theorem affine_zero {u v w : K} {p q r : K × K} (hA : area p q r ≠ 0) (h1 : u + v * p.1 + w * p.2 = 0)
    (h2 : u + v * q.1 + w * q.2 = 0) (h3 : u + v * r.1 + w * r.2 = 0) : u = 0 ∧ v = 0 ∧ w = 0 := by
  have hv : area p q r * v = 0 := by
    unfold area
    linear_combination (r.2 - p.2) * (h2 - h1) - (q.2 - p.2) * (h3 - h1)
  have hw : area p q r * w = 0 := by
    unfold area
    linear_combination (q.1 - p.1) * (h3 - h1) - (r.1 - p.1) * (h2 - h1)
  have hv' := (mul_eq_zero.mp hv).resolve_left hA
  have hw' := (mul_eq_zero.mp hw).resolve_left hA
  refine ⟨?_, hv', hw'⟩
  rw [hv', hw'] at h1
  linear_combination h1

/-- The determinant of three vectors. -/
def det3 (x1 y1 z1 x2 y2 z2 x3 y3 z3 : K) : K :=
  x1 * (y2 * z3 - y3 * z2) - x2 * (y1 * z3 - y3 * z1) + x3 * (y1 * z2 - y2 * z1)

/-- Independent vectors have no non-trivial combination that vanishes. -/
theorem weights_zero {x1 y1 z1 x2 y2 z2 x3 y3 z3 w1 w2 w3 : K} (hd : det3 x1 y1 z1 x2 y2 z2 x3 y3 z3 ≠ 0)
    (hx : w1 * x1 + w2 * x2 + w3 * x3 = 0) (hy : w1 * y1 + w2 * y2 + w3 * y3 = 0)
    (hz : w1 * z1 + w2 * z2 + w3 * z3 = 0) : w1 = 0 ∧ w2 = 0 ∧ w3 = 0 := by
  have e1 : det3 x1 y1 z1 x2 y2 z2 x3 y3 z3 * w1 = 0 := by
    unfold det3
    linear_combination (y2 * z3 - y3 * z2) * hx - (x2 * z3 - x3 * z2) * hy + (x2 * y3 - x3 * y2) * hz
  have e2 : det3 x1 y1 z1 x2 y2 z2 x3 y3 z3 * w2 = 0 := by
    unfold det3
    linear_combination -(y1 * z3 - y3 * z1) * hx + (x1 * z3 - x3 * z1) * hy - (x1 * y3 - x3 * y1) * hz
  have e3 : det3 x1 y1 z1 x2 y2 z2 x3 y3 z3 * w3 = 0 := by
    unfold det3
    linear_combination (y1 * z2 - y2 * z1) * hx - (x1 * z2 - x2 * z1) * hy + (x1 * y2 - x2 * y1) * hz
  exact ⟨(mul_eq_zero.mp e1).resolve_left hd, (mul_eq_zero.mp e2).resolve_left hd, (mul_eq_zero.mp e3).resolve_left hd⟩

/-- The equations of `estimate` for one pair: numerators equal destination times denominator. -/
def Fits (t : Projective K) (s d : K × K) : Prop :=
  t.a0 + t.a1 * s.1 + t.a2 * s.2 = d.1 * t.den s ∧ t.b0 + t.b1 * s.1 + t.b2 * s.2 = d.2 * t.den s

theorem fits_iff (t : Projective K) (s d : K × K) :
    Fits t s d ↔ (rowX s d).apply t - (rowX s d).rhs = 0 ∧ (rowY s d).apply t - (rowY s d).rhs = 0 := by
  unfold Fits Row.apply rowX rowY Projective.den
  constructor
  · rintro ⟨h1, h2⟩
    exact ⟨by linear_combination h1, by linear_combination h2⟩
  · rintro ⟨h1, h2⟩
    exact ⟨by linear_combination h1, by linear_combination h2⟩

theorem residual_nonneg (rows : List (Row K)) (t : Projective K) : 0 ≤ residual rows t := by
  unfold residual
  apply List.sum_nonneg
  intro x hx
  obtain ⟨r, -, rfl⟩ := List.mem_map.mp hx
  exact sq_nonneg _

theorem residual_zero {rows : List (Row K)} {t : Projective K} :
    residual rows t = 0 ↔ ∀ r ∈ rows, r.apply t - r.rhs = 0 := by
  induction rows with
  | nil => simp [residual]
  | cons r rows ih =>
    have hsplit : residual (r :: rows) t = (r.apply t - r.rhs) ^ 2 + residual rows t := by simp [residual]
    rw [hsplit]
    have h1 := sq_nonneg (r.apply t - r.rhs)
    have h2 := residual_nonneg rows t
    constructor
    · intro h r' hr'
      rcases List.mem_cons.mp hr' with rfl | hr'
      · have : (r'.apply t - r'.rhs) ^ 2 = 0 := by linarith
        exact pow_eq_zero_iff (two_ne_zero) |>.mp this
      · exact ih.mp (by linarith) r' hr'
    · intro h
      rw [h r List.mem_cons_self, ih.mpr (fun r' hr' => h r' (List.mem_cons_of_mem _ hr'))]
      ring

theorem residual_system_zero {pairs : List ((K × K) × (K × K))} {t : Projective K} :
    residual (system pairs) t = 0 ↔ ∀ p ∈ pairs, Fits t p.1 p.2 := by
  rw [residual_zero]
  constructor
  · intro h p hp
    rw [fits_iff]
    exact ⟨h _ (by unfold system; exact List.mem_append_left _ (List.mem_map.mpr ⟨p, hp, rfl⟩)),
      h _ (by unfold system; exact List.mem_append_right _ (List.mem_map.mpr ⟨p, hp, rfl⟩))⟩
  · intro h r hr
    unfold system at hr
    rcases List.mem_append.mp hr with hr | hr
    · obtain ⟨p, hp, rfl⟩ := List.mem_map.mp hr
      exact ((fits_iff t _ _).mp (h p hp)).1
    · obtain ⟨p, hp, rfl⟩ := List.mem_map.mp hr
      exact ((fits_iff t _ _).mp (h p hp)).2

/-- If an exact solution exists, a least squares solution is exact. -/
theorem lstsq_exact {pairs : List ((K × K) × (K × K))} {t t0 : Projective K} (ht : IsLstsq (system pairs) t)
    (h0 : ∀ p ∈ pairs, Fits t0 p.1 p.2) : ∀ p ∈ pairs, Fits t p.1 p.2 := by
  rw [← residual_system_zero] at h0 ⊢
  have := ht.least t0
  rw [h0] at this
  exact le_antisymm this (residual_nonneg _ _)

/-- Two projective transforms that agree on four points in general position are equal. -/
theorem projective_unique {t t0 : Projective K} {p1 p2 p3 p4 d1 d2 d3 d4 : K × K} (hdet : t0.det ≠ 0)
    (n1 : t0.den p1 ≠ 0) (n2 : t0.den p2 ≠ 0) (n3 : t0.den p3 ≠ 0) (n4 : t0.den p4 ≠ 0)
    (f1 : Fits t0 p1 d1) (f2 : Fits t0 p2 d2) (f3 : Fits t0 p3 d3) (f4 : Fits t0 p4 d4)
    (g1 : Fits t p1 d1) (g2 : Fits t p2 d2) (g3 : Fits t p3 d3) (g4 : Fits t p4 d4)
    (a123 : area p1 p2 p3 ≠ 0) (a124 : area p1 p2 p4 ≠ 0) (a134 : area p1 p3 p4 ≠ 0) (a234 : area p2 p3 p4 ≠ 0) :
    t = t0 := by
  -- scale factors
  have scale : ∀ {p d : K × K}, t0.den p ≠ 0 → Fits t0 p d → Fits t p d → ∃ l,
      t.a0 + t.a1 * p.1 + t.a2 * p.2 = l * (t0.a0 + t0.a1 * p.1 + t0.a2 * p.2) ∧
      t.b0 + t.b1 * p.1 + t.b2 * p.2 = l * (t0.b0 + t0.b1 * p.1 + t0.b2 * p.2) ∧
      1 + t.c0 * p.1 + t.c1 * p.2 = l * (1 + t0.c0 * p.1 + t0.c1 * p.2) := by
    intro p d hn hf hg
    refine ⟨t.den p / t0.den p, ?_, ?_, ?_⟩
    · rw [hg.1, hf.1]; field_simp
    · rw [hg.2, hf.2]; field_simp
    · exact (div_mul_cancel₀ _ hn).symm
  obtain ⟨l1, x1, y1, z1⟩ := scale n1 f1 g1
  obtain ⟨l2, x2, y2, z2⟩ := scale n2 f2 g2
  obtain ⟨l3, x3, y3, z3⟩ := scale n3 f3 g3
  obtain ⟨l4, x4, y4, z4⟩ := scale n4 f4 g4
  -- the fourth point as a combination of the others, scaled by the area of the first three
  set A := area p1 p2 p3 with hA
  set A1 := area p2 p3 p4 with hA1
  set A2 := area p1 p3 p4 with hA2
  set A3 := area p1 p2 p4 with hA3
  have s0 : A = A1 - A2 + A3 := by rw [hA, hA1, hA2, hA3]; unfold area; ring
  have sx : A * p4.1 = A1 * p1.1 - A2 * p2.1 + A3 * p3.1 := by rw [hA, hA1, hA2, hA3]; unfold area; ring
  have sy : A * p4.2 = A1 * p1.2 - A2 * p2.2 + A3 * p3.2 := by rw [hA, hA1, hA2, hA3]; unfold area; ring
  -- the weights (l4 - l_i) A_i
  have wx : (A1 * (l4 - l1)) * (t0.a0 + t0.a1 * p1.1 + t0.a2 * p1.2) + (-A2 * (l4 - l2)) * (t0.a0 + t0.a1 * p2.1 + t0.a2 * p2.2)
      + (A3 * (l4 - l3)) * (t0.a0 + t0.a1 * p3.1 + t0.a2 * p3.2) = 0 := by
    linear_combination A1 * x1 - A2 * x2 + A3 * x3 - A * x4 + (t.a0 - l4 * t0.a0) * s0 + (t.a1 - l4 * t0.a1) * sx + (t.a2 - l4 * t0.a2) * sy
  have wy : (A1 * (l4 - l1)) * (t0.b0 + t0.b1 * p1.1 + t0.b2 * p1.2) + (-A2 * (l4 - l2)) * (t0.b0 + t0.b1 * p2.1 + t0.b2 * p2.2)
      + (A3 * (l4 - l3)) * (t0.b0 + t0.b1 * p3.1 + t0.b2 * p3.2) = 0 := by
    linear_combination A1 * y1 - A2 * y2 + A3 * y3 - A * y4 + (t.b0 - l4 * t0.b0) * s0 + (t.b1 - l4 * t0.b1) * sx + (t.b2 - l4 * t0.b2) * sy
  have wz : (A1 * (l4 - l1)) * (1 + t0.c0 * p1.1 + t0.c1 * p1.2) + (-A2 * (l4 - l2)) * (1 + t0.c0 * p2.1 + t0.c1 * p2.2)
      + (A3 * (l4 - l3)) * (1 + t0.c0 * p3.1 + t0.c1 * p3.2) = 0 := by
    linear_combination A1 * z1 - A2 * z2 + A3 * z3 - A * z4 + (1 - l4) * s0 + (t.c0 - l4 * t0.c0) * sx + (t.c1 - l4 * t0.c1) * sy
  have hd3 : det3 (t0.a0 + t0.a1 * p1.1 + t0.a2 * p1.2) (t0.b0 + t0.b1 * p1.1 + t0.b2 * p1.2) (1 + t0.c0 * p1.1 + t0.c1 * p1.2)
      (t0.a0 + t0.a1 * p2.1 + t0.a2 * p2.2) (t0.b0 + t0.b1 * p2.1 + t0.b2 * p2.2) (1 + t0.c0 * p2.1 + t0.c1 * p2.2)
      (t0.a0 + t0.a1 * p3.1 + t0.a2 * p3.2) (t0.b0 + t0.b1 * p3.1 + t0.b2 * p3.2) (1 + t0.c0 * p3.1 + t0.c1 * p3.2) ≠ 0 := by
    have e : det3 (t0.a0 + t0.a1 * p1.1 + t0.a2 * p1.2) (t0.b0 + t0.b1 * p1.1 + t0.b2 * p1.2) (1 + t0.c0 * p1.1 + t0.c1 * p1.2)
        (t0.a0 + t0.a1 * p2.1 + t0.a2 * p2.2) (t0.b0 + t0.b1 * p2.1 + t0.b2 * p2.2) (1 + t0.c0 * p2.1 + t0.c1 * p2.2)
        (t0.a0 + t0.a1 * p3.1 + t0.a2 * p3.2) (t0.b0 + t0.b1 * p3.1 + t0.b2 * p3.2) (1 + t0.c0 * p3.1 + t0.c1 * p3.2)
        = t0.det * A := by
      rw [hA]; unfold det3 Projective.det area; ring
    rw [e]; exact mul_ne_zero hdet a123
  obtain ⟨w1, w2, w3⟩ := weights_zero hd3 wx wy wz
  have e1 : l1 = l4 := by have := (mul_eq_zero.mp w1).resolve_left a234; linear_combination -this
  have e2 : l2 = l4 := by have := (mul_eq_zero.mp w2).resolve_left (neg_ne_zero.mpr a134); linear_combination -this
  have e3 : l3 = l4 := by have := (mul_eq_zero.mp w3).resolve_left a124; linear_combination -this
  subst e1
  rw [e2] at x2 y2 z2
  rw [e3] at x3 y3 z3
  obtain ⟨q0, q1, q2⟩ := affine_zero (u := 1 - l1) (v := t.c0 - l1 * t0.c0) (w := t.c1 - l1 * t0.c1) a123
    (by linear_combination z1) (by linear_combination z2) (by linear_combination z3)
  have hl : l1 = 1 := by linear_combination -q0
  subst hl
  obtain ⟨r0, r1, r2⟩ := affine_zero (u := t.a0 - t0.a0) (v := t.a1 - t0.a1) (w := t.a2 - t0.a2) a123
    (by linear_combination x1) (by linear_combination x2) (by linear_combination x3)
  obtain ⟨u0, u1, u2⟩ := affine_zero (u := t.b0 - t0.b0) (v := t.b1 - t0.b1) (w := t.b2 - t0.b2) a123
    (by linear_combination y1) (by linear_combination y2) (by linear_combination y3)
  obtain ⟨ta0, ta1, ta2, tb0, tb1, tb2, tc0, tc1⟩ := t
  obtain ⟨sa0, sa1, sa2, sb0, sb1, sb2, sc0, sc1⟩ := t0
  simp only [Projective.mk.injEq]
  simp only [one_mul] at q1 q2
  exact ⟨sub_eq_zero.mp r0, sub_eq_zero.mp r1, sub_eq_zero.mp r2, sub_eq_zero.mp u0, sub_eq_zero.mp u1, sub_eq_zero.mp u2,
    sub_eq_zero.mp q1, sub_eq_zero.mp q2⟩

end Verif.Transforms
