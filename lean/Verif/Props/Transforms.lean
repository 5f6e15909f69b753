import Verif.Lemmas.Transforms
import Verif.Lemmas.Lstsq
import Mathlib.Data.Rat.Floor
import Mathlib.Algebra.Order.Ring.Rat
import Mathlib.Tactic.NormNum

/-!
# Properties C25, C26 and C116: projective transforms
-/

set_option linter.unusedSectionVars false

namespace Verif.Props.Transforms

open Verif.Transforms Verif.Spec.Transforms

variable {K : Type} [Field K] [LinearOrder K] [IsStrictOrderedRing K]

/-- **C25**: for an invertible transform, `inverse` undoes `forward`: wherever `forward` gives a
point, `inverse` of that point is defined and gives the original back. -/
theorem inverse_forward (t : Projective K) (hdet : t.det ≠ 0) (p q : K × K) (h : t.forward p = some q) :
    t.inverse q = some p := by
  have hden : t.den p ≠ 0 := (forward_isSome t p).mp (by rw [h]; rfl)
  rw [forward_some t p hden] at h
  simp only [Option.some.injEq] at h
  have key : t.iden q = t.det / t.den p := by
    rw [← h, eq_div_iff hden]
    unfold Projective.iden Projective.det
    field_simp
    unfold Projective.den
    ring
  have hi : t.iden q ≠ 0 := by rw [key]; exact div_ne_zero hdet hden
  rw [inverse_some t q hi]
  have e1 : (t.a2 * t.b0 - t.a0 * t.b2 + (t.b2 - t.b0 * t.c1) * q.1 + (t.a0 * t.c1 - t.a2) * q.2) = p.1 * t.iden q := by
    rw [key, ← h]
    field_simp
    unfold Projective.det Projective.den
    ring
  have e2 : (t.a0 * t.b1 - t.a1 * t.b0 + (t.b0 * t.c0 - t.b1) * q.1 + (t.a1 - t.a0 * t.c0) * q.2) = p.2 * t.iden q := by
    rw [key, ← h]
    field_simp
    unfold Projective.det Projective.den
    ring
  rw [e1, e2, mul_div_cancel_right₀ _ hi, mul_div_cancel_right₀ _ hi]

/-- **C25**: and `forward` undoes `inverse`. -/
theorem forward_inverse (t : Projective K) (hdet : t.det ≠ 0) (p q : K × K) (h : t.inverse q = some p) :
    t.forward p = some q := by
  have hi : t.iden q ≠ 0 := (inverse_isSome t q).mp (by rw [h]; rfl)
  rw [inverse_some t q hi] at h
  simp only [Option.some.injEq] at h
  have key : t.den p = t.det / t.iden q := by
    rw [← h, eq_div_iff hi]
    unfold Projective.den Projective.det
    field_simp
    unfold Projective.iden
    ring
  have hden : t.den p ≠ 0 := by rw [key]; exact div_ne_zero hdet hi
  rw [forward_some t p hden]
  have e1 : t.a0 + t.a1 * p.1 + t.a2 * p.2 = q.1 * t.den p := by
    rw [key, ← h]
    field_simp
    unfold Projective.det Projective.iden
    ring
  have e2 : t.b0 + t.b1 * p.1 + t.b2 * p.2 = q.2 * t.den p := by
    rw [key, ← h]
    field_simp
    unfold Projective.det Projective.iden
    ring
  rw [e1, e2, mul_div_cancel_right₀ _ hden, mul_div_cancel_right₀ _ hden]

/-- **C25**: `forward` is defined exactly off the line that goes to infinity. -/
theorem forward_defined_iff (t : Projective K) (p : K × K) : (t.forward p).isSome ↔ 1 + t.c0 * p.1 + t.c1 * p.2 ≠ 0 :=
  forward_isSome t p

example : (⟨1, 2, 3, 4, 5, 7, 1, 1⟩ : Projective ℚ).det ≠ 0 ∧
    (⟨1, 2, 3, 4, 5, 7, 1, 1⟩ : Projective ℚ).forward (1, 2) = some (9/4, 23/4) ∧
    (⟨1, 2, 3, 4, 5, 7, 1, 1⟩ : Projective ℚ).inverse (9/4, 23/4) = some (1, 2) := by
  refine ⟨by norm_num [Projective.det], by decide +kernel, by decide +kernel⟩

/-- Both round trips for that transform. -/
example : (⟨1, 2, 3, 4, 5, 7, 1, 1⟩ : Projective ℚ).inverse (9/4, 23/4) = some (1, 2) ∧
    (⟨1, 2, 3, 4, 5, 7, 1, 1⟩ : Projective ℚ).forward (1, 2) = some (9/4, 23/4) :=
  ⟨inverse_forward _ (by norm_num [Projective.det]) _ _ (by decide +kernel),
    forward_inverse _ (by norm_num [Projective.det]) _ _ (by decide +kernel)⟩

/-- **C26**: when the correspondences come from an invertible projective map (every affine map
with non-zero determinant is one) and four sources have no three on a line, the estimate
is that map. -/
theorem estimate_recovers (lstsq : List (Row K) → Projective K) (t0 : Projective K) (hdet : t0.det ≠ 0)
    (pairs : List ((K × K) × (K × K))) (hl : IsLstsq (system pairs) (lstsq (system pairs)))
    (hmap : ∀ p ∈ pairs, t0.forward p.1 = some p.2) (hgp : GeneralPosition (pairs.map Prod.fst)) :
    estimate lstsq pairs = t0 := by
  have fit : ∀ p ∈ pairs, t0.den p.1 ≠ 0 ∧ Fits t0 p.1 p.2 := by
    intro p hp
    have h := hmap p hp
    have hden : t0.den p.1 ≠ 0 := (forward_isSome t0 p.1).mp (by rw [h]; rfl)
    rw [forward_some t0 p.1 hden] at h
    simp only [Option.some.injEq] at h
    refine ⟨hden, ?_, ?_⟩
    · rw [← h]; exact (div_mul_cancel₀ _ hden).symm
    · rw [← h]; exact (div_mul_cancel₀ _ hden).symm
  have gfit := lstsq_exact hl (fun p hp => (fit p hp).2)
  obtain ⟨p1, m1, p2, m2, p3, m3, p4, m4, h1, h2, h3, h4⟩ := hgp
  obtain ⟨q1, k1, rfl⟩ := List.mem_map.mp m1
  obtain ⟨q2, k2, rfl⟩ := List.mem_map.mp m2
  obtain ⟨q3, k3, rfl⟩ := List.mem_map.mp m3
  obtain ⟨q4, k4, rfl⟩ := List.mem_map.mp m4
  exact projective_unique hdet (fit _ k1).1 (fit _ k2).1 (fit _ k3).1 (fit _ k4).1 (fit _ k1).2 (fit _ k2).2 (fit _ k3).2
    (fit _ k4).2 (gfit _ k1) (gfit _ k2) (gfit _ k3) (gfit _ k4) h1 h2 h3 h4

/-- **C26**: whenever some transform fits all correspondences, the estimate maps every source
to its destination, except sources it sends to infinity. -/
theorem estimate_passes_through (lstsq : List (Row K) → Projective K) (t0 : Projective K)
    (pairs : List ((K × K) × (K × K))) (hl : IsLstsq (system pairs) (lstsq (system pairs)))
    (hmap : ∀ p ∈ pairs, t0.forward p.1 = some p.2) (p : (K × K) × (K × K)) (hp : p ∈ pairs) (q : K × K)
    (hq : (estimate lstsq pairs).forward p.1 = some q) : q = p.2 := by
  have fit : ∀ p ∈ pairs, Fits t0 p.1 p.2 := by
    intro p hp
    have h := hmap p hp
    have hden : t0.den p.1 ≠ 0 := (forward_isSome t0 p.1).mp (by rw [h]; rfl)
    rw [forward_some t0 p.1 hden] at h
    simp only [Option.some.injEq] at h
    refine ⟨?_, ?_⟩
    · rw [← h]; exact (div_mul_cancel₀ _ hden).symm
    · rw [← h]; exact (div_mul_cancel₀ _ hden).symm
  have gfit := lstsq_exact hl fit p hp
  have hden : (estimate lstsq pairs).den p.1 ≠ 0 := (forward_isSome _ p.1).mp (by rw [hq]; rfl)
  rw [forward_some _ p.1 hden] at hq
  simp only [Option.some.injEq] at hq
  rw [← hq]
  have e1 := gfit.1
  have e2 := gfit.2
  unfold estimate at hden ⊢
  rw [e1, e2, mul_div_cancel_right₀ _ hden, mul_div_cancel_right₀ _ hden]

/-- The corners of a 10 by 20 crop at (3, 4). -/
def cropCorners : List ((ℚ × ℚ) × (ℚ × ℚ)) :=
  [((3, 4), (0, 0)), ((13, 4), (10, 0)), ((13, 24), (10, 20)), ((3, 24), (0, 20))]

example : (∀ p ∈ cropCorners, (⟨-3, 1, 0, -4, 0, 1, 0, 0⟩ : Projective ℚ).forward p.1 = some p.2) ∧
    GeneralPosition (cropCorners.map Prod.fst) ∧ (⟨-3, 1, 0, -4, 0, 1, 0, 0⟩ : Projective ℚ).det ≠ 0 ∧
    IsLstsq (system cropCorners) ⟨-3, 1, 0, -4, 0, 1, 0, 0⟩ := by
  have hfit : ∀ p ∈ cropCorners, (⟨-3, 1, 0, -4, 0, 1, 0, 0⟩ : Projective ℚ).forward p.1 = some p.2 := by decide +kernel
  have hgp : GeneralPosition (cropCorners.map Prod.fst) :=
    ⟨(3, 4), by decide, (13, 4), by decide, (13, 24), by decide, (3, 24), by decide, by norm_num [area], by norm_num [area],
      by norm_num [area], by norm_num [area]⟩
  have hz : residual (system cropCorners) ⟨-3, 1, 0, -4, 0, 1, 0, 0⟩ = 0 := by
    rw [residual_system_zero]
    intro p hp
    simp only [cropCorners, List.mem_cons, List.not_mem_nil, or_false] at hp
    rcases hp with rfl | rfl | rfl | rfl <;> norm_num [Fits, Projective.den]
  refine ⟨hfit, hgp, by norm_num [Projective.det], ?_, ?_⟩
  · intro t'
    rw [hz]
    exact residual_nonneg _ _
  · intro t' ht'
    rw [hz, residual_system_zero] at ht'
    have f0 := residual_system_zero.mp hz
    have : t' = ⟨-3, 1, 0, -4, 0, 1, 0, 0⟩ := by
      exact projective_unique (p1 := (3, 4)) (p2 := (13, 4)) (p3 := (13, 24)) (p4 := (3, 24)) (d1 := (0, 0)) (d2 := (10, 0))
        (d3 := (10, 20)) (d4 := (0, 20)) (by norm_num [Projective.det]) (by norm_num [Projective.den])
        (by norm_num [Projective.den]) (by norm_num [Projective.den]) (by norm_num [Projective.den])
        (f0 ((3, 4), (0, 0)) (by decide +kernel)) (f0 ((13, 4), (10, 0)) (by decide +kernel)) (f0 ((13, 24), (10, 20)) (by decide +kernel)) (f0 ((3, 24), (0, 20)) (by decide +kernel))
        (ht' ((3, 4), (0, 0)) (by decide +kernel)) (ht' ((13, 4), (10, 0)) (by decide +kernel)) (ht' ((13, 24), (10, 20)) (by decide +kernel)) (ht' ((3, 24), (0, 20)) (by decide +kernel))
        (by norm_num [area]) (by norm_num [area]) (by norm_num [area]) (by norm_num [area])
    rw [this]

/-- The assumption about `numpy.linalg.lstsq` that the theorems make can be met: by exactly one function. -/
example : ∃! lstsq : List (Row ℚ) → Projective ℚ, ∀ rows, IsLstsq rows (lstsq rows) := lstsq_function

/-! ### C116 -/

/-- **C116**: `estimate` depends on its correspondences only as a collection: in any other order they give the same transform, also when no transform fits them all. -/
theorem estimate_order_irrelevant (lstsq : List (Row K) → Projective K) (hl : ∀ rows, IsLstsq rows (lstsq rows))
    (pairs pairs' : List ((K × K) × (K × K))) (h : pairs.Perm pairs') : estimate lstsq pairs = estimate lstsq pairs' := by
  have hsys : (system pairs).Perm (system pairs') := (h.map _).append (h.map _)
  have hres : ∀ t, residual (system pairs) t = residual (system pairs') t := fun t => (hsys.map _).sum_eq
  apply lstsq_unique (hl _)
  constructor
  · intro t'
    rw [hres, hres]
    exact (hl (system pairs')).least t'
  · intro t' ht'
    rw [hres, hres] at ht'
    exact (hl (system pairs')).shortest t' ht'

/-- Five correspondences that no projective transform fits, in two orders. -/
example : ∃ lstsq : List (Row ℚ) → Projective ℚ, (∀ rows, IsLstsq rows (lstsq rows)) ∧
    estimate lstsq (cropCorners ++ [((3, 4), (1, 1))]) = estimate lstsq (((3, 4), (1, 1)) :: cropCorners) := by
  obtain ⟨f, hf, -⟩ := lstsq_function (K := ℚ)
  exact ⟨f, hf, estimate_order_irrelevant f hf _ _ List.perm_append_comm⟩

end Verif.Props.Transforms
