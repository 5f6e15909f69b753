import Verif.Lemmas.Transforms
import Mathlib.LinearAlgebra.BilinearForm.Orthogonal
import Mathlib.LinearAlgebra.FiniteDimensional.Basic
import Mathlib.Algebra.Order.BigOperators.Ring.Finset
import Mathlib.LinearAlgebra.Matrix.DotProduct
import Mathlib.Tactic.LinearCombination

/-!
# A shortest least squares solution always exists

The theorems about estimated transforms assume of `numpy.linalg.lstsq` that it returns a shortest
least squares solution. Over every ordered field each system has exactly one, so the assumption
can be met, and it determines the result.
-/

set_option linter.unusedSectionVars false

namespace Verif.Transforms

variable {K : Type} [Field K] [LinearOrder K] [IsStrictOrderedRing K]

/-- The dot product as a bilinear form. -/
def dotForm (K : Type) [Field K] (n : Nat) : LinearMap.BilinForm K (Fin n → K) :=
  LinearMap.mk₂ K (fun x y => dotProduct x y) (fun _ _ _ => add_dotProduct _ _ _) (fun _ _ _ => smul_dotProduct _ _ _)
    (fun _ _ _ => dotProduct_add _ _ _) (fun _ _ _ => dotProduct_smul _ _ _)

/-- Every vector has an orthogonal projection on every subspace. -/
theorem exists_projection {n : Nat} (W : Submodule K (Fin n → K)) (v : Fin n → K) :
    ∃ w ∈ W, ∀ u ∈ W, dotProduct u (v - w) = 0 := by
  have hrefl : (dotForm K n).IsRefl := by
    intro x y h
    change dotProduct y x = 0
    rw [dotProduct_comm]
    exact h
  have hcompl : IsCompl W ((dotForm K n).orthogonal W) := by
    apply LinearMap.BilinForm.isCompl_orthogonal_of_restrict_nondegenerate hrefl
    have hz : ∀ x : W, dotProduct (x : Fin n → K) x = 0 → x = 0 := by
      intro x hx
      exact Subtype.ext (dotProduct_self_eq_zero.mp hx)
    exact ⟨fun x hx => hz x (hx x), fun x hx => hz x (hx x)⟩
  have hv : v ∈ W ⊔ (dotForm K n).orthogonal W := by rw [hcompl.sup_eq_top]; trivial
  obtain ⟨w, hw, z, hz, rfl⟩ := Submodule.mem_sup.mp hv
  refine ⟨w, hw, fun u hu => ?_⟩
  rw [add_sub_cancel_left]
  exact hz u hu

/-- The parameters as a vector. -/
def Projective.vec (t : Projective K) : Fin 8 → K := ![t.a0, t.a1, t.a2, t.b0, t.b1, t.b2, t.c0, t.c1]

/-- The vector as parameters. -/
def ofVec (v : Fin 8 → K) : Projective K := ⟨v 0, v 1, v 2, v 3, v 4, v 5, v 6, v 7⟩

theorem vec_ofVec (v : Fin 8 → K) : (ofVec v).vec = v := by
  funext i
  fin_cases i <;> rfl

theorem ofVec_vec (t : Projective K) : ofVec t.vec = t := rfl

theorem apply_vec (r : Row K) (t : Projective K) : r.apply t = dotProduct r.m.vec t.vec := by
  simp [dotProduct, Fin.sum_univ_succ, Row.apply, Projective.vec]
  ring

theorem normSq_vec (t : Projective K) : normSq t = dotProduct t.vec t.vec := by
  simp [dotProduct, Fin.sum_univ_succ, normSq, Projective.vec]
  ring

/-- The matrix of the system as a linear map. -/
def matrixMap (rows : List (Row K)) : (Fin 8 → K) →ₗ[K] (Fin rows.length → K) where
  toFun v i := dotProduct rows[i].m.vec v
  map_add' x y := by funext i; exact dotProduct_add _ _ _
  map_smul' c x := by funext i; exact dotProduct_smul _ _ _

/-- The right-hand sides. -/
def rhsVec (rows : List (Row K)) : Fin rows.length → K := fun i => rows[i].rhs

theorem residual_vec (rows : List (Row K)) (t : Projective K) :
    residual rows t = dotProduct (matrixMap rows t.vec - rhsVec rows) (matrixMap rows t.vec - rhsVec rows) := by
  unfold residual dotProduct
  rw [← List.sum_ofFn]
  congr 1
  apply List.ext_getElem
  · simp
  · intro i h1 h2
    simp [matrixMap, rhsVec, apply_vec, sq]

theorem dot_expand {n : Nat} (x y : Fin n → K) :
    dotProduct (x + y) (x + y) = dotProduct x x + 2 * dotProduct x y + dotProduct y y := by
  rw [add_dotProduct, dotProduct_add, dotProduct_add, dotProduct_comm y x]
  ring

theorem dot_self_nonneg {n : Nat} (x : Fin n → K) : 0 ≤ dotProduct x x :=
  Finset.sum_nonneg (fun i _ => mul_self_nonneg (x i))

/-- Every system of the estimation has a shortest least squares solution. -/
theorem lstsq_exists (rows : List (Row K)) : ∃ t, IsLstsq rows t := by
  obtain ⟨w, ⟨v0, rfl⟩, hperp⟩ := exists_projection (LinearMap.range (matrixMap rows)) (rhsVec rows)
  obtain ⟨k, hk, hkperp⟩ := exists_projection (LinearMap.ker (matrixMap rows)) v0
  have hA : matrixMap rows (v0 - k) = matrixMap rows v0 := by
    rw [map_sub, LinearMap.mem_ker.mp hk, sub_zero]
  -- the residual of any vector is the least one plus the squared distance of the images
  have hres : ∀ t : Projective K, residual rows t = dotProduct (matrixMap rows v0 - rhsVec rows) (matrixMap rows v0 - rhsVec rows)
      + dotProduct (matrixMap rows (t.vec - v0)) (matrixMap rows (t.vec - v0)) := by
    intro t
    rw [residual_vec]
    have h1 : matrixMap rows t.vec - rhsVec rows = matrixMap rows (t.vec - v0) + (matrixMap rows v0 - rhsVec rows) := by
      rw [map_sub]; abel
    have h2 : dotProduct (matrixMap rows (t.vec - v0)) (matrixMap rows v0 - rhsVec rows) = 0 := by
      have := hperp (matrixMap rows (t.vec - v0)) ⟨_, rfl⟩
      rw [← neg_sub (rhsVec rows), dotProduct_neg, this, neg_zero]
    rw [h1, dot_expand, h2]
    ring
  have hmin : residual rows (ofVec (v0 - k)) = dotProduct (matrixMap rows v0 - rhsVec rows) (matrixMap rows v0 - rhsVec rows) := by
    rw [residual_vec, vec_ofVec, hA]
  refine ⟨ofVec (v0 - k), fun t' => ?_, fun t' ht' => ?_⟩
  · rw [hmin, hres t']
    have := dot_self_nonneg (matrixMap rows (t'.vec - v0))
    linarith
  · rw [hmin, hres t'] at ht'
    have hz : dotProduct (matrixMap rows (t'.vec - v0)) (matrixMap rows (t'.vec - v0)) = 0 := by linarith
    have hker : matrixMap rows (t'.vec - v0) = 0 := dotProduct_self_eq_zero.mp hz
    have hker' : t'.vec - (v0 - k) ∈ LinearMap.ker (matrixMap rows) := by
      rw [LinearMap.mem_ker, map_sub, hA, ← map_sub, hker]
    rw [normSq_vec, normSq_vec, vec_ofVec]
    have h1 : t'.vec = (t'.vec - (v0 - k)) + (v0 - k) := by abel
    have h2 : dotProduct (t'.vec - (v0 - k)) (v0 - k) = 0 := hkperp _ hker'
    rw [h1, dot_expand, h2]
    have := dot_self_nonneg (t'.vec - (v0 - k))
    linarith

/-- The shortest least squares solution is unique. -/
theorem lstsq_unique {rows : List (Row K)} {t t' : Projective K} (h : IsLstsq rows t) (h' : IsLstsq rows t') : t = t' := by
  have hr : residual rows t = residual rows t' := le_antisymm (h.least t') (h'.least t)
  have hn : normSq t = normSq t' := le_antisymm (h.shortest t' hr.symm) (h'.shortest t hr)
  let m : Projective K := ofVec ((1 / 2 : K) • (t.vec + t'.vec))
  have hm : m.vec = (1 / 2 : K) • (t.vec + t'.vec) := vec_ofVec _
  have par : ∀ {n : Nat} (x y : Fin n → K), dotProduct ((1 / 2 : K) • (x + y)) ((1 / 2 : K) • (x + y))
      = (1 / 2) * dotProduct x x + (1 / 2) * dotProduct y y - (1 / 4) * dotProduct (x - y) (x - y) := by
    intro n x y
    simp only [dotProduct, Finset.mul_sum, ← Finset.sum_add_distrib, ← Finset.sum_sub_distrib]
    apply Finset.sum_congr rfl
    intro i _
    simp only [Pi.smul_apply, Pi.add_apply, Pi.sub_apply, smul_eq_mul]
    ring
  have hA : matrixMap rows m.vec - rhsVec rows
      = (1 / 2 : K) • ((matrixMap rows t.vec - rhsVec rows) + (matrixMap rows t'.vec - rhsVec rows)) := by
    rw [hm, map_smul, map_add]
    funext i
    simp only [Pi.smul_apply, Pi.add_apply, Pi.sub_apply, smul_eq_mul]
    ring
  have hrm : residual rows m = residual rows t := by
    apply le_antisymm _ (h.least m)
    rw [residual_vec rows m, hA, par, ← residual_vec, ← residual_vec, ← hr]
    have := dot_self_nonneg ((matrixMap rows t.vec - rhsVec rows) - (matrixMap rows t'.vec - rhsVec rows))
    linarith
  have hs := h.shortest m hrm
  rw [normSq_vec m, hm, par, ← normSq_vec, ← normSq_vec, ← hn] at hs
  have hd : dotProduct (t.vec - t'.vec) (t.vec - t'.vec) = 0 :=
    le_antisymm (by linarith) (dot_self_nonneg _)
  have hv := sub_eq_zero.mp (dotProduct_self_eq_zero.mp hd)
  rw [← ofVec_vec t, hv, ofVec_vec]

/-- So the assumption about `numpy.linalg.lstsq` is met by one function and no other. -/
theorem lstsq_function : ∃! lstsq : List (Row K) → Projective K, ∀ rows, IsLstsq rows (lstsq rows) := by
  refine ⟨fun rows => (lstsq_exists rows).choose, fun rows => (lstsq_exists rows).choose_spec, fun f hf => ?_⟩
  funext rows
  exact lstsq_unique (hf rows) (lstsq_exists rows).choose_spec

end Verif.Transforms
