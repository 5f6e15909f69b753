import Verif.Spec.Rsm
import Verif.Model.Rsm
import Verif.Props.Rpc
import Mathlib.Tactic.Ring
import Mathlib.Tactic.Linarith
import Mathlib.Algebra.BigOperators.Intervals

/-!
# Properties C30–C33, C75: RSM models
-/

namespace Verif.Props.Rsm

open Verif.Sensors Verif.Rpc Verif.Rsm Verif.Spec.Rpc Verif.Spec.Rsm
open Verif.Dem (Geo)

/-! ## C31 -/

section
variable {K : Type} [Field K]

/-- A loop that adds `w i` and moves the running index by `step`. -/
theorem loop (f : K × Nat → Nat → Except PyErr (K × Nat)) (w : Nat → K) (step t n : Nat) (r : K)
    (h : ∀ i, i < n → ∀ r, f (r, t + step * i) i = .ok (r + w i, t + step * (i + 1))) :
    (List.range n).foldlM f (r, t) = .ok (r + ∑ i ∈ Finset.range n, w i, t + step * n) := by
  induction n with
  | zero => simp; rfl
  | succ n ih =>
    rw [List.range_succ, List.foldlM_append, ih (fun i hi => h i (by omega))]
    show (List.foldlM f (r + ∑ i ∈ Finset.range n, w i, t + step * n) [n]) = _
    simp only [List.foldlM_cons, List.foldlM_nil, h n (by omega)]
    rw [Finset.sum_range_succ, ← add_assoc]
    rfl

theorem pyGet_nat {α : Type} (l : List α) (i : Nat) (a : α) (h : l[i]? = some a) : pyGet l i = .ok a := by
  have hi : i < l.length := by
    by_contra hc
    rw [List.getElem?_eq_none (by omega)] at h
    simp at h
  unfold pyGet pyPos
  rw [if_neg (by omega), if_neg (by omega)]
  simp only [Int.toNat_natCast, h]

/-- Evaluation for a list in the right order. -/
theorem evaluate_inOrder (p : RsmPoly K) (a : Nat → Nat → Nat → K)
    (h : InOrder p.coefficients (p.px + 1).toNat (p.py + 1).toNat (p.pz + 1).toNat a) (x y z : K) :
    p.evaluate x y z = .ok (triple (p.px + 1).toNat (p.py + 1).toNat (p.pz + 1).toNat a x y z) := by
  unfold RsmPoly.evaluate triple range
  generalize (p.px + 1).toNat = nx at h ⊢
  generalize (p.py + 1).toNat = ny at h ⊢
  generalize (p.pz + 1).toNat = nz at h ⊢
  have := loop (K := K) (fun st k => (List.range ny).foldlM (fun st j =>
      (List.range nx).foldlM (fun st i => do
        let a ← pyGet p.coefficients (st.2 : Nat)
        pure (st.1 + a * x ^ i * y ^ j * z ^ k, st.2 + 1)) st) st)
    (fun k => ∑ j ∈ Finset.range ny, ∑ i ∈ Finset.range nx, a i j k * (x ^ i * y ^ j * z ^ k)) (nx * ny) 0 nz 0 ?_
  · rw [this]
    simp only [zero_add]
    rfl
  · intro k hk r
    have := loop (K := K) (fun st j =>
      (List.range nx).foldlM (fun st i => do
        let a ← pyGet p.coefficients (st.2 : Nat)
        pure (st.1 + a * x ^ i * y ^ j * z ^ k, st.2 + 1)) st)
      (fun j => ∑ i ∈ Finset.range nx, a i j k * (x ^ i * y ^ j * z ^ k)) nx (0 + nx * ny * k) ny r ?_
    · rw [this]
      congr 2
      ring
    · intro j hj r
      have := loop (K := K) (fun st i => do
        let a ← pyGet p.coefficients (st.2 : Nat)
        pure (st.1 + a * x ^ i * y ^ j * z ^ k, st.2 + 1))
        (fun i => a i j k * (x ^ i * y ^ j * z ^ k)) 1 (0 + nx * ny * k + nx * j) nx r ?_
      · rw [this]
        congr 2
        ring
      · intro i hi r
        have hidx : 0 + nx * ny * k + nx * j + 1 * i = i + nx * (j + ny * k) := by ring
        simp only [hidx, pyGet_nat _ _ _ (h i j k hi hj hk)]
        show Except.ok _ = _
        congr 2
        · ring
        · ring

/-- **C31**: an `RSMPolynomial` is accepted exactly when there is one coefficient for each triple of
powers, and then its value is the sum of all monomials with the coefficients in the order of the
standard. -/
theorem rsm_polynomial (px py pz : Int) (c : List K) :
    ((c.length : Int) ≠ (px + 1) * (py + 1) * (pz + 1) → polynomial px py pz c = .error .valueError) ∧
    ((c.length : Int) = (px + 1) * (py + 1) * (pz + 1) → ∃ p a, polynomial px py pz c = .ok p ∧
      InOrder c (px + 1).toNat (py + 1).toNat (pz + 1).toNat a ∧
      ∀ x y z, p.evaluate x y z = .ok (triple (px + 1).toNat (py + 1).toNat (pz + 1).toNat a x y z)) := by
  constructor
  · intro h
    unfold polynomial
    rw [if_pos h]
  · intro h
    have hord : InOrder c (px + 1).toNat (py + 1).toNat (pz + 1).toNat
        (fun i j k => if hlt : i + (px + 1).toNat * (j + (py + 1).toNat * k) < c.length then c[i + (px + 1).toNat * (j + (py + 1).toNat * k)] else 0) := by
      intro i j k hi hj hk
      have hx : ((px + 1).toNat : Int) = px + 1 := Int.toNat_of_nonneg (by omega)
      have hy : ((py + 1).toNat : Int) = py + 1 := Int.toNat_of_nonneg (by omega)
      have hz : ((pz + 1).toNat : Int) = pz + 1 := Int.toNat_of_nonneg (by omega)
      rw [← hx, ← hy, ← hz] at h
      generalize (px + 1).toNat = nx at *
      generalize (py + 1).toNat = ny at *
      generalize (pz + 1).toNat = nz at *
      have h' : c.length = nx * ny * nz := by exact_mod_cast h
      have hlt : i + nx * (j + ny * k) < c.length := by
        rw [h']
        have h1 : j + ny * k + 1 ≤ ny * nz := by nlinarith
        have h2 : nx * (j + ny * k + 1) ≤ nx * (ny * nz) := Nat.mul_le_mul_left _ h1
        nlinarith
      rw [List.getElem?_eq_getElem hlt]
      simp only [dif_pos hlt]
    refine ⟨⟨px, py, pz, c⟩, _, ?_, hord, ?_⟩
    · unfold polynomial
      rw [if_neg (by simpa using h)]
    · intro x y z
      exact evaluate_inOrder ⟨px, py, pz, c⟩ _ hord x y z

/-- **C31**: the value is linear in the coefficients. -/
theorem rsm_polynomial_linear (px py pz : Int) (c d : List K) (s : K) (hl : c.length = d.length)
    (hc : (c.length : Int) = (px + 1) * (py + 1) * (pz + 1)) (x y z : K) :
    ∃ p q r u v, polynomial px py pz c = .ok p ∧ polynomial px py pz d = .ok q ∧
      polynomial px py pz (List.zipWith (fun a b => a + s * b) c d) = .ok r ∧
      p.evaluate x y z = .ok u ∧ q.evaluate x y z = .ok v ∧ r.evaluate x y z = .ok (u + s * v) := by
  obtain ⟨p, a, hp, ha, hpe⟩ := (rsm_polynomial px py pz c).2 hc
  obtain ⟨q, b, hq, hb, hqe⟩ := (rsm_polynomial px py pz d).2 (hl ▸ hc)
  have hlen : (List.zipWith (fun a b => a + s * b) c d).length = c.length := by simp [hl]
  obtain ⟨r, e, hr, he, hre⟩ := (rsm_polynomial px py pz (List.zipWith (fun a b => a + s * b) c d)).2 (hlen ▸ hc)
  refine ⟨p, q, r, _, _, hp, hq, hr, hpe x y z, hqe x y z, ?_⟩
  rw [hre]
  congr 1
  unfold triple
  rw [Finset.mul_sum, ← Finset.sum_add_distrib]
  refine Finset.sum_congr rfl (fun k hk => ?_)
  rw [Finset.mul_sum, ← Finset.sum_add_distrib]
  refine Finset.sum_congr rfl (fun j hj => ?_)
  rw [Finset.mul_sum, ← Finset.sum_add_distrib]
  refine Finset.sum_congr rfl (fun i hi => ?_)
  rw [Finset.mem_range] at hi hj hk
  have h1 := ha i j k hi hj hk
  have h2 := hb i j k hi hj hk
  have h3 := he i j k hi hj hk
  rw [List.getElem?_zipWith, h1, h2] at h3
  simp only [Option.some.injEq] at h3
  rw [← h3]
  ring

/-- The value of a weighted sum of two coefficient lists. -/
example : ∃ p q r u v, polynomial (K := ℚ) 1 1 0 [7, 2, 3, 5] = .ok p ∧ polynomial 1 1 0 [1, 0, 2, 4] = .ok q ∧
    polynomial 1 1 0 (List.zipWith (fun a b => a + 3 * b) [7, 2, 3, 5] [1, 0, 2, 4]) = .ok r ∧
    p.evaluate 10 100 4 = .ok u ∧ q.evaluate 10 100 4 = .ok v ∧ r.evaluate 10 100 4 = .ok (u + 3 * v) :=
  rsm_polynomial_linear 1 1 0 [7, 2, 3, 5] [1, 0, 2, 4] 3 rfl (by decide) 10 100 4

/-- Three coefficients for four places. -/
example : polynomial (K := ℚ) 1 1 0 [7, 2, 3] = .error .valueError := (rsm_polynomial 1 1 0 [7, 2, 3]).1 (by decide)

/-- **C31**: the low order polynomial accepts ten coefficients and is the quadratic. -/
theorem low_order_polynomial (c : List K) :
    (c.length ≠ 10 → lowOrderPolynomial c = .error .valueError) ∧
    (c.length = 10 → ∃ p, lowOrderPolynomial c = .ok p ∧ ∀ x y z, lowOrder p x y z = .ok (quadratic c x y z)) := by
  constructor
  · intro h
    unfold lowOrderPolynomial
    rw [if_pos h]
  · intro h
    refine ⟨c, ?_, ?_⟩
    · unfold lowOrderPolynomial
      rw [if_neg (by simpa using h)]
    · intro x y z
      match c, h with
      | [c0, c1, c2, c3, c4, c5, c6, c7, c8, c9], _ =>
        unfold lowOrder quadratic lowOrderTerms
        simp only [List.zip_cons_cons, List.zip_nil_right, List.map_cons, List.map_nil, List.sum_cons, List.sum_nil]
        congr 1
        ring

end

example : (⟨1, 1, 0, [7, 2, 3, 5]⟩ : RsmPoly ℚ).evaluate 10 100 4 = .ok (7 + 2 * 10 + 3 * 100 + 5 * 1000) := by
  decide +kernel

example : ((List.length [7, 2, 3, 5] : Nat) : Int) = ((1 : Int) + 1) * (1 + 1) * (0 + 1) := by decide

/-! ## C32 -/

/-- **C32**: normalising and denormalising invert each other, for image and ground coordinates. -/
theorem normalise_inverts (m : PolyModel) (hx : m.xScale ≠ 0) (hy : m.yScale ≠ 0) (hz : m.zScale ≠ 0)
    (hr : m.rowScale ≠ 0) (hc : m.colScale ≠ 0) :
    (∀ v, ∃ n, m.normalizeWorld v = .ok n ∧ m.denormalizeWorld n = v) ∧
    (∀ n, m.normalizeWorld (m.denormalizeWorld n) = .ok n) ∧
    (∀ p, ∃ n, m.normalizeImage p = .ok n ∧ m.denormalizeImage n = p) ∧
    (∀ n, m.normalizeImage (m.denormalizeImage n) = .ok n) := by
  refine ⟨?_, ?_, ?_, ?_⟩
  · intro v
    refine ⟨![(v 0 - m.xOff) / m.xScale, (v 1 - m.yOff) / m.yScale, (v 2 - m.zOff) / m.zScale], ?_, ?_⟩
    · simp only [PolyModel.normalizeWorld, norm1, npDiv, if_neg hx, if_neg hy, if_neg hz]
      rfl
    · funext i
      fin_cases i <;> simp [PolyModel.denormalizeWorld, denorm1, hx, hy, hz]
  · intro n
    simp only [PolyModel.normalizeWorld, PolyModel.denormalizeWorld, norm1, denorm1, npDiv, if_neg hx, if_neg hy, if_neg hz]
    show Except.ok _ = _
    congr 1
    funext i
    fin_cases i <;> simp [hx, hy, hz]
  · intro p
    refine ⟨((p.1 - m.colOff) / m.colScale, (p.2 - m.rowOff) / m.rowScale), ?_, ?_⟩
    · simp only [PolyModel.normalizeImage, norm1, npDiv, if_neg hr, if_neg hc]
      rfl
    · simp [PolyModel.denormalizeImage, denorm1, hr, hc]
  · intro n
    simp only [PolyModel.normalizeImage, PolyModel.denormalizeImage, norm1, denorm1, npDiv, if_neg hr, if_neg hc]
    show Except.ok _ = _
    simp [hr, hc]

/-- A model with different scales and offsets. -/
example (d : GroundDomain) (n : Vec) : ∃ m : PolyModel, m.xOff = 3 ∧ m.normalizeWorld (m.denormalizeWorld n) = .ok n :=
  ⟨{ domain := d, rowSection := 1, colSection := 1, rowOff := 10, colOff := 20, xOff := 3, yOff := 4, zOff := 5, rowScale := 100,
     colScale := 200, xScale := 2, yScale := 7, zScale := 50, rowNum := ⟨0, 0, 0, [1]⟩, rowDen := ⟨0, 0, 0, [1]⟩,
     colNum := ⟨0, 0, 0, [1]⟩, colDen := ⟨0, 0, 0, [1]⟩ }, rfl,
   (normalise_inverts _ (by norm_num) (by norm_num) (by norm_num) (by norm_num) (by norm_num)).2.1 n⟩

theorem describeDomain_spec (earth : Earth) (fr : Frame) (vs : List Vec) (ref : Option Vec) (d : GroundDomain)
    (h : describeDomain earth fr vs ref = .ok d) :
    d.frame = fr ∧ vs.mapM (fr.toGeodetic earth) = .ok d.vertices ∧ d.bbox = d.vertices.foldl grow none ∧
    (∀ v, ref = some v → ∃ g, fr.toGeodetic earth v = .ok g ∧ d.defaultHeight = g.elevation) ∧
    (ref = none → d.defaultHeight = d.vertices.foldl (fun s g => s + g.elevation) 0 / d.vertices.length) := by
  unfold describeDomain at h
  simp only [bind, Except.bind, pure, Except.pure] at h
  split at h
  · cases h
  · rename_i geodetic hgeo
    split at h
    · rename_i v
      split at h
      · cases h
      · rename_i g hg
        cases h
        exact ⟨rfl, hgeo, rfl, fun v' hv' => by cases hv'; exact ⟨g, hg, rfl⟩, by simp⟩
    · cases h
      exact ⟨rfl, hgeo, rfl, by simp, fun _ => rfl⟩

/-- What the constructor guarantees. -/
theorem groundDomain_frame (earth : Earth) (form : Form) (vs : List Vec) (origin : Option Vec) (units : Option Mat)
    (ref : Option Vec) (d : GroundDomain) (h : groundDomain earth form vs origin units ref = .ok d) :
    vs.length = 8 ∧ d.frame.form = form ∧ d.frame.origin = origin ∧
    (form = .rectangular → ∃ o m, origin = some o ∧ units = some m ∧ m.det ≠ 0 ∧ d.frame.axes = some (m, m⁻¹)) ∧
    describeDomain earth d.frame vs ref = .ok d := by
  unfold groundDomain at h
  by_cases h8 : vs.length ≠ 8
  · rw [if_pos h8] at h
    cases h
  rw [if_neg h8] at h
  push Not at h8
  by_cases hr : form = .rectangular ∧ (origin = none ∨ units.isNone)
  · rw [if_pos hr] at h
    cases h
  rw [if_neg hr] at h
  simp only [bind, Except.bind] at h
  cases units with
  | none =>
    simp only at h
    have hfr := (describeDomain_spec _ _ _ _ _ h).1
    rw [hfr]
    refine ⟨h8, rfl, rfl, ?_, h⟩
    intro hf
    exact absurd ⟨hf, Or.inr rfl⟩ hr
  | some m =>
    unfold matInv at h
    by_cases hd : m.det = 0
    · simp only [if_pos hd, Except.map] at h
      cases h
    · simp only [if_neg hd, Except.map] at h
      have hfr := (describeDomain_spec _ _ _ _ _ h).1
      rw [hfr]
      refine ⟨h8, rfl, rfl, ?_, h⟩
      intro hf
      cases origin with
      | none => exact absurd ⟨hf, Or.inl rfl⟩ hr
      | some o => exact ⟨o, m, rfl, rfl, hd, rfl⟩

/-- **C32**: in a rectangular ground domain, geodetic to domain and domain to geodetic invert each
other wherever the geocentric conversion does. -/
theorem rectangular_domain_inverts (earth : Earth) (vs : List Vec) (origin : Option Vec) (units : Option Mat)
    (ref : Option Vec) (d : GroundDomain) (h : groundDomain earth .rectangular vs origin units ref = .ok d) :
    (∀ g, earth.ofEcef (earth.toEcef g) = g → ∃ v, d.frame.toDomain earth g = .ok v ∧ d.frame.toGeodetic earth v = .ok g) ∧
    ((∀ v, earth.toEcef (earth.ofEcef v) = v) →
      ∀ v, ∃ g, d.frame.toGeodetic earth v = .ok g ∧ d.frame.toDomain earth g = .ok v) := by
  obtain ⟨-, hf, ho, hax, -⟩ := groundDomain_frame earth _ vs origin units ref d h
  obtain ⟨o, m, rfl, rfl, hdet, hax⟩ := hax rfl
  have hu : IsUnit m.det := isUnit_iff_ne_zero.2 hdet
  constructor
  · intro g hg
    refine ⟨m.mulVec (fun i => earth.toEcef g i - o i), ?_, ?_⟩
    · simp only [Frame.toDomain, hf, ho, hax]
    · simp only [Frame.toGeodetic, hf, ho, hax, Matrix.mulVec_mulVec, Matrix.nonsing_inv_mul m hu, Matrix.one_mulVec,
        sub_add_cancel]
      exact congrArg _ hg
  · intro he v
    refine ⟨earth.ofEcef (fun i => (m⁻¹).mulVec v i + o i), ?_, ?_⟩
    · simp only [Frame.toGeodetic, hf, ho, hax]
    · simp only [Frame.toDomain, hf, ho, hax, he, add_sub_cancel_right]
      show Except.ok (m.mulVec ((m⁻¹).mulVec v)) = _
      rw [Matrix.mulVec_mulVec, Matrix.mul_nonsing_inv m hu, Matrix.one_mulVec]

/-- **C32**: in a geodetic ground domain the two conversions are the identity. -/
theorem geodetic_domain_inverts (earth : Earth) (vs : List Vec) (origin : Option Vec) (units : Option Mat)
    (ref : Option Vec) (d : GroundDomain) (h : groundDomain earth .geodetic vs origin units ref = .ok d) (g : Geo ℝ) :
    d.frame.toDomain earth g = .ok ![g.longitude, g.latitude, g.elevation] ∧
      d.frame.toGeodetic earth ![g.longitude, g.latitude, g.elevation] = .ok g := by
  obtain ⟨-, hf, -⟩ := groundDomain_frame earth _ vs origin units ref d h
  constructor
  · simp only [Frame.toDomain, hf, vecOf]
  · simp only [Frame.toGeodetic, hf, geoOf]
    rfl

theorem pyMod_mem (x m : ℝ) (hm : 0 < m) : 0 ≤ pyMod x m ∧ pyMod x m < m := by
  unfold pyMod
  have h1 := Int.floor_le (x / m)
  have h2 := Int.lt_floor_add_one (x / m)
  have e : m * (x / m) = x := by field_simp
  constructor
  · nlinarith
  · nlinarith

/-- **C32**: in a GEODETIC_2PI ground domain the longitude is in `[0, 2π)` and is the same direction;
the way back keeps it, so a round trip changes the longitude by full turns only, and is the
identity from the domain. -/
theorem geodetic_2pi_domain (earth : Earth) (vs : List Vec) (origin : Option Vec) (units : Option Mat)
    (ref : Option Vec) (d : GroundDomain) (h : groundDomain earth .geodetic2pi vs origin units ref = .ok d) :
    (∀ g, ∃ lon g', d.frame.toDomain earth g = .ok ![lon, g.latitude, g.elevation] ∧ 0 ≤ lon ∧ lon < 2 * Real.pi ∧
      SameLongitude lon g.longitude ∧
      d.frame.toGeodetic earth ![lon, g.latitude, g.elevation] = .ok g' ∧
      SameLongitude g'.longitude g.longitude ∧ g'.latitude = g.latitude ∧ g'.elevation = g.elevation) ∧
    (∀ lon lat z, 0 ≤ lon → lon < 2 * Real.pi → ∃ g, d.frame.toGeodetic earth ![lon, lat, z] = .ok g ∧
      d.frame.toDomain earth g = .ok ![lon, lat, z]) := by
  obtain ⟨-, hf, -⟩ := groundDomain_frame earth _ vs origin units ref d h
  have hpi : (0 : ℝ) < 2 * Real.pi := by have := Real.pi_pos; linarith
  constructor
  · intro g
    have hs : SameLongitude (pyMod (g.longitude + 2 * Real.pi) (2 * Real.pi)) g.longitude := by
      refine ⟨1 - ⌊(g.longitude + 2 * Real.pi) / (2 * Real.pi)⌋, ?_⟩
      unfold pyMod
      push_cast
      ring
    obtain ⟨h0, h1⟩ := pyMod_mem (g.longitude + 2 * Real.pi) _ hpi
    refine ⟨_, ⟨pyMod (g.longitude + 2 * Real.pi) (2 * Real.pi), g.latitude, g.elevation⟩, ?_, h0, h1, hs, ?_, hs, rfl, rfl⟩
    · simp only [Frame.toDomain, hf]
    · simp only [Frame.toGeodetic, hf, geoOf]
      rfl
  · intro lon lat z h0 h1
    refine ⟨⟨lon, lat, z⟩, ?_, ?_⟩
    · simp only [Frame.toGeodetic, hf, geoOf]
      rfl
    · simp only [Frame.toDomain, hf]
      have hfl : ⌊(lon + 2 * Real.pi) / (2 * Real.pi)⌋ = 1 := by
        rw [Int.floor_eq_iff]
        constructor
        · rw [le_div_iff₀ hpi]
          push_cast
          linarith
        · rw [div_lt_iff₀ hpi]
          push_cast
          linarith
      unfold pyMod
      rw [hfl]
      congr 3
      push_cast
      ring

end Verif.Props.Rsm
