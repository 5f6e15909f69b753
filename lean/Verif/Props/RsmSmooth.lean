import Verif.Props.RpcSmooth
import Verif.Props.NearbyRsm
import Verif.Props.Remap

/-!
# Orthophoto tiles of images with an RSM model
-/

namespace Verif.Props.RsmSmooth

open Verif.Orthophoto Verif.TileFactory Verif.GdalUtils Verif.Updaters
open Verif.Rpc Verif.Rsm Verif.Spec.Rsm
open Verif.Dem (Geo)
open Verif.Spec.Rounded (coefficient value Complete)
open Verif.Props.TileFactory Verif.Props.Orthophoto Verif.Props.OrthophotoNear
open Verif.Props.GridSmooth (Bends bends_of_second)
open Verif.Props.RpcSmooth (curve second_bound bends_units mix_follows)

/-! ## What it has to be -/

/-- The sum of the absolute values of the coefficients, those of `x^i y^j z^k` with weight `w i j`. -/
noncomputable def weighted (p : RsmPoly ℝ) (w : ℕ → ℕ → ℝ) : ℝ :=
  ∑ k ∈ Finset.range (p.pz + 1).toNat, ∑ j ∈ Finset.range (p.py + 1).toNat, ∑ i ∈ Finset.range (p.px + 1).toNat, w i j * |coefficient p i j k|

/-- How much a ratio can bend where the denominator is at least `q`, if `A`, `A1` and `A2` bound the numerator and its derivatives, and `B1` and `B2` those of the denominator. -/
noncomputable def arch (A A1 A2 B1 B2 q : ℝ) : ℝ := A2 / q + (A * B2 + 2 * A1 * B1) / q ^ 2 + 2 * A * B1 ^ 2 / q ^ 3

/-- The bend of a ratio of polynomials along `x` and along `y`. -/
noncomputable def bendX (num den : RsmPoly ℝ) (q : ℝ) : ℝ :=
  arch (weighted num (fun _ _ => 1)) (weighted num (fun i _ => i)) (weighted num (fun i _ => i * (i - 1))) (weighted den (fun i _ => i)) (weighted den (fun i _ => i * (i - 1))) q
noncomputable def bendY (num den : RsmPoly ℝ) (q : ℝ) : ℝ :=
  arch (weighted num (fun _ _ => 1)) (weighted num (fun _ j => j)) (weighted num (fun _ j => j * (j - 1))) (weighted den (fun _ j => j)) (weighted den (fun _ j => j * (j - 1))) q

/-- An RSM model with a geodetic ground domain, whose denominators stay away from 0 in the cube for which the model is made, and whose positions bend by at most `K` pixels per squared unit of
normalised longitude, and by `L` pixels per squared unit of latitude. -/
structure Regular (m : PolyModel) (q K L : ℝ) : Prop where
  form : m.domain.frame.form = .geodetic
  rowNum : Complete m.rowNum
  rowDen : Complete m.rowDen
  colNum : Complete m.colNum
  colDen : Complete m.colDen
  x : m.xScale ≠ 0
  y : m.yScale ≠ 0
  z : m.zScale ≠ 0
  pos : 0 < q
  row : ∀ x y z : ℝ, |x| ≤ 1 → |y| ≤ 1 → |z| ≤ 1 → q ≤ |value m.rowDen x y z|
  col : ∀ x y z : ℝ, |x| ≤ 1 → |y| ≤ 1 → |z| ≤ 1 → q ≤ |value m.colDen x y z|
  rowX : |m.rowScale| * bendX m.rowNum m.rowDen q ≤ K
  colX : |m.colScale| * bendX m.colNum m.colDen q ≤ K
  rowY : |m.rowScale| * bendY m.rowNum m.rowDen q ≤ L
  colY : |m.colScale| * bendY m.colNum m.colDen q ≤ L

/-- The point is in the cube for which the model is made. -/
def InCube (m : PolyModel) (g : Geo ℝ) : Prop :=
  |(g.longitude - m.xOff) / m.xScale| ≤ 1 ∧ |(g.latitude - m.yOff) / m.yScale| ≤ 1 ∧ |(g.elevation - m.zOff) / m.zScale| ≤ 1

/-- The sensor model projects the ground of the tile at the elevation used as the RSM model does, up to `η` pixels. -/
structure Computes (S : Sensor) (earth : Earth) (m : PolyModel) (elevation minLon minLat maxLon maxLat : ℚ) (tx ty : ℚ → ℚ → ℚ) (η : ℝ) : Prop where
  projects : ∀ lon lat, minLon ≤ lon → lon ≤ maxLon → minLat ≤ lat → lat ≤ maxLat → S.toImage (lon, lat, elevation) = .ok (tx lon lat, ty lon lat)
  inside : ∀ lon lat : ℚ, minLon ≤ lon → lon ≤ maxLon → minLat ≤ lat → lat ≤ maxLat → InCube m ⟨lon, lat, elevation⟩
  close : ∀ (lon lat : ℚ) (x y : ℝ), minLon ≤ lon → lon ≤ maxLon → minLat ≤ lat → lat ≤ maxLat → m.worldToImage earth ⟨lon, lat, elevation⟩ = .ok (x, y) →
    |(tx lon lat : ℝ) - x| ≤ η ∧ |(ty lon lat : ℝ) - y| ≤ η

/-! ## Ratios of polynomials -/

theorem ratio_bends {P P1 P2 Q Q1 Q2 : ℝ → ℝ} {A A1 A2 B1 B2 q : ℝ} (hq : 0 < q) (dP : ∀ x, HasDerivAt P (P1 x) x) (dP1 : ∀ x, HasDerivAt P1 (P2 x) x) (dQ : ∀ x, HasDerivAt Q (Q1 x) x)
    (dQ1 : ∀ x, HasDerivAt Q1 (Q2 x) x) (hP : ∀ x, |x| ≤ 1 → |P x| ≤ A ∧ |P1 x| ≤ A1 ∧ |P2 x| ≤ A2) (hQ : ∀ x, |x| ≤ 1 → q ≤ |Q x| ∧ |Q1 x| ≤ B1 ∧ |Q2 x| ≤ B2) {x y : ℝ} (hx : |x| ≤ 1) (hy : |y| ≤ 1) :
    Bends (arch A A1 A2 B1 B2 q) (fun x => P x / Q x) x y := by
  have nz : ∀ x : ℝ, |x| ≤ 1 → Q x ≠ 0 := fun x hx h => by
    have := (hQ x hx).1
    rw [h, abs_zero] at this
    linarith
  refine bends_of_second (D := Set.Icc (-1) 1) (convex_Icc _ _) (fun x hx => (dP x).div (dQ x) (nz x (abs_le.2 hx)))
    (f2 := fun x => ((P2 x * Q x - P x * Q2 x) * Q x ^ 2 - (P1 x * Q x - P x * Q1 x) * (2 * Q x * Q1 x)) / (Q x ^ 2) ^ 2) (fun x hx => ?_) (fun x hx => ?_) (abs_le.1 hx) (abs_le.1 hy)
  · have n := ((dP1 x).mul (dQ x)).sub ((dP x).mul (dQ1 x))
    have := n.div ((dQ x).pow 2) (pow_ne_zero 2 (nz x (abs_le.2 hx)))
    refine this.congr_deriv ?_
    simp only [Pi.mul_apply, Pi.sub_apply, Pi.pow_apply]
    congr 1
    push_cast
    ring
  · obtain ⟨p0, p1, p2⟩ := hP x (abs_le.2 hx)
    obtain ⟨k0, k1, k2⟩ := hQ x (abs_le.2 hx)
    have := second_bound (P := P x) (P1 := P1 x) (P2 := P2 x) (Q := Q x) (Q1 := Q1 x) (Q2 := Q2 x) (A := A) (A1 := A1 / 3) (A2 := A2 / 6) (B1 := B1 / 3) (B2 := B2 / 6) hq k0 p0 (by linarith) (by linarith) (by linarith) (by linarith)
    refine this.trans (le_of_eq ?_)
    unfold curve arch
    ring

theorem terms {ι : Type} (s : Finset ι) (c : ι → ℝ) (k : ι → ℕ) (w : ι → ℝ) (hw : ∀ t ∈ s, |w t| ≤ 1) :
    ∃ P1 P2 : ℝ → ℝ, (∀ x, HasDerivAt (fun x => ∑ t ∈ s, c t * (x ^ k t * w t)) (P1 x) x) ∧ (∀ x, HasDerivAt P1 (P2 x) x) ∧
      ∀ x, |x| ≤ 1 → |∑ t ∈ s, c t * (x ^ k t * w t)| ≤ ∑ t ∈ s, 1 * |c t| ∧ |P1 x| ≤ ∑ t ∈ s, (k t : ℝ) * |c t| ∧ |P2 x| ≤ ∑ t ∈ s, (k t : ℝ) * ((k t : ℝ) - 1) * |c t| := by
  refine ⟨fun x => ∑ t ∈ s, c t * w t * (k t * x ^ (k t - 1)), fun x => ∑ t ∈ s, c t * w t * (k t * (((k t - 1 : ℕ) : ℝ) * x ^ (k t - 1 - 1))), fun x => ?_, fun x => ?_, fun x hx => ?_⟩
  · refine HasDerivAt.fun_sum fun t _ => ?_
    exact (((hasDerivAt_pow (k t) x).mul_const (w t)).const_mul (c t)).congr_deriv (by ring)
  · refine HasDerivAt.fun_sum fun t _ => ?_
    exact ((hasDerivAt_pow (k t - 1) x).const_mul (k t : ℝ)).const_mul (c t * w t)
  · have p : ∀ n : ℕ, |x ^ n| ≤ 1 := fun n => by rw [abs_pow]; exact pow_le_one₀ (abs_nonneg _) hx
    have cw : ∀ t ∈ s, |c t * w t| ≤ |c t| := fun t ht => by rw [abs_mul]; exact mul_le_of_le_one_right (abs_nonneg _) (hw t ht)
    refine ⟨(Finset.abs_sum_le_sum_abs _ _).trans (Finset.sum_le_sum fun t ht => ?_), (Finset.abs_sum_le_sum_abs _ _).trans (Finset.sum_le_sum fun t ht => ?_),
      (Finset.abs_sum_le_sum_abs _ _).trans (Finset.sum_le_sum fun t ht => ?_)⟩
    · rw [show c t * (x ^ k t * w t) = x ^ k t * (c t * w t) by ring, abs_mul]
      exact mul_le_mul (p _) (cw t ht) (abs_nonneg _) zero_le_one
    · rw [show c t * w t * (k t * x ^ (k t - 1)) = (k t * x ^ (k t - 1)) * (c t * w t) by ring, abs_mul, abs_mul, Nat.abs_cast]
      exact mul_le_mul (mul_le_of_le_one_right (by positivity) (p _)) (cw t ht) (abs_nonneg _) (by positivity)
    · have e : (k t : ℝ) * ((k t - 1 : ℕ) : ℝ) = k t * ((k t : ℝ) - 1) := by
        rcases Nat.eq_zero_or_pos (k t) with h | h
        · rw [h]; simp
        · rw [Nat.cast_sub h]; simp
      rw [show c t * w t * (k t * (((k t - 1 : ℕ) : ℝ) * x ^ (k t - 1 - 1))) = (k t * ((k t - 1 : ℕ) : ℝ)) * x ^ (k t - 1 - 1) * (c t * w t) by ring, abs_mul, abs_mul, abs_of_nonneg (by positivity), ← e]
      exact mul_le_mul (mul_le_of_le_one_right (by positivity) (p _)) (cw t ht) (abs_nonneg _) (by positivity)

theorem along_x (p : RsmPoly ℝ) {y z : ℝ} (hy : |y| ≤ 1) (hz : |z| ≤ 1) :
    ∃ P1 P2 : ℝ → ℝ, (∀ x, HasDerivAt (fun x => value p x y z) (P1 x) x) ∧ (∀ x, HasDerivAt P1 (P2 x) x) ∧
      ∀ x, |x| ≤ 1 → |value p x y z| ≤ weighted p (fun _ _ => 1) ∧ |P1 x| ≤ weighted p (fun i _ => i) ∧ |P2 x| ≤ weighted p (fun i _ => i * (i - 1)) := by
  obtain ⟨P1, P2, d1, d2, h⟩ := terms (Finset.range (p.pz + 1).toNat ×ˢ Finset.range (p.py + 1).toNat ×ˢ Finset.range (p.px + 1).toNat) (fun t => coefficient p t.2.2 t.2.1 t.1) (fun t => t.2.2)
    (fun t => y ^ t.2.1 * z ^ t.1) (fun t _ => Verif.Props.RpcSmooth.powers_one hy hz _ _)
  have e : ∀ x : ℝ, ∑ t ∈ Finset.range (p.pz + 1).toNat ×ˢ Finset.range (p.py + 1).toNat ×ˢ Finset.range (p.px + 1).toNat, coefficient p t.2.2 t.2.1 t.1 * (x ^ t.2.2 * (y ^ t.2.1 * z ^ t.1)) = value p x y z := by
    intro x
    unfold value triple
    simp only [Finset.sum_product, mul_assoc]
  simp only [e] at d1 h
  simp only [Finset.sum_product] at h
  exact ⟨P1, P2, d1, d2, h⟩

theorem along_y (p : RsmPoly ℝ) {x z : ℝ} (hx : |x| ≤ 1) (hz : |z| ≤ 1) :
    ∃ P1 P2 : ℝ → ℝ, (∀ y, HasDerivAt (fun y => value p x y z) (P1 y) y) ∧ (∀ y, HasDerivAt P1 (P2 y) y) ∧
      ∀ y, |y| ≤ 1 → |value p x y z| ≤ weighted p (fun _ _ => 1) ∧ |P1 y| ≤ weighted p (fun _ j => j) ∧ |P2 y| ≤ weighted p (fun _ j => j * (j - 1)) := by
  obtain ⟨P1, P2, d1, d2, h⟩ := terms (Finset.range (p.pz + 1).toNat ×ˢ Finset.range (p.py + 1).toNat ×ˢ Finset.range (p.px + 1).toNat) (fun t => coefficient p t.2.2 t.2.1 t.1) (fun t => t.2.1)
    (fun t => x ^ t.2.2 * z ^ t.1) (fun t _ => Verif.Props.RpcSmooth.powers_one hx hz _ _)
  have e : ∀ y : ℝ, ∑ t ∈ Finset.range (p.pz + 1).toNat ×ˢ Finset.range (p.py + 1).toNat ×ˢ Finset.range (p.px + 1).toNat, coefficient p t.2.2 t.2.1 t.1 * (y ^ t.2.1 * (x ^ t.2.2 * z ^ t.1)) = value p x y z := by
    intro y
    unfold value triple
    simp only [Finset.sum_product]
    refine Finset.sum_congr rfl fun k _ => Finset.sum_congr rfl fun j _ => Finset.sum_congr rfl fun i _ => ?_
    ring
  simp only [e] at d1 h
  simp only [Finset.sum_product] at h
  exact ⟨P1, P2, d1, d2, h⟩

theorem x_bends {num den : RsmPoly ℝ} {q x x' y z : ℝ} (hq : 0 < q) (hQ : ∀ x y z : ℝ, |x| ≤ 1 → |y| ≤ 1 → |z| ≤ 1 → q ≤ |value den x y z|) (hx : |x| ≤ 1) (hx' : |x'| ≤ 1) (hy : |y| ≤ 1) (hz : |z| ≤ 1) :
    Bends (bendX num den q) (fun x => value num x y z / value den x y z) x x' := by
  obtain ⟨P1, P2, a1, a2, ha⟩ := along_x num hy hz
  obtain ⟨Q1, Q2, b1, b2, hb⟩ := along_x den hy hz
  exact ratio_bends hq a1 a2 b1 b2 ha (fun x hx => ⟨hQ x y z hx hy hz, (hb x hx).2⟩) hx hx'

theorem y_bends {num den : RsmPoly ℝ} {q x y y' z : ℝ} (hq : 0 < q) (hQ : ∀ x y z : ℝ, |x| ≤ 1 → |y| ≤ 1 → |z| ≤ 1 → q ≤ |value den x y z|) (hx : |x| ≤ 1) (hy : |y| ≤ 1) (hy' : |y'| ≤ 1) (hz : |z| ≤ 1) :
    Bends (bendY num den q) (fun y => value num x y z / value den x y z) y y' := by
  obtain ⟨P1, P2, a1, a2, ha⟩ := along_y num hx hz
  obtain ⟨Q1, Q2, b1, b2, hb⟩ := along_y den hx hz
  exact ratio_bends hq a1 a2 b1 b2 ha (fun y hy => ⟨hQ x y z hx hy hz, (hb y hy).2⟩) hy hy'

/-! ## Positions -/

/-- Column and row of a ground point. -/
noncomputable def column (m : PolyModel) (lon lat e : ℝ) : ℝ :=
  m.colOff + m.colScale * (value m.colNum (1 / m.xScale * lon - m.xOff / m.xScale) (1 / m.yScale * lat - m.yOff / m.yScale) ((e - m.zOff) / m.zScale) /
    value m.colDen (1 / m.xScale * lon - m.xOff / m.xScale) (1 / m.yScale * lat - m.yOff / m.yScale) ((e - m.zOff) / m.zScale))

noncomputable def row (m : PolyModel) (lon lat e : ℝ) : ℝ :=
  m.rowOff + m.rowScale * (value m.rowNum (1 / m.xScale * lon - m.xOff / m.xScale) (1 / m.yScale * lat - m.yOff / m.yScale) ((e - m.zOff) / m.zScale) /
    value m.rowDen (1 / m.xScale * lon - m.xOff / m.xScale) (1 / m.yScale * lat - m.yOff / m.yScale) ((e - m.zOff) / m.zScale))

theorem InCube.units {m : PolyModel} {lon lat e : ℝ} (h : InCube m ⟨lon, lat, e⟩) :
    |1 / m.xScale * lon - m.xOff / m.xScale| ≤ 1 ∧ |1 / m.yScale * lat - m.yOff / m.yScale| ≤ 1 ∧ |(e - m.zOff) / m.zScale| ≤ 1 := by
  have u : ∀ x o s : ℝ, 1 / s * x - o / s = (x - o) / s := fun x o s => by ring
  rw [u, u]
  exact h

theorem projects (earth : Earth) {m : PolyModel} {q K L : ℝ} (hm : Regular m q K L) {lon lat e : ℝ} (h : InCube m ⟨lon, lat, e⟩) : m.worldToImage earth ⟨lon, lat, e⟩ = .ok (column m lon lat e, row m lon lat e) := by
  obtain ⟨hx, hy, hz⟩ := h.units
  have nz : ∀ x : ℝ, q ≤ |x| → x ≠ 0 := fun x hx h => by
    rw [h, abs_zero] at hx
    linarith [hm.pos]
  have dom : m.domain.frame.toDomain earth ⟨lon, lat, e⟩ = .ok ![lon, lat, e] := by
    unfold Frame.toDomain
    rw [hm.form]
    rfl
  have a := hm.x
  have b := hm.y
  have c := hm.z
  refine Verif.Props.RsmModel.rsm_world_to_image earth m _ _ dom hm.x hm.y hm.z _ _ _ ?_ ?_ ?_ _ _ _ _
    (Verif.Props.RoundedRsm.evaluate_value hm.rowNum _ _ _) (Verif.Props.RoundedRsm.evaluate_value hm.rowDen _ _ _)
    (Verif.Props.RoundedRsm.evaluate_value hm.colNum _ _ _) (Verif.Props.RoundedRsm.evaluate_value hm.colDen _ _ _) (nz _ (hm.row _ _ _ hx hy hz)) (nz _ (hm.col _ _ _ hx hy hz))
  · show _ = lon
    field_simp
    ring
  · show _ = lat
    field_simp
    ring
  · show _ = e
    field_simp
    ring

/-- **C182**: along a parallel, both coordinates bend by no more than `K` per squared unit. -/
theorem parallel_bends {m : PolyModel} {q K L : ℝ} (hm : Regular m q K L) {lon lon' lat e : ℝ} (h : InCube m ⟨lon, lat, e⟩) (h' : InCube m ⟨lon', lat, e⟩) :
    Bends (K * (1 / m.xScale) ^ 2) (fun x => column m x lat e) lon lon' ∧ Bends (K * (1 / m.xScale) ^ 2) (fun x => row m x lat e) lon lon' := by
  obtain ⟨hx, hy, hz⟩ := h.units
  have hx' := h'.units.1
  exact ⟨bends_units (f := fun x => value m.colNum x _ _ / value m.colDen x _ _) _ _ _ _ (x_bends hm.pos hm.col hx hx' hy hz) hm.colX,
    bends_units (f := fun x => value m.rowNum x _ _ / value m.rowDen x _ _) _ _ _ _ (x_bends hm.pos hm.row hx hx' hy hz) hm.rowX⟩

/-- **C182**: and along a meridian, by no more than `L`. -/
theorem meridian_bends {m : PolyModel} {q K L : ℝ} (hm : Regular m q K L) {lon lat lat' e : ℝ} (h : InCube m ⟨lon, lat, e⟩) (h' : InCube m ⟨lon, lat', e⟩) :
    Bends (L * (1 / m.yScale) ^ 2) (fun y => column m lon y e) lat lat' ∧ Bends (L * (1 / m.yScale) ^ 2) (fun y => row m lon y e) lat lat' := by
  obtain ⟨hx, hy, hz⟩ := h.units
  have hy' := h'.units.2.1
  exact ⟨bends_units (f := fun y => value m.colNum _ y _ / value m.colDen _ y _) _ _ _ _ (y_bends hm.pos hm.col hx hy hy' hz) hm.colY,
    bends_units (f := fun y => value m.rowNum _ y _ / value m.rowDen _ y _) _ _ _ _ (y_bends hm.pos hm.row hx hy hy' hz) hm.rowY⟩

theorem rsm_follows {S : Sensor} {earth : Earth} {m : PolyModel} {q K L η : ℝ} (hm : Regular m q K L) {elevation minLon minLat maxLon maxLat : ℚ} {tx ty : ℚ → ℚ → ℚ} {δ : ℚ} (hK : 0 ≤ K) (hL : 0 ≤ L)
    (hS : Computes S earth m elevation minLon minLat maxLon maxLat tx ty η) (hlon : minLon ≤ maxLon) (hlat : minLat ≤ maxLat) (n : Nat)
    (hδ : (K * (((maxLon : ℝ) - minLon) / m.xScale) ^ 2 + L * (((maxLat : ℝ) - minLat) / m.yScale) ^ 2) / 64 + η ≤ δ) :
    GridFollows S elevation minLon minLat maxLon maxLat n tx ty δ := by
  refine ⟨hS.projects, fun hn i j u v hi hj hu hv lon lat elon elat => ?_⟩
  have e : K * (1 / m.xScale) ^ 2 * ((maxLon : ℝ) - minLon) ^ 2 / 32 + L * (1 / m.yScale) ^ 2 * ((maxLat : ℝ) - minLat) ^ 2 / 32 + 2 * η ≤ 2 * (δ : ℝ) := by
    have : K * (1 / m.xScale) ^ 2 * ((maxLon : ℝ) - minLon) ^ 2 / 32 + L * (1 / m.yScale) ^ 2 * ((maxLat : ℝ) - minLat) ^ 2 / 32 + 2 * η =
      2 * ((K * (((maxLon : ℝ) - minLon) / m.xScale) ^ 2 + L * (((maxLat : ℝ) - minLat) / m.yScale) ^ 2) / 64 + η) := by ring
    rw [this]
    linarith
  have hM : 0 ≤ K * (1 / m.xScale) ^ 2 := by positivity
  have hN : 0 ≤ L * (1 / m.yScale) ^ 2 := by positivity
  have out : ∀ w : ℚ, |(w : ℝ)| ≤ 2 * (δ : ℝ) → |w| ≤ 2 * δ := fun w hw => by exact_mod_cast hw
  subst elon elat
  refine ⟨out _ (le_trans (mix_follows hM hN (fun x y => column m x y elevation) tx hlon hlat ?_ ?_ ?_ hn hi hj hu hv) e),
    out _ (le_trans (mix_follows hM hN (fun x y => row m x y elevation) ty hlon hlat ?_ ?_ ?_ hn hi hj hu hv) e)⟩
  · exact fun lon lat a b c d => (hS.close lon lat _ _ a b c d (projects earth hm (hS.inside lon lat a b c d))).1
  · exact fun lon lon' lat a b a' b' c d => (parallel_bends hm (hS.inside lon lat a b c d) (hS.inside lon' lat a' b' c d)).1
  · exact fun lon lat lat' a b c d c' d' => (meridian_bends hm (hS.inside lon lat a b c d) (hS.inside lon lat' a b c' d')).1
  · exact fun lon lat a b c d => (hS.close lon lat _ _ a b c d (projects earth hm (hS.inside lon lat a b c d))).2
  · exact fun lon lon' lat a b a' b' c d => (parallel_bends hm (hS.inside lon lat a b c d) (hS.inside lon' lat a' b' c d)).2
  · exact fun lon lat lat' a b c d c' d' => (meridian_bends hm (hS.inside lon lat a b c d) (hS.inside lon lat' a b c' d')).2

/-! ## Tiles -/

/-- **C182**: C179 for images with an RSM model.  The bound of the misplacement follows from the coefficients, and from the size of the tile in units of the model. -/
theorem grey_tile_rsm (R : Raster) (hb : R.bands = 1) (S : Sensor) (adj : Adjust) (hadj : adj = .minmax ∨ adj = .dra) (sar : Channel → Channel → Except PyErr Channel)
    (sample : Nat → Nat → Channel → ℚ → ℚ → Int) (hsample : Interpolates sample)
    (minLon minLat maxLon maxLat : ℚ) (hlon : minLon ≤ maxLon) (hlat : minLat ≤ maxLat) (n : Nat) (g : ℚ × ℚ × ℚ) (hg : S.toWorld ((R.height : ℚ) / 2, (R.width : ℚ) / 2) = .ok g)
    (earth : Earth) (m : PolyModel) (q K L η : ℝ) (hm : Regular m q K L) (hK : 0 ≤ K) (hL : 0 ≤ L) (tx ty : ℚ → ℚ → ℚ) (hS : Computes S earth m g.2.2 minLon minLat maxLon maxLat tx ty η) (δ : ℚ)
    (hδ : (K * (((maxLon : ℝ) - minLon) / m.xScale) ^ 2 + L * (((maxLat : ℝ) - minLat) / m.yScale) ^ 2) / 64 + η ≤ δ)
    (rows : List (List Rgba)) (h : createOrthophotoTile R S adj sar sample minLon minLat maxLon maxLat n n = .ok (some rows)) :
    rows.length = n ∧ (∀ row ∈ rows, row.length = n) ∧
    ∃ (o : Nat) (X0 Y0 X1 Y1 : Int) (ps : List ℚ) (f : ℚ → Int), o ≤ R.overviews ∧ (0 ≤ X0 ∧ X0 < X1 ∧ X1 * 2 ^ o ≤ R.width) ∧ (0 ≤ Y0 ∧ Y0 < Y1 ∧ Y1 * 2 ^ o ≤ R.height) ∧
      WindowValues R 1 o X0 Y0 X1 Y1 ps ∧ Adjusted adj R 1 ps f ∧
      ∀ (i j : Nat) (lon lat : ℚ), i < n → j < n → lon = along minLon maxLon n j → lat = along maxLat minLat n i →
        2 * δ ≤ tx lon lat → tx lon lat ≤ R.width - 2 * δ → 2 * δ ≤ ty lon lat → ty lon lat ≤ R.height - 2 * δ →
        ∃ row p, rows[i]? = some row ∧ row[j]? = some p ∧ NearValue (fun X Y => f (R.pixel 1 o X Y)) o δ (tx lon lat) (ty lon lat) X0 Y0 X1 Y1 p.red ∧
          p.green = p.red ∧ p.blue = p.red ∧ p.alpha = if p.red = 0 then 0 else 255 :=
  grey_tile_follows R hb S adj hadj sar sample hsample minLon minLat maxLon maxLat hlon hlat n g hg tx ty δ (rsm_follows hm hK hL hS hlon hlat n hδ) rows h

/-- **C182**: the same for images of three bands or more. -/
theorem colour_tile_rsm (R : Raster) (hb : 3 ≤ R.bands) (S : Sensor) (adj : Adjust) (hadj : adj = .minmax ∨ adj = .dra) (sar : Channel → Channel → Except PyErr Channel)
    (sample : Nat → Nat → Channel → ℚ → ℚ → Int) (hsample : Interpolates sample)
    (minLon minLat maxLon maxLat : ℚ) (hlon : minLon ≤ maxLon) (hlat : minLat ≤ maxLat) (n : Nat) (g : ℚ × ℚ × ℚ) (hg : S.toWorld ((R.height : ℚ) / 2, (R.width : ℚ) / 2) = .ok g)
    (earth : Earth) (m : PolyModel) (q K L η : ℝ) (hm : Regular m q K L) (hK : 0 ≤ K) (hL : 0 ≤ L) (tx ty : ℚ → ℚ → ℚ) (hS : Computes S earth m g.2.2 minLon minLat maxLon maxLat tx ty η) (δ : ℚ)
    (hδ : (K * (((maxLon : ℝ) - minLon) / m.xScale) ^ 2 + L * (((maxLat : ℝ) - minLat) / m.yScale) ^ 2) / 64 + η ≤ δ)
    (rows : List (List Rgba)) (h : createOrthophotoTile R S adj sar sample minLon minLat maxLon maxLat n n = .ok (some rows)) :
    rows.length = n ∧ (∀ row ∈ rows, row.length = n) ∧
    ∃ (o : Nat) (X0 Y0 X1 Y1 : Int) (ps1 ps2 ps3 : List ℚ) (f1 f2 f3 : ℚ → Int), o ≤ R.overviews ∧ (0 ≤ X0 ∧ X0 < X1 ∧ X1 * 2 ^ o ≤ R.width) ∧ (0 ≤ Y0 ∧ Y0 < Y1 ∧ Y1 * 2 ^ o ≤ R.height) ∧
      WindowValues R 1 o X0 Y0 X1 Y1 ps1 ∧ WindowValues R 2 o X0 Y0 X1 Y1 ps2 ∧ WindowValues R 3 o X0 Y0 X1 Y1 ps3 ∧ Adjusted adj R 1 ps1 f1 ∧ Adjusted adj R 2 ps2 f2 ∧ Adjusted adj R 3 ps3 f3 ∧
      ∀ (i j : Nat) (lon lat : ℚ), i < n → j < n → lon = along minLon maxLon n j → lat = along maxLat minLat n i →
        2 * δ ≤ tx lon lat → tx lon lat ≤ R.width - 2 * δ → 2 * δ ≤ ty lon lat → ty lon lat ≤ R.height - 2 * δ →
        ∃ row p, rows[i]? = some row ∧ row[j]? = some p ∧
          NearValue (fun X Y => f1 (R.pixel 1 o X Y)) o δ (tx lon lat) (ty lon lat) X0 Y0 X1 Y1 p.blue ∧
          NearValue (fun X Y => f2 (R.pixel 2 o X Y)) o δ (tx lon lat) (ty lon lat) X0 Y0 X1 Y1 p.green ∧
          NearValue (fun X Y => f3 (R.pixel 3 o X Y)) o δ (tx lon lat) (ty lon lat) X0 Y0 X1 Y1 p.red ∧
          p.alpha = if p.blue = 0 ∨ p.green = 0 ∨ p.red = 0 then 0 else 255 :=
  colour_tile_follows R hb S adj hadj sar sample hsample minLon minLat maxLon maxLat hlon hlat n g hg tx ty δ (rsm_follows hm hK hL hS hlon hlat n hδ) rows h

/-- **C182**: C150 for images with an RSM model, the misplacement bounded by its coefficients. -/
theorem grey_values_rsm (R : Raster) (hb : R.bands = 1) (S : Sensor) (adj : Adjust) (hadj : adj = .minmax ∨ adj = .dra) (sar : Channel → Channel → Except PyErr Channel)
    (minLon minLat maxLon maxLat : ℚ) (hlon : minLon ≤ maxLon) (hlat : minLat ≤ maxLat) (n : Nat) (g : ℚ × ℚ × ℚ) (hg : S.toWorld ((R.height : ℚ) / 2, (R.width : ℚ) / 2) = .ok g)
    (earth : Earth) (m : PolyModel) (q K L η : ℝ) (hm : Regular m q K L) (hK : 0 ≤ K) (hL : 0 ≤ L) (tx ty : ℚ → ℚ → ℚ) (hS : Computes S earth m g.2.2 minLon minLat maxLon maxLat tx ty η) (δ : ℚ)
    (hδ : (K * (((maxLon : ℝ) - minLon) / m.xScale) ^ 2 + L * (((maxLat : ℝ) - minLat) / m.yScale) ^ 2) / 64 + η ≤ δ)
    (rows : List (List Rgba)) (h : createOrthophotoTile R S adj sar Verif.Remap.remap minLon minLat maxLon maxLat n n = .ok (some rows)) :
    ∃ (r : Nat) (X0 Y0 X1 Y1 : Int) (ps : List ℚ) (f : ℚ → Int) (dx dy : ℚ), r ≤ R.overviews ∧ (0 ≤ X0 ∧ X0 < X1 ∧ X1 * 2 ^ r ≤ R.width) ∧ (0 ≤ Y0 ∧ Y0 < Y1 ∧ Y1 * 2 ^ r ≤ R.height) ∧
      WindowValues R 1 r X0 Y0 X1 Y1 ps ∧ Adjusted adj R 1 ps f ∧ (0 ≤ dx ∧ dx < 1) ∧ (0 ≤ dy ∧ dy < 1) ∧ (r = 0 → dx = 0 ∧ dy = 0) ∧
      ∀ (i j : Nat) (lon lat : ℚ), i < n → j < n → lon = along minLon maxLon n j → lat = along maxLat minLat n i →
        2 * δ ≤ tx lon lat → tx lon lat ≤ R.width - 2 * δ → 2 * δ ≤ ty lon lat → ty lon lat ≤ R.height - 2 * δ →
        ∃ row p, rows[i]? = some row ∧ row[j]? = some p ∧ ∃ x y : ℚ, |x - tx lon lat| ≤ 2 * δ ∧ |y - ty lon lat| ≤ 2 * δ ∧
          |(p.red : ℚ) - Verif.Props.Remap.smooth (Verif.Props.Remap.continued R f r X0 Y0 X1 Y1) (x / 2 ^ r - dx) (y / 2 ^ r - dy)| ≤ 9 :=
  Verif.Props.Remap.grey_values_follow R hb S adj hadj sar minLon minLat maxLon maxLat hlon hlat n g hg tx ty δ (rsm_follows hm hK hL hS hlon hlat n hδ) rows h

/-! ## A case: the oblique camera of C135 -/

open Verif.Props.NearbyRsm (oblique)

/-- Over a tile a tenth of the domain wide and high, pixels are misplaced by less than a fiftieth of a pixel: positions do not bend along parallels, and by at most 14 pixels per squared unit along meridians. -/
theorem oblique_regular : Regular oblique (999 / 1000) 0 14 := by
  have den : ∀ p : RsmPoly ℝ, p = ⟨0, 1, 0, [1, 1 / 1000]⟩ → ∀ x y z : ℝ, |x| ≤ 1 → |y| ≤ 1 → |z| ≤ 1 → 999 / 1000 ≤ |value p x y z| := by
    rintro p rfl x y z _ hy _
    have e : value (⟨0, 1, 0, [1, 1 / 1000]⟩ : RsmPoly ℝ) x y z = 1 + 1 / 1000 * y := by simp [value, triple, Finset.sum_range_succ, coefficient]
    have := abs_le.1 hy
    rw [e, abs_of_pos (by linarith)]
    linarith
  refine ⟨rfl, ?_, ?_, ?_, ?_, by norm_num [oblique], by norm_num [oblique], by norm_num [oblique], by norm_num, den _ rfl, den _ rfl, ?_, ?_, ?_, ?_⟩
  · constructor <;> simp [oblique] <;> norm_num [abs_of_neg]
  · constructor <;> simp [oblique] <;> norm_num [abs_of_neg]
  · constructor <;> simp [oblique] <;> norm_num [abs_of_neg]
  · constructor <;> simp [oblique] <;> norm_num [abs_of_neg]
  · simp [bendX, arch, weighted, oblique, Finset.sum_range_succ, coefficient]
  · simp [bendX, arch, weighted, oblique, Finset.sum_range_succ, coefficient]
  · simp [bendY, arch, weighted, oblique, Finset.sum_range_succ, coefficient]
    norm_num [abs_of_neg, abs_div]
  · simp [bendY, arch, weighted, oblique, Finset.sum_range_succ, coefficient]
    norm_num [abs_of_neg, abs_div]

example : (2 : ℝ) * ((0 * ((1 / 50) / oblique.xScale) ^ 2 + 14 * ((1 / 100) / oblique.yScale) ^ 2) / 64) ≤ 1 / 50 := by norm_num [oblique]

/-- Its positions at height 0, without rounding. -/
def obliqueX (lon lat : ℚ) : ℚ := 6000 + 6000 * (((lon - 33 / 10) * 10 + (lat - 3 / 20) * 20 / 20) / (1 + (lat - 3 / 20) * 20 / 1000))

def obliqueY (lon lat : ℚ) : ℚ :=
  5000 + 5000 * (((lon - 33 / 10) * 10 / 25 - 19 / 20 * ((lat - 3 / 20) * 20) + (lon - 33 / 10) * 10 * ((lat - 3 / 20) * 20) / 100) / (1 + (lat - 3 / 20) * 20 / 1000))

theorem oblique_computes (earth : Earth) :
    Computes ⟨fun _ => .ok (33 / 10, 3 / 20, 0), fun p => .ok (obliqueX p.1 p.2.1, obliqueY p.1 p.2.1)⟩ earth oblique 0 (329 / 100) (29 / 200) (331 / 100) (31 / 200) obliqueX obliqueY 0 := by
  have inside : ∀ lon lat : ℚ, 329 / 100 ≤ lon → lon ≤ 331 / 100 → 29 / 200 ≤ lat → lat ≤ 31 / 200 → InCube oblique ⟨lon, lat, (0 : ℚ)⟩ := fun lon lat a b c d => by
    have a' := (Rat.cast_le (K := ℝ)).2 a
    have b' := (Rat.cast_le (K := ℝ)).2 b
    have c' := (Rat.cast_le (K := ℝ)).2 c
    have d' := (Rat.cast_le (K := ℝ)).2 d
    push_cast at a' b' c' d'
    refine ⟨?_, ?_, ?_⟩
    · show |((lon : ℝ) - 33 / 10) / (1 / 10)| ≤ 1
      rw [abs_le]
      constructor <;> linarith
    · show |((lat : ℝ) - 3 / 20) / (1 / 20)| ≤ 1
      rw [abs_le]
      constructor <;> linarith
    · simp [oblique]
  refine ⟨fun _ _ _ _ _ _ => rfl, inside, fun lon lat x y a b c d h => ?_⟩
  rw [projects earth oblique_regular (inside lon lat a b c d)] at h
  obtain ⟨rfl, rfl⟩ := Prod.mk.inj (Except.ok.inj h)
  have ex : column oblique lon lat ((0 : ℚ) : ℝ) = obliqueX lon lat := by
    simp [column, obliqueX, value, oblique, triple, Finset.sum_range_succ, coefficient]
    ring
  have ey : row oblique lon lat ((0 : ℚ) : ℝ) = obliqueY lon lat := by
    simp [row, obliqueY, value, oblique, triple, Finset.sum_range_succ, coefficient]
    ring
  rw [ex, ey]
  simp

end Verif.Props.RsmSmooth
