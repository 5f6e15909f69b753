import Verif.Lemmas.Nearby
import Verif.Spec.Nearby
import Verif.Props.RoundedRsm
import Verif.Props.RsmModel

/-!
# Theorems about the accuracy of ground points searched with RSM models
-/

namespace Verif.Props.NearbyRsm

open Verif.Lemmas.Nearby Verif.Spec.Nearby Verif.Spec.Rpc Verif.Rpc Verif.Sensors Verif.Rsm Verif.Spec.Rsm
open Verif.Spec.Rounded (coefficient value Complete)
open Verif.Dem (Geo)

theorem triple_change {b s d l p h l' p' h' : ℝ} (H : Close b s d l p h l' p' h') (nx ny nz : ℕ) (a : ℕ → ℕ → ℕ → ℝ) :
    |triple nx ny nz a l p h - triple nx ny nz a l' p' h'| ≤
      (∑ k ∈ Finset.range nz, ∑ j ∈ Finset.range ny, ∑ i ∈ Finset.range nx, |a i j k| * ((i + j + s * k) * b ^ (i + j + k - 1))) * d := by
  unfold triple
  simp only [← Finset.sum_sub_distrib, Finset.sum_mul]
  refine le_trans (Finset.abs_sum_le_sum_abs _ _) (Finset.sum_le_sum fun k _ => ?_)
  refine le_trans (Finset.abs_sum_le_sum_abs _ _) (Finset.sum_le_sum fun j _ => ?_)
  refine le_trans (Finset.abs_sum_le_sum_abs _ _) (Finset.sum_le_sum fun i _ => ?_)
  have m := monomial_change H.hl H.hp H.hh H.hl' H.hp' H.hh' H.dl H.dp H.dh i j k
  have m' := mul_le_mul_of_nonneg_left m (abs_nonneg (a i j k))
  rw [← abs_mul] at m'
  rw [← mul_sub]
  refine le_trans m' (le_of_eq ?_)
  ring

theorem value_split (p : RsmPoly ℝ) (x y z : ℝ) :
    value p x y z = xTerm p * x + yTerm p * y + triple (p.px + 1).toNat (p.py + 1).toNat (p.pz + 1).toNat
      (fun i j k => if i + j = 1 ∧ k = 0 then 0 else coefficient p i j k) x y z := by
  have nx : ∀ n : ℕ, ∀ q : Int, n < (q + 1).toNat ↔ (n : Int) ≤ q := by intro n q; omega
  have single : ∀ (I J : ℕ) (v : ℝ), triple (p.px + 1).toNat (p.py + 1).toNat (p.pz + 1).toNat
      (fun i j k => if i = I ∧ j = J ∧ k = 0 then v else 0) x y z
        = if (I : Int) ≤ p.px ∧ (J : Int) ≤ p.py ∧ 0 ≤ p.pz then v * (x ^ I * y ^ J) else 0 := by
    intro I J v
    unfold triple
    by_cases h : (I : Int) ≤ p.px ∧ (J : Int) ≤ p.py ∧ 0 ≤ p.pz
    · rw [if_pos h]
      rw [Finset.sum_eq_single 0, Finset.sum_eq_single J, Finset.sum_eq_single I]
      · simp
      · intro i _ hi; simp [hi]
      · intro hi; exact absurd (Finset.mem_range.mpr ((nx I p.px).mpr h.1)) hi
      · intro j _ hj; exact Finset.sum_eq_zero fun i _ => by simp [hj]
      · intro hj; exact absurd (Finset.mem_range.mpr ((nx J p.py).mpr h.2.1)) hj
      · intro k _ hk; exact Finset.sum_eq_zero fun j _ => Finset.sum_eq_zero fun i _ => by simp [hk]
      · intro hk; exact absurd (Finset.mem_range.mpr ((nx 0 p.pz).mpr (by exact_mod_cast h.2.2))) hk
    · rw [if_neg h]
      refine Finset.sum_eq_zero fun k hk => Finset.sum_eq_zero fun j hj => Finset.sum_eq_zero fun i hi => ?_
      rw [Finset.mem_range, nx] at hk hj hi
      by_cases c : i = I ∧ j = J ∧ k = 0
      · obtain ⟨rfl, rfl, rfl⟩ := c
        exact absurd ⟨hi, hj, by exact_mod_cast hk⟩ h
      · simp [c]
  have s1 := single 1 0 (coefficient p 1 0 0)
  have s2 := single 0 1 (coefficient p 0 1 0)
  have e1 : xTerm p * x = if ((1:ℕ) : Int) ≤ p.px ∧ ((0:ℕ) : Int) ≤ p.py ∧ 0 ≤ p.pz then coefficient p 1 0 0 * (x ^ 1 * y ^ 0) else 0 := by
    unfold xTerm; simp only [Nat.cast_one, Nat.cast_zero, ite_mul, zero_mul, pow_one, pow_zero, mul_one]
  have e2 : yTerm p * y = if ((0:ℕ) : Int) ≤ p.px ∧ ((1:ℕ) : Int) ≤ p.py ∧ 0 ≤ p.pz then coefficient p 0 1 0 * (x ^ 0 * y ^ 1) else 0 := by
    unfold yTerm; simp only [Nat.cast_one, Nat.cast_zero, ite_mul, zero_mul, pow_one, pow_zero, one_mul]
  rw [e1, e2, ← s1, ← s2]
  unfold value triple
  simp only [← Finset.sum_add_distrib]
  refine Finset.sum_congr rfl fun k _ => Finset.sum_congr rfl fun j _ => Finset.sum_congr rfl fun i _ => ?_
  rw [← add_mul, ← add_mul]
  congr 1
  by_cases c : i + j = 1 ∧ k = 0
  · obtain ⟨c1, rfl⟩ := c
    have : i = 1 ∧ j = 0 ∨ i = 0 ∧ j = 1 := by omega
    rcases this with ⟨rfl, rfl⟩ | ⟨rfl, rfl⟩ <;> simp
  · have h1 : ¬ (i = 1 ∧ j = 0 ∧ k = 0) := by omega
    have h2 : ¬ (i = 0 ∧ j = 1 ∧ k = 0) := by omega
    rw [if_neg h1, if_neg h2, if_neg c]; ring

theorem rsm_bends_rational {num den : RsmPoly ℝ} {b s steep q most gain : ℝ} (B : RsmBends num den b s steep q most gain) :
    Rational (value num) (value den) (xTerm num) (yTerm num) (rsmBend num b s) (rsmVariation den b s) b s steep q most gain := by
  refine ⟨?_, fun H => triple_change H _ _ _ _, B.den_ne, B.den_le, B.quotient, B.slack⟩
  intro d l p h l' p' h' H
  have e1 := value_split num l p h
  have e2 := value_split num l' p' h'
  have c := triple_change H (num.px + 1).toNat (num.py + 1).toNat (num.pz + 1).toNat (fun i j k => if i + j = 1 ∧ k = 0 then 0 else coefficient num i j k)
  have same : (∑ k ∈ Finset.range (num.pz + 1).toNat, ∑ j ∈ Finset.range (num.py + 1).toNat, ∑ i ∈ Finset.range (num.px + 1).toNat,
      |if i + j = 1 ∧ k = 0 then 0 else coefficient num i j k| * ((i + j + s * k) * b ^ (i + j + k - 1))) = rsmBend num b s := by
    refine Finset.sum_congr rfl fun k _ => Finset.sum_congr rfl fun j _ => Finset.sum_congr rfl fun i _ => ?_
    by_cases c : i + j = 1 ∧ k = 0
    · rw [if_pos c, if_pos c]; simp
    · rw [if_neg c, if_neg c]
  rw [same] at c
  refine le_trans (le_of_eq ?_) c
  congr 1
  rw [e1, e2]; ring

theorem rsm_variation_nonneg (p : RsmPoly ℝ) {b s : ℝ} (hb : 0 ≤ b) (hs : 0 ≤ s) : 0 ≤ rsmVariation p b s :=
  Finset.sum_nonneg fun k _ => Finset.sum_nonneg fun j _ => Finset.sum_nonneg fun i _ => by positivity

theorem rsm_bend_nonneg (p : RsmPoly ℝ) {b s : ℝ} (hb : 0 ≤ b) (hs : 0 ≤ s) : 0 ≤ rsmBend p b s :=
  Finset.sum_nonneg fun k _ => Finset.sum_nonneg fun j _ => Finset.sum_nonneg fun i _ => by
    by_cases c : i + j = 1 ∧ k = 0
    · rw [if_pos c]
    · rw [if_neg c]; positivity

theorem rsm_camera {m : PolyModel} {b s steep q most gain : ℝ} (N : RsmNearlyAffine m b s steep q most gain) {e : Option (Elev ℝ)}
    {height : ℝ → ℝ → ℝ} (S : RsmSurface m e b s height) :
    Camera (value m.colNum) (value m.colDen) (value m.rowNum) (value m.rowDen) (xTerm m.colNum) (yTerm m.colNum) (xTerm m.rowNum) (yTerm m.rowNum)
      (rsmBend m.colNum b s) (rsmVariation m.colDen b s) (rsmBend m.rowNum b s) (rsmVariation m.rowDen b s) b s steep q most gain height :=
  ⟨rsm_bends_rational N.col, rsm_bends_rational N.row, ⟨rsm_bend_nonneg _ N.positive.1.le N.positive.2.1,
    rsm_variation_nonneg _ N.positive.1.le N.positive.2.1⟩, N.positive, N.regular, S.inside, S.gentle⟩

theorem projects {m : PolyModel} {b s steep q most gain : ℝ} (N : RsmNearlyAffine m b s steep q most gain) (earth : Earth) {x y z : ℝ} (hx : |x| ≤ b)
    (hy : |y| ≤ b) (hz : |z| ≤ b) : m.worldToImage earth ⟨rsmLon m x, rsmLat m y, z * m.zScale + m.zOff⟩ =
      .ok (m.colOff + m.colScale * (value m.colNum x y z / value m.colDen x y z), m.rowOff + m.rowScale * (value m.rowNum x y z / value m.rowDen x y z)) := by
  have dom : m.domain.frame.toDomain earth ⟨rsmLon m x, rsmLat m y, z * m.zScale + m.zOff⟩ = .ok ![rsmLon m x, rsmLat m y, z * m.zScale + m.zOff] := by
    unfold Frame.toDomain
    rcases N.form with h | ⟨h, hb⟩
    · rw [h]; rfl
    · rw [h]
      obtain ⟨h0, h1⟩ := hb x hx
      have p0 : (0:ℝ) < 2 * Real.pi := by have := Real.pi_pos; linarith
      have : pyMod (rsmLon m x + 2 * Real.pi) (2 * Real.pi) = rsmLon m x := by
        unfold pyMod
        have f : ⌊(rsmLon m x + 2 * Real.pi) / (2 * Real.pi)⌋ = 1 := by
          rw [Int.floor_eq_iff]
          push_cast
          constructor
          · rw [le_div_iff₀ p0]; linarith
          · rw [div_lt_iff₀ p0]; linarith
        rw [f]; push_cast; ring
      simp only [this]
  exact Verif.Props.RsmModel.rsm_world_to_image earth m _ _ dom N.scales.1 N.scales.2.1 N.scales.2.2.1 x y z rfl rfl rfl _ _ _ _
    (Verif.Props.RoundedRsm.evaluate_value N.row.complete.1 x y z) (Verif.Props.RoundedRsm.evaluate_value N.row.complete.2 x y z)
    (Verif.Props.RoundedRsm.evaluate_value N.col.complete.1 x y z) (Verif.Props.RoundedRsm.evaluate_value N.col.complete.2 x y z)
    (N.row.den_ne x y z hx hy hz) (N.col.den_ne x y z hx hy hz)

/-- **C135** for RSM: two places on the ground whose pixels are close are close. -/
theorem rsm_pixels_separate_places (earth : Earth) (m : PolyModel) (b s steep q most gain : ℝ) (N : RsmNearlyAffine m b s steep q most gain)
    (e : Option (Elev ℝ)) (height : ℝ → ℝ → ℝ) (S : RsmSurface m e b s height) (x y x' y' : ℝ) (hx : |x| ≤ b) (hy : |y| ≤ b) (hx' : |x'| ≤ b)
    (hy' : |y'| ≤ b) :
    ∃ g g' p p', ground m.domain.defaultHeight e (rsmLon m x) (rsmLat m y) = .ok g ∧
      ground m.domain.defaultHeight e (rsmLon m x') (rsmLat m y') = .ok g' ∧ m.worldToImage earth g = .ok p ∧ m.worldToImage earth g' = .ok p' ∧
      gain * max |x - x'| |y - y'| ≤ most * max (|p.1 - p'.1| / |m.colScale|) (|p.2 - p'.2| / |m.rowScale|) := by
  refine ⟨_, _, _, _, S.ground x y hx hy, S.ground x' y' hx' hy', projects N earth hx hy (S.inside x y hx hy),
    projects N earth hx' hy' (S.inside x' y' hx' hy'), ?_⟩
  have quot : ∀ (o sc u v : ℝ), sc ≠ 0 → |o + sc * u - (o + sc * v)| / |sc| = |u - v| := by
    intro o sc u v h
    have : o + sc * u - (o + sc * v) = sc * (u - v) := by ring
    rw [this, abs_mul]
    exact mul_div_cancel_left₀ _ (by rwa [ne_eq, abs_eq_zero])
  simp only
  rw [quot _ _ _ _ N.scales.2.2.2.1, quot _ _ _ _ N.scales.2.2.2.2]
  exact (rsm_camera N S).separates hx hy hx' hy'

/-- **C135** for RSM: every pixel that is seen from inside the box has exactly one place on the ground in the box. -/
theorem rsm_one_place_per_pixel (earth : Earth) (m : PolyModel) (b s steep q most gain : ℝ) (N : RsmNearlyAffine m b s steep q most gain)
    (e : Option (Elev ℝ)) (height : ℝ → ℝ → ℝ) (S : RsmSurface m e b s height) (p : ℝ × ℝ) (hp : RsmReached m b q gain (height 0 0) p) :
    ∃! u : ℝ × ℝ, (|u.1| ≤ b ∧ |u.2| ≤ b) ∧
      ∃ g, ground m.domain.defaultHeight e (rsmLon m u.1) (rsmLat m u.2) = .ok g ∧ m.worldToImage earth g = .ok p := by
  obtain ⟨q1, q2, r1, r2⟩ := hp
  have comp : ∀ (o sc t w : ℝ), sc ≠ 0 → (o + sc * w = t ↔ w = (t - o) / sc) := by
    intro o sc t w hs
    rw [eq_div_iff hs]
    constructor <;> intro h <;> linarith
  have same : ∀ u : ℝ × ℝ, |u.1| ≤ b → |u.2| ≤ b →
      ((∃ g, ground m.domain.defaultHeight e (rsmLon m u.1) (rsmLat m u.2) = .ok g ∧ m.worldToImage earth g = .ok p) ↔
        value m.colNum u.1 u.2 (height u.1 u.2) / value m.colDen u.1 u.2 (height u.1 u.2) = colOf m p.1 ∧
        value m.rowNum u.1 u.2 (height u.1 u.2) / value m.rowDen u.1 u.2 (height u.1 u.2) = rowOf m p.2) := by
    intro u u1 u2
    have pr := projects N earth u1 u2 (S.inside _ _ u1 u2)
    have i1 := comp m.colOff m.colScale p.1 (value m.colNum u.1 u.2 (height u.1 u.2) / value m.colDen u.1 u.2 (height u.1 u.2)) N.scales.2.2.2.1
    have i2 := comp m.rowOff m.rowScale p.2 (value m.rowNum u.1 u.2 (height u.1 u.2) / value m.rowDen u.1 u.2 (height u.1 u.2)) N.scales.2.2.2.2
    unfold colOf rowOf
    rw [← i1, ← i2]
    constructor
    · rintro ⟨g, hg, hw⟩
      rw [S.ground _ _ u1 u2] at hg
      cases hg
      rw [pr] at hw
      simpa only [Except.ok.injEq, Prod.ext_iff] using hw
    · intro h
      refine ⟨_, S.ground _ _ u1 u2, ?_⟩
      rw [pr]
      simpa only [Except.ok.injEq, Prod.ext_iff] using h
  obtain ⟨u, ⟨hu, h1⟩, uniq⟩ := (rsm_camera N S).one_place q1 q2 r1 r2
  refine ⟨u, ⟨hu, (same u hu.1 hu.2).mpr h1⟩, ?_⟩
  rintro v ⟨hv, h2⟩
  exact uniq v ⟨hv, (same v hv.1 hv.2).mp h2⟩

/-- **C135** for RSM: if the place that `image_to_world` returns is in the box and its pixel is within `ε` of the given one, then it is
within `most ε / gain` normalised units of the true place, which is on the same surface and has exactly the given pixel. -/
theorem rsm_search_accuracy (earth : Earth) (minimise : Minimiser) (form : Form) (vs : List Vec) (origin : Option Vec) (units : Option Mat)
    (ref : Option Vec) (m : PolyModel) (hd : groundDomain earth form vs origin units ref = .ok m.domain) (b s steep q most gain : ℝ)
    (N : RsmNearlyAffine m b s steep q most gain) (e : Option (Elev ℝ)) (height : ℝ → ℝ → ℝ) (S : RsmSurface m e b s height) (p : ℝ × ℝ)
    (hp : RsmReached m b q gain (height 0 0) p) (o : Option (Dict ℝ)) (x y z : ℝ)
    (hfound : (m.model earth minimise).imageToWorld p e o = .ok ⟨rsmLon m x, rsmLat m y, z⟩) (hx : |x| ≤ b) (hy : |y| ≤ b) (t : ℝ × ℝ)
    (ht : (m.model earth minimise).worldToImage ⟨rsmLon m x, rsmLat m y, z⟩ = .ok t) (ε : ℝ) (h1 : |t.1 - p.1| ≤ ε * |m.colScale|)
    (h2 : |t.2 - p.2| ≤ ε * |m.rowScale|) :
    ∃ x0 y0 g0, |x0| ≤ b ∧ |y0| ≤ b ∧ ground m.domain.defaultHeight e (rsmLon m x0) (rsmLat m y0) = .ok g0 ∧ m.worldToImage earth g0 = .ok p ∧
      gain * |x - x0| ≤ most * ε ∧ gain * |y - y0| ≤ most * ε := by
  obtain ⟨u, ⟨⟨u1, u2⟩, g0, hg0, hw0⟩, _⟩ := rsm_one_place_per_pixel earth m b s steep q most gain N e height S p hp
  obtain ⟨start, size, lon, lat, v1, v4, box, _, _, _, _, _, _, hg⟩ :=
    (Verif.Props.RsmModel.rsm_image_to_world earth minimise form vs origin units ref m hd p e o).2 _ hfound
  have same : lon = rsmLon m x ∧ lat = rsmLat m y := by
    unfold ground at hg
    cases e with
    | none => simp only [Except.ok.injEq, Geo.mk.injEq] at hg; exact ⟨hg.1, hg.2.1⟩
    | some f => have := S.keeps f rfl _ _ hg; exact ⟨this.1.symm, this.2.symm⟩
  rw [same.1, same.2] at hg
  obtain ⟨ga, gb, xa, xb, k1, k2, k3, k4, k5⟩ := rsm_pixels_separate_places earth m b s steep q most gain N e height S x y u.1 u.2 hx hy u1 u2
  rw [hg] at k1; cases k1
  have ht' : m.worldToImage earth ⟨rsmLon m x, rsmLat m y, z⟩ = .ok t := ht
  rw [ht'] at k3; cases k3
  rw [hg0] at k2; cases k2
  rw [hw0] at k4; cases k4
  have b0 : |(0:ℝ)| ≤ b := by simpa using N.positive.1.le
  have m0 : 0 ≤ most := le_trans (abs_nonneg _) (N.col.den_le 0 0 0 b0 b0 b0)
  have f1 : |t.1 - p.1| / |m.colScale| ≤ ε := by rw [div_le_iff₀ (abs_pos.mpr N.scales.2.2.2.1)]; exact h1
  have f2 : |t.2 - p.2| / |m.rowScale| ≤ ε := by rw [div_le_iff₀ (abs_pos.mpr N.scales.2.2.2.2)]; exact h2
  have k6 := le_trans k5 (mul_le_mul_of_nonneg_left (max_le f1 f2) m0)
  refine ⟨u.1, u.2, g0, u1, u2, hg0, hw0, le_trans ?_ k6, le_trans ?_ k6⟩
  · exact mul_le_mul_of_nonneg_left (le_max_left _ _) N.positive.2.2.le
  · exact mul_le_mul_of_nonneg_left (le_max_right _ _) N.positive.2.2.le

/-- A camera with a little perspective over the ground domain of `Props.RsmModel`. -/
noncomputable def oblique : PolyModel where
  domain := Verif.Props.RsmModel.easternDomain .geodetic
  rowSection := 1
  colSection := 1
  rowOff := 5000
  colOff := 6000
  xOff := 33 / 10
  yOff := 3 / 20
  zOff := 0
  rowScale := 5000
  colScale := 6000
  xScale := 1 / 10
  yScale := 1 / 20
  zScale := 100
  rowNum := ⟨1, 1, 1, [0, 1 / 25, -19 / 20, 1 / 100, 1 / 100, 0, 0, 0]⟩
  rowDen := ⟨0, 1, 0, [1, 1 / 1000]⟩
  colNum := ⟨1, 1, 1, [0, 1, 1 / 20, 0, 1 / 100, 1 / 500, 0, 0]⟩
  colDen := ⟨0, 1, 0, [1, 1 / 1000]⟩

theorem oblique_nearly_affine : RsmNearlyAffine oblique 1 (1 / 2) (9 / 10) 2 (1001 / 1000) (17 / 20) := by
  have prod : ∀ {x y : ℝ}, |x| ≤ 1 → |y| ≤ 1 → |x * y| ≤ 1 := by
    intro x y hx hy; rw [abs_mul]; exact mul_le_one₀ hx (abs_nonneg _) hy
  have bend : ∀ num : RsmPoly ℝ, Complete num → (∀ l p h : ℝ, |l| ≤ 1 → |p| ≤ 1 → |h| ≤ 1 → |value num l p h| ≤ 3 / 2) →
      17 / 20 + rsmBend num 1 (1 / 2) + 2 * rsmVariation oblique.colDen 1 (1 / 2) ≤ 9 / 10 →
      RsmBends num oblique.colDen 1 (1 / 2) (9 / 10) 2 (1001 / 1000) (17 / 20) := by
    intro num hn hb hs
    have den : ∀ l p h : ℝ, value oblique.colDen l p h = 1 + 1 / 1000 * p := by
      intro l p h; simp [value, oblique, triple, Finset.sum_range_succ, coefficient]
    have low : ∀ l p h : ℝ, |p| ≤ 1 → 999 / 1000 ≤ value oblique.colDen l p h ∧ value oblique.colDen l p h ≤ 1001 / 1000 := by
      intro l p h hp
      have := abs_le.mp hp
      rw [den]; constructor <;> linarith
    refine ⟨⟨hn, by constructor <;> simp [oblique] <;> norm_num [abs_of_neg]⟩, ?_, ?_, ?_, hs⟩
    · intro l p h _ hp _ h0
      have := (low l p h hp).1
      linarith
    · intro l p h _ hp _
      have := low l p h hp
      rw [abs_of_pos (by linarith)]; exact this.2
    · intro l p h hl hp hh
      have k := low l p h hp
      rw [abs_div, abs_of_pos (show 0 < value oblique.colDen l p h by linarith), div_le_iff₀ (by linarith)]
      have := hb l p h hl hp hh
      linarith
  refine ⟨.inl rfl, ⟨?_, ?_, ?_, ?_, ?_⟩, ⟨by norm_num, by norm_num, by norm_num⟩, bend _ ?_ ?_ ?_, bend _ ?_ ?_ ?_, ?_⟩
  · norm_num [oblique]
  · norm_num [oblique]
  · norm_num [oblique]
  · norm_num [oblique]
  · norm_num [oblique]
  · constructor <;> simp [oblique] <;> norm_num [abs_of_neg]
  · intro l p h hl hp hh
    have e : value oblique.colNum l p h = l + 1 / 20 * p + 1 / 100 * h + 1 / 500 * (l * h) := by
      simp [value, oblique, triple, Finset.sum_range_succ, coefficient]; ring
    have h1 := abs_le.mp hl
    have h2 := abs_le.mp hp
    have h3 := abs_le.mp hh
    have h4 := abs_le.mp (prod hl hh)
    rw [e, abs_le]; constructor <;> linarith
  · simp [rsmVariation, rsmBend, oblique, Finset.sum_range_succ, coefficient]; norm_num [abs_of_pos, abs_of_neg]
  · constructor <;> simp [oblique] <;> norm_num [abs_of_neg]
  · intro l p h hl hp hh
    have e : value oblique.rowNum l p h = 1 / 25 * l - 19 / 20 * p + 1 / 100 * h + 1 / 100 * (l * p) := by
      simp [value, oblique, triple, Finset.sum_range_succ, coefficient]; ring
    have h1 := abs_le.mp hl
    have h2 := abs_le.mp hp
    have h3 := abs_le.mp hh
    have h4 := abs_le.mp (prod hl hp)
    rw [e, abs_le]; constructor <;> linarith
  · simp [rsmVariation, rsmBend, oblique, Finset.sum_range_succ, coefficient]; norm_num [abs_of_pos, abs_of_neg]
  · intro l p
    have e1 : xTerm oblique.colNum * l + yTerm oblique.colNum * p = l + 1 / 20 * p := by simp [xTerm, yTerm, coefficient, oblique]
    have e2 : xTerm oblique.rowNum * l + yTerm oblique.rowNum * p = 1 / 25 * l + -(19 / 20 * p) := by
      simp [xTerm, yTerm, coefficient, oblique]; ring
    rw [e1, e2]
    have sub : ∀ x y : ℝ, |x| - |y| ≤ |x + y| := by
      intro x y; have := abs_sub_abs_le_abs_sub x (-y); rwa [abs_neg, sub_neg_eq_add] at this
    have a1 := sub l (1 / 20 * p)
    have a2 := sub (-(19 / 20 * p)) (1 / 25 * l)
    rw [abs_neg] at a2
    rw [add_comm] at a2
    have c1 : |1 / 20 * p| = 1 / 20 * |p| := by rw [abs_mul, abs_of_pos (by norm_num)]
    have c2 : |19 / 20 * p| = 19 / 20 * |p| := by rw [abs_mul, abs_of_pos (by norm_num)]
    have c3 : |1 / 25 * l| = 1 / 25 * |l| := by rw [abs_mul, abs_of_pos (by norm_num)]
    rw [c1] at a1
    rw [c2, c3] at a2
    have n1 := abs_nonneg l
    have n2 := abs_nonneg p
    rcases le_total |l| |p| with h | h
    · rw [max_eq_right h]; refine le_trans ?_ (le_max_right _ _); linarith
    · rw [max_eq_left h]; refine le_trans ?_ (le_max_left _ _); linarith

/-- Terrain that rises to the east, from 50 m below to 50 m above the ellipsoid. -/
noncomputable def slope : Elev ℝ := fun g => .ok ⟨g.longitude, g.latitude, (g.longitude - 33 / 10) * 500⟩

theorem slope_surface : RsmSurface oblique (some slope) 1 (1 / 2) (fun x _ => x / 2) := by
  refine ⟨?_, ?_, ?_, ?_⟩
  · intro f hf g g' hg
    cases hf
    simp only [slope, Except.ok.injEq] at hg
    rw [← hg]; exact ⟨rfl, rfl⟩
  · intro x y hx hy
    simp only [ground, slope, Except.ok.injEq, Geo.mk.injEq, true_and]
    simp only [rsmLon, oblique]; ring
  · intro x y hx hy
    rw [abs_div, abs_of_pos (show (0:ℝ) < 2 by norm_num)]; linarith
  · intro x y x' y' _ _ _ _
    have : x / 2 - x' / 2 = 1 / 2 * (x - x') := by ring
    rw [this, abs_mul, abs_of_pos (show (0:ℝ) < 1 / 2 by norm_num)]
    exact mul_le_mul_of_nonneg_left (le_max_left _ _) (by norm_num)

/-- The level surface of the domain's default height is another. -/
example : RsmSurface oblique none 1 (1 / 2) (fun _ _ => 7 / 100) := by
  refine ⟨by simp, ?_, ?_, ?_⟩
  · intro x y _ _
    simp only [ground, oblique, Verif.Props.RsmModel.easternDomain, Except.ok.injEq, Geo.mk.injEq, true_and]; norm_num
  · intro x y _ _; norm_num [abs_of_pos]
  · intro x y x' y' _ _ _ _
    rw [sub_self, abs_zero]
    exact mul_nonneg (by norm_num) (le_trans (abs_nonneg _) (le_max_left _ _))

example : RsmReached oblique 1 2 (17 / 20) (0 / 2) (9000, 2000) := by
  refine ⟨?_, ?_, ?_, ?_⟩ <;> simp [colOf, rowOf, oblique, value, triple, Finset.sum_range_succ, coefficient] <;> norm_num [abs_div, abs_of_pos, abs_of_neg]

/-- What `rsm_search_accuracy` assumes of the search: it found a place of the box. -/
example (x y : ℝ) (hx : |x| ≤ 1) (hy : |y| ≤ 1) :
    (oblique.model Verif.Props.RsmModel.flatEarth (fun _ _ _ => .done (rsmLon oblique x, rsmLat oblique y))).imageToWorld (9000, 2000) (some slope) none =
      .ok ⟨rsmLon oblique x, rsmLat oblique y, x / 2 * 100 + 0⟩ := by
  have g := slope_surface.ground x y hx hy
  have h0 : oblique.domain.vertices[0]? = some ⟨3.2, 0.1, 0⟩ := rfl
  have h3 : oblique.domain.vertices[3]? = some ⟨3.4, 0.2, 0⟩ := rfl
  show (PolyModel.locate _ _ oblique _ _ _).2 = _
  unfold PolyModel.locate
  rw [h0, h3]
  simp only [searchImageToWorld, startFrom, hint, distanceFrom, Search.run, onSurface, withElevation, bind, Except.bind]
  exact g

end Verif.Props.NearbyRsm
