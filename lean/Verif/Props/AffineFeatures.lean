import Verif.Props.GridRounded

/-!
# Features of an image with a geotransform, in doubles
-/

namespace Verif.Props.AffineFeatures

open Verif.GridRounded Verif.Props.GridRounded Verif.Lemmas.Rounded
open Verif.Spec.Rounded (Rounds DotRounds inner absInner Small)
open Verif.Rounded (Affine degrees radians)
open Verif.Props.RoundedAffine
open Verif.Props.RoundedRsm (grow_pow_le_two)

/-- The factor of `math.radians`, before it is rounded. -/
noncomputable def κ : ℝ := (Verif.Float64.piDouble : ℝ) / 180

theorem κ_bounds : 1 / 60 ≤ κ ∧ κ ≤ 1 / 45 := by
  obtain ⟨a, b⟩ := piDouble_bounds
  unfold κ
  constructor <;> linarith

theorem grow_linear {k : ℕ} (B d : ℝ) (hB : 0 ≤ B) (hd : 0 ≤ d) : k / 2 ^ 53 * B + d ≤ grow ^ k * (B + d) - B := by
  have : 1 + (k : ℝ) * (1 / 2 ^ 53) ≤ grow ^ k := by
    unfold grow
    exact one_add_mul_le_pow (by norm_num) k
  have h := mul_le_mul_of_nonneg_right this (show 0 ≤ B + d by linarith)
  have : 0 ≤ (k : ℝ) * (1 / 2 ^ 53) * d := by positivity
  have e : (1 + (k : ℝ) * (1 / 2 ^ 53)) * (B + d) = B + d + k / 2 ^ 53 * B + (k : ℝ) * (1 / 2 ^ 53) * d := by ring
  linarith

/-- One coordinate of `image_to_world` in radians. -/
theorem radians_near {rnd : ℝ → ℝ} (hr : Rounds rnd) {dot : ℝ × ℝ × ℝ → ℝ × ℝ × ℝ → ℝ} (hd : DotRounds dot) (row : ℝ × ℝ × ℝ) (q : ℝ × ℝ) (B : ℝ) (hB : B ≤ 2 ^ 20)
    (h : absInner row (q.1, q.2, 1) ≤ B) :
    |radians rnd (dot row (q.1, q.2, 1)) - κ * inner row (q.1, q.2, 1)| ≤ 7 / 2 ^ 53 * (κ * B) + 1 / 2 ^ 170 := by
  obtain ⟨k0, k1⟩ := κ_bounds
  have a := dot_approx hd row (q.1, q.2, 1) (h.trans (hB.trans (by norm_num)))
  have a0 := a.nonneg
  generalize absInner row (q.1, q.2, 1) = b at *
  generalize inner row (q.1, q.2, 1) = S at *
  generalize dot row (q.1, q.2, 1) = s at *
  have kk : (0:ℝ) ≤ κ := by linarith
  have c := (Approx.exact κ).round hr (by
    rw [abs_of_nonneg kk]; simp only [pow_zero, one_mul, add_zero]; exact k1.trans (by norm_num))
  rw [abs_of_nonneg kk] at c
  have m := (a.mul c).weaken (k' := 5) (d' := 1 / 2 ^ 178) (by norm_num) (by
    have h1 : b * (0 + 1 / 2 ^ 200) ≤ 2 ^ 20 * (1 / 2 ^ 200) := by
      rw [zero_add]; exact mul_le_mul_of_nonneg_right (h.trans hB) (by positivity)
    have h2 : (1:ℝ) / 2 ^ 190 * κ ≤ 1 / 2 ^ 190 * 1 := mul_le_mul_of_nonneg_left (by linarith) (by positivity)
    have : (2:ℝ) ^ 20 * (1 / 2 ^ 200) + 1 / 2 ^ 190 * 1 + 1 / 2 ^ 190 * (0 + 1 / 2 ^ 200) ≤ 1 / 2 ^ 178 := by norm_num
    linarith)
  have bB : b * κ ≤ 2 ^ 20 := (mul_le_mul (h.trans hB) (show κ ≤ 1 by linarith) kk (by norm_num)).trans (by norm_num)
  have r := m.round hr (by
    have := mul_le_mul (grow_pow_le_two (n := 5) (by norm_num)) (show b * κ + 1 / 2 ^ 178 ≤ 2 ^ 21 by
      have : (2:ℝ) ^ 20 + 1 / 2 ^ 178 ≤ 2 ^ 21 := by norm_num
      linarith) (by positivity) (by norm_num)
    exact this.trans (by norm_num))
  have e := r.2.2
  have g : grow ^ 6 ≤ 1 + 7 / 2 ^ 53 := by unfold grow; norm_num
  have m2 := mul_le_mul_of_nonneg_right g (show 0 ≤ b * κ + (1 / 2 ^ 178 + 1 / 2 ^ 200) by positivity)
  have t : (1 + 7 / 2 ^ 53) * ((1:ℝ) / 2 ^ 178 + 1 / 2 ^ 200) ≤ 1 / 2 ^ 170 := by norm_num
  have bκ : b * κ ≤ κ * B := by rw [mul_comm]; exact mul_le_mul_of_nonneg_left h kk
  have u : (7:ℝ) / 2 ^ 53 * (b * κ) ≤ 7 / 2 ^ 53 * (κ * B) := mul_le_mul_of_nonneg_left bκ (by positivity)
  unfold radians
  rw [mul_comm κ S]
  unfold κ at *
  linarith

/-- Back to degrees. -/
theorem degrees_near {rnd : ℝ → ℝ} (hr : Rounds rnd) (x S B : ℝ) (hS : |S| ≤ B) (hB : B ≤ 2 ^ 20) (h : |x - κ * S| ≤ 43 / 2 ^ 53 * (κ * B) + 1 / 2 ^ 98) :
    |degrees rnd x - S| ≤ 46 / 2 ^ 53 * B + 1 / 2 ^ 80 := by
  obtain ⟨k0, k1⟩ := κ_bounds
  have B0 : 0 ≤ B := (abs_nonneg _).trans hS
  have kk : (0:ℝ) < κ := by linarith
  have i0 : (0:ℝ) ≤ 1 / κ := by positivity
  have i1 : 1 / κ ≤ 60 := by
    rw [div_le_iff₀ kk]
    linarith
  have a : Approx 43 (1 / 2 ^ 98) x (κ * S) (κ * B) := by
    refine ⟨by rw [abs_mul, abs_of_pos kk]; exact mul_le_mul_of_nonneg_left hS kk.le, by positivity, h.trans ?_⟩
    have := grow_linear (k := 43) (κ * B) (1 / 2 ^ 98) (by positivity) (by positivity)
    exact_mod_cast this
  have c := (Approx.exact (1 / κ)).round hr (by
    rw [abs_of_nonneg i0]; simp only [pow_zero, one_mul, add_zero]; exact i1.trans (by norm_num))
  rw [abs_of_nonneg i0] at c
  have kB : κ * B ≤ 2 ^ 20 := (mul_le_mul (show κ ≤ 1 by linarith) hB B0 (by norm_num)).trans (by norm_num)
  have m := (a.mul c).weaken (k' := 44) (d' := 1 / 2 ^ 90) (by norm_num) (by
    have h1 : κ * B * (0 + 1 / 2 ^ 200) ≤ 2 ^ 20 * (1 / 2 ^ 200) := by
      rw [zero_add]; exact mul_le_mul_of_nonneg_right kB (by positivity)
    have h2 : (1:ℝ) / 2 ^ 98 * (1 / κ) ≤ 1 / 2 ^ 98 * 60 := mul_le_mul_of_nonneg_left i1 (by positivity)
    have : (2:ℝ) ^ 20 * (1 / 2 ^ 200) + 1 / 2 ^ 98 * 60 + 1 / 2 ^ 98 * (0 + 1 / 2 ^ 200) ≤ 1 / 2 ^ 90 := by norm_num
    linarith)
  rw [show κ * S * (1 / κ) = S by field_simp, show κ * B * (1 / κ) = B by field_simp] at m
  have r := m.round hr (by
    have := mul_le_mul (grow_pow_le_two (n := 44) (by norm_num)) (show B + 1 / 2 ^ 90 ≤ 2 ^ 21 by
      have : (2:ℝ) ^ 20 + 1 / 2 ^ 90 ≤ 2 ^ 21 := by norm_num
      linarith) (by positivity) (by norm_num)
    exact this.trans (by norm_num))
  have e := r.2.2
  have g : grow ^ 45 ≤ 1 + 46 / 2 ^ 53 := by unfold grow; norm_num
  have m2 := mul_le_mul_of_nonneg_right g (show 0 ≤ B + (1 / 2 ^ 90 + 1 / 2 ^ 200) by positivity)
  have t : (1 + 46 / 2 ^ 53) * ((1:ℝ) / 2 ^ 90 + 1 / 2 ^ 200) ≤ 1 / 2 ^ 80 := by norm_num
  have d : degrees rnd x = rnd (x * rnd (1 / κ)) := by
    unfold degrees κ
    rw [one_div_div]
  rw [d]
  linarith

/-- One coordinate of a feature position. -/
theorem coordinate_located {rnd : ℝ → ℝ} (hr : Rounds rnd) {dot : ℝ × ℝ × ℝ → ℝ × ℝ × ℝ → ℝ} (hd : DotRounds dot) (row : ℝ × ℝ × ℝ) {lo hi : ℝ × ℝ} {n : Nat}
    (columns : Extent lo.1 hi.1 n) (rows : Extent lo.2 hi.2 n) (B : ℝ) (hB : B ≤ 2 ^ 20) (hb : ∀ q, Around lo hi q → absInner row (q.1, q.2, 1) ≤ B) (c : Nat → Nat → ℝ)
    (hc : Fits n c (fun i j => radians rnd (dot row (node rnd lo.1 hi.1 n i, node rnd lo.2 hi.2 n j, 1)))) (p : ℝ × ℝ) (hp : Covered lo hi p) :
    |degrees rnd (located rnd lo hi n c p) - inner row (p.1, p.2, 1)| ≤ 46 / 2 ^ 53 * B + 1 / 2 ^ 80 := by
  obtain ⟨k0, k1⟩ := κ_bounds
  have kk : (0:ℝ) < κ := by linarith
  have B0 : 0 ≤ B := (absInner_nonneg _ _).trans (hb p hp.around)
  have kB : κ * B ≤ 2 ^ 20 := (mul_le_mul (show κ ≤ 1 by linarith) hB B0 (by norm_num)).trans (by norm_num)
  have kB0 : 0 ≤ κ * B := by positivity
  have near : ∀ q, Around lo hi q → |radians rnd (dot row (q.1, q.2, 1)) - κ * inner row (q.1, q.2, 1)| ≤ 7 / 2 ^ 53 * (κ * B) + 1 / 2 ^ 170 :=
    fun q hq => radians_near hr hd row q B hB (hb q hq)
  have h : Sampled rnd lo hi n (fun q => radians rnd (dot row (q.1, q.2, 1))) (κ * B + (7 / 2 ^ 53 * (κ * B) + 1 / 2 ^ 170)) c := by
    refine ⟨columns, rows, hc, fun q hq => ?_, ?_⟩
    · have t := abs_add_le (radians rnd (dot row (q.1, q.2, 1)) - κ * inner row (q.1, q.2, 1)) (κ * inner row (q.1, q.2, 1))
      rw [sub_add_cancel, abs_mul, abs_of_pos kk] at t
      have := mul_le_mul_of_nonneg_left ((abs_inner_le row (q.1, q.2, 1)).trans (hb q hq)) kk.le
      have := near q hq
      linarith
    · have : (7:ℝ) / 2 ^ 53 * (κ * B) ≤ 7 / 2 ^ 53 * 2 ^ 20 := mul_le_mul_of_nonneg_left kB (by positivity)
      have : (2:ℝ) ^ 20 + (7 / 2 ^ 53 * 2 ^ 20 + 1 / 2 ^ 170) ≤ 2 ^ 40 := by norm_num
      linarith
  have l := near_affine_plane hr h (κ * row.2.2) (κ * row.1) (κ * row.2.1) (7 / 2 ^ 53 * (κ * B) + 1 / 2 ^ 170) (by
    intro q hq
    have e : κ * row.2.2 + κ * row.1 * q.1 + κ * row.2.1 * q.2 = κ * inner row (q.1, q.2, 1) := by unfold inner; ring
    rw [e]
    exact near q hq) p hp
  have e : κ * row.2.2 + κ * row.1 * p.1 + κ * row.2.1 * p.2 = κ * inner row (p.1, p.2, 1) := by unfold inner; ring
  rw [e] at l
  refine degrees_near hr _ _ B ((abs_inner_le _ _).trans (hb p hp.around)) hB (l.trans ?_)
  unfold slack
  generalize κ * B = b at *
  have s1 : (35:ℝ) / 2 ^ 53 * (b + (7 / 2 ^ 53 * b + 1 / 2 ^ 170)) = 35 / 2 ^ 53 * b + 245 / 2 ^ 106 * b + 35 / 2 ^ 223 := by ring
  have s2 : (245:ℝ) / 2 ^ 106 * b ≤ 1 / 2 ^ 53 * b := mul_le_mul_of_nonneg_right (by norm_num) kB0
  have s3 : (35:ℝ) / 2 ^ 223 + 1 / 2 ^ 100 + 1 / 2 ^ 170 ≤ 1 / 2 ^ 98 := by norm_num
  have s4 : (43:ℝ) / 2 ^ 53 * b = 7 / 2 ^ 53 * b + 35 / 2 ^ 53 * b + 1 / 2 ^ 53 * b := by ring
  rw [s1, s4]
  linarith

/-- Python's `round(x, 6)`, with which `geojson` keeps coordinates. -/
def Six (six : ℝ → ℝ) : Prop := ∀ x, |x| ≤ 2 ^ 21 → |six x - x| ≤ 1 / 2000000 + |x| / 2 ^ 53

/-- **C175**: in doubles, the features of an image with a geotransform in degrees get the places of the geotransform: up to 46 units of 2^-53 of the largest coordinate, and half a
millionth of a degree once they are written. -/
theorem affine_features_located {rnd : ℝ → ℝ} (hr : Rounds rnd) {dot : ℝ × ℝ × ℝ → ℝ × ℝ × ℝ → ℝ} (hd : DotRounds dot) {six : ℝ → ℝ} (h6 : Six six) (A : Affine) {lo hi : ℝ × ℝ} {n : Nat}
    (columns : Extent lo.1 hi.1 n) (rows : Extent lo.2 hi.2 n) (B : ℝ) (hB : B ≤ 2 ^ 20)
    (hb : ∀ q, Around lo hi q → absInner A.row0 (q.1, q.2, 1) ≤ B ∧ absInner A.row1 (q.1, q.2, 1) ≤ B) (c d : Nat → Nat → ℝ)
    (hc : Fits n c (fun i j => (A.imageToWorld rnd dot (node rnd lo.1 hi.1 n i, node rnd lo.2 hi.2 n j)).1))
    (hd' : Fits n d (fun i j => (A.imageToWorld rnd dot (node rnd lo.1 hi.1 n i, node rnd lo.2 hi.2 n j)).2)) (p : ℝ × ℝ) (hp : Covered lo hi p) :
    let lon := degrees rnd (located rnd lo hi n c p)
    let lat := degrees rnd (located rnd lo hi n d p)
    |lon - inner A.row0 (p.1, p.2, 1)| ≤ 46 / 2 ^ 53 * B + 1 / 2 ^ 80 ∧ |lat - inner A.row1 (p.1, p.2, 1)| ≤ 46 / 2 ^ 53 * B + 1 / 2 ^ 80 ∧
      |six lon - inner A.row0 (p.1, p.2, 1)| ≤ 1 / 2000000 + 48 / 2 ^ 53 * B + 1 / 2 ^ 79 ∧ |six lat - inner A.row1 (p.1, p.2, 1)| ≤ 1 / 2000000 + 48 / 2 ^ 53 * B + 1 / 2 ^ 79 := by
  intro lon lat
  have B0 : 0 ≤ B := (absInner_nonneg _ _).trans (hb p hp.around).1
  have h1 := coordinate_located hr hd A.row0 columns rows B hB (fun q hq => (hb q hq).1) c hc p hp
  have h2 := coordinate_located hr hd A.row1 columns rows B hB (fun q hq => (hb q hq).2) d hd' p hp
  have written : ∀ x S : ℝ, |S| ≤ B → |x - S| ≤ 46 / 2 ^ 53 * B + 1 / 2 ^ 80 → |six x - S| ≤ 1 / 2000000 + 48 / 2 ^ 53 * B + 1 / 2 ^ 79 := by
    intro x S hS hx
    have t1 := abs_add_le (x - S) S
    rw [sub_add_cancel] at t1
    have t2 := abs_add_le (six x - x) (x - S)
    rw [sub_add_sub_cancel] at t2
    have b1 : (46:ℝ) / 2 ^ 53 * B ≤ B / 2 := by
      have : (46:ℝ) / 2 ^ 53 ≤ 1 / 2 := by norm_num
      nlinarith
    have t3 : |x| ≤ 3 / 2 * B + 1 / 2 ^ 80 := by linarith
    have t4 := h6 x (by
      have : (3:ℝ) / 2 * 2 ^ 20 + 1 / 2 ^ 80 ≤ 2 ^ 21 := by norm_num
      linarith)
    have t5 : |x| / 2 ^ 53 ≤ (3 / 2 * B + 1 / 2 ^ 80) / 2 ^ 53 := div_le_div_of_nonneg_right t3 (by positivity)
    have t6 : (3 / 2 * B + 1 / 2 ^ 80) / 2 ^ 53 = 3 / 2 / 2 ^ 53 * B + 1 / 2 ^ 133 := by ring
    have t7 : (46:ℝ) / 2 ^ 53 * B + 3 / 2 / 2 ^ 53 * B ≤ 48 / 2 ^ 53 * B := by
      have : (46:ℝ) / 2 ^ 53 + 3 / 2 / 2 ^ 53 ≤ 48 / 2 ^ 53 := by norm_num
      have := mul_le_mul_of_nonneg_right this B0
      linarith
    have t8 : (1:ℝ) / 2 ^ 133 + 1 / 2 ^ 80 ≤ 1 / 2 ^ 79 := by norm_num
    linarith
  exact ⟨h1, h2, written _ _ ((abs_inner_le _ _).trans (hb p hp.around).1) h1, written _ _ ((abs_inner_le _ _).trans (hb p hp.around).2) h2⟩

/-! ## The way back -/

/-- `world_to_image` of written coordinates, which a caller converts to radians first: the pixel, up to the inverse geotransform's image of their error `E`. -/
theorem written_returns {rnd : ℝ → ℝ} (hr : Rounds rnd) {dot : ℝ × ℝ × ℝ → ℝ × ℝ × ℝ → ℝ} (hd : DotRounds dot) (A : Affine) (hi : Small A.inv0) (hj : Small A.inv1) (p : ℝ × ℝ) (B E : ℝ)
    (hB : B ≤ 2 ^ 20) (hE : E ≤ 1) (b0 : |inner A.row0 (p.1, p.2, 1)| ≤ B) (b1 : |inner A.row1 (p.1, p.2, 1)| ≤ B) (lon lat : ℝ) (h0 : |lon - inner A.row0 (p.1, p.2, 1)| ≤ E)
    (h1 : |lat - inner A.row1 (p.1, p.2, 1)| ≤ E) (ρ σ : ℝ) (hx : |inner A.inv0 (inner A.row0 (p.1, p.2, 1), inner A.row1 (p.1, p.2, 1), 1) - p.1| ≤ ρ)
    (hy : |inner A.inv1 (inner A.row0 (p.1, p.2, 1), inner A.row1 (p.1, p.2, 1), 1) - p.2| ≤ σ) :
    |(A.worldToImage rnd dot (radians rnd lon, radians rnd lat)).1 - p.1| ≤ ρ + (|A.inv0.1| + |A.inv0.2.1|) * E + 13 / 2 ^ 53 * absInner A.inv0 (B + 1, B + 1, 1) + 1 / 2 ^ 60 ∧
      |(A.worldToImage rnd dot (radians rnd lon, radians rnd lat)).2 - p.2| ≤ σ + (|A.inv1.1| + |A.inv1.2.1|) * E + 13 / 2 ^ 53 * absInner A.inv1 (B + 1, B + 1, 1) + 1 / 2 ^ 60 := by
  have B0 : 0 ≤ B := (abs_nonneg _).trans b0
  have size : ∀ x S : ℝ, |S| ≤ B → |x - S| ≤ E → Approx 8 (1 / 2 ^ 109) (degrees rnd (radians rnd x)) x (B + 1) := by
    intro x S hS hx
    have t := abs_add_le (x - S) S
    rw [sub_add_cancel] at t
    refine through_radians hr ⟨by linarith, by positivity, ?_⟩ (by
      have : (2:ℝ) ^ 20 + 1 ≤ 2 ^ 82 := by norm_num
      linarith)
    rw [sub_self, abs_zero]
    have := grow_linear (k := 4) (B + 1) (1 / 2 ^ 190) (by positivity) (by positivity)
    have : (0:ℝ) ≤ (4:ℕ) / 2 ^ 53 * (B + 1) + 1 / 2 ^ 190 := by positivity
    linarith
  have s0 := size lon _ b0 h0
  have s1 := size lat _ b1 h1
  have big : B + 1 ≤ 2 ^ 82 := by
    have : (2:ℝ) ^ 20 + 1 ≤ 2 ^ 82 := by norm_num
    linarith
  have shift : ∀ (G : ℝ × ℝ × ℝ) (v τ : ℝ), |inner G (inner A.row0 (p.1, p.2, 1), inner A.row1 (p.1, p.2, 1), 1) - v| ≤ τ → |inner G (lon, lat, 1) - v| ≤ τ + (|G.1| + |G.2.1|) * E := by
    intro G v τ h
    have e : inner G (lon, lat, 1) - v = G.1 * (lon - inner A.row0 (p.1, p.2, 1)) + G.2.1 * (lat - inner A.row1 (p.1, p.2, 1)) +
        (inner G (inner A.row0 (p.1, p.2, 1), inner A.row1 (p.1, p.2, 1), 1) - v) := by
      generalize inner A.row0 (p.1, p.2, 1) = S
      generalize inner A.row1 (p.1, p.2, 1) = T
      unfold inner
      ring
    rw [e]
    have t := abs_add_le (G.1 * (lon - inner A.row0 (p.1, p.2, 1)) + G.2.1 * (lat - inner A.row1 (p.1, p.2, 1)))
      (inner G (inner A.row0 (p.1, p.2, 1), inner A.row1 (p.1, p.2, 1), 1) - v)
    have u := abs_add_le (G.1 * (lon - inner A.row0 (p.1, p.2, 1))) (G.2.1 * (lat - inner A.row1 (p.1, p.2, 1)))
    rw [abs_mul, abs_mul] at u
    have m1 := mul_le_mul_of_nonneg_left h0 (abs_nonneg G.1)
    have m2 := mul_le_mul_of_nonneg_left h1 (abs_nonneg G.2.1)
    have : (|G.1| + |G.2.1|) * E = |G.1| * E + |G.2.1| * E := by ring
    linarith
  exact ⟨component_back hd hi s0 s1 big big p.1 _ (shift A.inv0 p.1 ρ hx), component_back hd hj s0 s1 big big p.2 _ (shift A.inv1 p.2 σ hy)⟩

/-- **C177**: the coordinates that geolocation writes for a feature lead back to its pixel, up to half a millionth of a degree in pixels (the rounding to six digits), the error of the
inverse matrix and a few roundings. -/
theorem affine_features_return {rnd : ℝ → ℝ} (hr : Rounds rnd) {dot : ℝ × ℝ × ℝ → ℝ × ℝ × ℝ → ℝ} (hd : DotRounds dot) {six : ℝ → ℝ} (h6 : Six six) (A : Affine) (hi : Small A.inv0) (hj : Small A.inv1)
    {lo hi' : ℝ × ℝ} {n : Nat} (columns : Extent lo.1 hi'.1 n) (rows : Extent lo.2 hi'.2 n) (B : ℝ) (hB : B ≤ 2 ^ 20)
    (hb : ∀ q, Around lo hi' q → absInner A.row0 (q.1, q.2, 1) ≤ B ∧ absInner A.row1 (q.1, q.2, 1) ≤ B) (c d : Nat → Nat → ℝ)
    (hc : Fits n c (fun i j => (A.imageToWorld rnd dot (node rnd lo.1 hi'.1 n i, node rnd lo.2 hi'.2 n j)).1))
    (hd' : Fits n d (fun i j => (A.imageToWorld rnd dot (node rnd lo.1 hi'.1 n i, node rnd lo.2 hi'.2 n j)).2)) (p : ℝ × ℝ) (hp : Covered lo hi' p) (ρ σ : ℝ)
    (hx : |inner A.inv0 (inner A.row0 (p.1, p.2, 1), inner A.row1 (p.1, p.2, 1), 1) - p.1| ≤ ρ)
    (hy : |inner A.inv1 (inner A.row0 (p.1, p.2, 1), inner A.row1 (p.1, p.2, 1), 1) - p.2| ≤ σ) :
    let lon := six (degrees rnd (located rnd lo hi' n c p))
    let lat := six (degrees rnd (located rnd lo hi' n d p))
    |(A.worldToImage rnd dot (radians rnd lon, radians rnd lat)).1 - p.1| ≤ ρ + (|A.inv0.1| + |A.inv0.2.1|) * (1 / 2000000 + 1 / 2 ^ 27) + 13 / 2 ^ 53 * absInner A.inv0 (B + 1, B + 1, 1) + 1 / 2 ^ 60 ∧
      |(A.worldToImage rnd dot (radians rnd lon, radians rnd lat)).2 - p.2| ≤ σ + (|A.inv1.1| + |A.inv1.2.1|) * (1 / 2000000 + 1 / 2 ^ 27) + 13 / 2 ^ 53 * absInner A.inv1 (B + 1, B + 1, 1) + 1 / 2 ^ 60 := by
  obtain ⟨-, -, w0, w1⟩ := affine_features_located hr hd h6 A columns rows B hB hb c d hc hd' p hp
  have b := hb p hp.around
  have m : (48:ℝ) / 2 ^ 53 * B ≤ 48 / 2 ^ 53 * 2 ^ 20 := mul_le_mul_of_nonneg_left hB (by positivity)
  have k : (48:ℝ) / 2 ^ 53 * 2 ^ 20 + 1 / 2 ^ 79 ≤ 1 / 2 ^ 27 := by norm_num
  exact written_returns hr hd A hi hj p B _ hB (by norm_num) ((abs_inner_le _ _).trans b.1) ((abs_inner_le _ _).trans b.2) _ _ (w0.trans (by linarith)) (w1.trans (by linarith)) ρ σ hx hy

/-- Coordinates in millionths: the nearest whole number of them. -/
noncomputable def millionths (x : ℝ) : ℝ := Verif.Rounded.rint (x * 1000000) / 1000000

theorem millionths_six : Six millionths := by
  intro x _
  have h := rint_spec (x * 1000000)
  have e : millionths x - x = (Verif.Rounded.rint (x * 1000000) - x * 1000000) / 1000000 := by
    unfold millionths
    field_simp
  rw [e, abs_div, abs_of_pos (by norm_num : (0:ℝ) < 1000000)]
  have := div_le_div_of_nonneg_right h (by norm_num : (0:ℝ) ≤ 1000000)
  have : 0 ≤ |x| / 2 ^ 53 := by positivity
  linarith

/-- The term with the inverse matrix is needed: an image of a ten millionth of a degree (a centimeter) per pixel.  Even without any other error, pixel 4 is written like pixel 0. -/
theorem six_digits_merge_pixels : millionths (4 * (1 / 10000000)) = millionths (0 * (1 / 10000000)) := by
  have r : ∀ x : ℝ, 0 ≤ x → x < 1 / 2 → Verif.Rounded.rint x = 0 := by
    intro x h0 h1
    have f : ⌊x⌋ = 0 := Int.floor_eq_zero_iff.mpr ⟨h0, by linarith⟩
    unfold Verif.Rounded.rint
    simp only [f, Int.cast_zero, sub_zero]
    rw [if_pos h1]
  unfold millionths
  rw [r _ (by norm_num) (by norm_num), r _ (by norm_num) (by norm_num)]

/-! ## An example: an image of a hundredth of a degree per pixel over a thousand pixels from (10, 50) -/

noncomputable def north : Affine := ⟨(1 / 100, 0, 10), (0, -(1 / 100), 50), (100, 0, -1000), (0, -100, 5000)⟩

/-- The feature position (123.5, 45) is at 11.235 degrees, to a billionth of a degree. -/
example (c : Nat → Nat → ℝ) (dot : ℝ × ℝ × ℝ → ℝ × ℝ × ℝ → ℝ) (hd : DotRounds dot)
    (hc : Fits 11 c (fun i j => (north.imageToWorld Verif.Rounded.double dot (node Verif.Rounded.double 0 1000 11 i, node Verif.Rounded.double 0 500 11 j)).1)) :
    |degrees Verif.Rounded.double (located Verif.Rounded.double (0, 0) (1000, 500) 11 c (123.5, 45)) - 11.235| ≤ 1 / 10 ^ 9 := by
  have h := coordinate_located double_rounds hd north.row0 (lo := (0, 0)) (hi := (1000, 500)) (n := 11) ⟨by norm_num, by norm_num, by norm_num, by norm_num, by norm_num⟩
    ⟨by norm_num, by norm_num, by norm_num, by norm_num, by norm_num⟩ 100 (by norm_num) (by
      rintro q ⟨h1, h2, h3, h4⟩
      have : |q.1| ≤ 1011 := by rw [abs_le]; constructor <;> norm_num at * <;> linarith
      simp only [absInner, north, abs_zero, zero_mul, abs_one, mul_one]
      rw [abs_of_pos (by norm_num : (0:ℝ) < 1 / 100), abs_of_pos (by norm_num : (0:ℝ) < 10)]
      linarith) c hc (123.5, 45) ⟨by norm_num, by norm_num, by norm_num, by norm_num⟩
  refine (le_trans (le_of_eq ?_) h).trans (by norm_num)
  congr 2
  norm_num [inner, north]

/-- The inverse of the example geotransform is exact, and its pixels are ten thousand millionths wide: written coordinates lead back to the pixel to less than a thousandth. -/
example {rnd : ℝ → ℝ} (hr : Rounds rnd) {dot : ℝ × ℝ × ℝ → ℝ × ℝ × ℝ → ℝ} (hd : DotRounds dot) (lon lat : ℝ) (h0 : |lon - 11.235| ≤ 1 / 10 ^ 6) (h1 : |lat - 49.55| ≤ 1 / 10 ^ 6) :
    |(north.worldToImage rnd dot (radians rnd lon, radians rnd lat)).1 - 123.5| ≤ 1 / 1000 := by
  have e0 : inner north.row0 (123.5, 45, 1) = 11.235 := by norm_num [inner, north]
  have e1 : inner north.row1 (123.5, 45, 1) = 49.55 := by norm_num [inner, north]
  have h := (written_returns hr hd north (by refine ⟨?_, ?_, ?_⟩ <;> norm_num [north, abs_of_pos]) (by refine ⟨?_, ?_, ?_⟩ <;> norm_num [north, abs_of_pos]) (123.5, 45) 50 (1 / 10 ^ 6) (by norm_num)
    (by norm_num) (by rw [e0]; norm_num [abs_of_pos]) (by rw [e1]; norm_num [abs_of_pos]) lon lat (by rw [e0]; exact h0) (by rw [e1]; exact h1) 0 0 (by rw [e0, e1]; norm_num [inner, north])
    (by rw [e0, e1]; norm_num [inner, north])).1
  refine h.trans ?_
  norm_num [absInner, north, abs_of_pos]

end Verif.Props.AffineFeatures
