import Mathlib.Analysis.Real.Pi.Bounds
import Mathlib.Analysis.Complex.ExponentialBounds
import Verif.Lemmas.Mercator
import Verif.Props.MapTilesMercator
import Verif.Props.OrthophotoNear

/-!
# Orthophotos of Web Mercator tiles (C143)

The documentation of `image_processing` makes map tiles of `WebMercatorQuad` with `create_orthophoto_tile(geo_bbox=tile.bounds, tile_size=tile.size)`.  The factory takes equal steps of latitude for the rows.
Web Mercator needs equal steps of northing.
-/

namespace Verif.Props.Mercator

open Verif.Spec.Mercator Verif.Lemmas.Mercator Verif.Spec.MapTiles Verif.MapTiles Verif.Props.MapTiles Real
open Verif.TileFactory Verif.GdalUtils Verif.Props.TileFactory Verif.Orthophoto Verif.Props.Orthophoto Verif.Props.OrthophotoNear

/-- The tile sets of the toolkit over spherical Mercator. -/
noncomputable def mercSet (R : ℝ) (size : Nat) (name : String) : TileSet ℝ := ⟨size, name, 2 * π * R, mercLon R, mercLat R⟩

/-! ## Edges of tiles -/

theorem northing_arctan_sinh (y : ℝ) : northing (arctan (sinh y)) = y := by
  unfold northing
  rw [tan_arctan, arsinh_sinh]

theorem edge (R : ℝ) (hR : 0 < R) (size : Nat) (hs : 0 < size) (name : String) (k : Int) (z : Nat) :
    (mercSet R size name).pixelsToMeters ((k * size : Int) : ℝ) z / R = 2 * π * (k / 2 ^ z - 1 / 2) := by
  have h1 : (size : ℝ) ≠ 0 := by exact_mod_cast hs.ne'
  have h2 : (2 : ℝ) ^ z ≠ 0 := by positivity
  unfold TileSet.pixelsToMeters TileSet.resolution TileSet.originShift TileSet.initialResolution mercSet
  push_cast
  field_simp

/-- The edges of a tile: longitudes and northings. -/
theorem edges (R : ℝ) (hR : 0 < R) (size : Nat) (hs : 0 < size) (name : String) (id : TileId) :
    ((mercSet R size name).getTile id).bounds.minLon = 2 * π * (id.col / 2 ^ id.matrix - 1 / 2) ∧
    ((mercSet R size name).getTile id).bounds.maxLon = 2 * π * ((id.col + 1) / 2 ^ id.matrix - 1 / 2) ∧
    ((mercSet R size name).getTile id).bounds.minLat = arctan (sinh (2 * π * (id.row / 2 ^ id.matrix - 1 / 2))) ∧
    ((mercSet R size name).getTile id).bounds.maxLat = arctan (sinh (2 * π * ((id.row + 1) / 2 ^ id.matrix - 1 / 2))) := by
  have e := fun k => edge R hR size hs name k id.matrix
  have e1 := e id.col
  have e2 := e (id.col + 1)
  have e3 := e id.row
  have e4 := e (id.row + 1)
  rw [show ((id.col + 1 : Int) : ℝ) = id.col + 1 by push_cast; ring] at e2
  rw [show ((id.row + 1 : Int) : ℝ) = id.row + 1 by push_cast; ring] at e4
  refine ⟨e1, e2, ?_, ?_⟩
  · rw [← e3]; rfl
  · rw [← e4]; rfl

/-- The latitudes of a tile of a level, from its northings. -/
theorem span (R : ℝ) (hR : 0 < R) (size : Nat) (hs : 0 < size) (name : String) (id : TileId) :
    northing ((mercSet R size name).getTile id).bounds.maxLat - northing ((mercSet R size name).getTile id).bounds.minLat = 2 * π / 2 ^ id.matrix ∧
    ((mercSet R size name).getTile id).bounds.maxLon - ((mercSet R size name).getTile id).bounds.minLon = 2 * π / 2 ^ id.matrix ∧
    -(π / 2) < ((mercSet R size name).getTile id).bounds.minLat ∧ ((mercSet R size name).getTile id).bounds.minLat < ((mercSet R size name).getTile id).bounds.maxLat ∧
    ((mercSet R size name).getTile id).bounds.maxLat < π / 2 := by
  obtain ⟨e1, e2, e3, e4⟩ := edges R hR size hs name id
  rw [e1, e2, e3, e4, northing_arctan_sinh, northing_arctan_sinh]
  have hπ := pi_pos
  have h2 : (0 : ℝ) < 2 ^ id.matrix := by positivity
  refine ⟨by field_simp; ring, by field_simp; ring, neg_pi_div_two_lt_arctan _, ?_, arctan_lt_pi_div_two _⟩
  apply arctan_strictMono
  apply sinh_strictMono
  have : (id.row : ℝ) / 2 ^ id.matrix < (id.row + 1) / 2 ^ id.matrix := div_lt_div_of_pos_right (by linarith) h2
  nlinarith

/-! ## Equal steps of latitude -/

/-- The real position of row `i` of `n`. -/
noncomputable def steps (a b : ℝ) (n i : Nat) : ℝ := a + (b - a) * i / ((n : ℝ) - 1)

theorem along_cast (a b : ℚ) (n i : Nat) : ((along a b n i : ℚ) : ℝ) = steps a b n i := by
  unfold along steps
  push_cast
  ring

/-- The share `i / (n - 1)` of row `i`, and how far `n` times the share is from the centre of the row. -/
theorem share_of_row (n i : Nat) (hn : 2 ≤ n) (hi : i < n) : 0 ≤ (i : ℝ) / ((n : ℝ) - 1) ∧ (i : ℝ) / ((n : ℝ) - 1) ≤ 1 ∧ |n * ((i : ℝ) / ((n : ℝ) - 1)) - (i + 1 / 2)| ≤ 1 / 2 := by
  have h2 : (2 : ℝ) ≤ n := by exact_mod_cast hn
  have hi' : (i : ℝ) + 1 ≤ n := by exact_mod_cast hi
  have h0 : 0 ≤ (i : ℝ) / ((n : ℝ) - 1) := div_nonneg (Nat.cast_nonneg _) (by linarith)
  have h1 : (i : ℝ) / ((n : ℝ) - 1) ≤ 1 := by rw [div_le_one (by linarith)]; linarith
  refine ⟨h0, h1, ?_⟩
  have e : n * ((i : ℝ) / ((n : ℝ) - 1)) - (i + 1 / 2) = (i : ℝ) / ((n : ℝ) - 1) - 1 / 2 := by
    have : (n : ℝ) - 1 ≠ 0 := by linarith
    field_simp
    ring
  rw [e, abs_le]
  constructor <;> linarith

/-- The position on the map of the latitude taken for a row, for any box. -/
theorem row_position (S N : ℝ) (hS : -(π / 2) < S) (hSN : S < N) (hN : N < π / 2) (n i : Nat) (hn : 2 ≤ n) (hi : i < n) :
    |rowPosition N S n (steps N S n i) - (i + 1 / 2)| ≤ 1 / 2 + n * ((northing N - northing S) / 4) := by
  obtain ⟨h0, h1, h2⟩ := share_of_row n i hn hi
  have hΔ : 0 < northing N - northing S := by have := northing_lt S N hS hSN hN; linarith
  have key := share S N (1 - (i : ℝ) / ((n : ℝ) - 1)) hS hSN hN (by linarith) (by linarith)
  have e : S + (1 - (i : ℝ) / ((n : ℝ) - 1)) * (N - S) = steps N S n i := by unfold steps; ring
  rw [e] at key
  have e2 : (northing (steps N S n i) - northing S) / (northing N - northing S) = 1 - (northing N - northing (steps N S n i)) / (northing N - northing S) := by
    field_simp; ring
  rw [e2] at key
  unfold rowPosition
  generalize (northing N - northing (steps N S n i)) / (northing N - northing S) = p at *
  generalize (i : ℝ) / ((n : ℝ) - 1) = s at *
  have hn0 : (0 : ℝ) ≤ n := Nat.cast_nonneg n
  have e3 : (n : ℝ) * p - (i + 1 / 2) = (n * s - (i + 1 / 2)) + n * (p - s) := by ring
  rw [e3]
  refine (abs_add_le _ _).trans (add_le_add h2 ?_)
  rw [abs_mul, abs_of_nonneg hn0]
  apply mul_le_mul_of_nonneg_left _ hn0
  rw [abs_le] at key ⊢
  constructor <;> linarith [key.1, key.2]

/-- The position on the map of the longitude taken for a column. -/
theorem col_position (W E : ℝ) (h : W < E) (n j : Nat) (hn : 2 ≤ n) (hj : j < n) : |colPosition W E n (steps W E n j) - (j + 1 / 2)| ≤ 1 / 2 := by
  obtain ⟨_, _, h2⟩ := share_of_row n j hn hj
  have e : colPosition W E n (steps W E n j) = n * ((j : ℝ) / ((n : ℝ) - 1)) := by
    unfold colPosition steps
    have : E - W ≠ 0 := by linarith
    field_simp
    ring
  rw [e]
  exact h2

/-! ## Bounds that are only known to a double -/

theorem exp_pi_lt : exp π < 23.5 := by
  have h1 := exp_one_lt_d9
  have h0 := exp_pos 1
  have hπ := pi_lt_d4
  have h3 : exp π ≤ exp 1 ^ 3 * exp 0.1416 := by
    rw [← exp_nat_mul, ← exp_add]
    apply exp_le_exp.2
    push_cast
    linarith
  have h4 : exp 0.1416 ≤ 1 / (1 - 0.1416) := by
    have a := add_one_le_exp (-0.1416 : ℝ)
    have b : exp 0.1416 * exp (-0.1416) = 1 := by rw [← exp_add]; simp
    rw [le_div_iff₀ (by norm_num)]
    have c := exp_pos (0.1416 : ℝ)
    nlinarith
  have h5 : exp 1 ^ 3 ≤ 2.7182818286 ^ 3 := pow_le_pow_left₀ h0.le h1.le 3
  calc exp π ≤ exp 1 ^ 3 * exp 0.1416 := h3
    _ ≤ 2.7182818286 ^ 3 * (1 / (1 - 0.1416)) := mul_le_mul h5 h4 (exp_pos _).le (by norm_num)
    _ < 23.5 := by norm_num

theorem cos_edge (y : ℝ) (hy : |y| ≤ π) : (1 : ℝ) / 11.8 ≤ cos (arctan (sinh y)) := by
  have h : cos (arctan (sinh y)) = 1 / cosh y := by
    rw [cos_arctan, ← cosh_sq', sqrt_sq (cosh_pos y).le]
  rw [h]
  apply one_div_le_one_div_of_le (cosh_pos y)
  have h1 : cosh y ≤ cosh π := cosh_le_cosh.2 (by rw [abs_of_pos pi_pos]; exact hy)
  have h2 : cosh π ≤ 11.8 := by
    rw [cosh_eq]
    have a := exp_pi_lt
    have b : exp (-π) ≤ 0.1 := by
      have c : (10 : ℝ) ≤ exp π := by
        have := quadratic_le_exp_of_nonneg pi_pos.le
        have := sum_le_exp_of_nonneg pi_pos.le 4
        simp only [Finset.sum_range_succ, Finset.sum_range_zero, Nat.factorial] at this
        norm_num at this
        have := pi_gt_three
        nlinarith [mul_pos pi_pos pi_pos, mul_pos (mul_pos pi_pos pi_pos) pi_pos, sq_nonneg (π - 3), mul_pos (sub_pos.2 pi_gt_three) (mul_pos pi_pos pi_pos)]
      rw [exp_neg, inv_le_comm₀ (exp_pos _) (by norm_num)]
      linarith
    linarith
  exact h1.trans h2

theorem cos_near (a b ε : ℝ) (h : |a - b| ≤ ε) : cos b - ε ≤ cos a := by
  have := abs_cos_sub_cos_le a b
  have := abs_le.1 (this.trans h)
  linarith [this.1]

/-- The northing of a latitude of a level known only up to `ε`. -/
theorem northing_near (y q ε : ℝ) (hy : |y| ≤ π) (hε : ε ≤ 1 / 1000) (h : |q - arctan (sinh y)| ≤ ε) : |northing q - y| ≤ 12 * ε := by
  have hcos := cos_edge y hy
  have hlo := neg_pi_div_two_lt_arctan (sinh y)
  have hhi := arctan_lt_pi_div_two (sinh y)
  have e := northing_arctan_sinh y
  generalize arctan (sinh y) = φ at *
  have room : ∀ x, |x - φ| ≤ ε → -(π / 2) < x ∧ x < π / 2 ∧ 1 / 12 ≤ cos x := by
    intro x hx
    have c := cos_near x φ ε hx
    have c' : 1 / 12 ≤ cos x := by
      have : (1 : ℝ) / 12 + 1 / 1000 ≤ 1 / 11.8 := by norm_num
      linarith
    have s1 : cos φ ≤ π / 2 - φ := by rw [← sin_pi_div_two_sub]; exact sin_le (by linarith)
    have s2 : cos φ ≤ π / 2 + φ := by
      have : cos φ = sin (π / 2 + φ) := by rw [add_comm, sin_add_pi_div_two]
      rw [this]; exact sin_le (by linarith)
    have hx' := abs_le.1 hx
    have : (1 : ℝ) / 1000 < 1 / 11.8 := by norm_num
    exact ⟨by linarith [hx'.1], by linarith [hx'.2], c'⟩
  have hq := room q h
  have hε0 : 0 ≤ ε := (abs_nonneg _).trans h
  have bound : ∀ a b : ℝ, |a - φ| ≤ ε → |b - φ| ≤ ε → b - a ≤ ε → a < b → northing b - northing a ≤ 12 * ε := by
    intro a b ha hb hba hab
    obtain ⟨c, c1, c2, c3⟩ := northing_slope a b (room a ha).1 hab (room b hb).2.1
    have hc : |c - φ| ≤ ε := by
      rw [abs_le] at ha hb ⊢
      constructor <;> linarith [ha.1, hb.2]
    have hcc := (room c hc).2.2
    rw [c3, div_le_iff₀ (by linarith)]
    nlinarith
  have hφ : |φ - φ| ≤ ε := by rw [sub_self, abs_zero]; exact hε0
  have h' := abs_le.1 h
  rcases lt_trichotomy q φ with hl | hl | hl
  · have := bound q φ h hφ (by linarith [h'.1]) hl
    have := northing_lt q φ hq.1 hl hhi
    rw [abs_le]; constructor <;> linarith
  · rw [hl, e, sub_self, abs_zero]; linarith
  · have := bound φ q hφ h (by linarith [h'.2]) hl
    have := northing_lt φ q hlo hl hq.2.1
    rw [abs_le]; constructor <;> linarith

/-- Bounds of a tile as numbers of the computer: none is off by more than `ε`. -/
structure KnownTo (b : Bounds ℝ) (minLon minLat maxLon maxLat : ℚ) (ε : ℝ) : Prop where
  west : |(minLon : ℝ) - b.minLon| ≤ ε
  south : |(minLat : ℝ) - b.minLat| ≤ ε
  east : |(maxLon : ℝ) - b.maxLon| ≤ ε
  north : |(maxLat : ℝ) - b.maxLat| ≤ ε

theorem steps_near (a b a' b' ε : ℝ) (ha : |a' - a| ≤ ε) (hb : |b' - b| ≤ ε) (n i : Nat) (hn : 2 ≤ n) (hi : i < n) : |steps a' b' n i - steps a b n i| ≤ ε := by
  obtain ⟨h0, h1, _⟩ := share_of_row n i hn hi
  have e : ∀ x y : ℝ, steps x y n i = (1 - (i : ℝ) / ((n : ℝ) - 1)) * x + (i : ℝ) / ((n : ℝ) - 1) * y := by intro x y; unfold steps; ring
  rw [e, e]
  generalize (i : ℝ) / ((n : ℝ) - 1) = s at *
  have e2 : (1 - s) * a' + s * b' - ((1 - s) * a + s * b) = (1 - s) * (a' - a) + s * (b' - b) := by ring
  rw [e2]
  have x := abs_le.1 ha
  have y := abs_le.1 hb
  rw [abs_le]
  constructor <;> nlinarith [x.1, x.2, y.1, y.2]

theorem steps_between (a b : ℝ) (h : b ≤ a) (n i : Nat) (hn : 2 ≤ n) (hi : i < n) : b ≤ steps a b n i ∧ steps a b n i ≤ a := by
  obtain ⟨h0, h1, _⟩ := share_of_row n i hn hi
  have e : steps a b n i = (1 - (i : ℝ) / ((n : ℝ) - 1)) * a + (i : ℝ) / ((n : ℝ) - 1) * b := by unfold steps; ring
  rw [e]
  generalize (i : ℝ) / ((n : ℝ) - 1) = s at *
  constructor <;> nlinarith

/-- The position of the latitude taken for a row hardly depends on the last digits of the bounds. -/
theorem row_position_near (R : ℝ) (hR : 0 < R) (size : Nat) (hs : 2 ≤ size) (name : String) (z : Nat) (id : TileId) (hid : IsTileOfLevel z id) (minLon minLat maxLon maxLat : ℚ) (ε : ℝ)
    (hε : ε ≤ 1 / 1000) (hk : KnownTo ((mercSet R size name).getTile id).bounds minLon minLat maxLon maxLat ε) (i : Nat) (hi : i < size) :
    |rowPosition ((mercSet R size name).getTile id).bounds.maxLat ((mercSet R size name).getTile id).bounds.minLat size (along maxLat minLat size i : ℚ) -
      rowPosition ((mercSet R size name).getTile id).bounds.maxLat ((mercSet R size name).getTile id).bounds.minLat size
        (steps ((mercSet R size name).getTile id).bounds.maxLat ((mercSet R size name).getTile id).bounds.minLat size i)| ≤ 2 * size * ε * 2 ^ z := by
  obtain ⟨d1, _, d3, d4, d5⟩ := span R hR size (by omega) name id
  obtain ⟨_, _, e3, e4⟩ := edges R hR size (by omega) name id
  obtain ⟨hz, r0, r1, _, _⟩ := hid
  have hπ := pi_pos
  have hpow : (0 : ℝ) < 2 ^ z := by positivity
  rw [hz] at d1 e3 e4
  generalize ((mercSet R size name).getTile id).bounds = b at *
  rw [along_cast]
  have hnear := steps_near b.maxLat b.minLat maxLat minLat ε hk.north hk.south size i hs hi
  have hbet := steps_between b.maxLat b.minLat d4.le size i hs hi
  generalize steps (maxLat : ℝ) minLat size i = q at *
  generalize steps b.maxLat b.minLat size i = φ at *
  have hr0 : (0 : ℝ) ≤ id.row := by exact_mod_cast r0
  have hr1 : (id.row : ℝ) + 1 ≤ 2 ^ z := by exact_mod_cast r1
  have hy : |northing φ| ≤ π := by
    have l := northing_le b.minLat φ d3 hbet.1 (by linarith [hbet.2])
    have u := northing_le φ b.maxLat (by linarith [hbet.1]) hbet.2 d5
    rw [e3, northing_arctan_sinh] at l
    rw [e4, northing_arctan_sinh] at u
    have h1 : 0 ≤ (id.row : ℝ) / 2 ^ z := by positivity
    have h2 : ((id.row : ℝ) + 1) / 2 ^ z ≤ 1 := by rw [div_le_one hpow]; exact hr1
    rw [abs_le]
    constructor <;> nlinarith
  have hφ : arctan (sinh (northing φ)) = φ := by
    unfold northing
    rw [sinh_arsinh, arctan_tan (by linarith [hbet.1]) (by linarith [hbet.2])]
  have key := northing_near (northing φ) q ε hy hε (by rw [hφ]; exact hnear)
  unfold rowPosition
  rw [d1]
  have e : (size : ℝ) * ((northing b.maxLat - northing q) / (2 * π / 2 ^ z)) - size * ((northing b.maxLat - northing φ) / (2 * π / 2 ^ z)) = (northing q - northing φ) * (-(size * 2 ^ z / (2 * π))) := by
    field_simp
    ring
  have hn0 : (0 : ℝ) ≤ size := Nat.cast_nonneg _
  have hε0 : 0 ≤ ε := (abs_nonneg _).trans hnear
  have hpos : 0 ≤ (size : ℝ) * 2 ^ z / (2 * π) := by positivity
  rw [e, abs_mul, abs_neg, abs_of_nonneg hpos]
  calc |northing q - northing φ| * ((size : ℝ) * 2 ^ z / (2 * π)) ≤ 12 * ε * ((size : ℝ) * 2 ^ z / (2 * π)) := mul_le_mul_of_nonneg_right key hpos
    _ = (size * ε * 2 ^ z) * (6 / π) := by field_simp; ring
    _ ≤ (size * ε * 2 ^ z) * 2 := by
        apply mul_le_mul_of_nonneg_left _ (by positivity)
        rw [div_le_iff₀ hπ]
        linarith [pi_gt_three]
    _ = 2 * size * ε * 2 ^ z := by ring

/-! ## C143 -/

/-- **C143**, what holds of the places that are taken: for every tile of level `z` of a Web Mercator tile set whose bounds are known to `ε`, the place that `create_orthophoto_tile` takes for the pixel in row `i`
and column `j` lies at most half a pixel from the column, and at most `1 / 2 + size π / (2 · 2 ^ z)` pixels from the row, where Web Mercator has it (and a little more for `ε`). -/
theorem tile_places_partial (R : ℝ) (hR : 0 < R) (size : Nat) (hs : 2 ≤ size) (name : String) (z : Nat) (id : TileId) (hid : IsTileOfLevel z id) (minLon minLat maxLon maxLat : ℚ) (ε : ℝ)
    (hε : ε ≤ 1 / 1000) (hk : KnownTo ((mercSet R size name).getTile id).bounds minLon minLat maxLon maxLat ε) (i j : Nat) (hi : i < size) (hj : j < size) :
    |rowPosition ((mercSet R size name).getTile id).bounds.maxLat ((mercSet R size name).getTile id).bounds.minLat size (along maxLat minLat size i : ℚ) - (i + 1 / 2)| ≤
      1 / 2 + size * π / (2 * 2 ^ z) + 2 * size * ε * 2 ^ z ∧
    |colPosition ((mercSet R size name).getTile id).bounds.minLon ((mercSet R size name).getTile id).bounds.maxLon size (along minLon maxLon size j : ℚ) - (j + 1 / 2)| ≤ 1 / 2 + size * ε * 2 ^ z := by
  have near := row_position_near R hR size hs name z id hid minLon minLat maxLon maxLat ε hε hk i hi
  obtain ⟨d1, d2, d3, d4, d5⟩ := span R hR size (by omega) name id
  have hz := hid.1
  rw [hz] at d1 d2
  generalize ((mercSet R size name).getTile id).bounds = b at *
  have hπ := pi_pos
  have hpow : (0 : ℝ) < 2 ^ z := by positivity
  constructor
  · have h := row_position b.minLat b.maxLat d3 d4 d5 size i hs hi
    rw [d1] at h
    have e : (size : ℝ) * (2 * π / 2 ^ z / 4) = size * π / (2 * 2 ^ z) := by field_simp; ring
    rw [e] at h
    rw [abs_le] at near h ⊢
    constructor <;> linarith [near.1, near.2, h.1, h.2]
  · rw [along_cast]
    have h := col_position b.minLon b.maxLon (by have : 0 < 2 * π / 2 ^ z := by positivity
                                                 linarith) size j hs hj
    have hnear := steps_near b.minLon b.maxLon minLon maxLon ε hk.west hk.east size j hs hj
    generalize steps (minLon : ℝ) maxLon size j = q at *
    generalize steps b.minLon b.maxLon size j = φ at *
    unfold colPosition at *
    rw [d2] at *
    have hn0 : (0 : ℝ) ≤ size := Nat.cast_nonneg _
    have hε0 : 0 ≤ ε := (abs_nonneg _).trans hnear
    have hpos : 0 ≤ (size : ℝ) * 2 ^ z / (2 * π) := by positivity
    have e : (size : ℝ) * ((q - b.minLon) / (2 * π / 2 ^ z)) - (j + 1 / 2) = (size * ((φ - b.minLon) / (2 * π / 2 ^ z)) - (j + 1 / 2)) + (q - φ) * (size * 2 ^ z / (2 * π)) := by
      field_simp
      ring
    rw [e]
    refine (abs_add_le _ _).trans (add_le_add h ?_)
    rw [abs_mul, abs_of_nonneg hpos]
    calc |q - φ| * ((size : ℝ) * 2 ^ z / (2 * π)) ≤ ε * ((size : ℝ) * 2 ^ z / (2 * π)) := mul_le_mul_of_nonneg_right hnear hpos
      _ = (size * ε * 2 ^ z) * (1 / (2 * π)) := by field_simp
      _ ≤ (size * ε * 2 ^ z) * 1 := by
          apply mul_le_mul_of_nonneg_left _ (by positivity)
          rw [div_le_one (by positivity)]
          linarith [pi_gt_three]
      _ = size * ε * 2 ^ z := by ring

/-- The bounds of the tile of the documentation (level 16, row 37025, column 54816) can be known to any accuracy. -/
theorem known_to (b : Bounds ℝ) (ε : ℝ) (h : 0 < ε) : ∃ w s e n : ℚ, KnownTo b w s e n ε := by
  have one : ∀ x : ℝ, ∃ q : ℚ, |(q : ℝ) - x| ≤ ε := by
    intro x
    obtain ⟨q, h1, h2⟩ := exists_rat_btwn (show x < x + ε by linarith)
    exact ⟨q, by rw [abs_le]; constructor <;> linarith⟩
  obtain ⟨w, hw⟩ := one b.minLon
  obtain ⟨s, hs⟩ := one b.minLat
  obtain ⟨e, he⟩ := one b.maxLon
  obtain ⟨n, hn⟩ := one b.maxLat
  exact ⟨w, s, e, n, hw, hs, he, hn⟩

example : IsTileOfLevel 16 ⟨16, 37025, 54816⟩ ∧ ∃ w s e n : ℚ, KnownTo ((mercSet 6378137 256 "WebMercatorQuad").getTile ⟨16, 37025, 54816⟩).bounds w s e n (1 / 2 ^ 50) :=
  ⟨⟨rfl, by norm_num, by norm_num, by norm_num, by norm_num⟩, known_to _ _ (by positivity)⟩

/-- **C143**, what holds from a level on: when a tile has at most `2 ^ z / 4` pixels on a side (level 10 for tiles of 256, level 11 for tiles of 512) and the bounds are known well enough, every pixel takes a
place less than one pixel from the place that Web Mercator has in its centre.  Missing: equality, and the levels below (`level_one_row_misplaced`). -/
theorem deep_tile_within_a_pixel_partial (R : ℝ) (hR : 0 < R) (size : Nat) (hs : 4 ≤ size) (name : String) (z : Nat) (hdeep : 4 * size ≤ 2 ^ z) (id : TileId) (hid : IsTileOfLevel z id)
    (minLon minLat maxLon maxLat : ℚ) (ε : ℝ) (hε : size * ε * 2 ^ z ≤ 1 / 20) (hk : KnownTo ((mercSet R size name).getTile id).bounds minLon minLat maxLon maxLat ε) (i j : Nat) (hi : i < size) (hj : j < size) :
    |rowPosition ((mercSet R size name).getTile id).bounds.maxLat ((mercSet R size name).getTile id).bounds.minLat size (along maxLat minLat size i : ℚ) - (i + 1 / 2)| < 1 ∧
    |colPosition ((mercSet R size name).getTile id).bounds.minLon ((mercSet R size name).getTile id).bounds.maxLon size (along minLon maxLon size j : ℚ) - (j + 1 / 2)| < 1 := by
  have hs' : (4 : ℝ) ≤ size := by exact_mod_cast hs
  have hd : 4 * (size : ℝ) ≤ 2 ^ z := by exact_mod_cast hdeep
  have hε0 : 0 ≤ ε := (abs_nonneg _).trans hk.west
  have hπ := pi_pos
  have hpow : (0 : ℝ) < 2 ^ z := by positivity
  have small : ε ≤ 1 / 1000 := by
    have h1 : (64 : ℝ) ≤ size * 2 ^ z := by nlinarith
    nlinarith
  have hpart : (size : ℝ) * π / (2 * 2 ^ z) < 0.393 := by
    rw [div_lt_iff₀ (by positivity)]
    have := pi_lt_d4
    nlinarith
  obtain ⟨h1, h2⟩ := tile_places_partial R hR size (by omega) name z id hid minLon minLat maxLon maxLat ε small hk i j hi hj
  constructor
  · refine lt_of_le_of_lt h1 ?_
    have : 2 * (size : ℝ) * ε * 2 ^ z ≤ 1 / 10 := by nlinarith
    norm_num at hpart ⊢
    linarith
  · refine lt_of_le_of_lt h2 ?_
    linarith

/-- Both well known tile sets reach these levels, with bounds that are off by a few units of the last place of a double. -/
example : 4 * 256 ≤ 2 ^ 10 ∧ 4 * 512 ≤ 2 ^ 11 ∧ ((512 : Nat) : ℝ) * (1 / 2 ^ 50) * 2 ^ 30 ≤ 1 / 20 := by norm_num

/-- **C143**, what the picture shows: the hypotheses are those of C120 (a grey image, any sensor model that interpolation on the grid follows).  The pixel in row `i` and column `j` shows the neighbourhood of a place
which is near the place that Web Mercator has there.  Missing as above. -/
theorem grey_mercator_follows_partial (R' : ℝ) (hR' : 0 < R') (size : Nat) (hs : 2 ≤ size) (name : String) (z : Nat) (id : TileId) (hid : IsTileOfLevel z id) (minLon minLat maxLon maxLat : ℚ) (ε : ℝ)
    (hε : ε ≤ 1 / 1000) (hk : KnownTo ((mercSet R' size name).getTile id).bounds minLon minLat maxLon maxLat ε)
    (R : Raster) (hb : R.bands = 1) (S : Sensor) (adj : Adjust) (hadj : adj = .minmax ∨ adj = .dra) (sar : Channel → Channel → Except PyErr Channel)
    (sample : Nat → Nat → Channel → ℚ → ℚ → Int) (hsample : Interpolates sample) (hlon : minLon ≤ maxLon) (hlat : minLat ≤ maxLat)
    (g : ℚ × ℚ × ℚ) (hg : S.toWorld ((R.height : ℚ) / 2, (R.width : ℚ) / 2) = .ok g)
    (tx ty : ℚ → ℚ → ℚ) (δ : ℚ) (hS : GridFollows S g.2.2 minLon minLat maxLon maxLat size tx ty δ)
    (rows : List (List Rgba)) (h : createOrthophotoTile R S adj sar sample minLon minLat maxLon maxLat ((mercSet R' size name).getTile id).size.1 ((mercSet R' size name).getTile id).size.2 = .ok (some rows)) :
    ∃ (r : Nat) (X0 Y0 X1 Y1 : Int) (ps : List ℚ) (f : ℚ → Int), r ≤ R.overviews ∧ WindowValues R 1 r X0 Y0 X1 Y1 ps ∧ Adjusted adj R 1 ps f ∧
      ∀ i j : Nat, i < size → j < size → ∃ lon lat : ℚ,
        |rowPosition ((mercSet R' size name).getTile id).bounds.maxLat ((mercSet R' size name).getTile id).bounds.minLat size lat - (i + 1 / 2)| ≤ 1 / 2 + size * π / (2 * 2 ^ z) + 2 * size * ε * 2 ^ z ∧
        |colPosition ((mercSet R' size name).getTile id).bounds.minLon ((mercSet R' size name).getTile id).bounds.maxLon size lon - (j + 1 / 2)| ≤ 1 / 2 + size * ε * 2 ^ z ∧
        (2 * δ ≤ tx lon lat → tx lon lat ≤ R.width - 2 * δ → 2 * δ ≤ ty lon lat → ty lon lat ≤ R.height - 2 * δ →
          ∃ row p, rows[i]? = some row ∧ row[j]? = some p ∧ NearValue (fun X Y => f (R.pixel 1 r X Y)) r δ (tx lon lat) (ty lon lat) X0 Y0 X1 Y1 p.red) := by
  obtain ⟨_, _, r, X0, Y0, X1, Y1, ps, f, hr, _, _, hv, hf, hp⟩ := grey_tile_follows R hb S adj hadj sar sample hsample minLon minLat maxLon maxLat hlon hlat size g hg tx ty δ hS rows h
  refine ⟨r, X0, Y0, X1, Y1, ps, f, hr, hv, hf, ?_⟩
  intro i j hi hj
  obtain ⟨h1, h2⟩ := tile_places_partial R' hR' size hs name z id hid minLon minLat maxLon maxLat ε hε hk i j hi hj
  refine ⟨_, _, h1, h2, ?_⟩
  intro a b c d
  obtain ⟨row, p, e1, e2, e3, _⟩ := hp i j _ _ hi hj rfl rfl a b c d
  exact ⟨row, p, e1, e2, e3⟩

/-- **C143**, what the picture shows: the hypotheses are those of C120 (a grey image, any sensor model that is nearly affine over the tile).  The pixel in row `i` and column `j` shows the neighbourhood of a place
which is near the place that Web Mercator has there.  Missing as above. -/
theorem grey_tile_mercator_partial (R' : ℝ) (hR' : 0 < R') (size : Nat) (hs : 2 ≤ size) (name : String) (z : Nat) (id : TileId) (hid : IsTileOfLevel z id) (minLon minLat maxLon maxLat : ℚ) (ε : ℝ)
    (hε : ε ≤ 1 / 1000) (hk : KnownTo ((mercSet R' size name).getTile id).bounds minLon minLat maxLon maxLat ε)
    (R : Raster) (hb : R.bands = 1) (S : Sensor) (adj : Adjust) (hadj : adj = .minmax ∨ adj = .dra) (sar : Channel → Channel → Except PyErr Channel)
    (sample : Nat → Nat → Channel → ℚ → ℚ → Int) (hsample : Interpolates sample) (hlon : minLon ≤ maxLon) (hlat : minLat ≤ maxLat)
    (g : ℚ × ℚ × ℚ) (hg : S.toWorld ((R.height : ℚ) / 2, (R.width : ℚ) / 2) = .ok g)
    (tx ty : ℚ → ℚ → ℚ) (δ : ℚ) (hS : NearAffine S g.2.2 minLon minLat maxLon maxLat tx ty δ)
    (rows : List (List Rgba)) (h : createOrthophotoTile R S adj sar sample minLon minLat maxLon maxLat ((mercSet R' size name).getTile id).size.1 ((mercSet R' size name).getTile id).size.2 = .ok (some rows)) :
    ∃ (r : Nat) (X0 Y0 X1 Y1 : Int) (ps : List ℚ) (f : ℚ → Int), r ≤ R.overviews ∧ WindowValues R 1 r X0 Y0 X1 Y1 ps ∧ Adjusted adj R 1 ps f ∧
      ∀ i j : Nat, i < size → j < size → ∃ lon lat : ℚ,
        |rowPosition ((mercSet R' size name).getTile id).bounds.maxLat ((mercSet R' size name).getTile id).bounds.minLat size lat - (i + 1 / 2)| ≤ 1 / 2 + size * π / (2 * 2 ^ z) + 2 * size * ε * 2 ^ z ∧
        |colPosition ((mercSet R' size name).getTile id).bounds.minLon ((mercSet R' size name).getTile id).bounds.maxLon size lon - (j + 1 / 2)| ≤ 1 / 2 + size * ε * 2 ^ z ∧
        (2 * δ ≤ tx lon lat → tx lon lat ≤ R.width - 2 * δ → 2 * δ ≤ ty lon lat → ty lon lat ≤ R.height - 2 * δ →
          ∃ row p, rows[i]? = some row ∧ row[j]? = some p ∧ NearValue (fun X Y => f (R.pixel 1 r X Y)) r δ (tx lon lat) (ty lon lat) X0 Y0 X1 Y1 p.red) :=
  grey_mercator_follows_partial R' hR' size hs name z id hid minLon minLat maxLon maxLat ε hε hk R hb S adj hadj sar sample hsample hlon hlat g hg tx ty δ (hS.follows hlon hlat size) rows h

/-! ### A case: the tile of level 0 -/

/-- A map of the world in equal steps of longitude and latitude, ten pixels to the radian. -/
def world : Raster := ⟨64, 32, 1, 0, fun _ _ x y => x + 2 * y, fun _ => none, fun _ => none, fun _ _ _ _ => []⟩

def worldSensor : Sensor := ⟨fun p => .ok (p.1 / 10 - 22 / 7, 11 / 7 - p.2 / 10, 0), fun g => .ok ((g.1 + 22 / 7) * 10, (11 / 7 - g.2.1) * 10)⟩

theorem edge_of_map : |(1.4845 : ℝ) - arctan (sinh π)| ≤ 1 / 1000 := by
  have h1 := exp_one_lt_d9
  have h1' := exp_one_gt_d9
  have hπ := pi_lt_d4
  have hπ' := pi_gt_d4
  have up : exp π ≤ 23.3 := by
    have h3 : exp π ≤ exp 1 ^ 3 * exp 0.0708 ^ 2 := by
      rw [← exp_nat_mul, ← exp_nat_mul, ← exp_add]
      apply exp_le_exp.2
      push_cast
      norm_num at hπ ⊢
      linarith
    have h4 : exp 0.0708 ≤ 1 / (1 - 0.0708) := by
      have a := add_one_le_exp (-0.0708 : ℝ)
      have b : exp 0.0708 * exp (-0.0708) = 1 := by rw [← exp_add]; simp
      rw [le_div_iff₀ (by norm_num)]
      have c := exp_pos (0.0708 : ℝ)
      nlinarith
    have h5 : exp 1 ^ 3 ≤ 2.7182818286 ^ 3 := pow_le_pow_left₀ (exp_pos _).le h1.le 3
    have h6 : exp 0.0708 ^ 2 ≤ (1 / (1 - 0.0708)) ^ 2 := pow_le_pow_left₀ (exp_pos _).le h4 2
    calc exp π ≤ exp 1 ^ 3 * exp 0.0708 ^ 2 := h3
      _ ≤ 2.7182818286 ^ 3 * (1 / (1 - 0.0708)) ^ 2 := mul_le_mul h5 h6 (by positivity) (by norm_num)
      _ ≤ 23.3 := by norm_num
  have low : 23 ≤ exp π := by
    have h3 : exp 1 ^ 3 * exp 0.1415 ≤ exp π := by
      rw [← exp_nat_mul, ← exp_add]
      apply exp_le_exp.2
      push_cast
      norm_num at hπ' ⊢
      linarith
    have h4 := quadratic_le_exp_of_nonneg (show (0 : ℝ) ≤ 0.1415 by norm_num)
    have h5 : 2.7182818283 ^ 3 ≤ exp 1 ^ 3 := pow_le_pow_left₀ (by norm_num) h1'.le 3
    have h6 : (2.7182818283 : ℝ) ^ 3 * (1 + 0.1415 + 0.1415 ^ 2 / 2) ≤ exp 1 ^ 3 * exp 0.1415 := mul_le_mul h5 h4 (by norm_num) (by positivity)
    have : (23 : ℝ) ≤ 2.7182818283 ^ 3 * (1 + 0.1415 + 0.1415 ^ 2 / 2) := by norm_num
    linarith
  have inv : exp (-π) ≤ 0.05 := by
    rw [exp_neg, inv_le_comm₀ (exp_pos _) (by norm_num)]
    norm_num
    linarith
  have inv' := exp_pos (-π)
  have hc1 : 11.5 ≤ cosh π := by rw [cosh_eq]; linarith
  have hc2 : cosh π ≤ 11.675 := by rw [cosh_eq]; linarith
  have h : cos (arctan (sinh π)) = 1 / cosh π := by
    rw [cos_arctan, ← cosh_sq', sqrt_sq (cosh_pos _).le]
  have hlt := arctan_lt_pi_div_two (sinh π)
  have hpos : 0 < arctan (sinh π) := arctan_pos.2 (sinh_pos_iff.2 pi_pos)
  generalize arctan (sinh π) = φ at *
  have hs : sin (π / 2 - φ) = 1 / cosh π := by rw [sin_pi_div_two_sub, h]
  have b1 : 1 / cosh π ≤ 1 / 11.5 := one_div_le_one_div_of_le (by norm_num) hc1
  have b2 : 1 / 11.675 ≤ 1 / cosh π := one_div_le_one_div_of_le (cosh_pos _) hc2
  have lo : 1 / 11.675 ≤ π / 2 - φ := by
    have := sin_le (show 0 ≤ π / 2 - φ by linarith)
    linarith
  have hi : π / 2 - φ ≤ 0.0872 := by
    by_contra hcon
    push Not at hcon
    have m : sin 0.0872 < sin (π / 2 - φ) := sin_lt_sin_of_lt_of_le_pi_div_two (by norm_num at *; linarith) (by linarith) hcon
    have g := sin_gt_sub_cube (show (0 : ℝ) < 0.0872 by norm_num)
    norm_num at g m b1 hs
    linarith
  rw [abs_le]
  norm_num at lo hi hπ hπ' ⊢
  constructor <;> linarith

/-- The premises of `grey_tile_mercator_partial` hold for a tile of 4 × 4 pixels of level 0, which is the whole world. -/
example : IsTileOfLevel 0 ⟨0, 0, 0⟩ ∧ KnownTo ((mercSet 6378137 4 "demo").getTile ⟨0, 0, 0⟩).bounds (-3.1416) (-1.4845) 3.1416 1.4845 (1 / 1000) ∧
    worldSensor.toWorld ((world.height : ℚ) / 2, (world.width : ℚ) / 2) = .ok (-54 / 35, -57 / 35, 0) ∧
    NearAffine worldSensor 0 (-3.1416) (-1.4845) 3.1416 1.4845 (fun lon _ => (lon + 22 / 7) * 10) (fun _ lat => (11 / 7 - lat) * 10) 0 ∧
    ∃ rows, createOrthophotoTile world worldSensor .minmax (fun a _ => .ok a) nearest (-3.1416) (-1.4845) 3.1416 1.4845
      ((mercSet 6378137 4 "demo").getTile ⟨0, 0, 0⟩).size.1 ((mercSet 6378137 4 "demo").getTile ⟨0, 0, 0⟩).size.2 = .ok (some rows) := by
  refine ⟨⟨rfl, by norm_num, by norm_num, by norm_num, by norm_num⟩, ?_, ?_, ?_, ?_⟩
  · obtain ⟨e1, e2, e3, e4⟩ := edges 6378137 (by norm_num) 4 (by norm_num) "demo" ⟨0, 0, 0⟩
    have hπ := pi_lt_d4
    have hπ' := pi_gt_d4
    have h := edge_of_map
    have a1 : 2 * π * (((0 : Int) : ℝ) / 2 ^ 0 - 1 / 2) = -π := by norm_num; ring
    have a2 : 2 * π * ((((0 : Int) : ℝ) + 1) / 2 ^ 0 - 1 / 2) = π := by norm_num; ring
    simp only [a1, a2] at e1 e2 e3 e4
    rw [sinh_neg, arctan_neg] at e3
    refine ⟨?_, ?_, ?_, ?_⟩
    · rw [e1, abs_le]; push_cast; norm_num at *; constructor <;> linarith
    · rw [e3]; push_cast; rw [abs_sub_comm] at h; convert h using 2; norm_num; ring
    · rw [e2, abs_le]; push_cast; norm_num at *; constructor <;> linarith
    · rw [e4]; push_cast; convert h using 2
  · show Except.ok _ = Except.ok _
    norm_num [world]
  · refine ⟨fun _ _ _ _ _ _ => rfl, 220 / 7, 10, 0, 110 / 7, 0, -10, ?_⟩
    intro lon lat _ _ _ _
    rw [abs_le, abs_le]
    refine ⟨⟨?_, ?_⟩, ?_, ?_⟩ <;> ring_nf <;> rfl
  · have h : ((createOrthophotoTile world worldSensor .minmax (fun a _ => .ok a) nearest (-3.1416) (-1.4845) 3.1416 1.4845 4 4).toOption.bind id).isSome = true := by decide +kernel
    show ∃ rows, createOrthophotoTile world worldSensor .minmax (fun a _ => .ok a) nearest (-3.1416) (-1.4845) 3.1416 1.4845 4 4 = .ok (some rows)
    rcases hc : createOrthophotoTile world worldSensor .minmax (fun a _ => .ok a) nearest (-3.1416) (-1.4845) 3.1416 1.4845 4 4 with e | v
    · rw [hc] at h; simp [Except.toOption] at h
    · cases v with
      | none => rw [hc] at h; simp [Except.toOption] at h
      | some rows => exact ⟨rows, rfl⟩

/-- **C143** (negated, on the whole northern half): in a tile north of the equator every row but the first and the last is taken too far south.  With the same share of the tile (`i / (size - 1)`) Web Mercator
has a place further north. -/
theorem northern_rows_too_far_south (R : ℝ) (hR : 0 < R) (size : Nat) (hs : 2 ≤ size) (name : String) (z : Nat) (id : TileId) (hid : IsTileOfLevel z id) (hnorth : (2 : Int) ^ z ≤ 2 * id.row)
    (i : Nat) (h0 : 0 < i) (hi : i < size - 1) :
    size * ((i : ℝ) / ((size : ℝ) - 1)) < rowPosition ((mercSet R size name).getTile id).bounds.maxLat ((mercSet R size name).getTile id).bounds.minLat size
      (steps ((mercSet R size name).getTile id).bounds.maxLat ((mercSet R size name).getTile id).bounds.minLat size i) := by
  obtain ⟨d1, _, d3, d4, d5⟩ := span R hR size (by omega) name id
  obtain ⟨_, _, e3, _⟩ := edges R hR size (by omega) name id
  have hz := hid.1
  rw [hz] at d1 e3
  have hπ := pi_pos
  have hpow : (0 : ℝ) < 2 ^ z := by positivity
  have hS : 0 ≤ ((mercSet R size name).getTile id).bounds.minLat := by
    rw [e3]
    have h1 : (1 : ℝ) / 2 ≤ id.row / 2 ^ z := by
      rw [div_le_div_iff₀ (by norm_num) hpow]
      have : (2 : ℝ) ^ z ≤ 2 * id.row := by exact_mod_cast hnorth
      linarith
    have h2 : 0 ≤ 2 * π * ((id.row : ℝ) / 2 ^ z - 1 / 2) := mul_nonneg (by positivity) (by linarith)
    exact arctan_nonneg.2 (sinh_nonneg_iff.2 h2)
  generalize ((mercSet R size name).getTile id).bounds = b at *
  have hi' : (i : ℝ) + 1 < size := by
    have : i + 1 < size := by omega
    exact_mod_cast this
  have hi0 : (0 : ℝ) < i := by exact_mod_cast h0
  have hsz : (0 : ℝ) < size := by linarith
  have s0 : 0 < (i : ℝ) / ((size : ℝ) - 1) := div_pos hi0 (by linarith)
  have s1 : (i : ℝ) / ((size : ℝ) - 1) < 1 := by rw [div_lt_one (by linarith)]; linarith
  have key := share_lt b.minLat b.maxLat (1 - (i : ℝ) / ((size : ℝ) - 1)) hS d4 d5 (by linarith) (by linarith)
  have e : b.minLat + (1 - (i : ℝ) / ((size : ℝ) - 1)) * (b.maxLat - b.minLat) = steps b.maxLat b.minLat size i := by unfold steps; ring
  rw [e] at key
  have hΔ : 0 < northing b.maxLat - northing b.minLat := by rw [d1]; positivity
  have e2 : (northing (steps b.maxLat b.minLat size i) - northing b.minLat) / (northing b.maxLat - northing b.minLat) =
      1 - (northing b.maxLat - northing (steps b.maxLat b.minLat size i)) / (northing b.maxLat - northing b.minLat) := by
    field_simp; ring
  rw [e2] at key
  unfold rowPosition
  exact mul_lt_mul_of_pos_left (by linarith) hsz

example : IsTileOfLevel 16 ⟨16, 37025, 54816⟩ ∧ (2 : Int) ^ 16 ≤ 2 * 37025 := ⟨⟨rfl, by norm_num, by norm_num, by norm_num, by norm_num⟩, by norm_num⟩

theorem northing_quarter : northing (π / 4) < 0.9 := by
  unfold northing
  rw [tan_pi_div_four, ← arsinh_sinh 0.9]
  apply arsinh_strictMono
  rw [sinh_eq]
  have h1 := sum_le_exp_of_nonneg (show (0 : ℝ) ≤ 0.9 by norm_num) 6
  simp only [Finset.sum_range_succ, Finset.sum_range_zero, Nat.factorial] at h1
  norm_num at h1
  have h2 : exp (-0.9) * exp 0.9 = 1 := by rw [← exp_add]; simp
  have h3 := exp_pos (-0.9 : ℝ)
  norm_num at h2 h3 ⊢
  nlinarith

/-- **C143** (negated): in a northern tile of level 1 with an even number of rows, the row just below the middle takes a place that Web Mercator has more than a fifth of the tile (51 pixels of 256), less half a
pixel, further down. -/
theorem level_one_row_misplaced (R : ℝ) (hR : 0 < R) (half : Nat) (hs : 1 ≤ half) (name : String) (col : Int) (hcol : 0 ≤ col ∧ col < 2) (minLon minLat maxLon maxLat : ℚ) (ε : ℝ)
    (hε : ε ≤ 1 / 1000) (hk : KnownTo ((mercSet R (2 * half) name).getTile ⟨1, 1, col⟩).bounds minLon minLat maxLon maxLat ε) :
    (half + 1 / 2) + (2 * half / 5 - 1 / 2 - 8 * half * ε) <
      rowPosition ((mercSet R (2 * half) name).getTile ⟨1, 1, col⟩).bounds.maxLat ((mercSet R (2 * half) name).getTile ⟨1, 1, col⟩).bounds.minLat (2 * half) (along maxLat minLat (2 * half) half : ℚ) := by
  have hid : IsTileOfLevel 1 ⟨1, 1, col⟩ := ⟨rfl, by norm_num, by norm_num, hcol.1, by simpa using hcol.2⟩
  have near := row_position_near R hR (2 * half) (by omega) name 1 ⟨1, 1, col⟩ hid minLon minLat maxLon maxLat ε hε hk half (by omega)
  obtain ⟨d1, _, d3, d4, d5⟩ := span R hR (2 * half) (by omega) name ⟨1, 1, col⟩
  obtain ⟨_, _, e3, e4⟩ := edges R hR (2 * half) (by omega) name ⟨1, 1, col⟩
  generalize ((mercSet R (2 * half) name).getTile ⟨1, 1, col⟩).bounds = b at *
  have hπ := pi_pos
  have m0 : b.minLat = 0 := by rw [e3]; norm_num
  have n1 : northing b.maxLat = π := by
    rw [e4, northing_arctan_sinh]
    norm_num
    ring
  have n0 : northing b.minLat = 0 := by rw [m0]; unfold northing; simp
  have hh : (1 : ℝ) ≤ half := by exact_mod_cast hs
  have hle : steps b.maxLat b.minLat (2 * half) half ≤ π / 4 := by
    unfold steps
    rw [m0]
    push_cast
    have e : b.maxLat + (0 - b.maxLat) * half / (2 * half - 1) = b.maxLat * ((half - 1) / (2 * half - 1)) := by
      have h : (half : ℝ) / (2 * half - 1) + (half - 1) / (2 * half - 1) = 1 := by
        rw [← add_div, div_eq_one_iff_eq (by linarith)]; ring
      linear_combination -b.maxLat * h
    rw [e]
    have q : ((half : ℝ) - 1) / (2 * half - 1) ≤ 1 / 2 := by rw [div_le_div_iff₀ (by linarith) (by norm_num)]; linarith
    have q0 : 0 ≤ ((half : ℝ) - 1) / (2 * half - 1) := div_nonneg (by linarith) (by linarith)
    rw [m0] at d4
    nlinarith
  have hbet := steps_between b.maxLat b.minLat d4.le (2 * half) half (by omega) (by omega)
  have hnorth : northing (steps b.maxLat b.minLat (2 * half) half) < 0.9 :=
    lt_of_le_of_lt (northing_le _ _ (by linarith [hbet.1]) hle (by linarith)) northing_quarter
  have hpos : (half + 1 / 2 : ℝ) + (2 * half / 5 - 1 / 2) < rowPosition b.maxLat b.minLat (2 * half) (steps b.maxLat b.minLat (2 * half) half) := by
    unfold rowPosition
    rw [n1, n0, sub_zero]
    push_cast
    have : (0.7 : ℝ) < (π - northing (steps b.maxLat b.minLat (2 * half) half)) / π := by
      rw [lt_div_iff₀ hπ]
      have := pi_gt_three
      norm_num at hnorth ⊢
      linarith
    norm_num at this ⊢
    nlinarith
  have a := abs_le.1 near
  push_cast at a
  linarith [a.1]

/-- The tile exists and its bounds can be known well; with 256 rows the place is more than 50 pixels off. -/
example : (∃ w s e n : ℚ, KnownTo ((mercSet 6378137 (2 * 128) "WebMercatorQuad").getTile ⟨1, 1, 0⟩).bounds w s e n (1 / 2 ^ 50)) ∧ (50 : ℝ) < 2 * 128 / 5 - 1 / 2 - 8 * 128 * (1 / 2 ^ 50) :=
  ⟨known_to _ _ (by positivity), by norm_num⟩

end Verif.Props.Mercator
