import Verif.Lemmas.Float64Scale
import Verif.Lemmas.MapTiles
import Verif.Model.MapTilesFloat

/-!
# Lemmas about map tiles in double arithmetic
-/

namespace Verif.MapTilesFloat

open Verif.Float64 Verif.MapTiles

theorem circ_val : circ = 5378777689100435 / 2 ^ 27 := by decide +kernel

theorem shift_val : originShift = 5378777689100435 / 2 ^ 28 := by decide +kernel

theorem circ_bounds : (2 : ℚ) ^ (25 : Int) ≤ circ ∧ circ < 2 ^ (26 : Int) := by rw [circ_val]; norm_num

theorem circ_pos : 0 < circ := by rw [circ_val]; norm_num

theorem circ_shift : circ = 2 * originShift := by rw [circ_val, shift_val]; norm_num

theorem shift_bounds : (2 : ℚ) ^ (24 : Int) ≤ originShift ∧ originShift < 2 ^ (25 : Int) := by rw [shift_val]; norm_num

theorem isDouble_circ : IsDouble circ := rne64_idem _

theorem isDouble_shift : IsDouble originShift := rne64_idem _

theorem rne64_two_zpow (e : Int) (h : -1074 ≤ e) : rne64 (2 ^ e) = 2 ^ e := by
  have := rne64_repr 1 e (by norm_num) h
  simpa using this

theorem rne64_two_pow (n : Nat) : rne64 (2 ^ n) = 2 ^ n := by
  have := rne64_two_zpow n (by omega)
  simpa using this

theorem zpow_le_abs_mul {x : ℚ} {a b k : Int} (h : (2 : ℚ) ^ a ≤ |x|) (hk : b ≤ a + k) : (2 : ℚ) ^ b ≤ |x * 2 ^ k| := by
  have h2 : (0 : ℚ) < 2 ^ k := zpow_pos (by norm_num) _
  rw [abs_mul, abs_of_pos h2]
  calc (2 : ℚ) ^ b ≤ 2 ^ (a + k) := zpow2_mono hk
    _ = 2 ^ a * 2 ^ k := zpow_add₀ (by norm_num) _ _
    _ ≤ |x| * 2 ^ k := mul_le_mul_of_nonneg_right h h2.le

/-- `rne64_scale` with one bound. -/
theorem rne64_scale_of {x : ℚ} {a : Int} (h : x ≠ 0 → (2 : ℚ) ^ a ≤ |x|) (k : Int) (h1 : -1022 ≤ a) (h2 : -1022 ≤ a + k) :
    rne64 (x * 2 ^ k) = rne64 x * 2 ^ k :=
  rne64_scale x k (fun hx => ⟨le_trans (zpow2_mono h1) (h hx), zpow_le_abs_mul (h hx) h2⟩)

theorem rne64_ge {x : ℚ} {a : Int} (ha : -1074 ≤ a) (h : (2 : ℚ) ^ a ≤ |x|) : (2 : ℚ) ^ a ≤ |rne64 x| := by
  rcases le_or_gt 0 x with hx | hx
  · rw [abs_of_nonneg hx] at h
    have := rne64_mono h
    rw [rne64_two_zpow a ha] at this
    rwa [abs_of_nonneg (rne64_nonneg hx)]
  · rw [abs_of_neg hx] at h
    have := rne64_mono h
    rw [rne64_two_zpow a ha, rne64_neg] at this
    exact le_trans this (neg_le_abs _)

/-! ## The resolution -/

theorem initialResolution_eq (t : TileSet64) (k : Nat) (hk : t.tileSize = 2 ^ k) (h : k ≤ 60) :
    t.initialResolution = circ * 2 ^ (-(k : Int)) := by
  unfold TileSet64.initialResolution
  rw [hk]
  push_cast
  rw [rne64_two_pow, div_eq_mul_inv, ← zpow_natCast, ← zpow_neg]
  rw [rne64_scale_of (a := 25) (fun _ => by rw [abs_of_pos circ_pos]; exact circ_bounds.1) _ (by norm_num) (by omega)]
  rw [isDouble_circ]

theorem resolution_eq (t : TileSet64) (k : Nat) (hk : t.tileSize = 2 ^ k) (h : k ≤ 60) (z : Nat) (hz : z ≤ 900) :
    t.resolution z = circ * 2 ^ (-((k : Int) + z)) := by
  unfold TileSet64.resolution
  rw [initialResolution_eq t k hk h, rne64_two_pow, div_eq_mul_inv, ← zpow_natCast, ← zpow_neg, mul_assoc,
    ← zpow_add₀ (by norm_num), show -(k : Int) + -(z : Int) = -((k : Int) + z) by ring]
  rw [rne64_scale_of (a := 25) (fun _ => by rw [abs_of_pos circ_pos]; exact circ_bounds.1) _ (by norm_num) (by omega)]
  rw [isDouble_circ]

/-! ## From metres to the tile -/

/-- The distance of a double from the western edge is zero or not tiny. -/
theorem offset_ge {m : ℚ} (hm : IsDouble m) (h : m + originShift ≠ 0) : (2 : ℚ) ^ (-29 : Int) ≤ |m + originShift| := by
  by_cases hb : (2 : ℚ) ^ (23 : Int) ≤ |m|
  · obtain ⟨a, ha⟩ := double_multiple hm hb
    have e : m + originShift = ((a + 5378777689100435 * 2 : Int) : ℚ) * 2 ^ (-29 : Int) := by
      rw [ha, shift_val]
      push_cast
      norm_num
      ring
    rw [e] at h ⊢
    rw [abs_mul, abs_of_pos (zpow_pos (by norm_num : (0 : ℚ) < 2) _)]
    have : (a + 5378777689100435 * 2 : Int) ≠ 0 := by
      intro h0
      rw [h0] at h
      simp at h
    have : (1 : ℚ) ≤ |((a + 5378777689100435 * 2 : Int) : ℚ)| := by
      rw [← Int.cast_abs]
      exact_mod_cast Int.one_le_abs this
    have hp : (0 : ℚ) < 2 ^ (-29 : Int) := zpow_pos (by norm_num) _
    nlinarith
  · have hb := not_le.1 hb
    have h1 := shift_bounds.1
    have h2 := neg_abs_le m
    have h3 : (2 : ℚ) ^ (-29 : Int) ≤ m + originShift := by norm_num at *; linarith
    exact le_trans h3 (le_abs_self _)

/-- The position of a coordinate in metres within the world extent, between 0 and 1. -/
def unitPos (m : ℚ) : ℚ := rne64 (rne64 (m + originShift) / circ)

theorem unit_arg_ge {m : ℚ} (hm : IsDouble m) (h : rne64 (m + originShift) / circ ≠ 0) :
    (2 : ℚ) ^ (-55 : Int) ≤ |rne64 (m + originShift) / circ| := by
  have h0 : m + originShift ≠ 0 := by
    intro e
    rw [e] at h
    simp [rne64_zero] at h
  have h1 := rne64_ge (by norm_num) (offset_ge hm h0)
  rw [abs_div, abs_of_pos circ_pos, le_div_iff₀ circ_pos]
  have h2 := circ_bounds.2
  have h3 : (0 : ℚ) < 2 ^ (-55 : Int) := zpow_pos (by norm_num) _
  have h4 : (2 : ℚ) ^ (-55 : Int) * circ ≤ 2 ^ (-55 : Int) * 2 ^ (26 : Int) := mul_le_mul_of_nonneg_left h2.le h3.le
  rw [← zpow_add₀ (by norm_num)] at h4
  exact le_trans h4 h1

theorem unitPos_ge {m : ℚ} (hm : IsDouble m) (h : unitPos m ≠ 0) : (2 : ℚ) ^ (-55 : Int) ≤ |unitPos m| := by
  have : rne64 (m + originShift) / circ ≠ 0 := by
    intro e
    apply h
    unfold unitPos
    rw [e, rne64_zero]
  exact rne64_ge (by norm_num) (unit_arg_ge hm this)

theorem metersToPixels_eq (t : TileSet64) (k : Nat) (hk : t.tileSize = 2 ^ k) (h : k ≤ 60) (z : Nat) (hz : z ≤ 900)
    {m : ℚ} (hm : IsDouble m) : t.metersToPixels m z = unitPos m * 2 ^ ((k : Int) + z) := by
  unfold TileSet64.metersToPixels
  rw [resolution_eq t k hk h z hz, zpow_neg, div_mul_eq_div_div, div_inv_eq_mul]
  rw [rne64_scale_of (a := -55) (fun hx => unit_arg_ge hm hx) _ (by norm_num) (by omega)]
  rfl

/-- The tile index in double arithmetic. -/
theorem tileIndex_eq (t : TileSet64) (k : Nat) (hk : t.tileSize = 2 ^ k) (h : k ≤ 60) (z : Nat) (hz : z ≤ 900)
    {m : ℚ} (hm : IsDouble m) : t.pixelsToTile (t.metersToPixels m z) = ⌈unitPos m * 2 ^ z⌉ - 1 := by
  unfold TileSet64.pixelsToTile
  rw [metersToPixels_eq t k hk h z hz hm, hk]
  push_cast
  rw [rne64_two_pow]
  have e : unitPos m * 2 ^ ((k : Int) + z) / 2 ^ k = unitPos m * 2 ^ (z : Int) := by
    rw [zpow_add₀ (by norm_num), zpow_natCast]
    have : (2 : ℚ) ^ k ≠ 0 := by positivity
    field_simp
  rw [e, rne64_scale_of (a := -55) (fun hx => unitPos_ge hm hx) _ (by norm_num) (by omega)]
  rw [show rne64 (unitPos m) = unitPos m from rne64_idem _, zpow_natCast]

theorem unitPos_mono {m m' : ℚ} (h : m ≤ m') : unitPos m ≤ unitPos m' := by
  unfold unitPos
  apply rne64_mono
  apply div_le_div_of_nonneg_right _ circ_pos.le
  apply rne64_mono
  linarith

theorem unitPos_pos {m : ℚ} (hm : IsDouble m) (h : -originShift < m) : 0 < unitPos m := by
  have h0 : m + originShift ≠ 0 := by linarith
  have h1 := rne64_ge (by norm_num) (offset_ge hm h0)
  have h2 : 0 ≤ rne64 (m + originShift) := rne64_nonneg (by linarith)
  rw [abs_of_nonneg h2] at h1
  have h3 : (0 : ℚ) < 2 ^ (-29 : Int) := zpow_pos (by norm_num) _
  have h4 : 0 < rne64 (m + originShift) / circ := div_pos (by linarith) circ_pos
  have h5 := rne64_ge (by norm_num) (unit_arg_ge hm h4.ne')
  have h6 : 0 ≤ unitPos m := rne64_nonneg h4.le
  have h7 : (0 : ℚ) < 2 ^ (-55 : Int) := zpow_pos (by norm_num) _
  rw [show rne64 (rne64 (m + originShift) / circ) = unitPos m from rfl, abs_of_nonneg h6] at h5
  linarith

theorem unitPos_west : unitPos (-originShift) = 0 := by
  unfold unitPos
  rw [neg_add_cancel, rne64_zero, zero_div, rne64_zero]

theorem unitPos_east : unitPos originShift = 1 := by
  unfold unitPos
  rw [← two_mul, ← circ_shift, isDouble_circ, div_self circ_pos.ne']
  have := rne64_two_pow 0
  simpa using this

theorem unitPos_le_one {m : ℚ} (h : m ≤ originShift) : unitPos m ≤ 1 := by
  rw [← unitPos_east]
  exact unitPos_mono h

theorem unitPos_nonpos {m : ℚ} (h : m ≤ -originShift) : unitPos m ≤ 0 := by
  rw [← unitPos_west]
  exact unitPos_mono h

theorem unitPos_next : 1 < unitPos (5378777689100436 / 2 ^ 28) := by decide +kernel

theorem unitPos_gt_one {m : ℚ} (hm : IsDouble m) (h : originShift < m) : 1 < unitPos m := by
  have hb : (2 : ℚ) ^ (24 : Int) ≤ |m| := by
    have := shift_bounds.1
    rw [abs_of_pos (by rw [shift_val] at h; linarith [show (0 : ℚ) < 5378777689100435 / 2 ^ 28 by norm_num])]
    linarith
  obtain ⟨a, ha⟩ := double_multiple hm hb
  have h1 : (5378777689100435 : Int) < a := by
    rw [ha, shift_val] at h
    have : ((5378777689100435 : Int) : ℚ) < a := by
      norm_num at h ⊢
      linarith
    exact_mod_cast this
  have h2 : ((5378777689100436 : Int) : ℚ) ≤ a := by exact_mod_cast h1
  apply lt_of_lt_of_le unitPos_next
  apply unitPos_mono
  rw [ha]
  norm_num at h2 ⊢
  linarith

/-- The index is the number of a tile exactly for coordinates in the world extent. -/
theorem tileIndex_range {m : ℚ} (hm : IsDouble m) (z : Nat) :
    (0 ≤ ⌈unitPos m * 2 ^ z⌉ - 1 ∧ ⌈unitPos m * 2 ^ z⌉ - 1 < 2 ^ z) ↔ -originShift < m ∧ m ≤ originShift := by
  have hp : (0 : ℚ) < 2 ^ z := by positivity
  constructor
  · rintro ⟨h1, h2⟩
    constructor
    · by_contra hn
      have h3 := unitPos_nonpos (not_lt.1 hn)
      have h4 : ⌈unitPos m * 2 ^ z⌉ ≤ 0 := Int.ceil_le.2 (by push_cast; nlinarith)
      omega
    · by_contra hn
      have h3 := unitPos_gt_one hm (not_le.1 hn)
      have h4 : (2 : ℤ) ^ z < ⌈unitPos m * 2 ^ z⌉ := Int.lt_ceil.2 (by push_cast; nlinarith)
      omega
  · rintro ⟨h1, h2⟩
    have h3 := unitPos_pos hm h1
    have h4 := unitPos_le_one h2
    have h5 : 0 < ⌈unitPos m * 2 ^ z⌉ := Int.ceil_pos.2 (by positivity)
    have h6 : ⌈unitPos m * 2 ^ z⌉ ≤ 2 ^ z := Int.ceil_le.2 (by push_cast; nlinarith)
    omega

theorem unitPos_err {m : ℚ} (h1 : -originShift ≤ m) (h2 : m ≤ originShift) :
    |circ * unitPos m - (m + originShift)| ≤ 2 ^ (-27 : Int) := by
  have hb := circ_bounds
  have hs := circ_shift
  have a0 : 0 ≤ m + originShift := by linarith
  have e1 : |rne64 (m + originShift) - (m + originShift)| ≤ 2 ^ (-28 : Int) := by
    have := rne64_err_lt (m + originShift) 26 (by norm_num) (by rw [abs_of_nonneg a0]; linarith)
    simpa using this
  have a1 : 0 ≤ rne64 (m + originShift) := rne64_nonneg a0
  have a2 : rne64 (m + originShift) ≤ circ := by
    have := rne64_mono (show m + originShift ≤ circ by linarith)
    rwa [isDouble_circ] at this
  by_cases a3 : rne64 (m + originShift) = circ
  · have : unitPos m = 1 := by
      unfold unitPos
      rw [a3, div_self circ_pos.ne']
      have := rne64_two_pow 0
      simpa using this
    rw [this, mul_one, ← a3]
    exact le_trans e1 (zpow2_mono (by norm_num))
  have a4 : rne64 (m + originShift) / circ < 1 := (div_lt_one circ_pos).2 (lt_of_le_of_ne a2 a3)
  have a5 : 0 ≤ rne64 (m + originShift) / circ := div_nonneg a1 circ_pos.le
  have e2 : |unitPos m - rne64 (m + originShift) / circ| ≤ 2 ^ (-54 : Int) := by
    have := rne64_err_lt (rne64 (m + originShift) / circ) 0 (by norm_num) (by rw [abs_of_nonneg a5]; simpa using a4)
    exact this
  have e3 : circ * unitPos m - (m + originShift) =
      circ * (unitPos m - rne64 (m + originShift) / circ) + (rne64 (m + originShift) - (m + originShift)) := by
    have := circ_pos.ne'
    field_simp
    ring
  have e4 : |circ * (unitPos m - rne64 (m + originShift) / circ)| ≤ 2 ^ (26 : Int) * 2 ^ (-54 : Int) := by
    rw [abs_mul, abs_of_pos circ_pos]
    exact mul_le_mul hb.2.le e2 (abs_nonneg _) (zpow_pos (by norm_num) _).le
  rw [e3]
  refine le_trans (abs_add_le _ _) ?_
  norm_num at *
  linarith

/-! ## From the tile to metres -/

/-- Where the lower edge of tile `c` comes out. -/
def edge64 (z : Nat) (c : Int) : ℚ := rne64 (rne64 (rne64 c * circ) * 2 ^ (-(z : Int)) - originShift)

theorem int_ge_one {c : Int} (h : (c : ℚ) ≠ 0) : (2 : ℚ) ^ (0 : Int) ≤ |(c : ℚ)| := by
  have : c ≠ 0 := by exact_mod_cast h
  rw [zpow_zero, ← Int.cast_abs]
  exact_mod_cast Int.one_le_abs this

theorem int_circ_ge {c : Int} (h : rne64 (c : ℚ) * circ ≠ 0) : (2 : ℚ) ^ (25 : Int) ≤ |rne64 (c : ℚ) * circ| := by
  have h0 : (c : ℚ) ≠ 0 := by
    intro e
    rw [e, rne64_zero, zero_mul] at h
    exact h rfl
  have h1 := rne64_ge (by norm_num) (int_ge_one h0)
  rw [abs_mul, abs_of_pos circ_pos]
  have := circ_bounds.1
  have h3 := circ_pos
  rw [zpow_zero] at h1
  nlinarith

theorem pixelsToMeters_eq (t : TileSet64) (k : Nat) (hk : t.tileSize = 2 ^ k) (h : k ≤ 60) (z : Nat) (hz : z ≤ 900)
    (c : Int) : t.pixelsToMeters (c * t.tileSize) z = edge64 z c := by
  unfold TileSet64.pixelsToMeters edge64
  rw [resolution_eq t k hk h z hz, hk]
  have e1 : rne64 ((c * ((2 ^ k : Nat) : Int) : Int) : ℚ) = rne64 c * 2 ^ (k : Int) := by
    rw [← rne64_scale_of (a := 0) (fun hx => int_ge_one hx) _ (by norm_num) (by omega)]
    push_cast
    rw [zpow_natCast]
  rw [e1]
  have e2 : rne64 (c : ℚ) * 2 ^ (k : Int) * (circ * 2 ^ (-((k : Int) + z))) = rne64 c * circ * 2 ^ (-(z : Int)) := by
    rw [show -((k : Int) + z) = -(k : Int) + -(z : Int) by ring, zpow_add₀ (by norm_num), zpow_neg]
    have : (2 : ℚ) ^ (k : Int) ≠ 0 := (zpow_pos (by norm_num) _).ne'
    field_simp
  rw [e2, rne64_scale_of (a := 25) (fun hx => int_circ_ge hx) _ (by norm_num) (by omega)]

theorem edge64_double (z : Nat) (c : Int) : IsDouble (edge64 z c) := rne64_idem _

theorem edge64_child (z : Nat) (c : Int) : edge64 (z + 1) (2 * c) = edge64 z c := by
  unfold edge64
  have e1 : rne64 ((2 * c : Int) : ℚ) = rne64 c * 2 ^ (1 : Int) := by
    rw [← rne64_scale_of (a := 0) (fun hx => int_ge_one hx) _ (by norm_num) (by omega)]
    push_cast
    rw [mul_comm]
  have e2 : rne64 (rne64 (c : ℚ) * 2 ^ (1 : Int) * circ) = rne64 (rne64 c * circ) * 2 ^ (1 : Int) := by
    rw [← rne64_scale_of (a := 25) (fun hx => int_circ_ge hx) _ (by norm_num) (by omega)]
    congr 1
    ring
  rw [e1, e2, mul_assoc, ← zpow_add₀ (by norm_num)]
  congr 4
  push_cast
  ring

theorem edge64_mono (z : Nat) {c d : Int} (h : c ≤ d) : edge64 z c ≤ edge64 z d := by
  unfold edge64
  apply rne64_mono
  have h1 : (rne64 (c : ℚ)) ≤ rne64 d := rne64_mono (by exact_mod_cast h)
  have h2 := rne64_mono (mul_le_mul_of_nonneg_right h1 circ_pos.le)
  have h3 : (0 : ℚ) < 2 ^ (-(z : Int)) := zpow_pos (by norm_num) _
  have := mul_le_mul_of_nonneg_right h2 h3.le
  linarith

theorem edge64_zero (z : Nat) : edge64 z 0 = -originShift := by
  unfold edge64
  simp only [Int.cast_zero, rne64_zero, zero_mul, zero_sub]
  rw [rne64_neg, isDouble_shift]

theorem edge64_last (z : Nat) : edge64 z (2 ^ z) = originShift := by
  unfold edge64
  push_cast
  rw [rne64_two_pow, mul_comm ((2 : ℚ) ^ z) circ, ← zpow_natCast,
    rne64_scale_of (a := 25) (fun _ => by rw [abs_of_pos circ_pos]; exact circ_bounds.1) _ (by norm_num) (by omega),
    isDouble_circ, mul_assoc, ← zpow_add₀ (by norm_num), add_neg_cancel, zpow_zero, mul_one]
  rw [show circ - originShift = originShift by rw [circ_shift]; ring]
  exact isDouble_shift

/-- How far the computed edge is from the exact one. -/
theorem edge64_err (z : Nat) (c : Int) (h0 : 0 ≤ c) (h1 : c ≤ 2 ^ z) :
    |edge64 z c - (c * circ / 2 ^ z - originShift)| ≤ 7 * 2 ^ (-29 : Int) := by
  rcases eq_or_lt_of_le h1 with rfl | h1
  · rw [edge64_last]
    push_cast
    have : (2 : ℚ) ^ z * circ / 2 ^ z - originShift = originShift := by
      have : (2 : ℚ) ^ z ≠ 0 := by positivity
      rw [circ_shift]; field_simp; ring
    rw [this, sub_self, abs_zero]
    norm_num
  rcases eq_or_lt_of_le h0 with rfl | h0
  · rw [edge64_zero, Int.cast_zero, zero_mul, zero_div, zero_sub, sub_self, abs_zero]
    norm_num
  have hb := circ_bounds
  have hp : (0 : ℚ) < 2 ^ (-(z : Int)) := zpow_pos (by norm_num) _
  have hc : (0 : ℚ) < c := by exact_mod_cast h0
  have hc1 : (c : ℚ) * 2 ^ (-(z : Int)) ≤ 1 := by
    rw [zpow_neg, zpow_natCast, ← div_eq_mul_inv, div_le_one (by positivity)]
    exact_mod_cast h1.le
  -- the rounding of the column number
  have hr1 : rne64 (c : ℚ) * 2 ^ (-(z : Int)) ≤ 1 := by
    have : rne64 (c : ℚ) ≤ rne64 (2 ^ z) := rne64_mono (by exact_mod_cast h1.le)
    rw [rne64_two_pow] at this
    rw [zpow_neg, zpow_natCast, ← div_eq_mul_inv, div_le_one (by positivity)]
    exact this
  have hr0 : 0 ≤ rne64 (c : ℚ) := rne64_nonneg hc.le
  have e1 : |rne64 (c : ℚ) - c| * 2 ^ (-(z : Int)) ≤ 2 ^ (-53 : Int) := by
    by_cases hz : z = 0
    · subst hz
      have : c < 1 := by simpa using h1
      omega
    have hl := rne64_err_lt (c : ℚ) z (by omega) (by rw [abs_of_pos hc, zpow_natCast]; exact_mod_cast h1)
    calc |rne64 (c : ℚ) - c| * 2 ^ (-(z : Int)) ≤ 2 ^ ((z : Int) - 54) * 2 ^ (-(z : Int)) :=
          mul_le_mul_of_nonneg_right hl hp.le
      _ = 2 ^ (-54 : Int) := by rw [← zpow_add₀ (by norm_num)]; congr 1; ring
      _ ≤ 2 ^ (-53 : Int) := zpow2_mono (by norm_num)
  -- the rounding of the product
  have hprod0 : 0 ≤ rne64 (c : ℚ) * circ := mul_nonneg hr0 circ_pos.le
  have e2 : |rne64 (rne64 (c : ℚ) * circ) - rne64 c * circ| * 2 ^ (-(z : Int)) ≤ 2 ^ (-28 : Int) := by
    have hlt : |rne64 (c : ℚ) * circ| < 2 ^ ((z : Int) + 26) := by
      rw [abs_of_nonneg hprod0]
      have h3 : rne64 (c : ℚ) ≤ 2 ^ (z : Int) := by
        have : rne64 (c : ℚ) ≤ rne64 (2 ^ z) := rne64_mono (by exact_mod_cast h1.le)
        rwa [rne64_two_pow, ← zpow_natCast] at this
      rw [zpow_add₀ (by norm_num)]
      calc rne64 (c : ℚ) * circ ≤ 2 ^ (z : Int) * circ := mul_le_mul_of_nonneg_right h3 circ_pos.le
        _ < 2 ^ (z : Int) * 2 ^ (26 : Int) := mul_lt_mul_of_pos_left hb.2 (zpow_pos (by norm_num) _)
    have hl := rne64_err_lt _ ((z : Int) + 26) (by omega) hlt
    calc _ ≤ 2 ^ ((z : Int) + 26 - 54) * 2 ^ (-(z : Int)) := mul_le_mul_of_nonneg_right hl hp.le
      _ = 2 ^ (-28 : Int) := by rw [← zpow_add₀ (by norm_num)]; congr 1; ring
  -- the rounding of the difference
  have hq0 : 0 ≤ rne64 (rne64 (c : ℚ) * circ) * 2 ^ (-(z : Int)) := mul_nonneg (rne64_nonneg hprod0) hp.le
  have hq1 : rne64 (rne64 (c : ℚ) * circ) * 2 ^ (-(z : Int)) ≤ circ := by
    have h3 : rne64 (c : ℚ) * circ ≤ circ * 2 ^ (z : Int) := by
      have : rne64 (c : ℚ) ≤ rne64 (2 ^ z) := rne64_mono (by exact_mod_cast h1.le)
      rw [rne64_two_pow] at this
      rw [mul_comm, zpow_natCast]
      exact mul_le_mul_of_nonneg_left this circ_pos.le
    have h4 := rne64_mono h3
    rw [rne64_scale_of (a := 25) (fun _ => by rw [abs_of_pos circ_pos]; exact circ_bounds.1) _ (by norm_num) (by omega),
      isDouble_circ] at h4
    calc _ ≤ circ * 2 ^ (z : Int) * 2 ^ (-(z : Int)) := mul_le_mul_of_nonneg_right h4 hp.le
      _ = circ := by rw [mul_assoc, ← zpow_add₀ (by norm_num), add_neg_cancel, zpow_zero, mul_one]
  have e3 : |edge64 z c - (rne64 (rne64 (c : ℚ) * circ) * 2 ^ (-(z : Int)) - originShift)| ≤ 2 ^ (-29 : Int) := by
    have := rne64_err_lt (rne64 (rne64 (c : ℚ) * circ) * 2 ^ (-(z : Int)) - originShift) 25 (by norm_num)
      (by
        have := shift_bounds.2
        have := circ_shift
        rw [abs_lt]
        constructor <;> linarith)
    exact this
  have k1 : |(rne64 (c : ℚ) - c) * circ * 2 ^ (-(z : Int))| ≤ 2 ^ (-53 : Int) * 2 ^ (26 : Int) := by
    rw [abs_mul, abs_mul, abs_of_pos circ_pos, abs_of_pos hp, mul_right_comm]
    exact mul_le_mul e1 hb.2.le circ_pos.le (zpow_pos (by norm_num) _).le
  have k2 : |(rne64 (rne64 (c : ℚ) * circ) - rne64 c * circ) * 2 ^ (-(z : Int))| ≤ 2 ^ (-28 : Int) := by
    rw [abs_mul, abs_of_pos hp]
    exact e2
  have split : edge64 z c - (c * circ / 2 ^ z - originShift) =
      (edge64 z c - (rne64 (rne64 (c : ℚ) * circ) * 2 ^ (-(z : Int)) - originShift)) +
      ((rne64 (rne64 (c : ℚ) * circ) - rne64 c * circ) * 2 ^ (-(z : Int)) +
       (rne64 (c : ℚ) - c) * circ * 2 ^ (-(z : Int))) := by
    rw [zpow_neg, zpow_natCast]
    ring
  rw [split]
  refine le_trans (abs_add_le _ _) (le_trans (add_le_add e3 (le_trans (abs_add_le _ _) (add_le_add k2 k1))) ?_)
  norm_num

end Verif.MapTilesFloat
