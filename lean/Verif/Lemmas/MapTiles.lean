import Mathlib.Tactic.FieldSimp
import Mathlib.Tactic.Linarith
import Mathlib.Tactic.Ring
import Mathlib.Tactic.Positivity
import Mathlib.Tactic.NormNum
import Mathlib.Algebra.Order.Ring.Cast
import Mathlib.Algebra.Order.Floor.Ring
import Verif.Spec.MapTiles

set_option linter.unusedSectionVars false

namespace Verif.MapTiles

open Verif.Spec.MapTiles

variable {K : Type*} [Field K] [LinearOrder K] [IsStrictOrderedRing K] [FloorRing K]

/-- The `i`-th grid line of level `z` in metres. -/
def edge (circ : K) (z : Nat) (i : Int) : K := (i : K) * (circ / 2 ^ z) - circ / 2

theorem pixelsToMeters_eq (t : TileSet K) (ht : 0 < t.tileSize) (z : Nat) (i : Int) :
    t.pixelsToMeters ((i * t.tileSize : Int) : K) z = edge t.circ z i := by
  have h1 : (t.tileSize : K) ≠ 0 := by exact_mod_cast ht.ne'
  have h2 : (2 : K) ^ z ≠ 0 := by positivity
  unfold TileSet.pixelsToMeters TileSet.resolution TileSet.initialResolution TileSet.originShift edge
  push_cast
  field_simp

/-- The tile index that the code computes for a coordinate in metres. -/
theorem tileIndex_eq (t : TileSet K) (ht : 0 < t.tileSize) (hc : 0 < t.circ) (z : Nat) (m : K) :
    t.pixelsToTile (t.metersToPixels m z) = ⌈(m + t.circ / 2) / (t.circ / 2 ^ z)⌉ - 1 := by
  have h1 : (t.tileSize : K) ≠ 0 := by exact_mod_cast ht.ne'
  have h2 : (2 : K) ^ z ≠ 0 := by positivity
  have h3 : t.circ ≠ 0 := hc.ne'
  unfold TileSet.pixelsToTile TileSet.metersToPixels TileSet.resolution TileSet.initialResolution
    TileSet.originShift
  congr 2
  field_simp

theorem tileIndex_iff (t : TileSet K) (ht : 0 < t.tileSize) (hc : 0 < t.circ) (z : Nat) (m : K) (i : Int) :
    t.pixelsToTile (t.metersToPixels m z) = i ↔ edge t.circ z i < m ∧ m ≤ edge t.circ z (i + 1) := by
  have hw : 0 < t.circ / 2 ^ z := by positivity
  rw [tileIndex_eq t ht hc, sub_eq_iff_eq_add, Int.ceil_eq_iff]
  unfold edge
  rw [lt_div_iff₀ hw, div_le_iff₀ hw]
  push_cast
  constructor <;> rintro ⟨h1, h2⟩ <;> constructor <;> nlinarith

theorem edge_strictMono (circ : K) (hc : 0 < circ) (z : Nat) : StrictMono (edge circ z) := by
  intro a b hab
  have hw : 0 < circ / 2 ^ z := by positivity
  have : (a : K) < b := by exact_mod_cast hab
  unfold edge
  have := mul_lt_mul_of_pos_right this hw
  linarith

theorem edge_zero (circ : K) (z : Nat) : edge circ z 0 = -(circ / 2) := by
  simp [edge]

theorem edge_top (circ : K) (z : Nat) : edge circ z (2 ^ z) = circ / 2 := by
  have h2 : (2 : K) ^ z ≠ 0 := by positivity
  unfold edge
  push_cast
  field_simp
  ring

theorem edge_mem (circ : K) (hc : 0 < circ) (z : Nat) (i : Int) (h0 : 0 ≤ i) (h1 : i ≤ 2 ^ z) :
    edge circ z i ∈ Set.Icc (-(circ / 2)) (circ / 2) := by
  rw [← edge_zero circ z]
  have h := edge_top circ z
  constructor
  · exact (edge_strictMono circ hc z).monotone h0
  · rw [← h]; exact (edge_strictMono circ hc z).monotone h1

theorem edge_succ_level (circ : K) (z : Nat) (i : Int) : edge circ (z + 1) (2 * i) = edge circ z i := by
  have h2 : (2 : K) ^ z ≠ 0 := by positivity
  unfold edge
  rw [pow_succ]
  push_cast
  field_simp

theorem boundsLle_eq (t : TileSet K) (ht : 0 < t.tileSize) (id : TileId) :
    t.boundsLle id =
      { minLon := t.lonAxis.inv (edge t.circ id.matrix id.col)
        minLat := t.latAxis.inv (edge t.circ id.matrix id.row)
        maxLon := t.lonAxis.inv (edge t.circ id.matrix (id.col + 1))
        maxLat := t.latAxis.inv (edge t.circ id.matrix (id.row + 1)) } := by
  simp only [TileSet.boundsLle, TileSet.boundsMeters, pixelsToMeters_eq t ht]

/-- An index is valid exactly when the coordinate is in the extent without its lower edge. -/
theorem tileIndex_range (t : TileSet K) (ht : 0 < t.tileSize) (hc : 0 < t.circ) (z : Nat) (m : K) :
    (0 ≤ t.pixelsToTile (t.metersToPixels m z) ∧ t.pixelsToTile (t.metersToPixels m z) < 2 ^ z) ↔
      (-(t.circ / 2) < m ∧ m ≤ t.circ / 2) := by
  obtain ⟨h1, h2⟩ := (tileIndex_iff t ht hc z m _).mp rfl
  set i := t.pixelsToTile (t.metersToPixels m z)
  have hm := edge_strictMono t.circ hc z
  rw [← edge_zero t.circ z, ← edge_top t.circ z]
  constructor
  · rintro ⟨a, b⟩
    exact ⟨lt_of_le_of_lt (hm.monotone a) h1, le_trans h2 (hm.monotone (by omega))⟩
  · rintro ⟨a, b⟩
    constructor
    · have := hm.lt_iff_lt.mp (lt_of_lt_of_le a h2); omega
    · exact hm.lt_iff_lt.mp (lt_of_lt_of_le h1 b)

theorem foldl_min_le (l : List Int) (a : Int) :
    l.foldl min a ≤ a ∧ (∀ x ∈ l, l.foldl min a ≤ x) ∧ (l.foldl min a = a ∨ l.foldl min a ∈ l) := by
  induction l generalizing a with
  | nil => simp
  | cons b rest ih =>
    obtain ⟨h1, h2, h3⟩ := ih (min a b)
    simp only [List.foldl_cons]
    refine ⟨le_trans h1 (min_le_left _ _), ?_, ?_⟩
    · intro x hx
      rcases List.mem_cons.mp hx with rfl | hx
      · exact le_trans h1 (min_le_right _ _)
      · exact h2 x hx
    · rcases h3 with h | h
      · rw [h]
        rcases min_choice a b with h' | h' <;> rw [h'] <;> simp
      · right; exact List.mem_cons_of_mem _ h

theorem le_foldl_max (l : List Int) (a : Int) :
    a ≤ l.foldl max a ∧ (∀ x ∈ l, x ≤ l.foldl max a) ∧ (l.foldl max a = a ∨ l.foldl max a ∈ l) := by
  induction l generalizing a with
  | nil => simp
  | cons b rest ih =>
    obtain ⟨h1, h2, h3⟩ := ih (max a b)
    simp only [List.foldl_cons]
    refine ⟨le_trans (le_max_left _ _) h1, ?_, ?_⟩
    · intro x hx
      rcases List.mem_cons.mp hx with rfl | hx
      · exact le_trans (le_max_right _ _) h1
      · exact h2 x hx
    · rcases h3 with h | h
      · rw [h]
        rcases max_choice a b with h' | h' <;> rw [h'] <;> simp
      · right; exact List.mem_cons_of_mem _ h

theorem pyMin_spec {l : List Int} (h : l ≠ []) :
    ∃ m, pyMin l = .ok m ∧ m ∈ l ∧ ∀ x ∈ l, m ≤ x := by
  cases l with
  | nil => exact absurd rfl h
  | cons a rest =>
    obtain ⟨h1, h2, h3⟩ := foldl_min_le rest a
    refine ⟨_, rfl, ?_, ?_⟩
    · rcases h3 with h | h
      · rw [h]; simp
      · exact List.mem_cons_of_mem _ h
    · intro x hx
      rcases List.mem_cons.mp hx with rfl | hx
      · exact h1
      · exact h2 x hx

theorem pyMax_spec {l : List Int} (h : l ≠ []) :
    ∃ m, pyMax l = .ok m ∧ m ∈ l ∧ ∀ x ∈ l, x ≤ m := by
  cases l with
  | nil => exact absurd rfl h
  | cons a rest =>
    obtain ⟨h1, h2, h3⟩ := le_foldl_max rest a
    refine ⟨_, rfl, ?_, ?_⟩
    · rcases h3 with h | h
      · rw [h]; simp
      · exact List.mem_cons_of_mem _ h
    · intro x hx
      rcases List.mem_cons.mp hx with rfl | hx
      · exact h1
      · exact h2 x hx

theorem tileIndex_mono (t : TileSet K) (ht : 0 < t.tileSize) (hc : 0 < t.circ) (z : Nat) {m m' : K}
    (h : m ≤ m') :
    t.pixelsToTile (t.metersToPixels m z) ≤ t.pixelsToTile (t.metersToPixels m' z) := by
  rw [tileIndex_eq t ht hc, tileIndex_eq t ht hc]
  have hw : 0 < t.circ / 2 ^ z := by positivity
  have : ⌈(m + t.circ / 2) / (t.circ / 2 ^ z)⌉ ≤ ⌈(m' + t.circ / 2) / (t.circ / 2 ^ z)⌉ := by
    apply Int.ceil_le_ceil
    apply div_le_div_of_nonneg_right _ hw.le
    linarith
  omega

end Verif.MapTiles
