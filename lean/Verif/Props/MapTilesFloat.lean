import Verif.Lemmas.MapTilesFloat
import Verif.Spec.MapTiles
import Verif.Spec.MapTilesFloat

/-!
# Map tiles in double arithmetic

The tile sets are those that `MapTileSetFactory.get_for_id` returns; zoom levels go up to
900 (far beyond any use; the powers of two stay in the range of doubles).
-/

namespace Verif.Props.MapTilesFloat

open Verif Verif.Float64 Verif.MapTiles Verif.MapTilesFloat
open Verif.Spec.MapTiles (IsTileOfLevel)
open Verif.Spec.MapTilesFloat

variable {lo la : Axis ℚ} {name : String} {t : TileSet64}

theorem size_of (ht : getForId64 lo la name = some t) :
    t.lonAxis = lo ∧ t.latAxis = la ∧ ∃ k, t.tileSize = 2 ^ k ∧ k ≤ 60 := by
  unfold getForId64 at ht
  by_cases h1 : name = "WebMercatorQuad"
  · rw [if_pos h1] at ht
    obtain rfl := Option.some.inj ht
    exact ⟨rfl, rfl, 8, by norm_num, by norm_num⟩
  · rw [if_neg h1] at ht
    by_cases h2 : name = "WebMercatorQuadx2"
    · rw [if_pos h2] at ht
      obtain rfl := Option.some.inj ht
      exact ⟨rfl, rfl, 9, by norm_num, by norm_num⟩
    · rw [if_neg h2] at ht
      exact absurd ht (by simp)

theorem isDouble_of {x : ℚ} (h : IsBinary64 x) : IsDouble x := by
  obtain ⟨k, e, h1, h2, rfl⟩ := h
  exact rne64_repr k e h1 h2

theorem half_eq : worldHalf = originShift := by rw [shift_val]; rfl

theorem col_eq (ht : getForId64 lo la name = some t) (hlo : ReturnsDoubles lo) (z : Nat) (hz : z ≤ 900) (lon lat : ℚ) :
    (t.getTileForLocation lon lat z).id.col = ⌈unitPos (lo.fwd lon) * 2 ^ z⌉ - 1 := by
  obtain ⟨rfl, rfl, k, hk, hk'⟩ := size_of ht
  exact tileIndex_eq t k hk hk' z hz (isDouble_of (hlo lon))

theorem row_eq (ht : getForId64 lo la name = some t) (hla : ReturnsDoubles la) (z : Nat) (hz : z ≤ 900) (lon lat : ℚ) :
    (t.getTileForLocation lon lat z).id.row = ⌈unitPos (la.fwd lat) * 2 ^ z⌉ - 1 := by
  obtain ⟨rfl, rfl, k, hk, hk'⟩ := size_of ht
  exact tileIndex_eq t k hk hk' z hz (isDouble_of (hla lat))

theorem matrix_eq (t : TileSet64) (lon lat : ℚ) (z : Nat) : (t.getTileForLocation lon lat z).id.matrix = z := rfl

theorem meters_eq (ht : getForId64 lo la name = some t) (id : TileId) (hz : id.matrix ≤ 900) :
    t.boundsMeters id = (edge64 id.matrix id.col, edge64 id.matrix id.row, edge64 id.matrix (id.col + 1),
      edge64 id.matrix (id.row + 1)) := by
  obtain ⟨-, -, k, hk, hk'⟩ := size_of ht
  unfold TileSet64.boundsMeters
  rw [pixelsToMeters_eq t k hk hk' _ hz, pixelsToMeters_eq t k hk hk' _ hz, pixelsToMeters_eq t k hk hk' _ hz,
    pixelsToMeters_eq t k hk hk' _ hz]

theorem bounds_eq (ht : getForId64 lo la name = some t) (id : TileId) (hz : id.matrix ≤ 900) :
    (t.getTile id).bounds = ⟨lo.inv (edge64 id.matrix id.col), la.inv (edge64 id.matrix id.row),
      lo.inv (edge64 id.matrix (id.col + 1)), la.inv (edge64 id.matrix (id.row + 1))⟩ := by
  obtain ⟨h1, h2, -⟩ := size_of ht
  simp only [TileSet64.getTile, TileSet64.boundsLle, meters_eq ht id hz, h1, h2]

theorem line_eq (z : Nat) (i : Int) : gridLine z i = i * circ / 2 ^ z - originShift := by
  unfold gridLine
  rw [half_eq, circ_shift]
  ring

/-- The projection that leaves doubles alone and rounds everything else, for the examples. -/
def rounding : Axis ℚ := ⟨rne64, id⟩

theorem binary64_rne64 (x : ℚ) : IsBinary64 (rne64 x) := by
  by_cases hx : x = 0
  · exact ⟨0, 0, by norm_num, by norm_num, by rw [hx, rne64_zero]; norm_num⟩
  refine ⟨rint (x / 2 ^ ulpExp x), ulpExp x, ?_, le_max_right _ _, by unfold rne64; rw [if_neg hx]⟩
  have hp : (0 : ℚ) < 2 ^ ulpExp x := zpow_pos (by norm_num) _
  have hb : |x / 2 ^ ulpExp x| ≤ 2 ^ 53 := by
    rw [abs_div, abs_of_pos hp, div_le_iff₀ hp]
    have := lt_zpow_ulp (abs_pos.2 hx)
    have e : ulpExp |x| = ulpExp x := by simp [ulpExp]
    rw [e, add_comm, zpow_add₀ (by norm_num)] at this
    norm_num at this ⊢
    linarith
  rw [abs_le] at hb ⊢
  have h1 := rint_mono hb.1
  have h2 := rint_mono hb.2
  have e1 : rint (-2 ^ 53) = -2 ^ 53 := by have := rint_intCast (-2 ^ 53); push_cast at this; exact this
  have e2 : rint (2 ^ 53) = 2 ^ 53 := by have := rint_intCast (2 ^ 53); push_cast at this; exact this
  rw [e1] at h1
  rw [e2] at h2
  exact ⟨h1, h2⟩

theorem rounding_doubles : ReturnsDoubles rounding := fun a => binary64_rne64 a

/-- The tile set of the examples. -/
def demo : TileSet64 := ⟨256, "WebMercatorQuad", rounding, rounding⟩

theorem demo_set : getForId64 rounding rounding "WebMercatorQuad" = some demo := rfl

/-- **C117 (a).** The indices of `get_tile_for_location` name a tile of the level exactly if the
projected location is in the Web Mercator square without its lower edges: rounding neither
loses a location of the square nor lets one in. -/
theorem index_valid_iff (ht : getForId64 lo la name = some t) (hlo : ReturnsDoubles lo) (hla : ReturnsDoubles la)
    (lon lat : ℚ) (z : Nat) (hz : z ≤ 900) :
    IsTileOfLevel z (t.getTileForLocation lon lat z).id ↔ InSquare lo lon ∧ InSquare la lat := by
  have c := tileIndex_range (isDouble_of (hlo lon)) z
  have r := tileIndex_range (isDouble_of (hla lat)) z
  unfold IsTileOfLevel InSquare
  rw [col_eq ht hlo z hz, row_eq ht hla z hz, half_eq, ← c, ← r]
  constructor
  · rintro ⟨-, a, b, c, d⟩
    exact ⟨⟨c, d⟩, a, b⟩
  · rintro ⟨⟨c, d⟩, a, b⟩
    exact ⟨rfl, a, b, c, d⟩

example : IsTileOfLevel 3 (demo.getTileForLocation 20037508 (-20037508) 3).id ∧
    ¬ IsTileOfLevel 3 (demo.getTileForLocation 20037509 0 3).id := by
  rw [index_valid_iff demo_set rounding_doubles rounding_doubles _ _ _ (by norm_num),
    index_valid_iff demo_set rounding_doubles rounding_doubles _ _ _ (by norm_num)]
  unfold InSquare
  decide +kernel

/-- **C117 (b).** The tile of `get_tile_for_location` contains the projected location up to
2⁻²⁵ metres, and it is the only tile of the level that contains it by more than that. -/
theorem tile_near_location (ht : getForId64 lo la name = some t) (hlo : ReturnsDoubles lo) (hla : ReturnsDoubles la)
    (lon lat : ℚ) (z : Nat) (hz : z ≤ 900) (h1 : InSquare lo lon) (h2 : InSquare la lat) :
    (let (minX, minY, maxX, maxY) := t.boundsMeters (t.getTileForLocation lon lat z).id
     minX - 1 / 2 ^ 25 < lo.fwd lon ∧ lo.fwd lon ≤ maxX + 1 / 2 ^ 25 ∧
     minY - 1 / 2 ^ 25 < la.fwd lat ∧ la.fwd lat ≤ maxY + 1 / 2 ^ 25) ∧
    ∀ id, IsTileOfLevel z id →
      (let (minX, minY, maxX, maxY) := t.boundsMeters id
       minX + 1 / 2 ^ 25 < lo.fwd lon ∧ lo.fwd lon ≤ maxX - 1 / 2 ^ 25 ∧
       minY + 1 / 2 ^ 25 < la.fwd lat ∧ la.fwd lat ≤ maxY - 1 / 2 ^ 25) →
      id = (t.getTileForLocation lon lat z).id := by
  have hp : (0 : ℚ) < 2 ^ z := by positivity
  have key : ∀ m : ℚ, IsDouble m → -worldHalf < m → m ≤ worldHalf →
      (edge64 z (⌈unitPos m * 2 ^ z⌉ - 1) - 1 / 2 ^ 25 < m ∧ m ≤ edge64 z (⌈unitPos m * 2 ^ z⌉ - 1 + 1) + 1 / 2 ^ 25) ∧
      ∀ c : Int, 0 ≤ c → c < 2 ^ z → edge64 z c + 1 / 2 ^ 25 < m → m ≤ edge64 z (c + 1) - 1 / 2 ^ 25 →
        c = ⌈unitPos m * 2 ^ z⌉ - 1 := by
    intro m hm a b
    rw [half_eq] at a b
    obtain ⟨r1, r2⟩ := (tileIndex_range hm z).2 ⟨a, b⟩
    have e := abs_le.1 (unitPos_err a.le b)
    have up := Int.ceil_lt_add_one (unitPos m * 2 ^ z)
    have dn := Int.le_ceil (unitPos m * 2 ^ z)
    set i := ⌈unitPos m * 2 ^ z⌉ with hi
    have cu : circ * (unitPos m * 2 ^ z) / 2 ^ z = circ * unitPos m := by field_simp
    have lower : ∀ c : Int, (c : ℚ) < unitPos m * 2 ^ z ↔ (c : ℚ) * circ / 2 ^ z < circ * unitPos m := by
      intro c
      rw [← cu, div_lt_div_iff_of_pos_right hp, mul_comm (c : ℚ) circ, mul_lt_mul_iff_right₀ circ_pos]
    constructor
    · have e1 := abs_le.1 (edge64_err z (i - 1) r1 (by omega))
      have e2 := abs_le.1 (edge64_err z (i - 1 + 1) (by omega) (by omega))
      have l1 := (lower (i - 1)).1 (by push_cast; linarith)
      have l2 : ¬ ((i - 1 + 1 : Int) : ℚ) * circ / 2 ^ z < circ * unitPos m := by
        rw [← lower]
        push_cast
        linarith
      constructor
      · norm_num at *
        linarith
      · norm_num at *
        linarith
    · intro c c0 c1 m1 m2
      have e1 := abs_le.1 (edge64_err z c c0 c1.le)
      have e2 := abs_le.1 (edge64_err z (c + 1) (by omega) (by omega))
      have l1 : (c : ℚ) < unitPos m * 2 ^ z := by
        rw [lower]
        norm_num at *
        linarith
      have l2 : ¬ ((c + 1 : Int) : ℚ) < unitPos m * 2 ^ z := by
        rw [lower]
        norm_num at *
        linarith
      have k1 : c < i := Int.lt_ceil.2 l1
      have k2 : i ≤ c + 1 := Int.ceil_le.2 (not_lt.1 l2)
      omega
  obtain ⟨x1, x2⟩ := key _ (isDouble_of (hlo lon)) h1.1 h1.2
  obtain ⟨y1, y2⟩ := key _ (isDouble_of (hla lat)) h2.1 h2.2
  constructor
  · rw [meters_eq ht _ hz]
    rw [col_eq ht hlo z hz, row_eq ht hla z hz]
    exact ⟨x1.1, x1.2, y1.1, y1.2⟩
  · rintro ⟨zz, row, col⟩ ⟨rfl, r0, r1, c0, c1⟩ hb
    rw [meters_eq ht _ hz] at hb
    obtain ⟨b1, b2, b3, b4⟩ := hb
    have ec := x2 col c0 c1 b1 b2
    have er := y2 row r0 r1 b3 b4
    rw [← col_eq ht hlo zz hz lon lat] at ec
    rw [← row_eq ht hla zz hz lon lat] at er
    rw [ec, er]
    rfl

example : InSquare rounding 1000000 ∧ InSquare rounding (-3000000) ∧
    (demo.getTileForLocation 1000000 (-3000000) 12).id = ⟨12, 1741, 2150⟩ := by
  unfold InSquare
  decide +kernel

/-- **C117 (c).** Tiles at successive zoom levels nest: the tile of a location is the parent of its
tile one level deeper. -/
theorem parent_tile (ht : getForId64 lo la name = some t) (hlo : ReturnsDoubles lo) (hla : ReturnsDoubles la)
    (lon lat : ℚ) (z : Nat) (hz : z + 1 ≤ 900) :
    (t.getTileForLocation lon lat z).id.row = (t.getTileForLocation lon lat (z + 1)).id.row / 2 ∧
    (t.getTileForLocation lon lat z).id.col = (t.getTileForLocation lon lat (z + 1)).id.col / 2 := by
  rw [col_eq ht hlo z (by omega), row_eq ht hla z (by omega), col_eq ht hlo (z + 1) hz, row_eq ht hla (z + 1) hz]
  have key : ∀ u : ℚ, ⌈u * 2 ^ z⌉ - 1 = (⌈u * 2 ^ (z + 1)⌉ - 1) / 2 := by
    intro u
    have h1 := Int.ceil_lt_add_one (u * 2 ^ (z + 1))
    have h2 := Int.le_ceil (u * 2 ^ (z + 1))
    set i := ⌈u * 2 ^ (z + 1)⌉
    rw [pow_succ] at h1 h2
    suffices ⌈u * 2 ^ z⌉ = (i - 1) / 2 + 1 by omega
    have h3 := Int.mul_ediv_add_emod (i - 1) 2
    have h4 := Int.emod_nonneg (i - 1) (by norm_num : (2 : Int) ≠ 0)
    have h5 := Int.emod_lt_of_pos (i - 1) (by norm_num : (0 : Int) < 2)
    set q := (i - 1) / 2
    have g1 : 2 * q + 1 ≤ i := by omega
    have g2 : i ≤ 2 * q + 2 := by omega
    have g1' : (2 * q + 1 : ℚ) ≤ i := by exact_mod_cast g1
    have g2' : (i : ℚ) ≤ 2 * q + 2 := by exact_mod_cast g2
    rw [Int.ceil_eq_iff]
    push_cast
    constructor <;> linarith
  exact ⟨key _, key _⟩

example : (demo.getTileForLocation 1000000 (-3000000) 13).id = ⟨13, 3482, 4300⟩ := by decide +kernel

/-- **C117 (d).** Neighbouring tiles share their common edge bit for bit, and the edges of the four
children of a tile are those of the tile, bit for bit: there is neither gap nor overlap in the
pyramid. -/
theorem edges_shared (ht : getForId64 lo la name = some t) (z : Nat) (hz : z + 1 ≤ 900) (row col : Int) :
    let P := (t.getTile ⟨z, row, col⟩).bounds
    let E := (t.getTile ⟨z, row, col + 1⟩).bounds
    let N := (t.getTile ⟨z, row + 1, col⟩).bounds
    let SW := (t.getTile ⟨z + 1, 2 * row, 2 * col⟩).bounds
    let NE := (t.getTile ⟨z + 1, 2 * row + 1, 2 * col + 1⟩).bounds
    E.minLon = P.maxLon ∧ N.minLat = P.maxLat ∧ E.minLat = P.minLat ∧ E.maxLat = P.maxLat ∧
    N.minLon = P.minLon ∧ N.maxLon = P.maxLon ∧
    SW.minLon = P.minLon ∧ SW.minLat = P.minLat ∧ NE.maxLon = P.maxLon ∧ NE.maxLat = P.maxLat ∧
    SW.maxLon = NE.minLon ∧ SW.maxLat = NE.minLat := by
  intro P E N SW NE
  have e1 := fun r c => bounds_eq ht ⟨z, r, c⟩ (show z ≤ 900 by omega)
  have e2 := fun r c => bounds_eq ht ⟨z + 1, r, c⟩ hz
  simp only [P, E, N, SW, NE, e1, e2,
    show ∀ c : Int, 2 * c + 1 + 1 = 2 * (c + 1) from fun c => by ring, edge64_child, and_self]

example : (demo.getTile ⟨1, 0, 0⟩).bounds.maxLon = 0 ∧ (demo.getTile ⟨2, 1, 1⟩).bounds.maxLon = 0 := by
  decide +kernel

/-- **C117 (e).** The edges of a tile in metres lie within 2⁻²⁶ metres of the grid that divides the
Web Mercator square into `2^z` equal parts; the outermost edges are exact; the edges are in
order, and strictly so up to zoom level 50. -/
theorem edges_on_grid (ht : getForId64 lo la name = some t) (z : Nat) (hz : z ≤ 900) (row col : Int)
    (hid : IsTileOfLevel z ⟨z, row, col⟩) :
    let (minX, minY, maxX, maxY) := t.boundsMeters ⟨z, row, col⟩
    |minX - gridLine z col| ≤ 1 / 2 ^ 26 ∧ |maxX - gridLine z (col + 1)| ≤ 1 / 2 ^ 26 ∧
    |minY - gridLine z row| ≤ 1 / 2 ^ 26 ∧ |maxY - gridLine z (row + 1)| ≤ 1 / 2 ^ 26 ∧
    (col = 0 → minX = -worldHalf) ∧ (row = 0 → minY = -worldHalf) ∧
    (col + 1 = 2 ^ z → maxX = worldHalf) ∧ (row + 1 = 2 ^ z → maxY = worldHalf) ∧
    minX ≤ maxX ∧ minY ≤ maxY ∧ (z ≤ 50 → minX < maxX ∧ minY < maxY) := by
  rw [meters_eq ht _ hz]
  obtain ⟨-, r0, r1, c0, c1⟩ := hid
  change 0 ≤ row at r0
  change row < 2 ^ z at r1
  change 0 ≤ col at c0
  change col < 2 ^ z at c1
  have near : ∀ c : Int, 0 ≤ c → c ≤ 2 ^ z → |edge64 z c - gridLine z c| ≤ 1 / 2 ^ 26 := by
    intro c a b
    rw [line_eq]
    refine le_trans (edge64_err z c a b) ?_
    norm_num
  have strict : z ≤ 50 → ∀ c : Int, 0 ≤ c → c < 2 ^ z → edge64 z c < edge64 z (c + 1) := by
    intro h50 c a b
    have e1 := abs_le.1 (edge64_err z c a b.le)
    have e2 := abs_le.1 (edge64_err z (c + 1) (by omega) (by omega))
    have w : (2 : ℚ) ^ (25 : Int) / 2 ^ (50 : Nat) ≤ circ / 2 ^ z :=
      div_le_div₀ circ_pos.le circ_bounds.1 (by positivity) (pow_le_pow_right₀ (by norm_num) h50)
    have s : ((c + 1 : Int) : ℚ) * circ / 2 ^ z = c * circ / 2 ^ z + circ / 2 ^ z := by push_cast; ring
    rw [s] at e2
    norm_num at *
    linarith
  refine ⟨near col c0 c1.le, near (col + 1) (by omega) (by omega), near row r0 r1.le, near (row + 1) (by omega) (by omega),
    ?_, ?_, ?_, ?_, edge64_mono z (by omega), edge64_mono z (by omega), fun h => ⟨strict h col c0 c1, strict h row r0 r1⟩⟩
  · rintro rfl; rw [half_eq]; exact edge64_zero z
  · rintro rfl; rw [half_eq]; exact edge64_zero z
  · intro h; simp only [h]; rw [half_eq]; exact edge64_last z
  · intro h; simp only [h]; rw [half_eq]; exact edge64_last z

example : IsTileOfLevel 20 ⟨20, 2 ^ 20 - 1, 7⟩ ∧ gridLine 1 1 = 0 := by
  unfold IsTileOfLevel; decide +kernel

/-- **C117 (f).** The two tile sets differ in the tile size alone: the identifier of every location
and the bounds of every tile agree bit for bit. -/
theorem tile_size_irrelevant {name' : String} {t' : TileSet64} (ht : getForId64 lo la name = some t)
    (ht' : getForId64 lo la name' = some t') (hlo : ReturnsDoubles lo) (hla : ReturnsDoubles la) :
    (∀ id : TileId, id.matrix ≤ 900 → (t'.getTile id).bounds = (t.getTile id).bounds) ∧
    (∀ lon lat z, z ≤ 900 → (t'.getTileForLocation lon lat z).id = (t.getTileForLocation lon lat z).id) := by
  constructor
  · intro id hz
    rw [bounds_eq ht id hz, bounds_eq ht' id hz]
  · intro lon lat z hz
    have e : ∀ a b : TileId, a.matrix = b.matrix → a.row = b.row → a.col = b.col → a = b := by
      rintro ⟨_, _, _⟩ ⟨_, _, _⟩ rfl rfl rfl; rfl
    apply e
    · rw [matrix_eq, matrix_eq]
    · rw [row_eq ht hla z hz, row_eq ht' hla z hz]
    · rw [col_eq ht hlo z hz, col_eq ht' hlo z hz]

example : ∃ t', getForId64 rounding rounding "WebMercatorQuadx2" = some t' ∧ t'.tileSize ≠ demo.tileSize :=
  ⟨⟨512, "WebMercatorQuadx2", rounding, rounding⟩, rfl, by decide⟩

/-- **C117 (g).** `get_tile_matrix_limits_for_area` of a non-empty boundary returns limits that hold
the tile of every location in the bounding box of the boundary; it is enough that the
projection is increasing and returns doubles. -/
theorem limits_cover_area (ht : getForId64 lo la name = some t) (hlo : ReturnsDoubles lo) (hla : ReturnsDoubles la)
    (mlo : ∀ a b, a ≤ b → lo.fwd a ≤ lo.fwd b) (mla : ∀ a b, a ≤ b → la.fwd a ≤ la.fwd b)
    (boundary : List (ℚ × ℚ)) (hne : boundary ≠ []) (z : Nat) (hz : z ≤ 900) :
    ∃ minCol minRow maxCol maxRow, t.limitsForArea boundary z = .ok (minCol, minRow, maxCol, maxRow) ∧
      (∃ p ∈ boundary, (t.getTileForLocation p.1 p.2 z).id.col = minCol) ∧
      (∃ p ∈ boundary, (t.getTileForLocation p.1 p.2 z).id.row = minRow) ∧
      (∃ p ∈ boundary, (t.getTileForLocation p.1 p.2 z).id.col = maxCol) ∧
      (∃ p ∈ boundary, (t.getTileForLocation p.1 p.2 z).id.row = maxRow) ∧
      ∀ lon lat, (∃ p ∈ boundary, p.1 ≤ lon) → (∃ p ∈ boundary, lon ≤ p.1) →
        (∃ p ∈ boundary, p.2 ≤ lat) → (∃ p ∈ boundary, lat ≤ p.2) →
        minCol ≤ (t.getTileForLocation lon lat z).id.col ∧ (t.getTileForLocation lon lat z).id.col ≤ maxCol ∧
        minRow ≤ (t.getTileForLocation lon lat z).id.row ∧ (t.getTileForLocation lon lat z).id.row ≤ maxRow := by
  set tiles := boundary.map (fun p => t.getTileForLocation p.1 p.2 z) with htiles
  have hcols : tiles.map (fun m => m.id.col) ≠ [] := by simpa [htiles] using hne
  have hrows : tiles.map (fun m => m.id.row) ≠ [] := by simpa [htiles] using hne
  obtain ⟨a, ha, ha1, ha2⟩ := pyMin_spec hcols
  obtain ⟨b, hb, hb1, hb2⟩ := pyMin_spec hrows
  obtain ⟨c, hc, hc1, hc2⟩ := pyMax_spec hcols
  obtain ⟨d, hd, hd1, hd2⟩ := pyMax_spec hrows
  have memCol : ∀ x, x ∈ tiles.map (fun m => m.id.col) ↔ ∃ p ∈ boundary, (t.getTileForLocation p.1 p.2 z).id.col = x := by
    intro x
    simp only [htiles, List.map_map, List.mem_map, Function.comp]
  have memRow : ∀ x, x ∈ tiles.map (fun m => m.id.row) ↔ ∃ p ∈ boundary, (t.getTileForLocation p.1 p.2 z).id.row = x := by
    intro x
    simp only [htiles, List.map_map, List.mem_map, Function.comp]
  refine ⟨a, b, c, d, ?_, (memCol a).1 ha1, (memRow b).1 hb1, (memCol c).1 hc1, (memRow d).1 hd1, ?_⟩
  · simp only [TileSet64.limitsForArea, ← htiles, ha, hb, hc, hd]
    rfl
  · rintro lon lat ⟨p1, hp1, k1⟩ ⟨p2, hp2, k2⟩ ⟨p3, hp3, k3⟩ ⟨p4, hp4, k4⟩
    have up : ∀ {m m' : ℚ}, m ≤ m' → ⌈unitPos m * 2 ^ z⌉ - 1 ≤ ⌈unitPos m' * 2 ^ z⌉ - 1 := by
      intro m m' h
      have := Int.ceil_mono (mul_le_mul_of_nonneg_right (unitPos_mono h) (show (0 : ℚ) ≤ 2 ^ z by positivity))
      omega
    have monoC : ∀ {u v : ℚ} (x y : ℚ), u ≤ v → (t.getTileForLocation u x z).id.col ≤ (t.getTileForLocation v y z).id.col := by
      intro u v x y h
      rw [col_eq ht hlo z hz, col_eq ht hlo z hz]
      exact up (mlo _ _ h)
    have monoR : ∀ {u v : ℚ} (x y : ℚ), u ≤ v → (t.getTileForLocation x u z).id.row ≤ (t.getTileForLocation y v z).id.row := by
      intro u v x y h
      rw [row_eq ht hla z hz, row_eq ht hla z hz]
      exact up (mla _ _ h)
    exact ⟨le_trans (ha2 _ ((memCol _).2 ⟨p1, hp1, rfl⟩)) (monoC _ _ k1),
      le_trans (monoC _ _ k2) (hc2 _ ((memCol _).2 ⟨p2, hp2, rfl⟩)),
      le_trans (hb2 _ ((memRow _).2 ⟨p3, hp3, rfl⟩)) (monoR _ _ k3),
      le_trans (monoR _ _ k4) (hd2 _ ((memRow _).2 ⟨p4, hp4, rfl⟩))⟩

example : (∀ a b, a ≤ b → rounding.fwd a ≤ rounding.fwd b) ∧
    demo.limitsForArea [(0, 5), (1000000, -3000000)] 12 = .ok (2047, 1741, 2150, 2048) :=
  ⟨fun _ _ h => rne64_mono h, by decide +kernel⟩

/-- **C117 (h).** The computed tile is that of exact arithmetic (the model of C08-C12, with the same
circumference) for every location more than 2⁻²⁷ metres away from all tile edges. -/
theorem agrees_with_exact (ht : getForId64 lo la name = some t) (hlo : ReturnsDoubles lo) (hla : ReturnsDoubles la)
    (lon lat : ℚ) (z : Nat) (hz : z ≤ 900) (h1 : InSquare lo lon) (h2 : InSquare la lat)
    (fx : ∀ i, 1 / 2 ^ 27 < |lo.fwd lon - gridLine z i|) (fy : ∀ i, 1 / 2 ^ 27 < |la.fwd lat - gridLine z i|) :
    (t.getTileForLocation lon lat z).id =
      ((⟨t.tileSize, name, 2 * worldHalf, lo, la⟩ : TileSet ℚ).getTileForLocation lon lat z).id := by
  have hp : (0 : ℚ) < 2 ^ z := by positivity
  obtain ⟨-, -, k, hk, -⟩ := size_of ht
  have key : ∀ m : ℚ, -worldHalf < m → m ≤ worldHalf → (∀ i, 1 / 2 ^ 27 < |m - gridLine z i|) →
      ⌈unitPos m * 2 ^ z⌉ - 1 = ⌈(m + 2 * worldHalf / 2) / (2 * worldHalf / 2 ^ z)⌉ - 1 := by
    intro m a b f
    rw [half_eq] at a b
    have e := abs_le.1 (unitPos_err a.le b)
    have hc := circ_pos
    have v : (m + 2 * worldHalf / 2) / (2 * worldHalf / 2 ^ z) = (m + originShift) / circ * 2 ^ z := by
      rw [half_eq, ← circ_shift, circ_shift]
      have : originShift ≠ 0 := by rw [shift_val]; norm_num
      field_simp
    rw [v]
    have side : ∀ i : Int, (i : ℚ) < unitPos m * 2 ^ z ↔ (i : ℚ) < (m + originShift) / circ * 2 ^ z := by
      intro i
      have fi := f i
      rw [line_eq] at fi
      have s1 : (i : ℚ) < unitPos m * 2 ^ z ↔ (i : ℚ) * circ / 2 ^ z < circ * unitPos m := by
        rw [div_lt_iff₀ hp, mul_comm circ, mul_right_comm, mul_lt_mul_iff_left₀ hc]
      have s2 : (i : ℚ) < (m + originShift) / circ * 2 ^ z ↔ (i : ℚ) * circ / 2 ^ z < m + originShift := by
        rw [div_lt_iff₀ hp, div_mul_eq_mul_div, lt_div_iff₀ hc]
      rw [s1, s2]
      rcases lt_abs.1 fi with g | g
      · constructor <;> intro _ <;> norm_num at * <;> linarith
      · constructor <;> intro _ <;> norm_num at * <;> linarith
    have ce : ⌈unitPos m * 2 ^ z⌉ = ⌈(m + originShift) / circ * 2 ^ z⌉ := by
      apply le_antisymm
      · apply Int.ceil_le.2
        by_contra hn
        have := Int.le_ceil ((m + originShift) / circ * 2 ^ z)
        exact absurd ((side _).1 (not_le.1 hn)) (not_lt.2 this)
      · apply Int.ceil_le.2
        by_contra hn
        have := Int.le_ceil (unitPos m * 2 ^ z)
        exact absurd ((side _).2 (not_le.1 hn)) (not_lt.2 this)
    rw [ce]
  have hts : 0 < t.tileSize := by rw [hk]; positivity
  have hw : (0 : ℚ) < 2 * worldHalf := by unfold worldHalf; norm_num
  have e : ∀ a b : TileId, a.matrix = b.matrix → a.row = b.row → a.col = b.col → a = b := by
    rintro ⟨_, _, _⟩ ⟨_, _, _⟩ rfl rfl rfl; rfl
  apply e
  · rfl
  · rw [row_eq ht hla z hz, key _ h2.1 h2.2 fy]
    exact (Verif.MapTiles.tileIndex_eq (⟨t.tileSize, name, 2 * worldHalf, lo, la⟩ : TileSet ℚ) hts hw z (la.fwd lat)).symm
  · rw [col_eq ht hlo z hz, key _ h1.1 h1.2 fx]
    exact (Verif.MapTiles.tileIndex_eq (⟨t.tileSize, name, 2 * worldHalf, lo, la⟩ : TileSet ℚ) hts hw z (lo.fwd lon)).symm

/-- A location half a metre north-east of the origin is far from the edges of level 1. -/
example : ∀ i : Int, 1 / 2 ^ 27 < |rounding.fwd (1 / 2) - gridLine 1 i| := by
  intro i
  have e : rounding.fwd (1 / 2) = 1 / 2 := by decide +kernel
  rw [e]
  unfold gridLine worldHalf
  rcases lt_or_ge i 1 with h | h
  · have : (i : ℚ) ≤ 0 := by exact_mod_cast (show i ≤ 0 by omega)
    apply lt_of_lt_of_le _ (le_abs_self _)
    norm_num
    linarith
  · rcases eq_or_lt_of_le h with rfl | h
    · norm_num
    · have : (2 : ℚ) ≤ i := by exact_mod_cast (show 2 ≤ i by omega)
      apply lt_of_lt_of_le _ (neg_le_abs _)
      norm_num
      linarith

/-- **C117 (i).** Without the tolerance the claim of C08 is false in double arithmetic: the location
2⁻⁴⁰ metres east of the central meridian gets the tile west of it. -/
theorem exact_containment_fails :
    ∃ lo la t lon lat z, getForId64 lo la "WebMercatorQuad" = some t ∧ ReturnsDoubles lo ∧ ReturnsDoubles la ∧
      InSquare lo lon ∧ InSquare la lat ∧ z = 1 ∧
      (t.boundsMeters (t.getTileForLocation lon lat z).id).2.2.1 < lo.fwd lon := by
  refine ⟨rounding, rounding, demo, 1 / 2 ^ 40, 1, 1, rfl, rounding_doubles, rounding_doubles, ?_, ?_, rfl, ?_⟩
  · unfold InSquare; decide +kernel
  · unfold InSquare; decide +kernel
  · decide +kernel

/-- **C117 (j).** The bound on the zoom level in (e) is needed: at level 60 a tile has no extent. -/
theorem deep_tiles_collapse :
    (demo.boundsMeters ⟨60, 0, 0⟩).1 = (demo.boundsMeters ⟨60, 0, 0⟩).2.2.1 := by decide +kernel

end Verif.Props.MapTilesFloat
