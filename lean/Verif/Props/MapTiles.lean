import Mathlib.Data.Rat.Floor
import Verif.Lemmas.MapTiles

/-!
# Properties C08–C13 and C71: Web Mercator map tiles

`GoodAxis` states what is assumed about pyproj; `Props/MapTilesMercator.lean`
shows that the spherical Mercator formulas satisfy it.
-/

set_option linter.unusedSectionVars false

namespace Verif.Props.MapTiles

open Verif.MapTiles Verif.Spec.MapTiles

variable {K : Type*} [Field K] [LinearOrder K] [IsStrictOrderedRing K] [FloorRing K]

/-- The assumptions on a tile set: positive sizes and a good projection. -/
structure GoodTileSet (t : TileSet K) (lonOk latOk : K → Prop) : Prop where
  size_pos : 0 < t.tileSize
  circ_pos : 0 < t.circ
  lon : GoodAxis t.lonAxis (t.circ / 2) lonOk
  lat : GoodAxis t.latAxis (t.circ / 2) latOk

/-- A concrete tile set over ℚ (extent width 8, identity projection) used to show
that the hypotheses of the theorems below can be met. -/
def demo : TileSet ℚ := ⟨256, "demo", 8, ⟨id, id⟩, ⟨id, id⟩⟩

theorem demo_good : GoodTileSet demo (fun _ => True) (fun _ => True) := by
  have g : GoodAxis (⟨id, id⟩ : Axis ℚ) (8 / 2) (fun _ => True) :=
    ⟨fun _ _ _ _ h => h, fun _ _ _ _ h => h, fun _ _ => rfl, fun _ _ => rfl, fun _ _ => trivial⟩
  exact ⟨by decide, by norm_num [demo], g, g⟩

variable {t : TileSet K} {lonOk latOk : K → Prop}

private theorem axis_contains (ht : 0 < t.tileSize) (hc : 0 < t.circ) {A : Axis K} {ok : K → Prop}
    (hA : GoodAxis A (t.circ / 2) ok) (z : Nat) (a : K) (ha : InExtent A (t.circ / 2) ok a)
    (i : Int) (h0 : 0 ≤ i) (h1 : i < 2 ^ z) :
    t.pixelsToTile (t.metersToPixels (A.fwd a) z) = i ↔
      A.inv (edge t.circ z i) < a ∧ a ≤ A.inv (edge t.circ z (i + 1)) := by
  rw [tileIndex_iff t ht hc]
  have e1 := edge_mem t.circ hc z i h0 (by omega)
  have e2 := edge_mem t.circ hc z (i + 1) (by omega) (by omega)
  have e3 : A.fwd a ∈ Set.Icc (-(t.circ / 2)) (t.circ / 2) := ⟨ha.2.1.le, ha.2.2⟩
  have hb := hA.inv_fwd a ha.1
  constructor
  · rintro ⟨k1, k2⟩
    refine ⟨?_, ?_⟩
    · have := hA.inv_mono e1 e3 k1; rwa [hb] at this
    · have := hA.inv_mono.monotoneOn e3 e2 k2; rwa [hb] at this
  · rintro ⟨k1, k2⟩
    refine ⟨?_, ?_⟩
    · rw [← hb] at k1; exact (hA.inv_mono.lt_iff_lt e1 e3).mp k1
    · rw [← hb] at k2; exact (hA.inv_mono.le_iff_le e3 e2).mp k2

/-- **C08.** For every location in the world extent (lower edges excluded) and
every zoom level, `get_tile_for_location` returns a tile of that level which
contains the location, and every tile of the level that contains the location
has the same id. -/
theorem tile_for_location_contains (h : GoodTileSet t lonOk latOk) (z : Nat) (lon lat : K)
    (hlon : InExtent t.lonAxis (t.circ / 2) lonOk lon) (hlat : InExtent t.latAxis (t.circ / 2) latOk lat) :
    let tile := t.getTileForLocation lon lat z
    IsTileOfLevel z tile.id ∧ Contains tile.bounds lon lat ∧
    ∀ id, IsTileOfLevel z id → Contains (t.getTile id).bounds lon lat → id = tile.id := by
  intro tile
  have c := (tileIndex_range t h.size_pos h.circ_pos z (t.lonAxis.fwd lon)).mpr ⟨hlon.2.1, hlon.2.2⟩
  have r := (tileIndex_range t h.size_pos h.circ_pos z (t.latAxis.fwd lat)).mpr ⟨hlat.2.1, hlat.2.2⟩
  have cc := (axis_contains h.size_pos h.circ_pos h.lon z lon hlon _ c.1 c.2).mp rfl
  have rc := (axis_contains h.size_pos h.circ_pos h.lat z lat hlat _ r.1 r.2).mp rfl
  refine ⟨⟨rfl, r.1, r.2, c.1, c.2⟩, ?_, ?_⟩
  · change Contains (t.boundsLle _) lon lat
    rw [boundsLle_eq t h.size_pos]
    exact ⟨cc.1, cc.2, rc.1, rc.2⟩
  · rintro ⟨m, row, col⟩ ⟨hm, hr0, hr1, hc0, hc1⟩ hcon
    simp only at hm hr0 hr1 hc0 hc1
    subst hm
    change Contains (t.boundsLle _) lon lat at hcon
    rw [boundsLle_eq t h.size_pos] at hcon
    obtain ⟨k1, k2, k3, k4⟩ := hcon
    simp only at k1 k2 k3 k4
    have e1 := (axis_contains h.size_pos h.circ_pos h.lon m lon hlon col hc0 hc1).mpr ⟨k1, k2⟩
    have e2 := (axis_contains h.size_pos h.circ_pos h.lat m lat hlat row hr0 hr1).mpr ⟨k3, k4⟩
    change _ = TileId.mk m (t.pixelsToTile _) (t.pixelsToTile _)
    rw [e1, e2]

/-- The location (1, -1) of the demo set meets the hypotheses and lies in tile (1, 2) of level 2. -/
example : InExtent demo.lonAxis (demo.circ / 2) (fun _ => True) 1 ∧
    InExtent demo.latAxis (demo.circ / 2) (fun _ => True) (-1) ∧
    (demo.getTileForLocation 1 (-1) 2).id = ⟨2, 1, 2⟩ := by
  refine ⟨⟨trivial, ?_⟩, ⟨trivial, ?_⟩, by decide +kernel⟩ <;> norm_num [demo]

/-- **C09 (a).** Neighbouring tiles share exactly one edge: the right neighbour
starts where the tile ends and has the same latitudes; likewise upwards. -/
theorem adjacent_tiles_share_edge (ht : 0 < t.tileSize) (z : Nat) (row col : Int) :
    (t.getTile ⟨z, row, col + 1⟩).bounds.minLon = (t.getTile ⟨z, row, col⟩).bounds.maxLon ∧
    (t.getTile ⟨z, row, col + 1⟩).bounds.minLat = (t.getTile ⟨z, row, col⟩).bounds.minLat ∧
    (t.getTile ⟨z, row, col + 1⟩).bounds.maxLat = (t.getTile ⟨z, row, col⟩).bounds.maxLat ∧
    (t.getTile ⟨z, row + 1, col⟩).bounds.minLat = (t.getTile ⟨z, row, col⟩).bounds.maxLat ∧
    (t.getTile ⟨z, row + 1, col⟩).bounds.minLon = (t.getTile ⟨z, row, col⟩).bounds.minLon ∧
    (t.getTile ⟨z, row + 1, col⟩).bounds.maxLon = (t.getTile ⟨z, row, col⟩).bounds.maxLon := by
  simp only [TileSet.getTile, boundsLle_eq t ht, and_self]

example : (demo.getTile ⟨2, 1, 3⟩).bounds.minLon = (demo.getTile ⟨2, 1, 2⟩).bounds.maxLon ∧ (demo.getTile ⟨2, 1, 3⟩).bounds.minLon = 2 :=
  ⟨(adjacent_tiles_share_edge (t := demo) (by decide) 2 1 2).1, by decide +kernel⟩

/-- **C09 (b).** Every tile of a level has positive width and height, two
different tiles of a level have no location in common (lower edges excluded),
and the tiles of the level together span exactly the world extent. -/
theorem tiles_partition_extent (h : GoodTileSet t lonOk latOk) (z : Nat) :
    (∀ id, IsTileOfLevel z id →
      (t.getTile id).bounds.minLon < (t.getTile id).bounds.maxLon ∧
      (t.getTile id).bounds.minLat < (t.getTile id).bounds.maxLat) ∧
    (∀ id id', IsTileOfLevel z id → IsTileOfLevel z id' → id ≠ id' →
      ∀ lon lat, ¬ (Contains (t.getTile id).bounds lon lat ∧ Contains (t.getTile id').bounds lon lat)) ∧
    (t.getTile ⟨z, 0, 0⟩).bounds.minLon = t.lonAxis.inv (-(t.circ / 2)) ∧
    (t.getTile ⟨z, 0, 0⟩).bounds.minLat = t.latAxis.inv (-(t.circ / 2)) ∧
    (t.getTile ⟨z, 2 ^ z - 1, 2 ^ z - 1⟩).bounds.maxLon = t.lonAxis.inv (t.circ / 2) ∧
    (t.getTile ⟨z, 2 ^ z - 1, 2 ^ z - 1⟩).bounds.maxLat = t.latAxis.inv (t.circ / 2) := by
  have hm := edge_strictMono t.circ h.circ_pos z
  have axisWidth : ∀ {A : Axis K} {ok : K → Prop}, GoodAxis A (t.circ / 2) ok → ∀ i : Int, 0 ≤ i → i < 2 ^ z →
      A.inv (edge t.circ z i) < A.inv (edge t.circ z (i + 1)) := by
    intro A ok hA i h0 h1
    exact hA.inv_mono (edge_mem t.circ h.circ_pos z i h0 (by omega))
      (edge_mem t.circ h.circ_pos z (i + 1) (by omega) (by omega)) (hm (by omega))
  have axisEq : ∀ {A : Axis K} {ok : K → Prop}, GoodAxis A (t.circ / 2) ok → ∀ i j : Int, 0 ≤ i → i < 2 ^ z →
      0 ≤ j → j < 2 ^ z → ∀ a, A.inv (edge t.circ z i) < a → a ≤ A.inv (edge t.circ z (i + 1)) →
      A.inv (edge t.circ z j) < a → a ≤ A.inv (edge t.circ z (j + 1)) → i = j := by
    intro A ok hA i j hi0 hi1 hj0 hj1 a a1 a2 a3 a4
    have key : ∀ p q : Int, 0 ≤ p → p < 2 ^ z → 0 ≤ q → q < 2 ^ z → A.inv (edge t.circ z p) < a →
        a ≤ A.inv (edge t.circ z (q + 1)) → p ≤ q := by
      intro p q p0 p1 q0 q1 k1 k2
      have := (hA.inv_mono.lt_iff_lt (edge_mem t.circ h.circ_pos z p p0 (by omega))
        (edge_mem t.circ h.circ_pos z (q + 1) (by omega) (by omega))).mp (lt_of_lt_of_le k1 k2)
      have := hm.lt_iff_lt.mp this
      omega
    have := key i j hi0 hi1 hj0 hj1 a1 a4
    have := key j i hj0 hj1 hi0 hi1 a3 a2
    omega
  refine ⟨?_, ?_, ?_, ?_, ?_, ?_⟩
  · rintro ⟨m, row, col⟩ ⟨hm', hr0, hr1, hc0, hc1⟩
    simp only at hm' hr0 hr1 hc0 hc1
    subst hm'
    simp only [TileSet.getTile, boundsLle_eq t h.size_pos]
    exact ⟨axisWidth h.lon col hc0 hc1, axisWidth h.lat row hr0 hr1⟩
  · rintro ⟨m, row, col⟩ ⟨m', row', col'⟩ ⟨hm1, hr0, hr1, hc0, hc1⟩ ⟨hm2, hr0', hr1', hc0', hc1'⟩ hne lon lat
      ⟨c1, c2⟩
    simp only at hm1 hr0 hr1 hc0 hc1 hm2 hr0' hr1' hc0' hc1'
    subst hm1
    subst hm2
    simp only [TileSet.getTile, boundsLle_eq t h.size_pos] at c1 c2
    obtain ⟨a1, a2, a3, a4⟩ := c1
    obtain ⟨b1, b2, b3, b4⟩ := c2
    apply hne
    rw [axisEq h.lon col col' hc0 hc1 hc0' hc1' lon a1 a2 b1 b2,
      axisEq h.lat row row' hr0 hr1 hr0' hr1' lat a3 a4 b3 b4]
  · simp only [TileSet.getTile, boundsLle_eq t h.size_pos, edge_zero]
  · simp only [TileSet.getTile, boundsLle_eq t h.size_pos, edge_zero]
  · simp only [TileSet.getTile, boundsLle_eq t h.size_pos, sub_add_cancel, edge_top]
  · simp only [TileSet.getTile, boundsLle_eq t h.size_pos, sub_add_cancel, edge_top]

/-- **C09** The tiles of a level exactly cover the world extent: a (valid) location is in the extent, west and
south edges excluded, if and only if some tile of the level contains it. -/
theorem tiles_cover_extent (h : GoodTileSet t lonOk latOk) (z : Nat) (lon lat : K) (hlon : lonOk lon) (hlat : latOk lat) :
    (InExtent t.lonAxis (t.circ / 2) lonOk lon ∧ InExtent t.latAxis (t.circ / 2) latOk lat) ↔
      ∃ id, IsTileOfLevel z id ∧ Contains (t.getTile id).bounds lon lat := by
  constructor
  · rintro ⟨h1, h2⟩
    obtain ⟨k1, k2, -⟩ := tile_for_location_contains h z lon lat h1 h2
    exact ⟨_, k1, k2⟩
  · have axis : ∀ {A : Axis K} {ok : K → Prop}, GoodAxis A (t.circ / 2) ok → ∀ i : Int, 0 ≤ i → i < 2 ^ z → ∀ a, ok a →
        A.inv (edge t.circ z i) < a → a ≤ A.inv (edge t.circ z (i + 1)) → InExtent A (t.circ / 2) ok a := by
      intro A ok hA i h0 h1 a ha l1 l2
      have m0 := edge_mem t.circ h.circ_pos z i h0 (by omega)
      have m1 := edge_mem t.circ h.circ_pos z (i + 1) (by omega) (by omega)
      have e0 := hA.fwd_mono _ _ (hA.valid_inv _ m0) ha l1.le
      have e1 := hA.fwd_mono _ _ ha (hA.valid_inv _ m1) l2
      rw [hA.fwd_inv _ m0] at e0
      rw [hA.fwd_inv _ m1] at e1
      have ne : edge t.circ z i ≠ A.fwd a := by
        intro e
        rw [e, hA.inv_fwd _ ha] at l1
        exact lt_irrefl _ l1
      exact ⟨ha, lt_of_le_of_lt m0.1 (lt_of_le_of_ne e0 ne), e1.trans m1.2⟩
    rintro ⟨⟨m, row, col⟩, ⟨hm, hr0, hr1, hc0, hc1⟩, hcon⟩
    simp only at hm hr0 hr1 hc0 hc1
    subst hm
    change Contains (t.boundsLle _) lon lat at hcon
    rw [boundsLle_eq t h.size_pos] at hcon
    obtain ⟨k1, k2, k3, k4⟩ := hcon
    exact ⟨axis h.lon col hc0 hc1 lon hlon k1 k2, axis h.lat row hr0 hr1 lat hlat k3 k4⟩

example : IsTileOfLevel 2 ⟨2, 1, 2⟩ ∧ IsTileOfLevel 2 ⟨2, 1, 3⟩ ∧ GoodTileSet demo (fun _ => True) (fun _ => True) ∧
    (demo.getTile ⟨2, 1, 2⟩).bounds = ⟨0, -2, 2, 0⟩ :=
  ⟨by unfold IsTileOfLevel; decide, by unfold IsTileOfLevel; decide, demo_good, by decide +kernel⟩

/-- **C10 (a).** The tile of a location at zoom `z` is the parent of its tile at
zoom `z + 1`: row and column are halved (rounding down). No restriction on the location. -/
theorem parent_tile (ht : 0 < t.tileSize) (hc : 0 < t.circ) (lon lat : K) (z : Nat) :
    (t.getTileForLocation lon lat z).id.row = (t.getTileForLocation lon lat (z + 1)).id.row / 2 ∧
    (t.getTileForLocation lon lat z).id.col = (t.getTileForLocation lon lat (z + 1)).id.col / 2 := by
  have key : ∀ m : K, t.pixelsToTile (t.metersToPixels m z) =
      t.pixelsToTile (t.metersToPixels m (z + 1)) / 2 := by
    intro m
    obtain ⟨h1, h2⟩ := (tileIndex_iff t ht hc (z + 1) m _).mp rfl
    set i := t.pixelsToTile (t.metersToPixels m (z + 1))
    rw [tileIndex_iff t ht hc]
    have hm := (edge_strictMono t.circ hc (z + 1)).monotone
    rw [← edge_succ_level t.circ z (i / 2), ← edge_succ_level t.circ z (i / 2 + 1)]
    have a1 : 2 * (i / 2) ≤ i := by omega
    have a2 : i + 1 ≤ 2 * (i / 2 + 1) := by omega
    exact ⟨lt_of_le_of_lt (hm a1) h1, le_trans h2 (hm a2)⟩
  exact ⟨key _, key _⟩

/-- The location (3, 1) is in column 6 of level 3 and in column 3 of level 2. -/
example : (demo.getTileForLocation 3 1 2).id.col = (demo.getTileForLocation 3 1 3).id.col / 2 ∧ (demo.getTileForLocation 3 1 3).id.col = 6 :=
  ⟨(parent_tile (t := demo) (by decide) (by norm_num [demo]) 3 1 2).2, by decide +kernel⟩

/-- **C10 (b).** The four children of a tile cover it exactly: the outer edges
coincide and the inner edges meet. -/
theorem children_cover_tile (ht : 0 < t.tileSize) (z : Nat) (row col : Int) :
    let P := (t.getTile ⟨z, row, col⟩).bounds
    let SW := (t.getTile ⟨z + 1, 2 * row, 2 * col⟩).bounds
    let SE := (t.getTile ⟨z + 1, 2 * row, 2 * col + 1⟩).bounds
    let NW := (t.getTile ⟨z + 1, 2 * row + 1, 2 * col⟩).bounds
    let NE := (t.getTile ⟨z + 1, 2 * row + 1, 2 * col + 1⟩).bounds
    SW.minLon = P.minLon ∧ NW.minLon = P.minLon ∧ SE.maxLon = P.maxLon ∧ NE.maxLon = P.maxLon ∧
    SW.minLat = P.minLat ∧ SE.minLat = P.minLat ∧ NW.maxLat = P.maxLat ∧ NE.maxLat = P.maxLat ∧
    SW.maxLon = SE.minLon ∧ NW.maxLon = NE.minLon ∧ SW.maxLat = NW.minLat ∧ SE.maxLat = NE.minLat := by
  simp only [TileSet.getTile, boundsLle_eq t ht]
  have e : ∀ i : Int, 2 * i + 1 + 1 = 2 * (i + 1) := by intro i; ring
  simp only [e, edge_succ_level, and_self]

example : (demo.getTile ⟨3, 2, 4⟩).bounds.minLon = (demo.getTile ⟨2, 1, 2⟩).bounds.minLon ∧ (demo.getTile ⟨3, 2, 4⟩).bounds = ⟨0, -2, 1, -1⟩ :=
  ⟨(children_cover_tile (t := demo) (by decide) 2 1 2).1, by decide +kernel⟩

/-- **C10 (c).** Bounds and tile lookup do not depend on the tile size in pixels. -/
theorem tile_size_irrelevant (t' : TileSet K) (ht : 0 < t.tileSize) (ht' : 0 < t'.tileSize) (hc : 0 < t.circ)
    (h1 : t'.circ = t.circ) (h2 : t'.lonAxis = t.lonAxis) (h3 : t'.latAxis = t.latAxis) :
    (∀ id, (t'.getTile id).bounds = (t.getTile id).bounds) ∧
    (∀ lon lat z, (t'.getTileForLocation lon lat z).id = (t.getTileForLocation lon lat z).id) := by
  constructor
  · intro id
    simp only [TileSet.getTile, boundsLle_eq t ht, boundsLle_eq t' ht', h1, h2, h3]
  · intro lon lat z
    simp only [TileSet.getTileForLocation, TileSet.getTile, tileIndex_eq t ht hc,
      tileIndex_eq t' ht' (h1 ▸ hc), h1, h2, h3]

/-- `demo` and its double-resolution sibling meet the hypotheses. -/
example : 0 < demo.tileSize ∧ 0 < ({ demo with tileSize := 512 } : TileSet ℚ).tileSize ∧ 0 < demo.circ :=
  ⟨by decide, by decide, by norm_num [demo]⟩

/-- **C11 (exact condition).** The row and column of the tile of a location are
valid indices exactly when its projection is inside the extent without the
western and southern edge.  Missing from the full statement: the two edges. -/
theorem tile_index_valid_iff_partial (ht : 0 < t.tileSize) (hc : 0 < t.circ) (lon lat : K) (z : Nat) :
    IsTileOfLevel z (t.getTileForLocation lon lat z).id ↔
      (-(t.circ / 2) < t.lonAxis.fwd lon ∧ t.lonAxis.fwd lon ≤ t.circ / 2) ∧
      (-(t.circ / 2) < t.latAxis.fwd lat ∧ t.latAxis.fwd lat ≤ t.circ / 2) := by
  rw [← tileIndex_range t ht hc z, ← tileIndex_range t ht hc z]
  constructor
  · rintro ⟨-, a, b, c, d⟩
    exact ⟨⟨c, d⟩, a, b⟩
  · rintro ⟨⟨c, d⟩, a, b⟩
    exact ⟨rfl, a, b, c, d⟩

/-- The location (3, 1) has a tile, (-4, 1) on the western edge has none. -/
example : IsTileOfLevel 2 (demo.getTileForLocation 3 1 2).id ∧ ¬ IsTileOfLevel 2 (demo.getTileForLocation (-4) 1 2).id :=
  ⟨(tile_index_valid_iff_partial (t := demo) (by decide) (by norm_num [demo]) 3 1 2).2 (by norm_num [demo]),
    fun h => by
      have := ((tile_index_valid_iff_partial (t := demo) (by decide) (by norm_num [demo]) (-4) 1 2).1 h).1.1
      norm_num [demo] at this⟩

/-- **C11 (negated).** On the western edge of the world (longitude −180°) the
column is −1 at every zoom level, for every tile set whose projection takes
−180° to the left end of the extent. -/
theorem west_edge_column_negative (ht : 0 < t.tileSize) (hc : 0 < t.circ) (lon lat : K) (z : Nat)
    (hw : t.lonAxis.fwd lon = -(t.circ / 2)) :
    (t.getTileForLocation lon lat z).id.col = -1 ∧
    ¬ IsTileOfLevel z (t.getTileForLocation lon lat z).id := by
  have h1 : (t.getTileForLocation lon lat z).id.col = -1 := by
    change t.pixelsToTile _ = -1
    rw [tileIndex_iff t ht hc, hw, ← edge_zero t.circ z]
    exact ⟨edge_strictMono t.circ hc z (by omega), le_refl _⟩
  refine ⟨h1, ?_⟩
  rintro ⟨-, -, -, h, -⟩
  rw [h1] at h
  omega

example : demo.lonAxis.fwd (-4) = -(demo.circ / 2) ∧ (demo.getTileForLocation (-4) 0 3).id.col = -1 :=
  ⟨by norm_num [demo], by decide +kernel⟩

/-- **C12 (a).** An empty boundary raises `ValueError`. -/
theorem limits_empty_raises (z : Nat) : t.limitsForArea [] z = .error .valueError := rfl

/-- **C12 (b).** For a non-empty boundary the limits are attained by boundary
points (so they are the smallest possible), the tile of every boundary point is
inside them, and so is the tile of every location in the bounding box of the
boundary. -/
theorem limits_cover_area (h : GoodTileSet t lonOk latOk) (boundary : List (K × K)) (hne : boundary ≠ [])
    (hok : ∀ p ∈ boundary, lonOk p.1 ∧ latOk p.2) (z : Nat) :
    ∃ minCol minRow maxCol maxRow, t.limitsForArea boundary z = .ok (minCol, minRow, maxCol, maxRow) ∧
      (∃ p ∈ boundary, (t.getTileForLocation p.1 p.2 z).id.col = minCol) ∧
      (∃ p ∈ boundary, (t.getTileForLocation p.1 p.2 z).id.row = minRow) ∧
      (∃ p ∈ boundary, (t.getTileForLocation p.1 p.2 z).id.col = maxCol) ∧
      (∃ p ∈ boundary, (t.getTileForLocation p.1 p.2 z).id.row = maxRow) ∧
      ∀ lon lat, lonOk lon → latOk lat →
        (∃ p ∈ boundary, p.1 ≤ lon) → (∃ p ∈ boundary, lon ≤ p.1) →
        (∃ p ∈ boundary, p.2 ≤ lat) → (∃ p ∈ boundary, lat ≤ p.2) →
        minCol ≤ (t.getTileForLocation lon lat z).id.col ∧ (t.getTileForLocation lon lat z).id.col ≤ maxCol ∧
        minRow ≤ (t.getTileForLocation lon lat z).id.row ∧ (t.getTileForLocation lon lat z).id.row ≤ maxRow := by
  set tiles := boundary.map (fun p => t.getTileForLocation p.1 p.2 z) with htiles
  have hcols : tiles.map (fun m => m.id.col) ≠ [] := by simpa [htiles] using hne
  have hrows : tiles.map (fun m => m.id.row) ≠ [] := by simpa [htiles] using hne
  obtain ⟨a, ha, ha1, ha2⟩ := pyMin_spec hcols
  obtain ⟨b, hb, hb1, hb2⟩ := pyMin_spec hrows
  obtain ⟨c, hc, hc1, hc2⟩ := pyMax_spec hcols
  obtain ⟨d, hd, hd1, hd2⟩ := pyMax_spec hrows
  have memCol : ∀ x, x ∈ tiles.map (fun m => m.id.col) →
      ∃ p ∈ boundary, (t.getTileForLocation p.1 p.2 z).id.col = x := by
    intro x hx
    simp only [htiles, List.map_map, List.mem_map, Function.comp] at hx
    exact hx
  have memRow : ∀ x, x ∈ tiles.map (fun m => m.id.row) →
      ∃ p ∈ boundary, (t.getTileForLocation p.1 p.2 z).id.row = x := by
    intro x hx
    simp only [htiles, List.map_map, List.mem_map, Function.comp] at hx
    exact hx
  have colMem : ∀ p ∈ boundary, (t.getTileForLocation p.1 p.2 z).id.col ∈ tiles.map (fun m => m.id.col) := by
    intro p hp
    simp only [htiles, List.map_map, List.mem_map, Function.comp]
    exact ⟨p, hp, rfl⟩
  have rowMem : ∀ p ∈ boundary, (t.getTileForLocation p.1 p.2 z).id.row ∈ tiles.map (fun m => m.id.row) := by
    intro p hp
    simp only [htiles, List.map_map, List.mem_map, Function.comp]
    exact ⟨p, hp, rfl⟩
  refine ⟨a, b, c, d, ?_, memCol a ha1, memRow b hb1, memCol c hc1, memRow d hd1, ?_⟩
  · simp only [TileSet.limitsForArea, ← htiles, ha, hb, hc, hd]
    rfl
  · rintro lon lat hlo hla ⟨p1, hp1, k1⟩ ⟨p2, hp2, k2⟩ ⟨p3, hp3, k3⟩ ⟨p4, hp4, k4⟩
    have monoC : ∀ u v, lonOk u → lonOk v → u ≤ v →
        t.pixelsToTile (t.metersToPixels (t.lonAxis.fwd u) z) ≤ t.pixelsToTile (t.metersToPixels (t.lonAxis.fwd v) z) :=
      fun u v hu hv huv => tileIndex_mono t h.size_pos h.circ_pos z (h.lon.fwd_mono u v hu hv huv)
    have monoR : ∀ u v, latOk u → latOk v → u ≤ v →
        t.pixelsToTile (t.metersToPixels (t.latAxis.fwd u) z) ≤ t.pixelsToTile (t.metersToPixels (t.latAxis.fwd v) z) :=
      fun u v hu hv huv => tileIndex_mono t h.size_pos h.circ_pos z (h.lat.fwd_mono u v hu hv huv)
    exact ⟨le_trans (ha2 _ (colMem p1 hp1)) (monoC _ _ (hok p1 hp1).1 hlo k1),
      le_trans (monoC _ _ hlo (hok p2 hp2).1 k2) (hc2 _ (colMem p2 hp2)),
      le_trans (hb2 _ (rowMem p3 hp3)) (monoR _ _ (hok p3 hp3).2 hla k3),
      le_trans (monoR _ _ hla (hok p4 hp4).2 k4) (hd2 _ (rowMem p4 hp4))⟩

example : demo.limitsForArea [(1, -1), (3, 3), (-3, 1)] 2 = .ok (0, 1, 3, 3) := by decide +kernel

/-- **C13.** `MapTileSetFactory.get_for_id` knows exactly two names, with tile
sizes 256 and 512, and the tile set reports the name it was asked for. -/
theorem tile_set_lookup (circ : K) (lo la : Axis K) (name : String) :
    (getForId circ lo la "WebMercatorQuad" = some ⟨256, "WebMercatorQuad", circ, lo, la⟩) ∧
    (getForId circ lo la "WebMercatorQuadx2" = some ⟨512, "WebMercatorQuadx2", circ, lo, la⟩) ∧
    ((getForId circ lo la name).isSome ↔ name = "WebMercatorQuad" ∨ name = "WebMercatorQuadx2") ∧
    (∀ s, getForId circ lo la name = some s → s.name = name) := by
  refine ⟨by simp [getForId], by simp [getForId], ?_, ?_⟩
  · unfold getForId
    by_cases h1 : name = "WebMercatorQuad"
    · simp [h1]
    · by_cases h2 : name = "WebMercatorQuadx2"
      · simp [h2]
      · simp [h1, h2]
  · intro s hs
    unfold getForId at hs
    split at hs
    · cases hs; simp_all
    · split at hs
      · cases hs; simp_all
      · cases hs

/-- **C13.** Tiles are described as asked for: in the tile set of a known name every tile
carries the requested id and is a square of 256 pixels (512 for the doubled set), the
tile found for a location is on the requested level, and asking again by its id gives
the same description. -/
theorem tile_description (circ : K) (lo la : Axis K) (name : String) (s : TileSet K)
    (hs : getForId circ lo la name = some s) (id : TileId) (lon lat : K) (z : Nat) :
    (s.getTile id).id = id ∧
    (s.getTile id).size = (if name = "WebMercatorQuadx2" then (512, 512) else (256, 256)) ∧
    (s.getTileForLocation lon lat z).id.matrix = z ∧
    s.getTile (s.getTileForLocation lon lat z).id = s.getTileForLocation lon lat z := by
  refine ⟨rfl, ?_, rfl, rfl⟩
  obtain ⟨h1, h2, h3, -⟩ := tile_set_lookup circ lo la name
  rcases h3.1 (by simp [hs]) with rfl | rfl
  · rw [h1] at hs; cases hs; simp [TileSet.getTile]
  · rw [h2] at hs; cases hs; simp [TileSet.getTile]

example : ∃ s, getForId (8 : ℚ) ⟨id, id⟩ ⟨id, id⟩ "WebMercatorQuadx2" = some s ∧
    s.getTileForLocation 3 1 2 = ⟨⟨2, 2, 3⟩, (512, 512), ⟨2, 0, 4, 2⟩⟩ := by
  refine ⟨_, rfl, ?_⟩
  decide +kernel

/-- **C71 (what holds).** Rows count from the south: the tile row of the OGC
WebMercatorQuad matrix (which counts from the north, `⌊(h - y) / w⌋`) is the
mirror image `2^z - 1 - row`, for every location. Missing from the full statement:
the ids themselves are not the OGC ids. -/
theorem rows_are_mirrored_partial (ht : 0 < t.tileSize) (hc : 0 < t.circ) (lon lat : K) (z : Nat) :
    ⌊(t.circ / 2 - t.latAxis.fwd lat) / (t.circ / 2 ^ z)⌋ =
      2 ^ z - 1 - (t.getTileForLocation lon lat z).id.row := by
  have h2 : (2 : K) ^ z ≠ 0 := by positivity
  have h3 : t.circ ≠ 0 := hc.ne'
  change _ = 2 ^ z - 1 - t.pixelsToTile (t.metersToPixels (t.latAxis.fwd lat) z)
  rw [tileIndex_eq t ht hc]
  have e : (t.circ / 2 - t.latAxis.fwd lat) / (t.circ / 2 ^ z) =
      -((t.latAxis.fwd lat + t.circ / 2) / (t.circ / 2 ^ z)) + ((2 ^ z : Int) : K) := by
    push_cast
    field_simp
    ring
  rw [e, Int.floor_add_intCast, Int.floor_neg]
  ring

/-- The location (3, 1) is in row 2 from the south and row 1 from the north. -/
example : ⌊(demo.circ / 2 - demo.latAxis.fwd 1) / (demo.circ / 2 ^ 2)⌋ = 2 ^ 2 - 1 - (demo.getTileForLocation 3 1 2).id.row ∧
    (demo.getTileForLocation 3 1 2).id.row = 2 :=
  ⟨rows_are_mirrored_partial (t := demo) (by decide) (by norm_num [demo]) 3 1 2, by decide +kernel⟩

/-- **C71 (negated).** The row of a location is in general not the OGC row: for
the identity projection of an extent of width 8, level 1 and a location in the
northern half, the code answers row 1, the standard row 0. -/
theorem rows_are_not_ogc_rows :
    ¬ ∀ (t : TileSet ℚ) (lon lat : ℚ) (z : Nat), 0 < t.tileSize → 0 < t.circ →
      (t.getTileForLocation lon lat z).id.row = ⌊(t.circ / 2 - t.latAxis.fwd lat) / (t.circ / 2 ^ z)⌋ := by
  intro h
  have := h ⟨256, "x", 8, ⟨id, id⟩, ⟨id, id⟩⟩ 1 1 1 (by decide) (by norm_num)
  revert this
  decide +kernel

end Verif.Props.MapTiles
