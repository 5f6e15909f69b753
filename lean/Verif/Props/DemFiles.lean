import Mathlib.Tactic.Linarith
import Mathlib.Tactic.LinearCombination
import Mathlib.Tactic.FieldSimp
import Mathlib.Tactic.NormNum
import Verif.Model.DemFiles
import Verif.Props.Dem
import Verif.Props.Sensors

/-!
# Elevations from GDAL files

From the file to the elevation of a coordinate: tile factory, affine sensor model, interpolation and cache together.
-/

namespace Verif.Props.DemFiles

open Verif.Dem Verif.Sensors Verif.DemFiles
open Verif.GdalUtils (tileLocation)

/-- The coordinates of a point of a raster in its reference system, as GDAL defines them: `(0, 0)` is the upper left
corner of the first pixel, `(1/2, 1/2)` its centre. -/
def rasterPoint (g0 g1 g2 g3 g4 g5 x y : ℝ) : ℝ × ℝ := (g0 + x * g1 + y * g2, g3 + x * g4 + y * g5)

/-- Longitude and latitude in degrees of a point of the reference system. -/
def Located (crs : Option (Crs ℝ)) (p : ℝ × ℝ) (lon lat : ℝ) : Prop :=
  match crs with
  | none => p = (lon, lat)
  | some t => ∃ z, t.fwd (p.1, p.2, 1) = .ok (lon, lat, z)

/-- `c` is the place of the point `(x, y)` of the raster. -/
def At (an : Angles ℝ) (geo : List ℝ) (crs : Option (Crs ℝ)) (x y : ℝ) (c : Geo ℝ) : Prop :=
  ∃ g0 g1 g2 g3 g4 g5 lon lat, geo = [g0, g1, g2, g3, g4, g5] ∧ Located crs (rasterPoint g0 g1 g2 g3 g4 g5 x y) lon lat ∧
    c.longitude = an.rad lon ∧ c.latitude = an.rad lat

/-- The geo transform can be inverted. -/
def Invertible (geo : List ℝ) : Prop := ∃ g0 g1 g2 g3 g4 g5, geo = [g0, g1, g2, g3, g4, g5] ∧ g1 * g5 - g2 * g4 ≠ 0

/-- The answer to `set_elevation` after any other queries. -/
noncomputable def elevationOf (d : Terrain ℝ (Posts ℝ) Summary) (cap : Int) (before : List (Query ℝ)) (c : Geo ℝ) : Except PyErr (Answer ℝ Summary) :=
  (d.query (d.queries ⟨cap, []⟩ before).2.1 (.setElevation c)).1

theorem worldToImage_elevation (an : Angles ℝ) (geo : List ℝ) (crs : Option (Crs ℝ)) (m : SensorModel ℝ Unit) (hm : gdalAffine an geo crs = .ok m)
    (a b z z' : ℝ) : m.worldToImage ⟨a, b, z⟩ = m.worldToImage ⟨a, b, z'⟩ := by
  unfold gdalAffine at hm
  split at hm
  · simp at hm
  · simp only [Except.ok.injEq] at hm
    subst hm
    rfl

/-- What the tile factory returns for a file with an invertible geo transform. -/
theorem getTile_some (lib : Lib) (h1 : ∀ x, lib.angles.deg (lib.angles.rad x) = x) (h2 : ∀ x, lib.angles.rad (lib.angles.deg x) = x)
    (open' : List Char → Option Raster) (dir path : List Char) (ds : Raster) (g0 g1 g2 g3 g4 g5 : ℝ)
    (hopen : open' (tileLocation dir path) = some ds) (hgeo : ds.geo = some [g0, g1, g2, g3, g4, g5]) (hdet : g1 * g5 - g2 * g4 ≠ 0) :
    ∃ m s, getTile lib open' dir path = .ok ⟨some ds.posts, some m, some s⟩ ∧
      (∀ x y z, m ⟨lib.angles.rad (g0 + x * g1 + y * g2), lib.angles.rad (g3 + x * g4 + y * g5), z⟩ = .ok (x, y)) ∧
      s.minElevation = ds.stats.1 ∧ s.maxElevation = ds.stats.2 ∧ s.noData = ds.noData ∧
      ∃ ul lr, ul = lib.ecef ⟨lib.angles.rad g0, lib.angles.rad g3, 0⟩ ∧
        lr = lib.ecef ⟨lib.angles.rad (g0 + ds.posts.width * g1 + ds.posts.height * g2),
          lib.angles.rad (g3 + ds.posts.width * g4 + ds.posts.height * g5), 0⟩ ∧
        s.postSpacing = Real.sqrt ((ul.1 - lr.1) ^ 2 + (ul.2.1 - lr.2.1) ^ 2 + (ul.2.2 - lr.2.2) ^ 2) /
          Real.sqrt (ds.posts.width * ds.posts.width + ds.posts.height * ds.posts.height) := by
  obtain ⟨m, hm⟩ := (Verif.Props.Sensors.affine_singular_iff (O := Unit) lib.angles g0 g1 g2 g3 g4 g5 [] none).2 hdet
  have hpos := fun c r => (Verif.Props.Sensors.affine_position lib.angles g0 g1 g2 g3 g4 g5 [] none m hm c r none none).1 rfl
  simp only [withElevation] at hpos
  have hround := (Verif.Props.Sensors.affine_round_trip lib.angles h1 h2 _ none (by simp) m hm).1
  have hsp : ∃ s, getTile lib open' dir path = .ok ⟨some ds.posts, some (fun g => raised (m.worldToImage g)), some s⟩ ∧
      s.minElevation = ds.stats.1 ∧ s.maxElevation = ds.stats.2 ∧ s.noData = ds.noData ∧
      postSpacing lib m ds.posts.width ds.posts.height = .ok s.postSpacing := by
    unfold getTile
    rw [hopen]
    simp only [hgeo, hm, bind, Except.bind]
    cases hs : postSpacing lib m ds.posts.width ds.posts.height with
    | error e => simp [postSpacing, corner, hpos, raised, Except.map, bind, Except.bind, pure, Except.pure] at hs
    | ok v => exact ⟨_, rfl, rfl, rfl, rfl, rfl⟩
  obtain ⟨s, hs, e1, e2, e3, e4⟩ := hsp
  refine ⟨_, s, hs, ?_, e1, e2, e3, _, _, rfl, rfl, ?_⟩
  · intro x y z
    have := (hround (x, y) none _ (hpos x y)).2
    show raised (m.worldToImage _) = _
    rw [worldToImage_elevation lib.angles _ none m hm _ _ z 0, this]
    rfl
  · simp only [postSpacing, corner, hpos, raised, Except.map, bind, Except.bind, pure, Except.pure, Except.ok.injEq, zero_mul, add_zero] at e4
    exact e4.symm

/-- The elevation of a point of the raster, for a file whose coordinates are longitude and latitude. -/
theorem elevation_at (lib : Lib) (h1 : ∀ x, lib.angles.deg (lib.angles.rad x) = x) (h2 : ∀ x, lib.angles.rad (lib.angles.deg x) = x)
    (tileId : Geo ℝ → Option (List Char)) (open' : List Char → Option Raster) (dir p : List Char) (cap : Int) (before : List (Query ℝ))
    (c : Geo ℝ) (hp : tileId c = some p) (hne : p ≠ []) (ds : Raster) (hopen : open' (tileLocation dir p) = some ds) (geo : List ℝ)
    (hgeo : ds.geo = some geo) (hinv : Invertible geo) (i j : Nat) (hi : i + 1 < ds.posts.width) (hj : j + 1 < ds.posts.height) (u v : ℝ)
    (hu : 0 ≤ u ∧ u ≤ 1) (hv : 0 ≤ v ∧ v ≤ 1) (hc : At lib.angles geo none (i + u) (j + v) c) :
    elevationOf (terrain lib tileId open' dir) cap before c = .ok (.coordinate ⟨c.longitude, c.latitude,
      (1 - u) * (1 - v) * ds.posts.z i j + u * (1 - v) * ds.posts.z (i + 1) j + (1 - u) * v * ds.posts.z i (j + 1) + u * v * ds.posts.z (i + 1) (j + 1)⟩) := by
  obtain ⟨g0, g1, g2, g3, g4, g5, rfl, hdet⟩ := hinv
  obtain ⟨k0, k1, k2, k3, k4, k5, lon, lat, he, hloc, hlon, hlat⟩ := hc
  simp only [List.cons.injEq, and_true] at he
  obtain ⟨rfl, rfl, rfl, rfl, rfl, rfl⟩ := he
  simp only [Located, rasterPoint, Prod.mk.injEq] at hloc
  obtain ⟨rfl, rfl⟩ := hloc
  obtain ⟨m, s, ht, hm, -⟩ := getTile_some lib h1 h2 open' dir p ds g0 g1 g2 g3 g4 g5 hopen hgeo hdet
  have hmc : m c = .ok (i + u, j + v) := by
    have := hm (i + u) (j + v) c.elevation
    rw [← hlon, ← hlat] at this
    exact this
  obtain ⟨z, hz, hpatch, -⟩ := Verif.Props.Dem.set_elevation_on_surface (terrain lib tileId open' dir) rfl cap before c p hp hne _ ht ds.posts rfl m rfl
    (i + u) (j + v) hmc i j hi hj (by linarith [hu.1]) (by linarith [hu.2]) (by linarith [hv.1]) (by linarith [hv.2])
  unfold elevationOf
  rw [hz]
  congr 3
  rw [hpatch]
  simp only [Verif.Props.Dem.patch, Verif.Props.Dem.line]
  ring

/-- **C108** (the part that holds): for a file whose coordinates are longitude and latitude, the elevation of the upper left *corner* of a pixel is the
value of the pixel, whatever was asked before.  Missing: the value belongs to the centre of the pixel, see `post_elevation_is_mean`. -/
theorem corner_elevation_partial (lib : Lib) (h1 : ∀ x, lib.angles.deg (lib.angles.rad x) = x) (h2 : ∀ x, lib.angles.rad (lib.angles.deg x) = x)
    (tileId : Geo ℝ → Option (List Char)) (open' : List Char → Option Raster) (dir p : List Char) (cap : Int) (before : List (Query ℝ))
    (c : Geo ℝ) (hp : tileId c = some p) (hne : p ≠ []) (ds : Raster) (hopen : open' (tileLocation dir p) = some ds) (geo : List ℝ)
    (hgeo : ds.geo = some geo) (hinv : Invertible geo) (i j : Nat) (hi : i < ds.posts.width) (hj : j < ds.posts.height)
    (hw : 2 ≤ ds.posts.width) (hh : 2 ≤ ds.posts.height) (hc : At lib.angles geo none i j c) :
    elevationOf (terrain lib tileId open' dir) cap before c = .ok (.coordinate { c with elevation := ds.posts.z i j }) := by
  have pick : ∀ n k : Nat, k < n → 2 ≤ n → ∃ l : Nat, ∃ u : ℝ, l + 1 < n ∧ (0 ≤ u ∧ u ≤ 1) ∧ (k : ℝ) = l + u ∧ ((u = 0 ∧ k = l) ∨ (u = 1 ∧ k = l + 1)) := by
    intro n k hk hn
    by_cases hlast : k + 1 < n
    · exact ⟨k, 0, hlast, by norm_num, by simp, Or.inl ⟨rfl, rfl⟩⟩
    · refine ⟨k - 1, 1, by omega, by norm_num, ?_, Or.inr ⟨rfl, by omega⟩⟩
      have : (k - 1 + 1 : Nat) = k := by omega
      exact_mod_cast this.symm
  obtain ⟨a, u, ha, hu, hau, hcase⟩ := pick _ i hi hw
  obtain ⟨b, v, hb, hv, hbv, hcase'⟩ := pick _ j hj hh
  rw [hau, hbv] at hc
  rw [elevation_at lib h1 h2 tileId open' dir p cap before c hp hne ds hopen geo hgeo hinv a b ha hb u v hu hv hc]
  congr 3
  rcases hcase with ⟨rfl, rfl⟩ | ⟨rfl, rfl⟩ <;> rcases hcase' with ⟨rfl, rfl⟩ | ⟨rfl, rfl⟩ <;> ring

/-- **C108** is false: at the place of the value of pixel `(i, j)`, which is the centre of the pixel, the elevation is the mean of that value and of the
values to the right, below and to the lower right.  The surface is half a pixel away from where the file says, in both directions. -/
theorem post_elevation_is_mean (lib : Lib) (h1 : ∀ x, lib.angles.deg (lib.angles.rad x) = x) (h2 : ∀ x, lib.angles.rad (lib.angles.deg x) = x)
    (tileId : Geo ℝ → Option (List Char)) (open' : List Char → Option Raster) (dir p : List Char) (cap : Int) (before : List (Query ℝ))
    (c : Geo ℝ) (hp : tileId c = some p) (hne : p ≠ []) (ds : Raster) (hopen : open' (tileLocation dir p) = some ds) (geo : List ℝ)
    (hgeo : ds.geo = some geo) (hinv : Invertible geo) (i j : Nat) (hi : i + 1 < ds.posts.width) (hj : j + 1 < ds.posts.height)
    (hc : At lib.angles geo none (i + 1 / 2) (j + 1 / 2) c) :
    elevationOf (terrain lib tileId open' dir) cap before c = .ok (.coordinate ⟨c.longitude, c.latitude,
      (ds.posts.z i j + ds.posts.z (i + 1) j + ds.posts.z i (j + 1) + ds.posts.z (i + 1) (j + 1)) / 4⟩) := by
  rw [elevation_at lib h1 h2 tileId open' dir p cap before c hp hne ds hopen geo hgeo hinv i j hi hj (1 / 2) (1 / 2) (by norm_num) (by norm_num) hc]
  congr 3
  ring

/-- Degrees everywhere, for examples. -/
def plainAngles : Angles ℝ := ⟨id, id⟩
def plainLib : Lib := ⟨plainAngles, fun g => (g.longitude, g.latitude, g.elevation)⟩

/-- A slope of 100 m per column: 3 columns and 2 rows of a tenth of a degree from 10° east, 50° north. -/
noncomputable def slope (crs : Option (Crs ℝ)) : Raster := ⟨some [10, 1 / 10, 0, 50, 0, -1 / 10], crs, ⟨3, 2, fun i _ => 100 * i⟩, (0, 200), none⟩

/-- The premises of the C108 theorems are met: the value 0 m belongs to 10.05° east and 49.95° north, where the answer is 50 m; 0 m is the answer at 10° east
and 50° north. -/
example : elevationOf (terrain plainLib (fun _ => some ['a']) (fun _ => some (slope none)) ['d']) 10 [] ⟨10.05, 49.95, 7⟩ = .ok (.coordinate ⟨10.05, 49.95, 50⟩) ∧
    elevationOf (terrain plainLib (fun _ => some ['a']) (fun _ => some (slope none)) ['d']) 10 [] ⟨10, 50, 7⟩ = .ok (.coordinate ⟨10, 50, 0⟩) := by
  have hinv : Invertible [10, 1 / 10, 0, 50, 0, -1 / 10] := ⟨_, _, _, _, _, _, rfl, by norm_num⟩
  constructor
  · have := post_elevation_is_mean plainLib (fun _ => rfl) (fun _ => rfl) (fun _ => some ['a']) (fun _ => some (slope none)) ['d'] ['a'] 10 [] ⟨10.05, 49.95, 7⟩
      rfl (by simp) (slope none) rfl _ rfl hinv 0 0 (by decide) (by decide)
      ⟨_, _, _, _, _, _, 10.05, 49.95, rfl, by simp only [Located, rasterPoint, Prod.mk.injEq]; constructor <;> norm_num, rfl, rfl⟩
    rw [this]
    congr 3
    simp [slope]
    norm_num
  · have := corner_elevation_partial plainLib (fun _ => rfl) (fun _ => rfl) (fun _ => some ['a']) (fun _ => some (slope none)) ['d'] ['a'] 10 [] ⟨10, 50, 7⟩
      rfl (by simp) (slope none) rfl _ rfl hinv 0 0 (by decide) (by decide) (by decide) (by decide)
      ⟨_, _, _, _, _, _, 10, 50, rfl, by simp only [Located, rasterPoint, Prod.mk.injEq]; constructor <;> norm_num, rfl, rfl⟩
    rw [this]
    congr 3
    simp [slope]

/-! ## Reference systems -/

/-- Files that differ in nothing but their reference system. -/
def SameButCrs (open' open'' : List Char → Option Raster) : Prop :=
  ∀ l, (open' l).map (fun r => { r with crs := none }) = (open'' l).map (fun r => { r with crs := none })

theorem getTile_ignores_crs (lib : Lib) (open' open'' : List Char → Option Raster) (h : SameButCrs open' open'') (dir path : List Char) :
    getTile lib open' dir path = getTile lib open'' dir path := by
  have := h (tileLocation dir path)
  unfold getTile
  cases h1 : open' (tileLocation dir path) with
  | none =>
    rw [h1] at this
    cases h2 : open'' (tileLocation dir path) with
    | none => rfl
    | some r => rw [h2] at this; simp at this
  | some r =>
    rw [h1] at this
    cases h2 : open'' (tileLocation dir path) with
    | none => rw [h2] at this; simp at this
    | some r' =>
      rw [h2] at this
      obtain ⟨geo, crs, posts, stats, nd⟩ := r
      obtain ⟨geo', crs', posts', stats', nd'⟩ := r'
      simp only [Option.map_some, Option.some.injEq, Raster.mk.injEq, true_and] at this
      obtain ⟨rfl, rfl, rfl, rfl⟩ := this
      rfl

/-- **C109** (negation): the reference system of the elevation files has no influence on any answer: projected metres are taken for degrees. -/
theorem dem_crs_ignored (lib : Lib) (tileId : Geo ℝ → Option (List Char)) (open' open'' : List Char → Option Raster) (h : SameButCrs open' open'')
    (dir : List Char) (cap : Int) (qs : List (Query ℝ)) :
    ((terrain lib tileId open' dir).queries ⟨cap, []⟩ qs).1 = ((terrain lib tileId open'' dir).queries ⟨cap, []⟩ qs).1 := by
  have : terrain lib tileId open' dir = terrain lib tileId open'' dir := by
    unfold terrain
    congr 1
    funext p
    exact getTile_ignores_crs lib open' open'' h dir p
  rw [this]

/-- The files of the example differ in their reference system. -/
example (t : Crs ℝ) : SameButCrs (fun _ => some (slope none)) (fun _ => some (slope (some t))) := fun _ => rfl

/-- A reference system in units of a thousandth of a degree. -/
noncomputable def thousandths : Crs ℝ := ⟨fun p => .ok (p.1 / 1000, p.2.1 / 1000, p.2.2), fun p => .ok (p.1 * 1000, p.2.1 * 1000, p.2.2)⟩

/-- A slope in that system: 100 m per column of one unit. -/
noncomputable def projectedSlope : Raster := ⟨some [0, 1, 0, 0, 0, -1], some thousandths, ⟨3, 3, fun i _ => 100 * i⟩, (0, 200), none⟩

/-- **C109** is false: a file in a projected reference system, a place in it, and an answer that is not the elevation there (0.1 m instead of 100 m). -/
theorem projected_dem_is_misread : ∃ (lib : Lib) (open' : List Char → Option Raster) (ds : Raster) (geo : List ℝ) (c : Geo ℝ) (z : ℝ),
    (∀ x, lib.angles.deg (lib.angles.rad x) = x) ∧ (∀ x, lib.angles.rad (lib.angles.deg x) = x) ∧ (∀ l, open' l = some ds) ∧ ds.geo = some geo ∧
    Invertible geo ∧ At lib.angles geo ds.crs 1 1 c ∧
    elevationOf (terrain lib (fun _ => some ['a']) open' []) 10 [] c = .ok (.coordinate { c with elevation := z }) ∧ z ≠ ds.posts.z 1 1 := by
  have hinv : Invertible [0, 1, 0, 0, 0, -1] := ⟨_, _, _, _, _, _, rfl, by norm_num⟩
  refine ⟨plainLib, fun _ => some projectedSlope, projectedSlope, [0, 1, 0, 0, 0, -1], ⟨1 / 1000, -1 / 1000, 0⟩, 1 / 10, fun _ => rfl, fun _ => rfl, fun _ => rfl, rfl, hinv, ?_, ?_, ?_⟩
  · refine ⟨_, _, _, _, _, _, 1 / 1000, -1 / 1000, rfl, ⟨1, ?_⟩, rfl, rfl⟩
    simp only [projectedSlope, thousandths, rasterPoint]
    norm_num
  · have := elevation_at plainLib (fun _ => rfl) (fun _ => rfl) (fun _ => some ['a']) (fun _ => some projectedSlope) [] ['a'] 10 [] ⟨1 / 1000, -1 / 1000, 0⟩
      rfl (by simp) projectedSlope rfl _ rfl hinv 0 0 (by decide) (by decide) (1 / 1000) (1 / 1000) (by norm_num) (by norm_num)
      ⟨_, _, _, _, _, _, 1 / 1000, -1 / 1000, rfl, by simp only [Located, rasterPoint, Prod.mk.injEq]; constructor <;> norm_num, rfl, rfl⟩
    rw [this]
    congr 3
    simp [projectedSlope]
    norm_num
  · simp [projectedSlope]
    norm_num

/-- **C109** (the part that holds): for a file in longitude and latitude, the point `(x, y)` of the raster gets the value of the surface there.  Missing: files
in a projected system, see `projected_dem_is_misread`. -/
theorem geographic_dem_partial (lib : Lib) (h1 : ∀ x, lib.angles.deg (lib.angles.rad x) = x) (h2 : ∀ x, lib.angles.rad (lib.angles.deg x) = x)
    (tileId : Geo ℝ → Option (List Char)) (open' : List Char → Option Raster) (dir p : List Char) (cap : Int) (before : List (Query ℝ))
    (c : Geo ℝ) (hp : tileId c = some p) (hne : p ≠ []) (ds : Raster) (hopen : open' (tileLocation dir p) = some ds) (hcrs : ds.crs = none) (geo : List ℝ)
    (hgeo : ds.geo = some geo) (hinv : Invertible geo) (i j : Nat) (hi : i < ds.posts.width) (hj : j < ds.posts.height)
    (hw : 2 ≤ ds.posts.width) (hh : 2 ≤ ds.posts.height) (hc : At lib.angles geo ds.crs i j c) :
    elevationOf (terrain lib tileId open' dir) cap before c = .ok (.coordinate { c with elevation := ds.posts.z i j }) := by
  rw [hcrs] at hc
  exact corner_elevation_partial lib h1 h2 tileId open' dir p cap before c hp hne ds hopen geo hgeo hinv i j hi hj hw hh hc

/-! ## Summary -/

/-- **C110**: `describe_region` of a file with an invertible geo transform and at least 2 by 2 posts reports the statistics and the no-data value of the file and, as post
spacing, the distance between the ground points (at height 0) of the upper left and lower right corners divided by the diagonal in pixels. -/
theorem dem_summary (lib : Lib) (h1 : ∀ x, lib.angles.deg (lib.angles.rad x) = x) (h2 : ∀ x, lib.angles.rad (lib.angles.deg x) = x)
    (tileId : Geo ℝ → Option (List Char)) (open' : List Char → Option Raster) (dir p : List Char) (cap : Int) (before : List (Query ℝ))
    (c : Geo ℝ) (hp : tileId c = some p) (hne : p ≠ []) (ds : Raster) (hopen : open' (tileLocation dir p) = some ds) (geo : List ℝ)
    (hgeo : ds.geo = some geo) (hinv : Invertible geo) (hw : 2 ≤ ds.posts.width) (hh : 2 ≤ ds.posts.height) (ul lr : Geo ℝ)
    (hul : At lib.angles geo none 0 0 ul) (hlr : At lib.angles geo none ds.posts.width ds.posts.height lr) (zul : ul.elevation = 0) (zlr : lr.elevation = 0) :
    ∃ s, ((terrain lib tileId open' dir).query ((terrain lib tileId open' dir).queries ⟨cap, []⟩ before).2.1 (.describeRegion c)).1 = .ok (.summary (some s)) ∧
      s.minElevation = ds.stats.1 ∧ s.maxElevation = ds.stats.2 ∧ s.noData = ds.noData ∧
      s.postSpacing * Real.sqrt (ds.posts.width ^ 2 + ds.posts.height ^ 2) =
        Real.sqrt (((lib.ecef ul).1 - (lib.ecef lr).1) ^ 2 + ((lib.ecef ul).2.1 - (lib.ecef lr).2.1) ^ 2 + ((lib.ecef ul).2.2 - (lib.ecef lr).2.2) ^ 2) := by
  obtain ⟨g0, g1, g2, g3, g4, g5, rfl, hdet⟩ := hinv
  obtain ⟨k0, k1, k2, k3, k4, k5, lon, lat, he, hloc, hlon, hlat⟩ := hul
  simp only [List.cons.injEq, and_true] at he
  obtain ⟨rfl, rfl, rfl, rfl, rfl, rfl⟩ := he
  simp only [Located, rasterPoint, Prod.mk.injEq, zero_mul, add_zero] at hloc
  obtain ⟨rfl, rfl⟩ := hloc
  obtain ⟨k0, k1, k2, k3, k4, k5, lon, lat, he, hloc, hlon', hlat'⟩ := hlr
  simp only [List.cons.injEq, and_true] at he
  obtain ⟨rfl, rfl, rfl, rfl, rfl, rfl⟩ := he
  simp only [Located, rasterPoint, Prod.mk.injEq] at hloc
  obtain ⟨rfl, rfl⟩ := hloc
  obtain ⟨m, s, ht, -, e1, e2, e3, a, b, ha, hb, hsp⟩ := getTile_some lib h1 h2 open' dir p ds g0 g1 g2 g3 g4 g5 hopen hgeo hdet
  obtain ⟨f, hf⟩ : ∃ f, bilinear ds.posts = .ok f := by
    unfold bilinear
    rw [if_neg (by omega)]
    exact ⟨_, rfl⟩
  refine ⟨s, ?_, e1, e2, e3, ?_⟩
  · have := ((Verif.Props.Dem.describe_region_result (terrain lib tileId open' dir) cap before c).2 p hp hne).2 _ ht
    exact this.2 _ _ f rfl rfl hf
  · have eul : ul = ⟨lib.angles.rad g0, lib.angles.rad g3, 0⟩ := by
      rw [← hlon, ← hlat, ← zul]
    have elr : lr = ⟨lib.angles.rad (g0 + ds.posts.width * g1 + ds.posts.height * g2), lib.angles.rad (g3 + ds.posts.width * g4 + ds.posts.height * g5), 0⟩ := by
      rw [← hlon', ← hlat', ← zlr]
    rw [hsp, eul, elr, ← ha, ← hb]
    have hpos : 0 < Real.sqrt ((ds.posts.width : ℝ) ^ 2 + (ds.posts.height : ℝ) ^ 2) := by
      apply Real.sqrt_pos.2
      have : (0 : ℝ) < ds.posts.width := by exact_mod_cast (by omega : 0 < ds.posts.width)
      positivity
    rw [← pow_two, ← pow_two, div_mul_cancel₀ _ hpos.ne']

/-- The premises of `dem_summary` are met. -/
example : ∃ ul lr, At plainLib.angles [10, 1 / 10, 0, 50, 0, -1 / 10] none 0 0 ul ∧ At plainLib.angles [10, 1 / 10, 0, 50, 0, -1 / 10] none 3 2 lr ∧
    ul = ⟨10, 50, 0⟩ ∧ lr = ⟨10.3, 49.8, 0⟩ := by
  refine ⟨_, _, ⟨_, _, _, _, _, _, 10, 50, rfl, ?_, rfl, rfl⟩, ⟨_, _, _, _, _, _, 10.3, 49.8, rfl, ?_, rfl, rfl⟩, rfl, rfl⟩ <;>
    (simp only [Located, rasterPoint, Prod.mk.injEq]; constructor <;> norm_num)

/-! ## Files that cannot be used -/

/-- **C110** A file that GDAL cannot open or that has no geo transform leaves coordinates as they are and has no summary; nothing is raised. -/
theorem unusable_file_ignored (lib : Lib) (tileId : Geo ℝ → Option (List Char)) (open' : List Char → Option Raster) (dir p : List Char) (cap : Int) (before : List (Query ℝ))
    (c : Geo ℝ) (hp : tileId c = some p) (h : ∀ ds, open' (tileLocation dir p) = some ds → ds.geo = none) :
    elevationOf (terrain lib tileId open' dir) cap before c = .ok (.coordinate c) ∧
      ((terrain lib tileId open' dir).query ((terrain lib tileId open' dir).queries ⟨cap, []⟩ before).2.1 (.describeRegion c)).1 = .ok (.summary none) := by
  have ht : getTile lib open' dir p = .ok ⟨none, none, none⟩ := by
    unfold getTile
    cases ho : open' (tileLocation dir p) with
    | none => rfl
    | some ds => simp only [h ds ho]
  refine ⟨Verif.Props.Dem.set_elevation_without_tile (terrain lib tileId open' dir) cap before c (.inr (.inr ⟨p, _, hp, ht, .inl rfl⟩)), ?_⟩
  have := Verif.Props.Dem.describe_region_result (terrain lib tileId open' dir) cap before c
  by_cases hne : p = []
  · exact this.1 (.inr (hne ▸ hp))
  · exact ((this.2 p hp hne).2 _ ht).1 (.inl rfl)

/-- A raster without geo transform. -/
example : ∀ ds, (fun _ => some ⟨none, none, ⟨3, 3, fun i _ => 100 * i⟩, (0, 200), none⟩ : List Char → Option Raster) (tileLocation [] ['a']) = some ds → ds.geo = none := by
  rintro ds h
  simp only [Option.some.injEq] at h
  rw [← h]

end Verif.Props.DemFiles
