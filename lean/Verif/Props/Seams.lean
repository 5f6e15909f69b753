import Verif.Spec.Seams
import Verif.Props.DemFiles
import Mathlib.Tactic.FieldSimp
import Mathlib.Tactic.LinearCombination

/-!
# Theorems about the borders of elevation tiles
-/

namespace Verif.Props.Seams

open Verif.Dem Verif.Sensors Verif.DemFiles Verif.Spec.Seams Verif.Props.DemFiles
open Verif.GdalUtils (tileLocation)

/-- The model of the tile set for real coordinates agrees with that for rational ones (C19): both use nothing but the whole degrees. -/
theorem same_names (t : Verif.DemTileSet.Srtm) (deg : ℚ → ℚ) (c : Verif.Coordinates.Geodetic) :
    t.findTileId deg c = t.findTileId id ⟨(⌊deg c.longitude⌋ : ℤ), (⌊deg c.latitude⌋ : ℤ), 0⟩ := by
  simp [Verif.DemTileSet.Srtm.findTileId]

/-- The surface in any cell, borders included. -/
theorem grid_eq (Z : ℤ → ℤ → ℝ) (I J : ℤ) (u v : ℝ) (hu : 0 ≤ u ∧ u ≤ 1) (hv : 0 ≤ v ∧ v ≤ 1) :
    grid Z (I + u) (J + v) = (1 - u) * (1 - v) * Z I J + u * (1 - v) * Z (I + 1) J + (1 - u) * v * Z I (J + 1) + u * v * Z (I + 1) (J + 1) := by
  have fl : ∀ (K : ℤ) (w : ℝ), 0 ≤ w → w ≤ 1 → (⌊(K:ℝ) + w⌋ = K ∧ w < 1) ∨ (⌊(K:ℝ) + w⌋ = K + 1 ∧ w = 1) := by
    intro K w h0 h1
    rcases h1.lt_or_eq with h | h
    · left; exact ⟨by rw [Int.floor_eq_iff]; constructor <;> linarith, h⟩
    · right; exact ⟨by rw [h, Int.floor_eq_iff]; push_cast; constructor <;> linarith, h⟩
  unfold grid
  rcases fl I u hu.1 hu.2 with ⟨h1, -⟩ | ⟨h1, h1'⟩ <;> rcases fl J v hv.1 hv.2 with ⟨h2, -⟩ | ⟨h2, h2'⟩ <;>
    simp only [h1, h2]
  · ring
  · subst h2'; push_cast; ring
  · subst h1'; push_cast; ring
  · subst h1' h2'; push_cast; ring

/-- The cell of the posts and the position in it. -/
theorem split (n : Nat) (hn : 0 < n) (x : ℝ) (h0 : 0 ≤ x) (h1 : x ≤ n) : ∃ i : Nat, ∃ u : ℝ, i < n ∧ 0 ≤ u ∧ u ≤ 1 ∧ x = i + u := by
  by_cases h : x < n
  · refine ⟨⌊x⌋₊, x - ⌊x⌋₊, (Nat.floor_lt h0).mpr h, sub_nonneg.mpr (Nat.floor_le h0), ?_, by ring⟩
    have := (Nat.lt_floor_add_one x).le
    linarith
  · have : x = n := le_antisymm h1 (not_lt.mp h)
    refine ⟨n - 1, 1, by omega, by norm_num, le_rfl, ?_⟩
    rw [this]
    have : ((n - 1 : ℕ) : ℝ) = n - 1 := by rw [Nat.cast_sub hn]; simp
    rw [this]; ring

/-- What the interpolator gives outside the posts is what it gives at the nearest border. -/
theorem bilinear_clamped (p : Posts ℝ) (f : ℝ → ℝ → ℝ) (hf : bilinear p = .ok f) (x y : ℝ) :
    f x y = f (max 0 (min x (p.width - 1))) (max 0 (min y (p.height - 1))) := by
  unfold bilinear at hf
  split at hf
  · simp at hf
  · rename_i hs
    simp only [Except.ok.injEq] at hf
    subst hf
    have idem : ∀ (x : ℝ) (n : Nat), 2 ≤ n → clamp (max 0 (min x ((n:ℝ) - 1))) n = clamp x n := by
      intro x n hn
      have : (0:ℝ) ≤ (n:ℝ) - 1 := by
        have : (2:ℝ) ≤ n := by exact_mod_cast hn
        linarith
      unfold clamp
      rw [min_eq_left (max_le this (min_le_right _ _)), max_eq_right (le_max_left _ _)]
    simp only [idem x p.width (by omega), idem y p.height (by omega)]

/-- `set_elevation` asks the interpolator at the position of the coordinate. -/
theorem elevation_from (lib : Lib) (h1 : ∀ x, lib.angles.deg (lib.angles.rad x) = x) (h2 : ∀ x, lib.angles.rad (lib.angles.deg x) = x)
    (tileId : Geo ℝ → Option (List Char)) (open' : List Char → Option Raster) (dir p : List Char) (cap : Int) (before : List (Query ℝ))
    (c : Geo ℝ) (hp : tileId c = some p) (hne : p ≠ []) (ds : Raster) (hopen : open' (tileLocation dir p) = some ds) (geo : List ℝ)
    (hgeo : ds.geo = some geo) (hinv : Invertible geo) (x y : ℝ) (f : ℝ → ℝ → ℝ) (hf : bilinear ds.posts = .ok f) (hc : At lib.angles geo none x y c) :
    elevationOf (terrain lib tileId open' dir) cap before c = .ok (.coordinate { c with elevation := f x y }) := by
  obtain ⟨g0, g1, g2, g3, g4, g5, rfl, hdet⟩ := hinv
  obtain ⟨k0, k1, k2, k3, k4, k5, lon, lat, he, hloc, hlon, hlat⟩ := hc
  simp only [List.cons.injEq, and_true] at he
  obtain ⟨rfl, rfl, rfl, rfl, rfl, rfl⟩ := he
  simp only [Located, rasterPoint, Prod.mk.injEq] at hloc
  obtain ⟨rfl, rfl⟩ := hloc
  obtain ⟨m, s, ht, hm, -⟩ := getTile_some lib h1 h2 open' dir p ds g0 g1 g2 g3 g4 g5 hopen hgeo hdet
  have hmc : m c = .ok (x, y) := by
    have := hm x y c.elevation
    rw [← hlon, ← hlat] at this
    exact this
  unfold elevationOf
  obtain ⟨-, hg, -⟩ := queries_spec (terrain lib tileId open' dir) before (good_empty (terrain lib tileId open' dir).load cap)
  rw [(query_spec (terrain lib tileId open' dir) hg _).1]
  unfold Verif.Spec.Dem.uncached
  have hcoord : (Query.setElevation c).coord = c := rfl
  have htile : (terrain lib tileId open' dir).tileOf c = some p := by
    cases p with
    | nil => exact absurd rfl hne
    | cons a as => simp [Terrain.tileOf, terrain, hp]
  rw [hcoord, htile]
  have hl : (terrain lib tileId open' dir).load p = .ok { interp := some f, model := some m, summary := some s } := by
    simp only [Terrain.load, terrain, ht, hf]
  simp [hl, Query.finish, applyGrid, hmc, Except.map]

/-- **C137** (what holds): with SRTM files the elevation of a place is that of the surface through the posts, half a post to the east and half a
post to the south of the place, but not beyond the border of the cell. -/
theorem srtm_elevation_partial (lib : Lib) (h1 : ∀ x, lib.angles.deg (lib.angles.rad x) = x) (h2 : ∀ x, lib.angles.rad (lib.angles.deg x) = x)
    (t : Verif.DemTileSet.Srtm) (open' : List Char → Option Raster) (dir : List Char) (n : Nat) (hn : 0 < n) (Z : ℤ → ℤ → ℝ) (lon lat z : ℝ)
    (hfile : HasFile t open' dir n Z ⌊lon⌋ ⌊lat⌋) (cap : Int) (before : List (Query ℝ)) :
    elevationOf (terrain lib (srtmTiles t lib.angles) open' dir) cap before (place lib.angles lon lat z) =
      .ok (.coordinate (place lib.angles lon lat
        (grid Z (lon * n + min (1 / 2) ((⌊lon⌋ + 1 - lon) * n)) (lat * n - min (1 / 2) ((lat - ⌊lat⌋) * n))))) := by
  obtain ⟨name, r, hname, hne, hopen, file⟩ := hfile
  have np : (0:ℝ) < n := by exact_mod_cast hn
  have hinv : Invertible [(⌊lon⌋:ℝ) - 1 / (2 * n), 1 / n, 0, ⌊lat⌋ + 1 + 1 / (2 * n), 0, -(1 / n)] :=
    ⟨_, _, _, _, _, _, rfl, by
      have : (1:ℝ) / n ≠ 0 := by positivity
      have e : 1 / (n:ℝ) * -(1 / n) - 0 * 0 = -((1 / n) * (1 / n)) := by ring
      rw [e]; exact neg_ne_zero.mpr (mul_ne_zero this this)⟩
  obtain ⟨f, hf⟩ : ∃ f, bilinear r.posts = .ok f := by
    unfold bilinear
    rw [if_neg (by rw [file.width, file.height]; omega)]
    exact ⟨_, rfl⟩
  set x := (lon - ⌊lon⌋) * n + 1 / 2 with hx
  set y := (⌊lat⌋ + 1 - lat) * n + 1 / 2 with hy
  have a0 := Int.floor_le lon
  have a1 := (Int.lt_floor_add_one lon).le
  have b0 := Int.floor_le lat
  have b1 := (Int.lt_floor_add_one lat).le
  have px : 0 ≤ (lon - ⌊lon⌋) * n := mul_nonneg (by linarith) np.le
  have py : 0 ≤ (⌊lat⌋ + 1 - lat) * n := mul_nonneg (by linarith) np.le
  have hat : At lib.angles [(⌊lon⌋:ℝ) - 1 / (2 * n), 1 / n, 0, ⌊lat⌋ + 1 + 1 / (2 * n), 0, -(1 / n)] none x y (place lib.angles lon lat z) := by
    refine ⟨_, _, _, _, _, _, lon, lat, rfl, ?_, rfl, rfl⟩
    simp only [Located, rasterPoint, Prod.mk.injEq]
    constructor
    · rw [hx]; field_simp; ring
    · rw [hy]; field_simp; ring
  have tile : srtmTiles t lib.angles (place lib.angles lon lat z) = some name := by
    unfold srtmTiles place
    simp only [h1]
    exact hname
  rw [elevation_from lib h1 h2 _ open' dir name cap before _ tile hne r hopen _ file.geo hinv x y f hf hat]
  congr 2
  show (Geo.mk _ _ _ : Geo ℝ) = ⟨_, _, _⟩
  congr 1
  rw [bilinear_clamped r.posts f hf]
  have cx : max 0 (min x ((r.posts.width:ℝ) - 1)) = (lon - ⌊lon⌋) * n + min (1 / 2) ((⌊lon⌋ + 1 - lon) * n) := by
    rw [file.width]
    push_cast
    have e : min x ((n:ℝ) + 1 - 1) = (lon - ⌊lon⌋) * n + min (1 / 2) ((⌊lon⌋ + 1 - lon) * n) := by
      rw [← min_add_add_left, hx]
      congr 1
      ring
    rw [e, max_eq_right]
    exact add_nonneg px (le_min (by norm_num) (mul_nonneg (by linarith) np.le))
  have cy : max 0 (min y ((r.posts.height:ℝ) - 1)) = (⌊lat⌋ + 1 - lat) * n + min (1 / 2) ((lat - ⌊lat⌋) * n) := by
    rw [file.height]
    push_cast
    have e : min y ((n:ℝ) + 1 - 1) = (⌊lat⌋ + 1 - lat) * n + min (1 / 2) ((lat - ⌊lat⌋) * n) := by
      rw [← min_add_add_left, hy]
      congr 1
      ring
    rw [e, max_eq_right]
    exact add_nonneg py (le_min (by norm_num) (mul_nonneg (by linarith) np.le))
  rw [cx, cy]
  obtain ⟨i, u, hi, u0, u1, eu⟩ := split n hn ((lon - ⌊lon⌋) * n + min (1 / 2) ((⌊lon⌋ + 1 - lon) * n))
    (add_nonneg px (le_min (by norm_num) (mul_nonneg (by linarith) np.le))) (by have := min_le_right (1 / 2) ((⌊lon⌋ + 1 - lon) * (n:ℝ)); linarith)
  obtain ⟨j, v, hj, v0, v1, ev⟩ := split n hn ((⌊lat⌋ + 1 - lat) * n + min (1 / 2) ((lat - ⌊lat⌋) * n))
    (add_nonneg py (le_min (by norm_num) (mul_nonneg (by linarith) np.le))) (by have := min_le_right (1 / 2) ((lat - ⌊lat⌋) * (n:ℝ)); linarith)
  rw [eu, ev, Verif.Props.Dem.bilinear_eq_patch r.posts f hf i j (by rw [file.width]; omega) (by rw [file.height]; omega) (i + u) (j + v)
    (by linarith) (by linarith) (by linarith) (by linarith)]
  have gx : lon * n + min (1 / 2) ((⌊lon⌋ + 1 - lon) * n) = ((⌊lon⌋ * n + i : ℤ) : ℝ) + u := by push_cast; linarith
  have gy : lat * n - min (1 / 2) ((lat - ⌊lat⌋) * n) = (((⌊lat⌋ + 1) * n - (j + 1) : ℤ) : ℝ) + (1 - v) := by push_cast; linarith
  rw [gx, gy, grid_eq Z _ _ u (1 - v) ⟨u0, u1⟩ ⟨by linarith, by linarith⟩]
  simp only [Verif.Props.Dem.patch, Verif.Props.Dem.line]
  rw [file.posts i j hi.le hj.le, file.posts (i + 1) j hi hj.le, file.posts i (j + 1) hi.le hj, file.posts (i + 1) (j + 1) hi hj]
  have z1 : (⌊lon⌋ * n + ((i + 1 : ℕ) : ℤ)) = ⌊lon⌋ * n + i + 1 := by push_cast; ring
  have z2 : ((⌊lat⌋ + 1) * n - ((j + 1 : ℕ) : ℤ)) = (⌊lat⌋ + 1) * n - (j + 1) := by push_cast; ring
  have z3 : (⌊lat⌋ + 1) * (n:ℤ) - (j + 1) + 1 = (⌊lat⌋ + 1) * n - j := by ring
  rw [z1, z2, z3]
  ring


/-! ## How steep the surface is -/

/-- The broken line through values at the integers. -/
noncomputable def broken (P : ℤ → ℝ) (x : ℝ) : ℝ := (1 - (x - ⌊x⌋)) * P ⌊x⌋ + (x - ⌊x⌋) * P (⌊x⌋ + 1)

theorem posts_steep (L : ℝ) (P : ℤ → ℝ) (h : ∀ i, |P (i + 1) - P i| ≤ L) (a : ℤ) (k : Nat) : |P (a + k) - P a| ≤ L * k := by
  induction k with
  | zero => simp
  | succ k ih =>
    have := h (a + k)
    push_cast
    rw [← add_assoc]
    calc |P (a + k + 1) - P a| = |(P (a + k + 1) - P (a + k)) + (P (a + k) - P a)| := by congr 1; ring
      _ ≤ _ := abs_add_le _ _
      _ ≤ _ := by linarith

theorem broken_steep_le (L : ℝ) (P : ℤ → ℝ) (h : ∀ i, |P (i + 1) - P i| ≤ L) (x x' : ℝ) (hx : x ≤ x') :
    |broken P x' - broken P x| ≤ L * (x' - x) := by
  have L0 : 0 ≤ L := le_trans (abs_nonneg _) (h 0)
  have f1 := Int.floor_le x
  have f2 := (Int.lt_floor_add_one x).le
  have f3 := Int.floor_le x'
  rcases (Int.floor_le_floor hx).eq_or_lt with e | lt
  · have : broken P x' - broken P x = (P (⌊x⌋ + 1) - P ⌊x⌋) * (x' - x) := by unfold broken; rw [← e]; ring
    rw [this, abs_mul, abs_of_nonneg (sub_nonneg.mpr hx)]
    exact mul_le_mul_of_nonneg_right (h _) (sub_nonneg.mpr hx)
  · obtain ⟨k, hk⟩ : ∃ k : Nat, ⌊x'⌋ = ⌊x⌋ + 1 + k := ⟨(⌊x'⌋ - (⌊x⌋ + 1)).toNat, by omega⟩
    have hk' : (⌊x'⌋ : ℝ) = ⌊x⌋ + 1 + k := by exact_mod_cast hk
    have e : broken P x' - broken P x = (P (⌊x'⌋ + 1) - P ⌊x'⌋) * (x' - ⌊x'⌋) + (P ⌊x'⌋ - P (⌊x⌋ + 1)) + (P (⌊x⌋ + 1) - P ⌊x⌋) * (⌊x⌋ + 1 - x) := by
      unfold broken; ring
    rw [e]
    have t1 : |(P (⌊x'⌋ + 1) - P ⌊x'⌋) * (x' - ⌊x'⌋)| ≤ L * (x' - ⌊x'⌋) := by
      rw [abs_mul, abs_of_nonneg (sub_nonneg.mpr f3)]
      exact mul_le_mul_of_nonneg_right (h _) (sub_nonneg.mpr f3)
    have t2 : |P ⌊x'⌋ - P (⌊x⌋ + 1)| ≤ L * k := by
      rw [hk]; exact posts_steep L P h _ k
    have t3 : |(P (⌊x⌋ + 1) - P ⌊x⌋) * (⌊x⌋ + 1 - x)| ≤ L * (⌊x⌋ + 1 - x) := by
      rw [abs_mul, abs_of_nonneg (sub_nonneg.mpr f2)]
      exact mul_le_mul_of_nonneg_right (h _) (sub_nonneg.mpr f2)
    have t4 := abs_add_le ((P (⌊x'⌋ + 1) - P ⌊x'⌋) * (x' - ⌊x'⌋) + (P ⌊x'⌋ - P (⌊x⌋ + 1))) ((P (⌊x⌋ + 1) - P ⌊x⌋) * (⌊x⌋ + 1 - x))
    have t5 := abs_add_le ((P (⌊x'⌋ + 1) - P ⌊x'⌋) * (x' - ⌊x'⌋)) (P ⌊x'⌋ - P (⌊x⌋ + 1))
    have e2 : L * (x' - x) = L * (x' - ⌊x'⌋) + L * k + L * (⌊x⌋ + 1 - x) := by rw [hk']; ring
    linarith

theorem broken_steep (L : ℝ) (P : ℤ → ℝ) (h : ∀ i, |P (i + 1) - P i| ≤ L) (x x' : ℝ) : |broken P x' - broken P x| ≤ L * |x' - x| := by
  rcases le_total x x' with hx | hx
  · rw [abs_of_nonneg (sub_nonneg.mpr hx)]; exact broken_steep_le L P h x x' hx
  · rw [abs_sub_comm, abs_sub_comm x', abs_of_nonneg (sub_nonneg.mpr hx)]; exact broken_steep_le L P h x' x hx

/-- A mean of two numbers is no larger than both. -/
theorem mean_le (L w a b : ℝ) (h0 : 0 ≤ w) (h1 : w ≤ 1) (ha : |a| ≤ L) (hb : |b| ≤ L) : |(1 - w) * a + w * b| ≤ L := by
  have := abs_add_le ((1 - w) * a) (w * b)
  rw [abs_mul, abs_mul, abs_of_nonneg h0, abs_of_nonneg (sub_nonneg.mpr h1)] at this
  nlinarith [mul_le_mul_of_nonneg_left ha (sub_nonneg.mpr h1), mul_le_mul_of_nonneg_left hb h0]

/-- The surface is as gentle as its posts. -/
theorem grid_steep (L : ℝ) (Z : ℤ → ℤ → ℝ) (h : Gentle L Z) (x y x' y' : ℝ) :
    |grid Z x' y' - grid Z x y| ≤ L * |x' - x| + L * |y' - y| := by
  have fr : ∀ t : ℝ, 0 ≤ t - ⌊t⌋ ∧ t - ⌊t⌋ ≤ 1 := fun t => ⟨sub_nonneg.mpr (Int.floor_le t), by linarith [(Int.lt_floor_add_one t).le]⟩
  have gx : ∀ x y, grid Z x y = broken (fun i => broken (Z i) y) x := by intro x y; unfold grid broken; ring
  have gy : ∀ x y, grid Z x y = broken (fun j => broken (fun i => Z i j) x) y := by intro x y; unfold grid broken; ring
  have s1 : |grid Z x' y' - grid Z x y'| ≤ L * |x' - x| := by
    rw [gx, gx]
    refine broken_steep L _ (fun i => ?_) x x'
    have : broken (Z (i + 1)) y' - broken (Z i) y' = (1 - (y' - ⌊y'⌋)) * (Z (i + 1) ⌊y'⌋ - Z i ⌊y'⌋) + (y' - ⌊y'⌋) * (Z (i + 1) (⌊y'⌋ + 1) - Z i (⌊y'⌋ + 1)) := by
      unfold broken; ring
    rw [this]
    exact mean_le L _ _ _ (fr y').1 (fr y').2 (h _ _).1 (h _ _).1
  have s2 : |grid Z x y' - grid Z x y| ≤ L * |y' - y| := by
    rw [gy, gy]
    refine broken_steep L _ (fun j => ?_) y y'
    have : broken (fun i => Z i (j + 1)) x - broken (fun i => Z i j) x =
        (1 - (x - ⌊x⌋)) * (Z ⌊x⌋ (j + 1) - Z ⌊x⌋ j) + (x - ⌊x⌋) * (Z (⌊x⌋ + 1) (j + 1) - Z (⌊x⌋ + 1) j) := by
      unfold broken; ring
    rw [this]
    exact mean_le L _ _ _ (fr x).1 (fr x).2 (h _ _).2 (h _ _).2
  calc |grid Z x' y' - grid Z x y| = |(grid Z x' y' - grid Z x y') + (grid Z x y' - grid Z x y)| := by congr 1; ring
    _ ≤ _ := abs_add_le _ _
    _ ≤ _ := add_le_add s1 s2

/-- **C137** (what holds): with SRTM files in which neighbouring posts differ by at most `L`, the elevations of two places of one cell differ by at
most `L` for each post between them; of places in different cells, by at most `L` more.  Missing: the `L` more, see `srtm_seam`. -/
theorem srtm_steepness_partial (lib : Lib) (h1 : ∀ x, lib.angles.deg (lib.angles.rad x) = x) (h2 : ∀ x, lib.angles.rad (lib.angles.deg x) = x)
    (t : Verif.DemTileSet.Srtm) (open' : List Char → Option Raster) (dir : List Char) (n : Nat) (hn : 0 < n) (Z : ℤ → ℤ → ℝ) (L : ℝ) (hZ : Gentle L Z)
    (lon lat z lon' lat' z' : ℝ) (hfile : HasFile t open' dir n Z ⌊lon⌋ ⌊lat⌋) (hfile' : HasFile t open' dir n Z ⌊lon'⌋ ⌊lat'⌋)
    (cap : Int) (before : List (Query ℝ)) :
    ∃ e e', elevationOf (terrain lib (srtmTiles t lib.angles) open' dir) cap before (place lib.angles lon lat z) = .ok (.coordinate (place lib.angles lon lat e)) ∧
      elevationOf (terrain lib (srtmTiles t lib.angles) open' dir) cap before (place lib.angles lon' lat' z') = .ok (.coordinate (place lib.angles lon' lat' e')) ∧
      |e - grid Z (lon * n) (lat * n)| ≤ L ∧
      |e' - e| ≤ L * n * (|lon' - lon| + |lat' - lat|) + L ∧
      (⌊lon'⌋ = ⌊lon⌋ → ⌊lat'⌋ = ⌊lat⌋ → |e' - e| ≤ L * n * (|lon' - lon| + |lat' - lat|)) := by
  refine ⟨_, _, srtm_elevation_partial lib h1 h2 t open' dir n hn Z lon lat z hfile cap before,
    srtm_elevation_partial lib h1 h2 t open' dir n hn Z lon' lat' z' hfile' cap before, ?_, ?_, ?_⟩
  all_goals have np : (0:ℝ) < n := by exact_mod_cast hn
  all_goals have L0 : 0 ≤ L := le_trans (abs_nonneg _) (hZ 0 0).1
  all_goals have o1 : ∀ l : ℝ, 0 ≤ min (1 / 2) ((⌊l⌋ + 1 - l) * (n:ℝ)) ∧ min (1 / 2) ((⌊l⌋ + 1 - l) * (n:ℝ)) ≤ 1 / 2 := fun l =>
      ⟨le_min (by norm_num) (mul_nonneg (by linarith [(Int.lt_floor_add_one l).le]) np.le), min_le_left _ _⟩
  all_goals have o2 : ∀ l : ℝ, 0 ≤ min (1 / 2) ((l - ⌊l⌋) * (n:ℝ)) ∧ min (1 / 2) ((l - ⌊l⌋) * (n:ℝ)) ≤ 1 / 2 := fun l =>
      ⟨le_min (by norm_num) (mul_nonneg (by linarith [Int.floor_le l]) np.le), min_le_left _ _⟩
  · refine (grid_steep L Z hZ _ _ _ _).trans ?_
    rw [add_sub_cancel_left, sub_sub_cancel_left, abs_neg, abs_of_nonneg (o1 lon).1, abs_of_nonneg (o2 lat).1]
    nlinarith [mul_le_mul_of_nonneg_left (o1 lon).2 L0, mul_le_mul_of_nonneg_left (o2 lat).2 L0]
  · refine (grid_steep L Z hZ _ _ _ _).trans ?_
    have e1 : |lon' * n + min (1 / 2) ((⌊lon'⌋ + 1 - lon') * n) - (lon * n + min (1 / 2) ((⌊lon⌋ + 1 - lon) * n))| ≤ |lon' - lon| * n + 1 / 2 := by
      have : lon' * n + min (1 / 2) ((⌊lon'⌋ + 1 - lon') * n) - (lon * n + min (1 / 2) ((⌊lon⌋ + 1 - lon) * n)) =
          (lon' - lon) * n + (min (1 / 2) ((⌊lon'⌋ + 1 - lon') * (n:ℝ)) - min (1 / 2) ((⌊lon⌋ + 1 - lon) * n)) := by ring
      rw [this]
      refine (abs_add_le _ _).trans ?_
      rw [abs_mul, abs_of_pos np]
      have : |min (1 / 2) ((⌊lon'⌋ + 1 - lon') * (n:ℝ)) - min (1 / 2) ((⌊lon⌋ + 1 - lon) * n)| ≤ 1 / 2 := by
        rw [abs_le]; constructor <;> linarith [(o1 lon).1, (o1 lon).2, (o1 lon').1, (o1 lon').2]
      linarith
    have e2 : |lat' * n - min (1 / 2) ((lat' - ⌊lat'⌋) * n) - (lat * n - min (1 / 2) ((lat - ⌊lat⌋) * n))| ≤ |lat' - lat| * n + 1 / 2 := by
      have : lat' * n - min (1 / 2) ((lat' - ⌊lat'⌋) * n) - (lat * n - min (1 / 2) ((lat - ⌊lat⌋) * n)) =
          (lat' - lat) * n + (min (1 / 2) ((lat - ⌊lat⌋) * (n:ℝ)) - min (1 / 2) ((lat' - ⌊lat'⌋) * n)) := by ring
      rw [this]
      refine (abs_add_le _ _).trans ?_
      rw [abs_mul, abs_of_pos np]
      have : |min (1 / 2) ((lat - ⌊lat⌋) * (n:ℝ)) - min (1 / 2) ((lat' - ⌊lat'⌋) * n)| ≤ 1 / 2 := by
        rw [abs_le]; constructor <;> linarith [(o2 lat).1, (o2 lat).2, (o2 lat').1, (o2 lat').2]
      linarith
    nlinarith [mul_le_mul_of_nonneg_left e1 L0, mul_le_mul_of_nonneg_left e2 L0]
  · intro c1 c2
    refine (grid_steep L Z hZ _ _ _ _).trans ?_
    rw [c1, c2]
    have m1 : ∀ l : ℝ, l * n + min (1 / 2) ((⌊lon⌋ + 1 - l) * n) = min (l * n + 1 / 2) ((⌊lon⌋ + 1) * n) := by
      intro l; rw [← min_add_add_left]; congr 1; ring
    have m2 : ∀ l : ℝ, l * n - min (1 / 2) ((l - ⌊lat⌋) * n) = max (l * n - 1 / 2) (⌊lat⌋ * n) := by
      intro l
      rw [sub_eq_add_neg, ← max_neg_neg, ← max_add_add_left]
      congr 1
      ring
    rw [m1, m1, m2, m2]
    have e1 := abs_min_sub_min_le_max (lon' * n + 1 / 2) ((⌊lon⌋ + 1) * (n:ℝ)) (lon * n + 1 / 2) ((⌊lon⌋ + 1) * n)
    have e2 := abs_max_sub_max_le_max (lat' * n - 1 / 2) (⌊lat⌋ * (n:ℝ)) (lat * n - 1 / 2) (⌊lat⌋ * n)
    have s1 : lon' * n + 1 / 2 - (lon * n + 1 / 2) = (lon' - lon) * n := by ring
    have s2 : lat' * n - 1 / 2 - (lat * n - 1 / 2) = (lat' - lat) * n := by ring
    rw [sub_self, abs_zero, s1, abs_mul, abs_of_pos np, max_eq_left (by positivity)] at e1
    rw [sub_self, abs_zero, s2, abs_mul, abs_of_pos np] at e2
    have e2 := e2.trans (max_eq_left (by positivity : (0:ℝ) ≤ |lat' - lat| * n)).le
    nlinarith [mul_le_mul_of_nonneg_left e1 L0, mul_le_mul_of_nonneg_left e2 L0]

/-- **C137** is false: on the last half post west of a border the elevation is that of the border, on the border it is the mean of the border and of the
next post east of it.  The same happens at the other borders. -/
theorem srtm_seam (lib : Lib) (h1 : ∀ x, lib.angles.deg (lib.angles.rad x) = x) (h2 : ∀ x, lib.angles.rad (lib.angles.deg x) = x)
    (t : Verif.DemTileSet.Srtm) (open' : List Char → Option Raster) (dir : List Char) (n : Nat) (hn : 0 < n) (Z : ℤ → ℤ → ℝ) (k : ℤ) (lat z : ℝ)
    (hwest : HasFile t open' dir n Z (k - 1) ⌊lat⌋) (heast : HasFile t open' dir n Z k ⌊lat⌋) (ε : ℝ) (hε : 0 < ε) (hs : ε ≤ 1 / (2 * n))
    (cap : Int) (before : List (Query ℝ)) :
    ∃ q border next, |q - lat * n| ≤ 1 / 2 ∧ border = grid Z (k * n) q ∧ next = grid Z (k * n + 1) q ∧
      elevationOf (terrain lib (srtmTiles t lib.angles) open' dir) cap before (place lib.angles (k - ε) lat z) =
        .ok (.coordinate (place lib.angles (k - ε) lat border)) ∧
      elevationOf (terrain lib (srtmTiles t lib.angles) open' dir) cap before (place lib.angles k lat z) =
        .ok (.coordinate (place lib.angles k lat ((border + next) / 2))) := by
  have np : (1:ℝ) ≤ n := by exact_mod_cast hn
  have half : ε * n ≤ 1 / 2 := by
    have := mul_le_mul_of_nonneg_right hs (by linarith : (0:ℝ) ≤ n)
    have e : 1 / (2 * (n:ℝ)) * n = 1 / 2 := by field_simp
    rwa [e] at this
  have ε1 : ε ≤ 1 / 2 := by nlinarith
  have fw : ⌊(k:ℝ) - ε⌋ = k - 1 := by rw [Int.floor_eq_iff]; push_cast; constructor <;> linarith
  have o2 : 0 ≤ min (1 / 2) ((lat - ⌊lat⌋) * (n:ℝ)) := le_min (by norm_num) (mul_nonneg (by linarith [Int.floor_le lat]) (by linarith))
  refine ⟨lat * n - min (1 / 2) ((lat - ⌊lat⌋) * n), _, _, ?_, rfl, rfl, ?_, ?_⟩
  · rw [sub_sub_cancel_left, abs_neg, abs_of_nonneg o2]; exact min_le_left _ _
  · rw [srtm_elevation_partial lib h1 h2 t open' dir n hn Z (k - ε) lat z (by rw [fw]; exact hwest) cap before, fw]
    congr 4
    push_cast
    have : ((k:ℝ) - 1 + 1 - (k - ε)) * n = ε * n := by ring
    rw [this, min_eq_right half]
    ring
  · rw [srtm_elevation_partial lib h1 h2 t open' dir n hn Z k lat z (by rw [Int.floor_intCast]; exact heast) cap before, Int.floor_intCast]
    congr 3
    have : ((k:ℝ) + 1 - k) * n = n := by ring
    rw [this, min_eq_left (by linarith)]
    set q := lat * n - min (1 / 2) ((lat - ⌊lat⌋) * n) with hq
    have eq : q = ((⌊q⌋ : ℤ):ℝ) + (q - ⌊q⌋) := by ring
    have q01 : 0 ≤ q - ⌊q⌋ ∧ q - ⌊q⌋ ≤ 1 := ⟨sub_nonneg.mpr (Int.floor_le q), by linarith [(Int.lt_floor_add_one q).le]⟩
    have g : ∀ u : ℝ, 0 ≤ u ∧ u ≤ 1 → grid Z ((k:ℝ) * n + u) q = (1 - u) * (1 - (q - ⌊q⌋)) * Z (k * n) ⌊q⌋ + u * (1 - (q - ⌊q⌋)) * Z (k * n + 1) ⌊q⌋ +
        (1 - u) * (q - ⌊q⌋) * Z (k * n) (⌊q⌋ + 1) + u * (q - ⌊q⌋) * Z (k * n + 1) (⌊q⌋ + 1) := by
      intro u hu
      have := grid_eq Z (k * n) ⌊q⌋ u (q - ⌊q⌋) hu q01
      push_cast at this
      rw [← eq] at this
      exact this
    have g0 := g 0 (by norm_num)
    rw [add_zero] at g0
    rw [g0, g (1 / 2) (by norm_num), g 1 (by norm_num)]
    ring

/-! ## Two cells of a slope -/

/-- The file of a slope of one metre per post towards the east, two posts per degree. -/
noncomputable def slopeFile (a b : ℤ) : Raster :=
  ⟨some [(a : ℝ) - 1 / (2 * (2 : ℕ)), 1 / (2 : ℕ), 0, (b : ℝ) + 1 + 1 / (2 * (2 : ℕ)), 0, -(1 / (2 : ℕ))], none, ⟨3, 3, fun i _ => ((a * 2 + i : ℤ) : ℝ)⟩, (0, 0), none⟩

def names : Verif.DemTileSet.Srtm := ⟨[], "1arc_v3".toList, ".tif".toList⟩
def nameWest : List Char := "n00_e000_1arc_v3.tif".toList
def nameEast : List Char := "n00_e001_1arc_v3.tif".toList

noncomputable def slopeFiles (l : List Char) : Option Raster :=
  if l = tileLocation ['d'] nameWest then some (slopeFile 0 0) else if l = tileLocation ['d'] nameEast then some (slopeFile 1 0) else none

theorem slope_cell (a b : ℤ) : CellFile 2 (fun i _ => (i : ℝ)) a b (slopeFile a b) := ⟨rfl, rfl, rfl, fun _ _ _ _ => rfl⟩

theorem slope_west : HasFile names slopeFiles ['d'] 2 (fun i _ => (i : ℝ)) 0 0 :=
  ⟨nameWest, slopeFile 0 0, by decide +kernel, by decide, by simp [slopeFiles], slope_cell 0 0⟩

theorem slope_east : HasFile names slopeFiles ['d'] 2 (fun i _ => (i : ℝ)) 1 0 :=
  ⟨nameEast, slopeFile 1 0, by decide +kernel, by decide, by rw [slopeFiles, if_neg (by decide +kernel), if_pos rfl], slope_cell 1 0⟩

theorem slope_gentle : Gentle 1 (fun i _ => (i : ℝ)) := by intro i j; simp

theorem grid_slope (x y : ℝ) : grid (fun i _ => (i : ℝ)) x y = x := by unfold grid; push_cast; ring

/-- **C137** is false for a plain slope: next to the border at 1° east, however near, the elevation is 2 m, on the border it is 2.5 m. -/
theorem slope_has_a_step (ε : ℝ) (hε : 0 < ε) (hs : ε ≤ 1 / 4) (cap : Int) (before : List (Query ℝ)) :
    elevationOf (terrain plainLib (srtmTiles names plainLib.angles) slopeFiles ['d']) cap before ⟨1 - ε, 1 / 2, 0⟩ = .ok (.coordinate ⟨1 - ε, 1 / 2, 2⟩) ∧
    elevationOf (terrain plainLib (srtmTiles names plainLib.angles) slopeFiles ['d']) cap before ⟨1, 1 / 2, 0⟩ = .ok (.coordinate ⟨1, 1 / 2, 5 / 2⟩) := by
  have f : ⌊(1 / 2 : ℝ)⌋ = 0 := by norm_num
  obtain ⟨q, b, m, -, hb, hm, e1, e2⟩ := srtm_seam plainLib (fun _ => rfl) (fun _ => rfl) names slopeFiles ['d'] 2 (by norm_num) (fun i _ => (i : ℝ)) 1 (1 / 2) 0
    (by rw [f]; exact slope_west) (by rw [f]; exact slope_east) ε hε (by push_cast; linarith) cap before
  rw [grid_slope] at hb hm
  subst hb hm
  simp only [place, plainLib, plainAngles, id] at e1 e2 ⊢
  push_cast at e1 e2
  refine ⟨by rw [e1]; norm_num, by rw [e2]; norm_num⟩

/-- The premises of `srtm_steepness_partial` are met. -/
example : ∃ e e', elevationOf (terrain plainLib (srtmTiles names plainLib.angles) slopeFiles ['d']) 10 [] ⟨1 / 2, 1 / 2, 0⟩ = .ok (.coordinate ⟨1 / 2, 1 / 2, e⟩) ∧
    elevationOf (terrain plainLib (srtmTiles names plainLib.angles) slopeFiles ['d']) 10 [] ⟨3 / 2, 1 / 2, 0⟩ = .ok (.coordinate ⟨3 / 2, 1 / 2, e'⟩) ∧ |e' - e| ≤ 3 := by
  have f : ⌊(1 / 2 : ℝ)⌋ = 0 := by norm_num
  have f' : ⌊(3 / 2 : ℝ)⌋ = 1 := by norm_num
  obtain ⟨e, e', h, h', -, hd, -⟩ := srtm_steepness_partial plainLib (fun _ => rfl) (fun _ => rfl) names slopeFiles ['d'] 2 (by norm_num) (fun i _ => (i : ℝ)) 1 slope_gentle
    (1 / 2) (1 / 2) 0 (3 / 2) (1 / 2) 0 (by rw [f]; exact slope_west) (by rw [f, f']; exact slope_east) 10 []
  refine ⟨e, e', h, h', hd.trans ?_⟩
  norm_num

end Verif.Props.Seams
