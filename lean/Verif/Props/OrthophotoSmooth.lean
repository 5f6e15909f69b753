import Verif.Props.OrthophotoNear

/-!
# Orthophoto tiles of smooth projections
-/

namespace Verif.Props.OrthophotoSmooth

open Verif.Orthophoto Verif.TileFactory Verif.GdalUtils Verif.Updaters
open Verif.Props.Tre (bind_ok pure_ok mapM_ok)
open Verif.Props.TileFactory Verif.Props.Orthophoto
open Verif.Props.OrthophotoNear

/-! ## What it has to be -/

/-- Between `a` and `b` the function leaves its chord by no more than a parabola with second derivative `M` does. -/
def Bends (M : ℚ) (f : ℚ → ℚ) (a b : ℚ) : Prop :=
  ∀ t : ℚ, 0 ≤ t → t ≤ 1 → |(1 - t) * f a + t * f b - f ((1 - t) * a + t * b)| ≤ M / 2 * (t * (1 - t) * (b - a) ^ 2)

/-- The sensor model projects the ground of the tile at the elevation used, to positions that bend by at most `M` along parallels and by at most `N` along meridians. -/
structure SmoothProjection (S : Sensor) (elevation minLon minLat maxLon maxLat : ℚ) (tx ty : ℚ → ℚ → ℚ) (M N : ℚ) : Prop where
  projects : ∀ lon lat, minLon ≤ lon → lon ≤ maxLon → minLat ≤ lat → lat ≤ maxLat → S.toImage (lon, lat, elevation) = .ok (tx lon lat, ty lon lat)
  parallels : ∀ lon lon' lat, minLon ≤ lon → lon ≤ maxLon → minLon ≤ lon' → lon' ≤ maxLon → minLat ≤ lat → lat ≤ maxLat →
    Bends M (fun x => tx x lat) lon lon' ∧ Bends M (fun x => ty x lat) lon lon'
  meridians : ∀ lon lat lat', minLon ≤ lon → lon ≤ maxLon → minLat ≤ lat → lat ≤ maxLat → minLat ≤ lat' → lat' ≤ maxLat →
    Bends N (fun y => tx lon y) lat lat' ∧ Bends N (fun y => ty lon y) lat lat'

/-! ## The grid -/

theorem bend_half {M : ℚ} (hM : 0 ≤ M) {f : ℚ → ℚ} {a b s : ℚ} (h : Bends M f a b) (hs : (b - a) ^ 2 = s ^ 2 / 4) (t : ℚ) (t0 : 0 ≤ t) (t1 : t ≤ 1) :
    |(1 - t) * f a + t * f b - f ((1 - t) * a + t * b)| ≤ M * s ^ 2 / 32 := by
  refine (h t t0 t1).trans ?_
  have q : t * (1 - t) ≤ 1 / 4 := by nlinarith [sq_nonneg (t - 1 / 2)]
  rw [hs]
  have m := mul_le_mul_of_nonneg_right q (show 0 ≤ s ^ 2 / 4 by positivity)
  have := mul_le_mul_of_nonneg_left m (show 0 ≤ M / 2 by linarith)
  linarith

/-- One line of the grid. -/
theorem line_close {M : ℚ} (hM : 0 ≤ M) (f : ℚ → ℚ) (a b : ℚ) (n i : Nat) (hn : 2 ≤ n) (hi : i < n) (h : ∀ p q : Fin 3, Bends M f (linspace3 a b p) (linspace3 a b q)) :
    |lin3 (((n : ℚ) - 1) / 2) (f (linspace3 a b 0)) (f (linspace3 a b 1)) (f (linspace3 a b 2)) i - f (along a b n i)| ≤ M * (b - a) ^ 2 / 32 := by
  have n2 : (2 : ℚ) ≤ n := by exact_mod_cast hn
  have i1 : (i : ℚ) + 1 ≤ n := by exact_mod_cast hi
  have i0 : (0 : ℚ) ≤ i := by positivity
  obtain ⟨e0, e1, e2⟩ := linspace3_values a b
  have h01 := h 0 1
  have h12 := h 1 2
  rw [e0, e1] at h01
  rw [e1, e2] at h12
  rw [e0, e1, e2]
  have en : (n : ℚ) - 1 = 2 * (((n : ℚ) - 1) / 2) := by ring
  have m0 : 0 < ((n : ℚ) - 1) / 2 := by linarith
  have im : (i : ℚ) ≤ 2 * (((n : ℚ) - 1) / 2) := by linarith
  have al : along a b n i = a + (b - a) * i / (2 * (((n : ℚ) - 1) / 2)) := by unfold along; rw [← en]
  rw [al]
  generalize ((n : ℚ) - 1) / 2 = m at *
  unfold lin3
  by_cases c : (i : ℚ) ≤ m
  · rw [if_pos c]
    have k := bend_half hM h01 (s := b - a) (by ring) (i / m) (by positivity) (by rw [div_le_one m0]; exact c)
    have p : (1 - (i : ℚ) / m) * a + i / m * (a + (b - a) / 2) = a + (b - a) * i / (2 * m) := by field_simp; ring
    rw [p] at k
    have q : f a + (f (a + (b - a) / 2) - f a) * (i / m) = (1 - (i : ℚ) / m) * f a + i / m * f (a + (b - a) / 2) := by ring
    rw [q]
    exact k
  · rw [if_neg c]
    have k := bend_half hM h12 (s := b - a) (by ring) ((i - m) / m) (div_nonneg (by linarith) m0.le) (by rw [div_le_one m0]; linarith)
    have p : (1 - ((i : ℚ) - m) / m) * (a + (b - a) / 2) + (i - m) / m * b = a + (b - a) * i / (2 * m) := by field_simp; ring
    rw [p] at k
    have q : f (a + (b - a) / 2) + (f b - f (a + (b - a) / 2)) * ((i - m) / m) = (1 - ((i : ℚ) - m) / m) * f (a + (b - a) / 2) + (i - m) / m * f b := by ring
    rw [q]
    exact k

/-- The whole grid. -/
theorem mix_close {M N : ℚ} (hM : 0 ≤ M) (hN : 0 ≤ N) (t : ℚ → ℚ → ℚ) (minLon minLat maxLon maxLat : ℚ) (n i j : Nat) (hn : 2 ≤ n) (hi : i < n) (hj : j < n) (u v : Fin 3 → ℚ) (hu : LineWeights n i u)
    (hv : LineWeights n j v) (hx : ∀ p q r : Fin 3, Bends M (fun x => t x (linspace3 maxLat minLat r)) (linspace3 minLon maxLon p) (linspace3 minLon maxLon q))
    (hy : ∀ p q : Fin 3, Bends N (fun y => t (along minLon maxLon n j) y) (linspace3 maxLat minLat p) (linspace3 maxLat minLat q)) :
    |mix u v (grid t minLon minLat maxLon maxLat) - t (along minLon maxLon n j) (along maxLat minLat n i)| ≤ M * (maxLon - minLon) ^ 2 / 32 + N * (maxLat - minLat) ^ 2 / 32 := by
  have inner : ∀ r : Fin 3, |v 0 * t (linspace3 minLon maxLon 0) (linspace3 maxLat minLat r) + v 1 * t (linspace3 minLon maxLon 1) (linspace3 maxLat minLat r) +
      v 2 * t (linspace3 minLon maxLon 2) (linspace3 maxLat minLat r) - t (along minLon maxLon n j) (linspace3 maxLat minLat r)| ≤ M * (maxLon - minLon) ^ 2 / 32 := by
    intro r
    have := line_close hM (fun x => t x (linspace3 maxLat minLat r)) minLon maxLon n j hn hj (fun p q => hx p q r)
    rw [hv.2] at this
    exact this
  have outer := line_close hN (fun y => t (along minLon maxLon n j) y) maxLat minLat n i hn hi hy
  rw [hu.2] at outer
  rw [show (minLat - maxLat) ^ 2 = (maxLat - minLat) ^ 2 by ring] at outer
  have o := abs_le.1 outer
  have w := hu.1
  have a0 := abs_le.1 (inner 0)
  have a1 := abs_le.1 (inner 1)
  have a2 := abs_le.1 (inner 2)
  have b0 := mul_le_mul_of_nonneg_left a0.1 (w.nonneg 0)
  have b1 := mul_le_mul_of_nonneg_left a1.1 (w.nonneg 1)
  have b2 := mul_le_mul_of_nonneg_left a2.1 (w.nonneg 2)
  have c0 := mul_le_mul_of_nonneg_left a0.2 (w.nonneg 0)
  have c1 := mul_le_mul_of_nonneg_left a1.2 (w.nonneg 1)
  have c2 := mul_le_mul_of_nonneg_left a2.2 (w.nonneg 2)
  have tot := w.total
  have e : ∀ ε : ℚ, u 0 * ε + u 1 * ε + u 2 * ε = ε := fun ε => by rw [← add_mul, ← add_mul, tot, one_mul]
  have e1 := e (M * (maxLon - minLon) ^ 2 / 32)
  have e2 := e (-(M * (maxLon - minLon) ^ 2 / 32))
  simp only [mix, grid]
  rw [abs_le]
  constructor <;> linarith

theorem smooth_follows {S : Sensor} {elevation minLon minLat maxLon maxLat : ℚ} {tx ty : ℚ → ℚ → ℚ} {M N δ : ℚ} (hM : 0 ≤ M) (hN : 0 ≤ N)
    (hS : SmoothProjection S elevation minLon minLat maxLon maxLat tx ty M N) (hlon : minLon ≤ maxLon) (hlat : minLat ≤ maxLat) (n : Nat)
    (hδ : δ = (M * (maxLon - minLon) ^ 2 + N * (maxLat - minLat) ^ 2) / 64) : GridFollows S elevation minLon minLat maxLon maxLat n tx ty δ := by
  refine ⟨hS.projects, fun hn i j u v hi hj hu hv lon lat elon elat => ?_⟩
  have lons : ∀ k : Fin 3, minLon ≤ linspace3 minLon maxLon k ∧ linspace3 minLon maxLon k ≤ maxLon := fun k => ⟨(linspace3_inside minLon maxLon hlon k).1, (linspace3_inside minLon maxLon hlon k).2.1⟩
  have lats : ∀ k : Fin 3, minLat ≤ linspace3 maxLat minLat k ∧ linspace3 maxLat minLat k ≤ maxLat := fun k => (linspace3_inside minLat maxLat hlat k).2.2
  have hlonin := along_inside minLon maxLon hlon n j hn hj
  have px := fun p q r : Fin 3 => hS.parallels _ _ _ (lons p).1 (lons p).2 (lons q).1 (lons q).2 (lats r).1 (lats r).2
  have py := fun p q : Fin 3 => hS.meridians _ _ _ hlonin.1 hlonin.2.1 (lats p).1 (lats p).2 (lats q).1 (lats q).2
  have e : 2 * δ = M * (maxLon - minLon) ^ 2 / 32 + N * (maxLat - minLat) ^ 2 / 32 := by rw [hδ]; ring
  rw [e, elon, elat]
  exact ⟨mix_close hM hN tx minLon minLat maxLon maxLat n i j hn hi hj u v hu hv (fun p q r => (px p q r).1) (fun p q => (py p q).1),
    mix_close hM hN ty minLon minLat maxLon maxLat n i j hn hi hj u v hu hv (fun p q r => (px p q r).2) (fun p q => (py p q).2)⟩

/-! ## Tiles -/

/-- **C179**: C120 for smooth projections of grey images.  The positions follow the projection up to `2 δ`, a thirty-second of the second derivatives times the squares of the sides of the tile. -/
theorem grey_tile_smooth (R : Raster) (hb : R.bands = 1) (S : Sensor) (adj : Adjust) (hadj : adj = .minmax ∨ adj = .dra) (sar : Channel → Channel → Except PyErr Channel)
    (sample : Nat → Nat → Channel → ℚ → ℚ → Int) (hsample : Interpolates sample)
    (minLon minLat maxLon maxLat : ℚ) (hlon : minLon ≤ maxLon) (hlat : minLat ≤ maxLat) (n : Nat) (g : ℚ × ℚ × ℚ) (hg : S.toWorld ((R.height : ℚ) / 2, (R.width : ℚ) / 2) = .ok g)
    (tx ty : ℚ → ℚ → ℚ) (M N δ : ℚ) (hM : 0 ≤ M) (hN : 0 ≤ N) (hS : SmoothProjection S g.2.2 minLon minLat maxLon maxLat tx ty M N)
    (hδ : δ = (M * (maxLon - minLon) ^ 2 + N * (maxLat - minLat) ^ 2) / 64)
    (rows : List (List Rgba)) (h : createOrthophotoTile R S adj sar sample minLon minLat maxLon maxLat n n = .ok (some rows)) :
    rows.length = n ∧ (∀ row ∈ rows, row.length = n) ∧
    ∃ (r : Nat) (X0 Y0 X1 Y1 : Int) (ps : List ℚ) (f : ℚ → Int), r ≤ R.overviews ∧ (0 ≤ X0 ∧ X0 < X1 ∧ X1 * 2 ^ r ≤ R.width) ∧ (0 ≤ Y0 ∧ Y0 < Y1 ∧ Y1 * 2 ^ r ≤ R.height) ∧
      WindowValues R 1 r X0 Y0 X1 Y1 ps ∧ Adjusted adj R 1 ps f ∧
      ∀ (i j : Nat) (lon lat : ℚ), i < n → j < n → lon = along minLon maxLon n j → lat = along maxLat minLat n i →
        2 * δ ≤ tx lon lat → tx lon lat ≤ R.width - 2 * δ → 2 * δ ≤ ty lon lat → ty lon lat ≤ R.height - 2 * δ →
        ∃ row p, rows[i]? = some row ∧ row[j]? = some p ∧ NearValue (fun X Y => f (R.pixel 1 r X Y)) r δ (tx lon lat) (ty lon lat) X0 Y0 X1 Y1 p.red ∧
          p.green = p.red ∧ p.blue = p.red ∧ p.alpha = if p.red = 0 then 0 else 255 :=
  grey_tile_follows R hb S adj hadj sar sample hsample minLon minLat maxLon maxLat hlon hlat n g hg tx ty δ (smooth_follows hM hN hS hlon hlat n hδ) rows h

/-- **C179**: the same for images of three bands or more. -/
theorem colour_tile_smooth (R : Raster) (hb : 3 ≤ R.bands) (S : Sensor) (adj : Adjust) (hadj : adj = .minmax ∨ adj = .dra) (sar : Channel → Channel → Except PyErr Channel)
    (sample : Nat → Nat → Channel → ℚ → ℚ → Int) (hsample : Interpolates sample)
    (minLon minLat maxLon maxLat : ℚ) (hlon : minLon ≤ maxLon) (hlat : minLat ≤ maxLat) (n : Nat) (g : ℚ × ℚ × ℚ) (hg : S.toWorld ((R.height : ℚ) / 2, (R.width : ℚ) / 2) = .ok g)
    (tx ty : ℚ → ℚ → ℚ) (M N δ : ℚ) (hM : 0 ≤ M) (hN : 0 ≤ N) (hS : SmoothProjection S g.2.2 minLon minLat maxLon maxLat tx ty M N)
    (hδ : δ = (M * (maxLon - minLon) ^ 2 + N * (maxLat - minLat) ^ 2) / 64)
    (rows : List (List Rgba)) (h : createOrthophotoTile R S adj sar sample minLon minLat maxLon maxLat n n = .ok (some rows)) :
    rows.length = n ∧ (∀ row ∈ rows, row.length = n) ∧
    ∃ (r : Nat) (X0 Y0 X1 Y1 : Int) (ps1 ps2 ps3 : List ℚ) (f1 f2 f3 : ℚ → Int), r ≤ R.overviews ∧ (0 ≤ X0 ∧ X0 < X1 ∧ X1 * 2 ^ r ≤ R.width) ∧ (0 ≤ Y0 ∧ Y0 < Y1 ∧ Y1 * 2 ^ r ≤ R.height) ∧
      WindowValues R 1 r X0 Y0 X1 Y1 ps1 ∧ WindowValues R 2 r X0 Y0 X1 Y1 ps2 ∧ WindowValues R 3 r X0 Y0 X1 Y1 ps3 ∧ Adjusted adj R 1 ps1 f1 ∧ Adjusted adj R 2 ps2 f2 ∧ Adjusted adj R 3 ps3 f3 ∧
      ∀ (i j : Nat) (lon lat : ℚ), i < n → j < n → lon = along minLon maxLon n j → lat = along maxLat minLat n i →
        2 * δ ≤ tx lon lat → tx lon lat ≤ R.width - 2 * δ → 2 * δ ≤ ty lon lat → ty lon lat ≤ R.height - 2 * δ →
        ∃ row p, rows[i]? = some row ∧ row[j]? = some p ∧
          NearValue (fun X Y => f1 (R.pixel 1 r X Y)) r δ (tx lon lat) (ty lon lat) X0 Y0 X1 Y1 p.blue ∧
          NearValue (fun X Y => f2 (R.pixel 2 r X Y)) r δ (tx lon lat) (ty lon lat) X0 Y0 X1 Y1 p.green ∧
          NearValue (fun X Y => f3 (R.pixel 3 r X Y)) r δ (tx lon lat) (ty lon lat) X0 Y0 X1 Y1 p.red ∧
          p.alpha = if p.blue = 0 ∨ p.green = 0 ∨ p.red = 0 then 0 else 255 :=
  colour_tile_follows R hb S adj hadj sar sample hsample minLon minLat maxLon maxLat hlon hlat n g hg tx ty δ (smooth_follows hM hN hS hlon hlat n hδ) rows h

/-! ## A case: the bent projection of C120 -/

/-- Its second derivative is a twentieth, so over two degrees the grid is off by no more than a hundred and sixtieth of a pixel; C120 allows for a fifth. -/
theorem bent_smooth : SmoothProjection bent 2 1 (-2) 3 0 (fun lon _ => lon + lon * (4 - lon) / 40) (fun _ lat => -lat) (1 / 20) 0 where
  projects _ _ _ _ _ _ := rfl
  parallels lon lon' lat _ _ _ _ _ _ := by
    constructor <;> intro t t0 t1
    · rw [show (1 - t) * (lon + lon * (4 - lon) / 40) + t * (lon' + lon' * (4 - lon') / 40) - ((1 - t) * lon + t * lon' + ((1 - t) * lon + t * lon') * (4 - ((1 - t) * lon + t * lon')) / 40) =
        -(1 / 20 / 2 * (t * (1 - t) * (lon' - lon) ^ 2)) by ring, abs_neg, abs_of_nonneg]
      have : 0 ≤ t * (1 - t) := mul_nonneg t0 (by linarith)
      positivity
    · rw [show (1 - t) * -lat + t * -lat - -lat = 0 by ring, abs_zero]
      have : 0 ≤ t * (1 - t) := mul_nonneg t0 (by linarith)
      positivity
  meridians lon lat lat' _ _ _ _ _ _ := by
    constructor <;> intro t t0 t1
    · rw [show (1 - t) * (lon + lon * (4 - lon) / 40) + t * (lon + lon * (4 - lon) / 40) - (lon + lon * (4 - lon) / 40) = 0 by ring]
      simp
    · rw [show (1 - t) * -lat + t * -lat' - -((1 - t) * lat + t * lat') = 0 by ring]
      simp

example : 2 * (((1 : ℚ) / 20 * (3 - 1) ^ 2 + 0 * (0 - -2) ^ 2) / 64) = 1 / 160 := by norm_num

/-- The premises hold for the middle of the tile of 3 × 3 pixels, which exists (see the case of C120): its true position (2.1, 1) is far enough inside the image. -/
example : 2 * (1 / 320 : ℚ) ≤ 2 + 2 * (4 - 2) / 40 ∧ (2 + 2 * (4 - 2) / 40 : ℚ) ≤ (small.width : ℚ) - 2 * (1 / 320) ∧ (- -1 : ℚ) ≤ (small.height : ℚ) - 2 * (1 / 320) := by
  refine ⟨by norm_num, by norm_num [small], by norm_num [small]⟩

end Verif.Props.OrthophotoSmooth
