import Verif.Props.Orthophoto
import Mathlib.Algebra.BigOperators.Fin

/-!
# Orthophoto tiles show the neighbourhood of the true place, for every sensor model

`Props.Orthophoto` (C100) says what a tile shows where a position falls on a whole pixel, for affine sensor models.  Here the sensor model is arbitrary, the positions are arbitrary, and
the window that is read may start anywhere.
-/

namespace Verif.Props.OrthophotoNear

open Verif.Orthophoto Verif.TileFactory Verif.GdalUtils Verif.Updaters
open Verif.Props.Tre (bind_ok pure_ok mapM_ok)
open Verif.Props.TileFactory Verif.Props.Orthophoto

/-! ## Interpolation on the grid as a weighted mean -/

/-- Weights of the three grid lines for the position `s` (0 at the first line, 1 at the last). -/
structure Weights (u : Fin 3 → ℚ) (s : ℚ) : Prop where
  nonneg : ∀ k, 0 ≤ u k
  total : u 0 + u 1 + u 2 = 1
  mean : u 1 + 2 * u 2 = 2 * s

/-- The weighted mean of a 3 × 3 grid. -/
def mix (u v : Fin 3 → ℚ) (z : Fin 3 → Fin 3 → ℚ) : ℚ :=
  u 0 * (v 0 * z 0 0 + v 1 * z 0 1 + v 2 * z 0 2) + u 1 * (v 0 * z 1 0 + v 1 * z 1 1 + v 2 * z 1 2) + u 2 * (v 0 * z 2 0 + v 1 * z 2 1 + v 2 * z 2 2)

theorem lin3_weights (m x : ℚ) (hm : 0 < m) (h0 : 0 ≤ x) (h1 : x ≤ 2 * m) :
    ∃ u : Fin 3 → ℚ, Weights u (x / (2 * m)) ∧ ∀ f0 f1 f2, lin3 m f0 f1 f2 x = u 0 * f0 + u 1 * f1 + u 2 * f2 := by
  by_cases hx : x ≤ m
  · refine ⟨![1 - x / m, x / m, 0], ⟨?_, by simp, ?_⟩, ?_⟩
    · have a : 0 ≤ x / m := div_nonneg h0 hm.le
      have b : x / m ≤ 1 := by rw [div_le_one hm]; exact hx
      intro k; fin_cases k <;> simp <;> linarith
    · simp; field_simp
    · intro f0 f1 f2
      unfold lin3
      rw [if_pos hx]
      simp; ring
  · refine ⟨![0, 1 - (x - m) / m, (x - m) / m], ⟨?_, by simp, ?_⟩, ?_⟩
    · have a : 0 ≤ (x - m) / m := div_nonneg (by linarith) hm.le
      have b : (x - m) / m ≤ 1 := by rw [div_le_one hm]; linarith
      intro k; fin_cases k <;> simp <;> linarith
    · simp; field_simp; ring
    · intro f0 f1 f2
      unfold lin3
      rw [if_neg hx]
      simp; ring

/-- Every entry of the array of positions is one weighted mean of the grid.  The weights of the rows depend only on the row, and those of the columns only on the column. -/
theorem remap_weights_of (n : Nat) (hn : 2 ≤ n) :
    ∃ w : Nat → Fin 3 → ℚ, (∀ i, i < n → Weights (w i) ((i : ℚ) / ((n : ℚ) - 1)) ∧ ∀ f0 f1 f2, lin3 (((n : ℚ) - 1) / 2) f0 f1 f2 i = w i 0 * f0 + w i 1 * f1 + w i 2 * f2) ∧
      ∀ i j, i < n → j < n → ∀ z rows, remapArray z n n = .ok rows → ∃ row, rows[i]? = some row ∧ row[j]? = some (mix (w i) (w j) z) := by
  have h2 : (2 : ℚ) ≤ n := by exact_mod_cast hn
  have em : 2 * (((n : ℚ) - 1) / 2) = (n : ℚ) - 1 := by ring
  have one : ∀ i : Nat, ∃ u : Fin 3 → ℚ, i < n → Weights u ((i : ℚ) / ((n : ℚ) - 1)) ∧ ∀ f0 f1 f2, lin3 (((n : ℚ) - 1) / 2) f0 f1 f2 i = u 0 * f0 + u 1 * f1 + u 2 * f2 := by
    intro i
    by_cases hi : i < n
    · have hi' : (i : ℚ) + 1 ≤ n := by exact_mod_cast hi
      obtain ⟨u, hu, fu⟩ := lin3_weights (((n : ℚ) - 1) / 2) i (by linarith) (by positivity) (by linarith)
      rw [em] at hu
      exact ⟨u, fun _ => ⟨hu, fu⟩⟩
    · exact ⟨fun _ => 0, fun h => absurd h hi⟩
  choose w hw using one
  refine ⟨w, hw, ?_⟩
  intro i j hi hj z rows hr
  unfold remapArray at hr
  rw [if_neg (by omega)] at hr
  injection hr with hr
  subst hr
  refine ⟨_, by rw [List.getElem?_map, List.getElem?_range hi, Option.map_some], ?_⟩
  rw [List.getElem?_map, List.getElem?_range hj, Option.map_some, (hw i hi).2, (hw j hj).2, (hw j hj).2, (hw j hj).2]
  rfl

theorem mean3 (u : Fin 3 → ℚ) (s : ℚ) (hu : Weights u s) (f0 f1 f2 lo hi : ℚ) (h0 : lo ≤ f0 ∧ f0 ≤ hi) (h1 : lo ≤ f1 ∧ f1 ≤ hi) (h2 : lo ≤ f2 ∧ f2 ≤ hi) :
    lo ≤ u 0 * f0 + u 1 * f1 + u 2 * f2 ∧ u 0 * f0 + u 1 * f1 + u 2 * f2 ≤ hi := by
  have e : ∀ m : ℚ, m = u 0 * m + u 1 * m + u 2 * m := by intro m; rw [← add_mul, ← add_mul, hu.total, one_mul]
  constructor
  · rw [e lo]
    exact add_le_add (add_le_add (mul_le_mul_of_nonneg_left h0.1 (hu.nonneg 0)) (mul_le_mul_of_nonneg_left h1.1 (hu.nonneg 1))) (mul_le_mul_of_nonneg_left h2.1 (hu.nonneg 2))
  · rw [e hi]
    exact add_le_add (add_le_add (mul_le_mul_of_nonneg_left h0.2 (hu.nonneg 0)) (mul_le_mul_of_nonneg_left h1.2 (hu.nonneg 1))) (mul_le_mul_of_nonneg_left h2.2 (hu.nonneg 2))

theorem mix_between (u v : Fin 3 → ℚ) (s t : ℚ) (hu : Weights u s) (hv : Weights v t) (z : Fin 3 → Fin 3 → ℚ) (lo hi : ℚ) (h : ∀ p q, lo ≤ z p q ∧ z p q ≤ hi) :
    lo ≤ mix u v z ∧ mix u v z ≤ hi :=
  mean3 u s hu _ _ _ lo hi (mean3 v t hv _ _ _ lo hi (h 0 0) (h 0 1) (h 0 2)) (mean3 v t hv _ _ _ lo hi (h 1 0) (h 1 1) (h 1 2)) (mean3 v t hv _ _ _ lo hi (h 2 0) (h 2 1) (h 2 2))

theorem mix_sub (u v : Fin 3 → ℚ) (z z' : Fin 3 → Fin 3 → ℚ) : mix u v (fun p q => z p q - z' p q) = mix u v z - mix u v z' := by
  unfold mix; ring

theorem mix_near (u v : Fin 3 → ℚ) (s t : ℚ) (hu : Weights u s) (hv : Weights v t) (z z' : Fin 3 → Fin 3 → ℚ) (δ : ℚ) (h : ∀ p q, |z p q - z' p q| ≤ δ) :
    |mix u v z - mix u v z'| ≤ δ := by
  rw [← mix_sub, abs_le]
  exact mix_between u v s t hu hv _ (-δ) δ (fun p q => abs_le.1 (h p q))

theorem mix_toRead (u v : Fin 3 → ℚ) (s t : ℚ) (hu : Weights u s) (hv : Weights v t) (z : Fin 3 → Fin 3 → ℚ) (start : Int) (r : Nat) :
    mix u v (fun p q => toRead start r (z p q)) = toRead start r (mix u v z) := by
  have a := hu.total
  have b := hv.total
  have hu0 : u 0 = 1 - u 1 - u 2 := by linarith
  have hv0 : v 0 = 1 - v 1 - v 2 := by linarith
  unfold mix toRead
  rw [hu0, hv0]
  field_simp
  ring

theorem mix_affine (u v : Fin 3 → ℚ) (n i j : Nat) (hu : Weights u ((i : ℚ) / ((n : ℚ) - 1))) (hv : Weights v ((j : ℚ) / ((n : ℚ) - 1))) (c0 c1 c2 a b a' b' : ℚ) :
    mix u v (fun p q => c0 + c1 * linspace3 a b q + c2 * linspace3 a' b' p) = c0 + c1 * along a b n j + c2 * along a' b' n i := by
  have hu0 : u 0 = 1 - u 1 - u 2 := by linarith [hu.total]
  have hv0 : v 0 = 1 - v 1 - v 2 := by linarith [hv.total]
  have ei : (b' - a') * (i : ℚ) / ((n : ℚ) - 1) = (b' - a') * ((i : ℚ) / ((n : ℚ) - 1)) := by ring
  have ej : (b - a) * (j : ℚ) / ((n : ℚ) - 1) = (b - a) * ((j : ℚ) / ((n : ℚ) - 1)) := by ring
  have mi : (i : ℚ) / ((n : ℚ) - 1) = (u 1 + 2 * u 2) / 2 := by rw [hu.mean]; ring
  have mj : (j : ℚ) / ((n : ℚ) - 1) = (v 1 + 2 * v 2) / 2 := by rw [hv.mean]; ring
  obtain ⟨x0, x1, x2⟩ := linspace3_values a b
  obtain ⟨y0, y1, y2⟩ := linspace3_values a' b'
  unfold mix along
  simp only [x0, x1, x2, y0, y1, y2]
  rw [ei, ej, mi, mj, hu0, hv0]
  ring

/-! ## Which pixels a sampling position can touch -/

/-- In one dimension: a pixel of the bordered window within one pixel of the sampling position of `x` is, after the repetition of the edge is undone, a pixel of the window less than two pixels of the level from `x`. -/
theorem touched (f0 f1 : Int) (r : Nat) (hlt : f0 / 2 ^ r < f1 / 2 ^ r) (x : ℚ) (hx0 : (f0 : ℚ) ≤ x) (hx1 : x ≤ f1) (K : Int)
    (hK : |(K : ℚ) - toRead f0 r x| ≤ 1) (X : Int) (hX : X = f0 / 2 ^ r + max 0 (min (K - 2) (f1 / 2 ^ r - f0 / 2 ^ r - 1))) :
    f0 / 2 ^ r ≤ X ∧ X < f1 / 2 ^ r ∧ |(X : ℚ) - x / 2 ^ r| < 2 := by
  have hp : (0 : Int) < 2 ^ r := by positivity
  have hq : (0 : ℚ) < 2 ^ r := by positivity
  have a0 : (2 ^ r : Int) * (f0 / 2 ^ r) ≤ f0 := Int.mul_ediv_self_le hp.ne'
  have a1 : f0 < 2 ^ r * (f0 / 2 ^ r) + 2 ^ r := Int.lt_mul_ediv_self_add hp
  have b0 : (2 ^ r : Int) * (f1 / 2 ^ r) ≤ f1 := Int.mul_ediv_self_le hp.ne'
  have b1 : f1 < 2 ^ r * (f1 / 2 ^ r) + 2 ^ r := Int.lt_mul_ediv_self_add hp
  generalize ho0 : f0 / 2 ^ r = o0 at *
  generalize ho1 : f1 / 2 ^ r = o1 at *
  have a0' : (o0 : ℚ) ≤ f0 / 2 ^ r := by
    have : ((2 ^ r * o0 : Int) : ℚ) ≤ f0 := by exact_mod_cast a0
    push_cast at this
    rw [le_div_iff₀ hq]; linarith
  have a1' : (f0 : ℚ) / 2 ^ r < o0 + 1 := by
    have : (f0 : ℚ) < ((2 ^ r * o0 + 2 ^ r : Int) : ℚ) := by exact_mod_cast a1
    push_cast at this
    rw [div_lt_iff₀ hq]; linarith
  have b1' : (f1 : ℚ) / 2 ^ r < o1 + 1 := by
    have : (f1 : ℚ) < ((2 ^ r * o1 + 2 ^ r : Int) : ℚ) := by exact_mod_cast b1
    push_cast at this
    rw [div_lt_iff₀ hq]; linarith
  have c0 : (f0 : ℚ) / 2 ^ r ≤ x / 2 ^ r := by gcongr
  have c1 : x / 2 ^ r ≤ (f1 : ℚ) / 2 ^ r := by gcongr
  have ht : toRead f0 r x = x / 2 ^ r - f0 / 2 ^ r + 2 := by unfold toRead; ring
  rw [ht, abs_le] at hK
  refine ⟨by omega, by omega, ?_⟩
  rw [abs_lt]
  rcases le_total (K - 2) 0 with hk | hk
  · have eX : X = o0 := by omega
    have hk' : (K : ℚ) - 2 ≤ 0 := by exact_mod_cast hk
    rw [eX]
    constructor <;> linarith [hK.1, hK.2]
  · have hk' : (0 : ℚ) ≤ (K : ℚ) - 2 := by exact_mod_cast hk
    rcases le_total (K - 2) (o1 - o0 - 1) with hl | hl
    · have eX : X = o0 + (K - 2) := by omega
      rw [eX]; push_cast
      constructor <;> linarith [hK.1, hK.2]
    · have eX : X = o1 - 1 := by omega
      have hl' : (o1 : ℚ) - o0 - 1 ≤ (K : ℚ) - 2 := by exact_mod_cast hl
      rw [eX]; push_cast
      constructor <;> linarith [hK.1, hK.2]

/-! ## What a tile pixel shows (C120) -/

/-- What is assumed of `cv2.remap` with linear interpolation: the value at a position inside the array lies between the least and the greatest of the pixels within one pixel of the position.  This allows for
its subpixel grid of 1/32 and its rounding.  (`Props.Remap` shows it of a model of `cv2.remap`.)  Only arrays that are small enough for `cv2.remap` matter. -/
def Interpolates (sample : Nat → Nat → Channel → ℚ → ℚ → Int) : Prop :=
  ∀ (w h : Nat) (c : Channel) (x y : ℚ) (lo hi : Int), w < 32767 → h < 32767 → 0 ≤ x → x ≤ (w : ℚ) - 1 → 0 ≤ y → y ≤ (h : ℚ) - 1 →
    (∀ X Y : Int, 0 ≤ X → X < w → 0 ≤ Y → Y < h → |(X : ℚ) - x| ≤ 1 → |(Y : ℚ) - y| ≤ 1 → lo ≤ c Y X ∧ c Y X ≤ hi) →
    lo ≤ sample w h c x y ∧ sample w h c x y ≤ hi

/-- The sensor model projects the ground of the tile at the elevation used, to positions that differ by at most `δ` from an affine function of longitude and latitude. -/
structure NearAffine (S : Sensor) (elevation minLon minLat maxLon maxLat : ℚ) (tx ty : ℚ → ℚ → ℚ) (δ : ℚ) : Prop where
  projects : ∀ lon lat, minLon ≤ lon → lon ≤ maxLon → minLat ≤ lat → lat ≤ maxLat → S.toImage (lon, lat, elevation) = .ok (tx lon lat, ty lon lat)
  affine : ∃ a0 a1 a2 b0 b1 b2 : ℚ, ∀ lon lat, minLon ≤ lon → lon ≤ maxLon → minLat ≤ lat → lat ≤ maxLat →
    |tx lon lat - (a0 + a1 * lon + a2 * lat)| ≤ δ ∧ |ty lon lat - (b0 + b1 * lon + b2 * lat)| ≤ δ

/-- A value lies between the values `f` of all pixels of a window of a level that are less than `2 + 2 δ / 2 ^ r` pixels of the level from the position (`x`, `y`) of the image. -/
def NearValue (f : Int → Int → Int) (r : Nat) (δ x y : ℚ) (X0 Y0 X1 Y1 : Int) (v : Int) : Prop :=
  ∀ lo hi : Int, (∀ X Y : Int, X0 ≤ X → X < X1 → Y0 ≤ Y → Y < Y1 → |(X : ℚ) - x / 2 ^ r| < 2 + 2 * δ / 2 ^ r → |(Y : ℚ) - y / 2 ^ r| < 2 + 2 * δ / 2 ^ r → lo ≤ f X Y ∧ f X Y ≤ hi) →
    lo ≤ v ∧ v ≤ hi

theorem linspace3_inside (a b : ℚ) (h : a ≤ b) (k : Fin 3) : a ≤ linspace3 a b k ∧ linspace3 a b k ≤ b ∧ a ≤ linspace3 b a k ∧ linspace3 b a k ≤ b := by
  obtain ⟨x0, x1, x2⟩ := linspace3_values a b
  obtain ⟨y0, y1, y2⟩ := linspace3_values b a
  match k with
  | 0 => rw [x0, y0]; exact ⟨le_refl _, h, h, le_refl _⟩
  | 1 => rw [x1, y1]; refine ⟨?_, ?_, ?_, ?_⟩ <;> linarith
  | 2 => rw [x2, y2]; exact ⟨h, le_refl _, le_refl _, h⟩

theorem along_inside (a b : ℚ) (h : a ≤ b) (n k : Nat) (hn : 2 ≤ n) (hk : k < n) : a ≤ along a b n k ∧ along a b n k ≤ b ∧ a ≤ along b a n k ∧ along b a n k ≤ b := by
  obtain ⟨t, h0, h1, e⟩ := along_share a b n k hn hk
  obtain ⟨t', h0', h1', e'⟩ := along_share b a n k hn hk
  rw [e, e']
  refine ⟨by nlinarith, by nlinarith, by nlinarith, by nlinarith⟩

/-- In one dimension: the sampling position of a position `z` of the window lies in the bordered array. -/
theorem toRead_inside (r : Nat) (f0 f1 o0 o1 : Int) (e0 : o0 = f0 / 2 ^ r) (e1 : o1 = f1 / 2 ^ r) (hlt : o0 < o1) (z : ℚ) (h0 : (f0 : ℚ) ≤ z) (h1 : z ≤ f1) :
    0 ≤ toRead f0 r z ∧ toRead f0 r z ≤ (((o1 - o0).toNat + 4 : Nat) : ℚ) - 1 := by
  have hpow : (0 : Int) < 2 ^ r := by positivity
  have hq : (0 : ℚ) < 2 ^ r := by positivity
  have a0 : (2 ^ r : Int) * o0 ≤ f0 := by rw [e0]; exact Int.mul_ediv_self_le hpow.ne'
  have b1 : f1 < 2 ^ r * o1 + 2 ^ r := by rw [e1]; exact Int.lt_mul_ediv_self_add hpow
  have a0' : ((2 : ℚ) ^ r) * o0 ≤ f0 := by exact_mod_cast a0
  have b1' : (f1 : ℚ) < 2 ^ r * o1 + 2 ^ r := by exact_mod_cast b1
  have hc : (((o1 - o0).toNat + 4 : Nat) : ℚ) = o1 - o0 + 4 := by
    have : (((o1 - o0).toNat + 4 : Nat) : Int) = o1 - o0 + 4 := by omega
    exact_mod_cast this
  rw [hc]
  unfold toRead
  constructor
  · have : 0 ≤ (z - f0) / 2 ^ r := div_nonneg (by linarith) hq.le
    linarith
  · have : (z - f0) / 2 ^ r ≤ o1 - o0 + 1 := by rw [div_le_iff₀ hq]; nlinarith
    linarith

/-- Where the pixels of a square tile come from: the window `o` that was read at level `r`, and for each pixel the position at which the displayed channels are sampled.  It is that of a weighted mean of the
projected grid; the weights depend only on the size of the tile. -/
theorem tile_positions (R : Raster) (S : Sensor) (adj : Adjust) (sar : Channel → Channel → Except PyErr Channel) (sample : Nat → Nat → Channel → ℚ → ℚ → Int)
    (minLon minLat maxLon maxLat : ℚ) (n : Nat) (w : Nat → Fin 3 → ℚ) (hw3 : ∀ i, i < n → Weights (w i) ((i : ℚ) / ((n : ℚ) - 1)))
    (hentries : ∀ i j, i < n → j < n → ∀ z rows, remapArray z n n = .ok rows → ∃ row, rows[i]? = some row ∧ row[j]? = some (mix (w i) (w j) z))
    (g : ℚ × ℚ × ℚ) (hg : S.toWorld ((R.height : ℚ) / 2, (R.width : ℚ) / 2) = .ok g) (tx ty : ℚ → ℚ → ℚ)
    (hS : ∀ p q : Fin 3, S.toImage (linspace3 minLon maxLon q, linspace3 maxLat minLat p, g.2.2) =
      .ok (tx (linspace3 minLon maxLon q) (linspace3 maxLat minLat p), ty (linspace3 minLon maxLon q) (linspace3 maxLat minLat p)))
    (rows : List (List Rgba)) (h : createOrthophotoTile R S adj sar sample minLon minLat maxLon maxLat n n = .ok (some rows)) :
    rows.length = n ∧ (∀ row ∈ rows, row.length = n) ∧
    ∃ (b full o : Box) (r : Nat) (cs : List Channel), r ≤ R.overviews ∧
      (full.x0 = max b.x0 0 ∧ full.x1 = min b.x1 R.width ∧ full.y0 = max b.y0 0 ∧ full.y1 = min b.y1 R.height) ∧
      (0 ≤ full.x0 ∧ 0 ≤ full.x1 ∧ 0 ≤ full.y0 ∧ 0 ≤ full.y1) ∧
      (o.x0 = full.x0 / 2 ^ r ∧ o.x1 = full.x1 / 2 ^ r ∧ o.y0 = full.y0 / 2 ^ r ∧ o.y1 = full.y1 / 2 ^ r) ∧ o.x0 < o.x1 ∧ o.y0 < o.y1 ∧
      (o.x1 - o.x0).toNat + 4 < 32767 ∧ (o.y1 - o.y0).toNat + 4 < 32767 ∧
      display adj R sar (o.x1 - o.x0).toNat (o.y1 - o.y0).toNat ((List.range R.bands).map (fun k => readBand R r o (k + 1))) = .ok cs ∧
      ∀ (i j : Nat) (x y : ℚ), i < n → j < n → x = mix (w i) (w j) (grid tx minLon minLat maxLon maxLat) → y = mix (w i) (w j) (grid ty minLon minLat maxLon maxLat) →
        (b.x0 : ℚ) ≤ x ∧ x ≤ b.x1 ∧ (b.y0 : ℚ) ≤ y ∧ y ≤ b.y1 ∧
        ∃ row p, rows[i]? = some row ∧ row[j]? = some p ∧
          outputPixel sample (o.x1 - o.x0).toNat (o.y1 - o.y0).toNat cs (toRead full.x0 r x, toRead full.y0 r y) = .ok p := by
  obtain ⟨g', zs, b, full, r, o, hg', hz, hb, hw, hr⟩ := create_ok R S adj sar sample minLon minLat maxLon maxLat n n rows h
  have : g' = g := by rw [hg] at hg'; injection hg' with e; exact e.symm
  subst this
  have hzs : zs = gridIndices.map (fun ij => (tx (linspace3 minLon maxLon ij.2) (linspace3 maxLat minLat ij.1), ty (linspace3 minLon maxLon ij.2) (linspace3 maxLat minLat ij.1))) := by
    unfold projectGrid project at hz
    rw [mapM_of_ok _ (fun ij => (tx (linspace3 minLon maxLon ij.2) (linspace3 maxLat minLat ij.1), ty (linspace3 minLon maxLon ij.2) (linspace3 maxLat minLat ij.1))) gridIndices
      (fun ij _ => hS ij.1 ij.2)] at hz
    injection hz with hz
    exact hz.symm
  obtain ⟨hox, hoy, cs, m1, m2, hcs, hm1, hm2, hrows⟩ := render_ok R adj sar sample zs n n full r o rows hr
  obtain ⟨hn, _, hl1, hr1⟩ := remapArray_ok _ _ _ _ hm1
  obtain ⟨_, _, hl2, hr2⟩ := remapArray_ok _ _ _ _ hm2
  obtain ⟨hlen, hget⟩ := mapM_getElem? _ _ _ hrows
  have hl : rows.length = n := by rw [hlen, List.length_zip, hl1, hl2]; simp
  obtain ⟨_, ⟨l, _, hrl⟩, hfull, ho⟩ := readWindow_ok _ _ _ _ _ _ _ _ hw
  have hbox := (source_box_tight (zs.map Prod.fst) (zs.map Prod.snd)).2 b hb
  have fx0 : full.x0 = max b.x0 0 := by rw [hfull]; rfl
  have fy0 : full.y0 = max b.y0 0 := by rw [hfull]; rfl
  have fx1 : full.x1 = min b.x1 R.width := by rw [hfull]; rfl
  have fy1 : full.y1 = min b.y1 R.height := by rw [hfull]; rfl
  have hpow : (0 : Int) < 2 ^ r := by positivity
  have d0 : o.x0 = full.x0.tdiv (2 ^ r) ∧ o.y0 = full.y0.tdiv (2 ^ r) ∧ o.x1 = full.x1.tdiv (2 ^ r) ∧ o.y1 = full.y1.tdiv (2 ^ r) := by
    rw [ho]; exact ⟨rfl, rfl, rfl, rfl⟩
  have nx0 : 0 ≤ full.x0 := by rw [fx0]; exact le_max_right _ _
  have ny0 : 0 ≤ full.y0 := by rw [fy0]; exact le_max_right _ _
  have nx1 : 0 ≤ full.x1 := by
    by_contra hneg
    have h1 : full.x1.tdiv (2 ^ r) ≤ 0 := by
      rw [show full.x1 = -(-full.x1) by ring, Int.neg_tdiv]
      have := Int.tdiv_nonneg (a := -full.x1) (b := 2 ^ r) (by omega) hpow.le
      omega
    have h2 : 0 ≤ full.x0.tdiv (2 ^ r) := Int.tdiv_nonneg nx0 hpow.le
    have := d0.1; have := d0.2.2.1; omega
  have ny1 : 0 ≤ full.y1 := by
    by_contra hneg
    have h1 : full.y1.tdiv (2 ^ r) ≤ 0 := by
      rw [show full.y1 = -(-full.y1) by ring, Int.neg_tdiv]
      have := Int.tdiv_nonneg (a := -full.y1) (b := 2 ^ r) (by omega) hpow.le
      omega
    have h2 : 0 ≤ full.y0.tdiv (2 ^ r) := Int.tdiv_nonneg ny0 hpow.le
    have := d0.2.1; have := d0.2.2.2; omega
  have ex0 : o.x0 = full.x0 / 2 ^ r := by rw [d0.1, Int.tdiv_eq_ediv_of_nonneg nx0]
  have ey0 : o.y0 = full.y0 / 2 ^ r := by rw [d0.2.1, Int.tdiv_eq_ediv_of_nonneg ny0]
  have ex1 : o.x1 = full.x1 / 2 ^ r := by rw [d0.2.2.1, Int.tdiv_eq_ediv_of_nonneg nx1]
  have ey1 : o.y1 = full.y1 / 2 ^ r := by rw [d0.2.2.2, Int.tdiv_eq_ediv_of_nonneg ny1]
  have hlim := render_limit R adj sar sample zs n n full r o rows hr
  refine ⟨hl, ?_, b, full, o, r, cs, by rw [hrl]; exact min_le_right _ _, ⟨fx0, fx1, fy0, fy1⟩, ⟨nx0, nx1, ny0, ny1⟩, ⟨ex0, ex1, ey0, ey1⟩, hox, hoy, by omega, by omega, hcs, ?_⟩
  · intro row hrow
    obtain ⟨i, hi, rfl⟩ := List.mem_iff_getElem.1 hrow
    have hi1 : i < m1.length := by omega
    have hi2 : i < m2.length := by omega
    obtain ⟨row', hrow', hf⟩ := hget i (m1[i], m2[i]) (by rw [List.getElem?_eq_getElem (by simp; omega)]; simp)
    rw [List.getElem?_eq_getElem hi] at hrow'
    injection hrow' with hrow'
    rw [hrow', (mapM_getElem? _ _ _ hf).1, List.length_zip, hr1 _ (List.getElem_mem hi1), hr2 _ (List.getElem_mem hi2)]
    simp
  intro i j x y hi hj ex ey
  have hu := hw3 i hi
  have hv := hw3 j hj
  have hentry := hentries i j hi hj
  generalize w i = u at *
  generalize w j = v at *
  rw [hzs, grid_of_affine tx ty minLon minLat maxLon maxLat] at hm1 hm2
  obtain ⟨row1, hrow1, hv1⟩ := hentry _ _ hm1
  obtain ⟨row2, hrow2, hv2⟩ := hentry _ _ hm2
  have eq1 : mix u v (grid (fun lon lat => toRead full.x0 r (tx lon lat, ty lon lat).1) minLon minLat maxLon maxLat) = toRead full.x0 r (mix u v (grid tx minLon minLat maxLon maxLat)) :=
    mix_toRead u v _ _ hu hv (grid tx minLon minLat maxLon maxLat) full.x0 r
  have eq2 : mix u v (grid (fun lon lat => toRead full.y0 r (tx lon lat, ty lon lat).2) minLon minLat maxLon maxLat) = toRead full.y0 r (mix u v (grid ty minLon minLat maxLon maxLat)) :=
    mix_toRead u v _ _ hu hv (grid ty minLon minLat maxLon maxLat) full.y0 r
  have boxx := mix_between u v _ _ hu hv (grid tx minLon minLat maxLon maxLat) b.x0 b.x1 (by
    intro p q
    exact hbox.1 _ (by rw [hzs, List.map_map]; exact List.mem_map.2 ⟨(p, q), mem_gridIndices p q, rfl⟩))
  have boxy := mix_between u v _ _ hu hv (grid ty minLon minLat maxLon maxLat) b.y0 b.y1 (by
    intro p q
    exact hbox.2.1 _ (by rw [hzs, List.map_map]; exact List.mem_map.2 ⟨(p, q), mem_gridIndices p q, rfl⟩))
  rw [← ex] at eq1 boxx
  rw [← ey] at eq2 boxy
  rw [eq1] at hv1
  rw [eq2] at hv2
  obtain ⟨row, hrow, hf⟩ := hget i (row1, row2) (by rw [List.getElem?_zip_eq_some]; exact ⟨hrow1, hrow2⟩)
  obtain ⟨p, hp, hpix⟩ := (mapM_getElem? _ _ _ hf).2 j (toRead full.x0 r x, toRead full.y0 r y) (by rw [List.getElem?_zip_eq_some]; exact ⟨hv1, hv2⟩)
  exact ⟨boxx.1, boxx.2, boxy.1, boxy.2, row, p, hrow, hp, hpix⟩

/-- Everything about one pixel of a square tile, for the channels that are displayed: it shows the neighbourhood of a weighted mean of the projected grid.  The weights depend only on the size of the tile. -/
theorem tile_core (R : Raster) (S : Sensor) (adj : Adjust) (sar : Channel → Channel → Except PyErr Channel) (sample : Nat → Nat → Channel → ℚ → ℚ → Int) (hsample : Interpolates sample)
    (minLon minLat maxLon maxLat : ℚ) (n : Nat) (w : Nat → Fin 3 → ℚ) (hw3 : ∀ i, i < n → Weights (w i) ((i : ℚ) / ((n : ℚ) - 1)))
    (hentries : ∀ i j, i < n → j < n → ∀ z rows, remapArray z n n = .ok rows → ∃ row, rows[i]? = some row ∧ row[j]? = some (mix (w i) (w j) z))
    (g : ℚ × ℚ × ℚ) (hg : S.toWorld ((R.height : ℚ) / 2, (R.width : ℚ) / 2) = .ok g) (tx ty : ℚ → ℚ → ℚ)
    (hS : ∀ p q : Fin 3, S.toImage (linspace3 minLon maxLon q, linspace3 maxLat minLat p, g.2.2) =
      .ok (tx (linspace3 minLon maxLon q) (linspace3 maxLat minLat p), ty (linspace3 minLon maxLon q) (linspace3 maxLat minLat p)))
    (rows : List (List Rgba)) (h : createOrthophotoTile R S adj sar sample minLon minLat maxLon maxLat n n = .ok (some rows)) :
    rows.length = n ∧ (∀ row ∈ rows, row.length = n) ∧
    ∃ (o : Box) (r : Nat) (cs : List Channel), r ≤ R.overviews ∧ 0 ≤ o.x0 ∧ o.x0 < o.x1 ∧ o.x1 * 2 ^ r ≤ R.width ∧ 0 ≤ o.y0 ∧ o.y0 < o.y1 ∧ o.y1 * 2 ^ r ≤ R.height ∧
      display adj R sar (o.x1 - o.x0).toNat (o.y1 - o.y0).toNat ((List.range R.bands).map (fun k => readBand R r o (k + 1))) = .ok cs ∧
      ∀ (i j : Nat) (x y : ℚ), i < n → j < n → x = mix (w i) (w j) (grid tx minLon minLat maxLon maxLat) → y = mix (w i) (w j) (grid ty minLon minLat maxLon maxLat) →
        0 ≤ x → x ≤ R.width → 0 ≤ y → y ≤ R.height →
        ∃ row p, rows[i]? = some row ∧ row[j]? = some p ∧ ∃ vs, encodePixel (withAlpha vs) = .ok p ∧
          List.Forall₂ (fun c v => NearValue (fun X Y => c (Y - o.y0) (X - o.x0)) r 0 x y o.x0 o.y0 o.x1 o.y1 v) cs vs := by
  obtain ⟨hl, hrl, b, full, o, r, cs, hr, ⟨fx0, fx1, fy0, fy1⟩, ⟨nx0, nx1, ny0, ny1⟩, ⟨ex0, ex1, ey0, ey1⟩, hox, hoy, limx, limy, hcs, hpos⟩ :=
    tile_positions R S adj sar sample minLon minLat maxLon maxLat n w hw3 hentries g hg tx ty hS rows h
  have hpow : (0 : Int) < 2 ^ r := by positivity
  refine ⟨hl, hrl, o, r, cs, hr, ?_, hox, ?_, ?_, hoy, ?_, hcs, ?_⟩
  · rw [ex0]; exact Int.ediv_nonneg nx0 hpow.le
  · rw [ex1]; exact (Int.ediv_mul_le _ hpow.ne').trans (by rw [fx1]; exact min_le_right _ _)
  · rw [ey0]; exact Int.ediv_nonneg ny0 hpow.le
  · rw [ey1]; exact (Int.ediv_mul_le _ hpow.ne').trans (by rw [fy1]; exact min_le_right _ _)
  intro i j x y hi hj ex ey hx0 hx1 hy0 hy1
  obtain ⟨bx0, bx1, by0, by1, row, p, hrow, hp, hpix⟩ := hpos i j x y hi hj ex ey
  have gx0 : (full.x0 : ℚ) ≤ x := by rw [fx0]; push_cast; exact max_le bx0 hx0
  have gx1 : x ≤ full.x1 := by rw [fx1]; push_cast; exact le_min bx1 hx1
  have gy0 : (full.y0 : ℚ) ≤ y := by rw [fy0]; push_cast; exact max_le by0 hy0
  have gy1 : y ≤ full.y1 := by rw [fy1]; push_cast; exact le_min by1 hy1
  unfold outputPixel at hpix
  refine ⟨row, p, hrow, hp, _, hpix, ?_⟩
  rw [List.forall₂_map_right_iff, List.forall₂_same]
  intro c _
  intro lo hi hall
  have ix := toRead_inside r full.x0 full.x1 o.x0 o.x1 ex0 ex1 hox x gx0 gx1
  have iy := toRead_inside r full.y0 full.y1 o.y0 o.y1 ey0 ey1 hoy y gy0 gy1
  refine hsample _ _ _ _ _ lo hi limx limy ix.1 ix.2 iy.1 iy.2 ?_
  intro X Y _ _ _ _ hX hY
  rw [ex0, ex1] at hox
  rw [ey0, ey1] at hoy
  obtain ⟨tX0, tX1, tX⟩ := touched full.x0 full.x1 r hox x gx0 gx1 X hX _ rfl
  obtain ⟨tY0, tY1, tY⟩ := touched full.y0 full.y1 r hoy y gy0 gy1 Y hY _ rfl
  have far : ∀ (Z : Int) (z : ℚ), |(Z : ℚ) - z / 2 ^ r| < 2 → |(Z : ℚ) - z / 2 ^ r| < 2 + 2 * 0 / 2 ^ r := by
    intro Z z h1
    rw [mul_zero, zero_div, add_zero]
    exact h1
  have key := hall _ _ (by rw [ex0]; exact tX0) (by rw [ex1]; exact tX1) (by rw [ey0]; exact tY0) (by rw [ey1]; exact tY1) (far _ _ tX) (far _ _ tY)
  have eb : bordered (o.x1 - o.x0).toNat (o.y1 - o.y0).toNat c Y X =
      c (full.y0 / 2 ^ r + max 0 (min (Y - 2) (full.y1 / 2 ^ r - full.y0 / 2 ^ r - 1)) - o.y0) (full.x0 / 2 ^ r + max 0 (min (X - 2) (full.x1 / 2 ^ r - full.x0 / 2 ^ r - 1)) - o.x0) := by
    unfold bordered
    rw [← ex0, ← ey0, ← ex1, ← ey1] at *
    congr 1 <;> omega
  rw [eb]
  exact key

/-- The position at which a tile pixel is sampled is within `2 δ` of the true one. -/
theorem grid_near (S : Sensor) (elevation minLon minLat maxLon maxLat : ℚ) (hlon : minLon ≤ maxLon) (hlat : minLat ≤ maxLat) (n : Nat) (hn : 2 ≤ n) (tx ty : ℚ → ℚ → ℚ) (δ : ℚ)
    (hS : NearAffine S elevation minLon minLat maxLon maxLat tx ty δ) (i j : Nat) (hi : i < n) (hj : j < n) (u v : Fin 3 → ℚ)
    (hu : Weights u ((i : ℚ) / ((n : ℚ) - 1))) (hv : Weights v ((j : ℚ) / ((n : ℚ) - 1))) (lon lat : ℚ) (elon : lon = along minLon maxLon n j) (elat : lat = along maxLat minLat n i) :
    |mix u v (grid tx minLon minLat maxLon maxLat) - tx lon lat| ≤ 2 * δ ∧ |mix u v (grid ty minLon minLat maxLon maxLat) - ty lon lat| ≤ 2 * δ := by
  have gin : ∀ p q : Fin 3, minLon ≤ linspace3 minLon maxLon q ∧ linspace3 minLon maxLon q ≤ maxLon ∧ minLat ≤ linspace3 maxLat minLat p ∧ linspace3 maxLat minLat p ≤ maxLat := by
    intro p q
    have a := linspace3_inside minLon maxLon hlon q
    have b := linspace3_inside minLat maxLat hlat p
    exact ⟨a.1, a.2.1, b.2.2.1, b.2.2.2⟩
  have hlonin := along_inside minLon maxLon hlon n j hn hj
  have hlatin := along_inside minLat maxLat hlat n i hn hi
  obtain ⟨a0, a1, a2, b0, b1, b2, haff⟩ := hS.affine
  have nearx : |mix u v (grid tx minLon minLat maxLon maxLat) - tx lon lat| ≤ 2 * δ := by
    have A := mix_near u v _ _ hu hv (grid tx minLon minLat maxLon maxLat) (fun p q => a0 + a1 * linspace3 minLon maxLon q + a2 * linspace3 maxLat minLat p) δ
      (fun p q => (haff _ _ (gin p q).1 (gin p q).2.1 (gin p q).2.2.1 (gin p q).2.2.2).1)
    rw [mix_affine u v n i j hu hv] at A
    have B := (haff lon lat (by rw [elon]; exact hlonin.1) (by rw [elon]; exact hlonin.2.1) (by rw [elat]; exact hlatin.2.2.1) (by rw [elat]; exact hlatin.2.2.2)).1
    rw [elon, elat] at *
    rw [abs_le] at A B ⊢
    constructor <;> linarith [A.1, A.2, B.1, B.2]
  have neary : |mix u v (grid ty minLon minLat maxLon maxLat) - ty lon lat| ≤ 2 * δ := by
    have A := mix_near u v _ _ hu hv (grid ty minLon minLat maxLon maxLat) (fun p q => b0 + b1 * linspace3 minLon maxLon q + b2 * linspace3 maxLat minLat p) δ
      (fun p q => (haff _ _ (gin p q).1 (gin p q).2.1 (gin p q).2.2.1 (gin p q).2.2.2).2)
    rw [mix_affine u v n i j hu hv] at A
    have B := (haff lon lat (by rw [elon]; exact hlonin.1) (by rw [elon]; exact hlonin.2.1) (by rw [elat]; exact hlatin.2.2.1) (by rw [elat]; exact hlatin.2.2.2)).2
    rw [elon, elat] at *
    rw [abs_le] at A B ⊢
    constructor <;> linarith [A.1, A.2, B.1, B.2]
  exact ⟨nearx, neary⟩

/-- The weights with which line `i` of a tile of `n` by `n` pixels takes the three lines of the grid. -/
def LineWeights (n i : Nat) (u : Fin 3 → ℚ) : Prop :=
  Weights u ((i : ℚ) / ((n : ℚ) - 1)) ∧ ∀ f0 f1 f2, lin3 (((n : ℚ) - 1) / 2) f0 f1 f2 i = u 0 * f0 + u 1 * f1 + u 2 * f2

/-- The sensor model projects the ground of the tile at the elevation used, and interpolation on the grid follows the projection up to `2 δ` pixels. -/
structure GridFollows (S : Sensor) (elevation minLon minLat maxLon maxLat : ℚ) (n : Nat) (tx ty : ℚ → ℚ → ℚ) (δ : ℚ) : Prop where
  projects : ∀ lon lat, minLon ≤ lon → lon ≤ maxLon → minLat ≤ lat → lat ≤ maxLat → S.toImage (lon, lat, elevation) = .ok (tx lon lat, ty lon lat)
  close : 2 ≤ n → ∀ (i j : Nat) (u v : Fin 3 → ℚ), i < n → j < n → LineWeights n i u → LineWeights n j v → ∀ lon lat, lon = along minLon maxLon n j → lat = along maxLat minLat n i →
    |mix u v (grid tx minLon minLat maxLon maxLat) - tx lon lat| ≤ 2 * δ ∧ |mix u v (grid ty minLon minLat maxLon maxLat) - ty lon lat| ≤ 2 * δ

theorem NearAffine.follows {S : Sensor} {elevation minLon minLat maxLon maxLat : ℚ} {tx ty : ℚ → ℚ → ℚ} {δ : ℚ} (hS : NearAffine S elevation minLon minLat maxLon maxLat tx ty δ)
    (hlon : minLon ≤ maxLon) (hlat : minLat ≤ maxLat) (n : Nat) : GridFollows S elevation minLon minLat maxLon maxLat n tx ty δ :=
  ⟨hS.projects, fun hn i j u v hi hj hu hv lon lat elon elat =>
    grid_near S elevation minLon minLat maxLon maxLat hlon hlat n hn tx ty δ hS i j hi hj u v hu.1 hv.1 lon lat elon elat⟩

/-- Everything about one pixel of a square tile, for the channels that are displayed and a projection that the grid follows. -/
theorem tile_follows (R : Raster) (S : Sensor) (adj : Adjust) (sar : Channel → Channel → Except PyErr Channel) (sample : Nat → Nat → Channel → ℚ → ℚ → Int) (hsample : Interpolates sample)
    (minLon minLat maxLon maxLat : ℚ) (hlon : minLon ≤ maxLon) (hlat : minLat ≤ maxLat) (n : Nat) (g : ℚ × ℚ × ℚ) (hg : S.toWorld ((R.height : ℚ) / 2, (R.width : ℚ) / 2) = .ok g)
    (tx ty : ℚ → ℚ → ℚ) (δ : ℚ) (hS : GridFollows S g.2.2 minLon minLat maxLon maxLat n tx ty δ)
    (rows : List (List Rgba)) (h : createOrthophotoTile R S adj sar sample minLon minLat maxLon maxLat n n = .ok (some rows)) :
    rows.length = n ∧ (∀ row ∈ rows, row.length = n) ∧
    ∃ (o : Box) (r : Nat) (cs : List Channel), r ≤ R.overviews ∧ 0 ≤ o.x0 ∧ o.x0 < o.x1 ∧ o.x1 * 2 ^ r ≤ R.width ∧ 0 ≤ o.y0 ∧ o.y0 < o.y1 ∧ o.y1 * 2 ^ r ≤ R.height ∧
      display adj R sar (o.x1 - o.x0).toNat (o.y1 - o.y0).toNat ((List.range R.bands).map (fun k => readBand R r o (k + 1))) = .ok cs ∧
      ∀ (i j : Nat) (lon lat : ℚ), i < n → j < n → lon = along minLon maxLon n j → lat = along maxLat minLat n i →
        2 * δ ≤ tx lon lat → tx lon lat ≤ R.width - 2 * δ → 2 * δ ≤ ty lon lat → ty lon lat ≤ R.height - 2 * δ →
        ∃ row p, rows[i]? = some row ∧ row[j]? = some p ∧ ∃ vs, encodePixel (withAlpha vs) = .ok p ∧
          List.Forall₂ (fun c v => NearValue (fun X Y => c (Y - o.y0) (X - o.x0)) r δ (tx lon lat) (ty lon lat) o.x0 o.y0 o.x1 o.y1 v) cs vs := by
  have gin : ∀ p q : Fin 3, minLon ≤ linspace3 minLon maxLon q ∧ linspace3 minLon maxLon q ≤ maxLon ∧ minLat ≤ linspace3 maxLat minLat p ∧ linspace3 maxLat minLat p ≤ maxLat := by
    intro p q
    have a := linspace3_inside minLon maxLon hlon q
    have b := linspace3_inside minLat maxLat hlat p
    exact ⟨a.1, a.2.1, b.2.2.1, b.2.2.2⟩
  have hn : 2 ≤ n := by
    obtain ⟨_, zs, _, full, r, o, _, _, _, _, hr⟩ := create_ok R S adj sar sample minLon minLat maxLon maxLat n n rows h
    obtain ⟨_, _, _, _, _, _, hm1, _, _⟩ := render_ok R adj sar sample zs n n full r o rows hr
    exact (remapArray_ok _ _ _ _ hm1).1
  obtain ⟨w, hw, hentries⟩ := remap_weights_of n hn
  obtain ⟨hl, hrl, o, r, cs, hr, x0, hx, x1, y0, hy, y1, hcs, hpix⟩ := tile_core R S adj sar sample hsample minLon minLat maxLon maxLat n w (fun i hi => (hw i hi).1) hentries g hg tx ty
    (fun p q => hS.projects _ _ (gin p q).1 (gin p q).2.1 (gin p q).2.2.1 (gin p q).2.2.2) rows h
  refine ⟨hl, hrl, o, r, cs, hr, x0, hx, x1, y0, hy, y1, hcs, ?_⟩
  intro i j lon lat hi hj elon elat hx0 hx1 hy0 hy1
  have hu := hw i hi
  have hv := hw j hj
  have core := hpix i j _ _ hi hj rfl rfl
  generalize w i = u at *
  generalize w j = v at *
  obtain ⟨nearx, neary⟩ := hS.close hn i j u v hi hj hu hv lon lat elon elat
  generalize hmx : mix u v (grid tx minLon minLat maxLon maxLat) = x at *
  generalize hmy : mix u v (grid ty minLon minLat maxLon maxLat) = y at *
  have nx := abs_le.1 nearx
  have ny := abs_le.1 neary
  obtain ⟨row, p, hrow, hp, vs, henc, hvs⟩ := core (by linarith) (by linarith) (by linarith) (by linarith)
  refine ⟨row, p, hrow, hp, vs, henc, hvs.imp ?_⟩
  intro c v hnear lo hi hall
  refine hnear lo hi ?_
  intro X Y e1 e2 e3 e4 e5 e6
  have hq : (0 : ℚ) < 2 ^ r := by positivity
  have far : ∀ (Z : Int) (z t : ℚ), |(Z : ℚ) - z / 2 ^ r| < 2 → |z - t| ≤ 2 * δ → |(Z : ℚ) - t / 2 ^ r| < 2 + 2 * δ / 2 ^ r := by
    intro Z z t h1 h2
    have e : (Z : ℚ) - t / 2 ^ r = (Z - z / 2 ^ r) + (z - t) / 2 ^ r := by ring
    rw [e]
    refine lt_of_le_of_lt (abs_add_le _ _) ?_
    rw [abs_div, abs_of_pos hq]
    have : |z - t| / 2 ^ r ≤ 2 * δ / 2 ^ r := by gcongr
    linarith
  rw [mul_zero, zero_div, add_zero] at e5 e6
  exact hall X Y e1 e2 e3 e4 (far _ _ _ e5 nearx) (far _ _ _ e6 neary)

/-- Everything about one pixel of a square tile, for the channels that are displayed and a projection that is nearly affine. -/
theorem tile_near (R : Raster) (S : Sensor) (adj : Adjust) (sar : Channel → Channel → Except PyErr Channel) (sample : Nat → Nat → Channel → ℚ → ℚ → Int) (hsample : Interpolates sample)
    (minLon minLat maxLon maxLat : ℚ) (hlon : minLon ≤ maxLon) (hlat : minLat ≤ maxLat) (n : Nat) (g : ℚ × ℚ × ℚ) (hg : S.toWorld ((R.height : ℚ) / 2, (R.width : ℚ) / 2) = .ok g)
    (tx ty : ℚ → ℚ → ℚ) (δ : ℚ) (hS : NearAffine S g.2.2 minLon minLat maxLon maxLat tx ty δ)
    (rows : List (List Rgba)) (h : createOrthophotoTile R S adj sar sample minLon minLat maxLon maxLat n n = .ok (some rows)) :
    rows.length = n ∧ (∀ row ∈ rows, row.length = n) ∧
    ∃ (o : Box) (r : Nat) (cs : List Channel), r ≤ R.overviews ∧ 0 ≤ o.x0 ∧ o.x0 < o.x1 ∧ o.x1 * 2 ^ r ≤ R.width ∧ 0 ≤ o.y0 ∧ o.y0 < o.y1 ∧ o.y1 * 2 ^ r ≤ R.height ∧
      display adj R sar (o.x1 - o.x0).toNat (o.y1 - o.y0).toNat ((List.range R.bands).map (fun k => readBand R r o (k + 1))) = .ok cs ∧
      ∀ (i j : Nat) (lon lat : ℚ), i < n → j < n → lon = along minLon maxLon n j → lat = along maxLat minLat n i →
        2 * δ ≤ tx lon lat → tx lon lat ≤ R.width - 2 * δ → 2 * δ ≤ ty lon lat → ty lon lat ≤ R.height - 2 * δ →
        ∃ row p, rows[i]? = some row ∧ row[j]? = some p ∧ ∃ vs, encodePixel (withAlpha vs) = .ok p ∧
          List.Forall₂ (fun c v => NearValue (fun X Y => c (Y - o.y0) (X - o.x0)) r δ (tx lon lat) (ty lon lat) o.x0 o.y0 o.x1 o.y1 v) cs vs :=
  tile_follows R S adj sar sample hsample minLon minLat maxLon maxLat hlon hlat n g hg tx ty δ (hS.follows hlon hlat n) rows h

/-- C120 and C179 for grey images. -/
theorem grey_tile_follows (R : Raster) (hb : R.bands = 1) (S : Sensor) (adj : Adjust) (hadj : adj = .minmax ∨ adj = .dra) (sar : Channel → Channel → Except PyErr Channel)
    (sample : Nat → Nat → Channel → ℚ → ℚ → Int) (hsample : Interpolates sample)
    (minLon minLat maxLon maxLat : ℚ) (hlon : minLon ≤ maxLon) (hlat : minLat ≤ maxLat) (n : Nat) (g : ℚ × ℚ × ℚ) (hg : S.toWorld ((R.height : ℚ) / 2, (R.width : ℚ) / 2) = .ok g)
    (tx ty : ℚ → ℚ → ℚ) (δ : ℚ) (hS : GridFollows S g.2.2 minLon minLat maxLon maxLat n tx ty δ)
    (rows : List (List Rgba)) (h : createOrthophotoTile R S adj sar sample minLon minLat maxLon maxLat n n = .ok (some rows)) :
    rows.length = n ∧ (∀ row ∈ rows, row.length = n) ∧
    ∃ (r : Nat) (X0 Y0 X1 Y1 : Int) (ps : List ℚ) (f : ℚ → Int), r ≤ R.overviews ∧ (0 ≤ X0 ∧ X0 < X1 ∧ X1 * 2 ^ r ≤ R.width) ∧ (0 ≤ Y0 ∧ Y0 < Y1 ∧ Y1 * 2 ^ r ≤ R.height) ∧
      WindowValues R 1 r X0 Y0 X1 Y1 ps ∧ Adjusted adj R 1 ps f ∧
      ∀ (i j : Nat) (lon lat : ℚ), i < n → j < n → lon = along minLon maxLon n j → lat = along maxLat minLat n i →
        2 * δ ≤ tx lon lat → tx lon lat ≤ R.width - 2 * δ → 2 * δ ≤ ty lon lat → ty lon lat ≤ R.height - 2 * δ →
        ∃ row p, rows[i]? = some row ∧ row[j]? = some p ∧ NearValue (fun X Y => f (R.pixel 1 r X Y)) r δ (tx lon lat) (ty lon lat) X0 Y0 X1 Y1 p.red ∧
          p.green = p.red ∧ p.blue = p.red ∧ p.alpha = if p.red = 0 then 0 else 255 := by
  obtain ⟨h1, h2, o, r, cs, hr, x0, hx, x1, y0, hy, y1, hcs, hpix⟩ := tile_follows R S adj sar sample hsample minLon minLat maxLon maxLat hlon hlat n g hg tx ty δ hS rows h
  rw [hb] at hcs
  obtain ⟨f, hf, hcs'⟩ := ((displayed_channels adj R sar _ _ _ cs hcs).2 hadj).1 (readBand R r o 1) rfl
  refine ⟨h1, h2, r, o.x0, o.y0, o.x1, o.y1, _, f, hr, ⟨x0, hx, x1⟩, ⟨y0, hy, y1⟩, mem_values R r o 1 hx hy, hf, ?_⟩
  intro i j lon lat hi hj elon elat a b c d
  obtain ⟨row, p, hrow, hp, vs, henc, hvs⟩ := hpix i j lon lat hi hj elon elat a b c d
  rw [hcs'] at hvs
  cases hvs with
  | cons hv hnil =>
    rename_i v _
    cases hnil
    rw [(written_pixel_partial v 0 0 0).1] at henc
    injection henc with henc
    refine ⟨row, p, hrow, hp, ?_, ?_⟩
    · rw [← henc]
      intro lo hi hall
      refine hv lo hi ?_
      intro X Y e1 e2 e3 e4 e5 e6
      have := hall X Y e1 e2 e3 e4 e5 e6
      unfold readBand
      beta_reduce
      rw [show o.x0 + (X - o.x0) = X by ring, show o.y0 + (Y - o.y0) = Y by ring]
      exact this
    · rw [← henc]; exact ⟨rfl, rfl, rfl⟩

/-- C120 and C179 for images of three bands or more. -/
theorem colour_tile_follows (R : Raster) (hb : 3 ≤ R.bands) (S : Sensor) (adj : Adjust) (hadj : adj = .minmax ∨ adj = .dra) (sar : Channel → Channel → Except PyErr Channel)
    (sample : Nat → Nat → Channel → ℚ → ℚ → Int) (hsample : Interpolates sample)
    (minLon minLat maxLon maxLat : ℚ) (hlon : minLon ≤ maxLon) (hlat : minLat ≤ maxLat) (n : Nat) (g : ℚ × ℚ × ℚ) (hg : S.toWorld ((R.height : ℚ) / 2, (R.width : ℚ) / 2) = .ok g)
    (tx ty : ℚ → ℚ → ℚ) (δ : ℚ) (hS : GridFollows S g.2.2 minLon minLat maxLon maxLat n tx ty δ)
    (rows : List (List Rgba)) (h : createOrthophotoTile R S adj sar sample minLon minLat maxLon maxLat n n = .ok (some rows)) :
    rows.length = n ∧ (∀ row ∈ rows, row.length = n) ∧
    ∃ (r : Nat) (X0 Y0 X1 Y1 : Int) (ps1 ps2 ps3 : List ℚ) (f1 f2 f3 : ℚ → Int), r ≤ R.overviews ∧ (0 ≤ X0 ∧ X0 < X1 ∧ X1 * 2 ^ r ≤ R.width) ∧ (0 ≤ Y0 ∧ Y0 < Y1 ∧ Y1 * 2 ^ r ≤ R.height) ∧
      WindowValues R 1 r X0 Y0 X1 Y1 ps1 ∧ WindowValues R 2 r X0 Y0 X1 Y1 ps2 ∧ WindowValues R 3 r X0 Y0 X1 Y1 ps3 ∧ Adjusted adj R 1 ps1 f1 ∧ Adjusted adj R 2 ps2 f2 ∧ Adjusted adj R 3 ps3 f3 ∧
      ∀ (i j : Nat) (lon lat : ℚ), i < n → j < n → lon = along minLon maxLon n j → lat = along maxLat minLat n i →
        2 * δ ≤ tx lon lat → tx lon lat ≤ R.width - 2 * δ → 2 * δ ≤ ty lon lat → ty lon lat ≤ R.height - 2 * δ →
        ∃ row p, rows[i]? = some row ∧ row[j]? = some p ∧
          NearValue (fun X Y => f1 (R.pixel 1 r X Y)) r δ (tx lon lat) (ty lon lat) X0 Y0 X1 Y1 p.blue ∧
          NearValue (fun X Y => f2 (R.pixel 2 r X Y)) r δ (tx lon lat) (ty lon lat) X0 Y0 X1 Y1 p.green ∧
          NearValue (fun X Y => f3 (R.pixel 3 r X Y)) r δ (tx lon lat) (ty lon lat) X0 Y0 X1 Y1 p.red ∧
          p.alpha = if p.blue = 0 ∨ p.green = 0 ∨ p.red = 0 then 0 else 255 := by
  obtain ⟨h1, h2, o, r, cs, hr, x0, hx, x1, y0, hy, y1, hcs, hpix⟩ := tile_follows R S adj sar sample hsample minLon minLat maxLon maxLat hlon hlat n g hg tx ty δ hS rows h
  obtain ⟨m, hm⟩ : ∃ m, R.bands = 3 + m := ⟨R.bands - 3, by omega⟩
  have hl : (List.range R.bands).map (fun k => readBand R r o (k + 1)) =
      readBand R r o 1 :: readBand R r o 2 :: readBand R r o 3 :: (List.range m).map (fun k => readBand R r o (3 + k + 1)) := by
    rw [hm, List.range_add, List.map_append, List.map_map]
    rfl
  obtain ⟨f1, f2, f3, k1, k2, k3, hcs'⟩ := ((displayed_channels adj R sar _ _ _ cs hcs).2 hadj).2.2 _ _ _ _ hl
  refine ⟨h1, h2, r, o.x0, o.y0, o.x1, o.y1, _, _, _, f1, f2, f3, hr, ⟨x0, hx, x1⟩, ⟨y0, hy, y1⟩, mem_values R r o 1 hx hy, mem_values R r o 2 hx hy, mem_values R r o 3 hx hy, k1, k2, k3, ?_⟩
  intro i j lon lat hi hj elon elat a b c d
  obtain ⟨row, p, hrow, hp, vs, henc, hvs⟩ := hpix i j lon lat hi hj elon elat a b c d
  rw [hcs'] at hvs
  have conv : ∀ (band : Nat) (f : ℚ → Int) (v : Int),
      NearValue (fun X Y => f (readBand R r o band (Y - o.y0) (X - o.x0))) r δ (tx lon lat) (ty lon lat) o.x0 o.y0 o.x1 o.y1 v →
      NearValue (fun X Y => f (R.pixel band r X Y)) r δ (tx lon lat) (ty lon lat) o.x0 o.y0 o.x1 o.y1 v := by
    intro band f v hv lo hi hall
    refine hv lo hi ?_
    intro X Y e1 e2 e3 e4 e5 e6
    have := hall X Y e1 e2 e3 e4 e5 e6
    unfold readBand
    beta_reduce
    rw [show o.x0 + (X - o.x0) = X by ring, show o.y0 + (Y - o.y0) = Y by ring]
    exact this
  cases hvs with
  | cons hv1 hvs =>
    cases hvs with
    | cons hv2 hvs =>
      cases hvs with
      | cons hv3 hnil =>
        cases hnil
        rename_i v1 v2 v3
        obtain ⟨q, hq, hg', ha⟩ := (written_pixel_partial 0 v1 v2 v3).2
        obtain ⟨q', hq', hr', hb'⟩ := red_and_blue_exchanged v1 v2 v3
        rw [hq] at hq' henc
        injection hq' with hq'
        injection henc with henc
        subst henc
        subst hq'
        rw [← hb', ← hg', ← hr'] at ha
        refine ⟨row, q, hrow, hp, ?_, ?_, ?_, ha⟩
        · rw [hb']; exact conv 1 f1 v1 hv1
        · rw [hg']; exact conv 2 f2 v2 hv2
        · rw [hr']; exact conv 3 f3 v3 hv3

/-- **C120**: a square tile of a grey image shows the neighbourhood of the true place, for every sensor model.  If the projection at the elevation used differs from an affine function by at most `δ` pixels over the
tile, then every tile pixel whose true position (`tx`, `ty`) lies in the image, by `2 δ`, has a value between the least and the greatest adjusted value of the pixels of the level that was read which are less than
`2 + 2 δ / 2 ^ r` pixels of this level from the true position.  The adjustment is one function for the whole tile. -/
theorem grey_tile_near (R : Raster) (hb : R.bands = 1) (S : Sensor) (adj : Adjust) (hadj : adj = .minmax ∨ adj = .dra) (sar : Channel → Channel → Except PyErr Channel)
    (sample : Nat → Nat → Channel → ℚ → ℚ → Int) (hsample : Interpolates sample)
    (minLon minLat maxLon maxLat : ℚ) (hlon : minLon ≤ maxLon) (hlat : minLat ≤ maxLat) (n : Nat) (g : ℚ × ℚ × ℚ) (hg : S.toWorld ((R.height : ℚ) / 2, (R.width : ℚ) / 2) = .ok g)
    (tx ty : ℚ → ℚ → ℚ) (δ : ℚ) (hS : NearAffine S g.2.2 minLon minLat maxLon maxLat tx ty δ)
    (rows : List (List Rgba)) (h : createOrthophotoTile R S adj sar sample minLon minLat maxLon maxLat n n = .ok (some rows)) :
    rows.length = n ∧ (∀ row ∈ rows, row.length = n) ∧
    ∃ (r : Nat) (X0 Y0 X1 Y1 : Int) (ps : List ℚ) (f : ℚ → Int), r ≤ R.overviews ∧ (0 ≤ X0 ∧ X0 < X1 ∧ X1 * 2 ^ r ≤ R.width) ∧ (0 ≤ Y0 ∧ Y0 < Y1 ∧ Y1 * 2 ^ r ≤ R.height) ∧
      WindowValues R 1 r X0 Y0 X1 Y1 ps ∧ Adjusted adj R 1 ps f ∧
      ∀ (i j : Nat) (lon lat : ℚ), i < n → j < n → lon = along minLon maxLon n j → lat = along maxLat minLat n i →
        2 * δ ≤ tx lon lat → tx lon lat ≤ R.width - 2 * δ → 2 * δ ≤ ty lon lat → ty lon lat ≤ R.height - 2 * δ →
        ∃ row p, rows[i]? = some row ∧ row[j]? = some p ∧ NearValue (fun X Y => f (R.pixel 1 r X Y)) r δ (tx lon lat) (ty lon lat) X0 Y0 X1 Y1 p.red ∧
          p.green = p.red ∧ p.blue = p.red ∧ p.alpha = if p.red = 0 then 0 else 255 :=
  grey_tile_follows R hb S adj hadj sar sample hsample minLon minLat maxLon maxLat hlon hlat n g hg tx ty δ (hS.follows hlon hlat n) rows h

/-- **C120**: the same for images of three bands or more: each of the first three bands, adjusted with its own function, gives a channel of the tile (the first gives blue and the third red, see C97); the pixel is
transparent where a channel is 0 and opaque elsewhere. -/
theorem colour_tile_near (R : Raster) (hb : 3 ≤ R.bands) (S : Sensor) (adj : Adjust) (hadj : adj = .minmax ∨ adj = .dra) (sar : Channel → Channel → Except PyErr Channel)
    (sample : Nat → Nat → Channel → ℚ → ℚ → Int) (hsample : Interpolates sample)
    (minLon minLat maxLon maxLat : ℚ) (hlon : minLon ≤ maxLon) (hlat : minLat ≤ maxLat) (n : Nat) (g : ℚ × ℚ × ℚ) (hg : S.toWorld ((R.height : ℚ) / 2, (R.width : ℚ) / 2) = .ok g)
    (tx ty : ℚ → ℚ → ℚ) (δ : ℚ) (hS : NearAffine S g.2.2 minLon minLat maxLon maxLat tx ty δ)
    (rows : List (List Rgba)) (h : createOrthophotoTile R S adj sar sample minLon minLat maxLon maxLat n n = .ok (some rows)) :
    rows.length = n ∧ (∀ row ∈ rows, row.length = n) ∧
    ∃ (r : Nat) (X0 Y0 X1 Y1 : Int) (ps1 ps2 ps3 : List ℚ) (f1 f2 f3 : ℚ → Int), r ≤ R.overviews ∧ (0 ≤ X0 ∧ X0 < X1 ∧ X1 * 2 ^ r ≤ R.width) ∧ (0 ≤ Y0 ∧ Y0 < Y1 ∧ Y1 * 2 ^ r ≤ R.height) ∧
      WindowValues R 1 r X0 Y0 X1 Y1 ps1 ∧ WindowValues R 2 r X0 Y0 X1 Y1 ps2 ∧ WindowValues R 3 r X0 Y0 X1 Y1 ps3 ∧ Adjusted adj R 1 ps1 f1 ∧ Adjusted adj R 2 ps2 f2 ∧ Adjusted adj R 3 ps3 f3 ∧
      ∀ (i j : Nat) (lon lat : ℚ), i < n → j < n → lon = along minLon maxLon n j → lat = along maxLat minLat n i →
        2 * δ ≤ tx lon lat → tx lon lat ≤ R.width - 2 * δ → 2 * δ ≤ ty lon lat → ty lon lat ≤ R.height - 2 * δ →
        ∃ row p, rows[i]? = some row ∧ row[j]? = some p ∧
          NearValue (fun X Y => f1 (R.pixel 1 r X Y)) r δ (tx lon lat) (ty lon lat) X0 Y0 X1 Y1 p.blue ∧
          NearValue (fun X Y => f2 (R.pixel 2 r X Y)) r δ (tx lon lat) (ty lon lat) X0 Y0 X1 Y1 p.green ∧
          NearValue (fun X Y => f3 (R.pixel 3 r X Y)) r δ (tx lon lat) (ty lon lat) X0 Y0 X1 Y1 p.red ∧
          p.alpha = if p.blue = 0 ∨ p.green = 0 ∨ p.red = 0 then 0 else 255 :=
  colour_tile_follows R hb S adj hadj sar sample hsample minLon minLat maxLon maxLat hlon hlat n g hg tx ty δ (hS.follows hlon hlat n) rows h

/-- **C120**: where the image is uniform around the true position, the tile shows exactly this value. -/
theorem uniform_shown (f : Int → Int → Int) (r : Nat) (δ x y : ℚ) (X0 Y0 X1 Y1 v c : Int) (h : NearValue f r δ x y X0 Y0 X1 Y1 v)
    (hc : ∀ X Y : Int, X0 ≤ X → X < X1 → Y0 ≤ Y → Y < Y1 → |(X : ℚ) - x / 2 ^ r| < 2 + 2 * δ / 2 ^ r → |(Y : ℚ) - y / 2 ^ r| < 2 + 2 * δ / 2 ^ r → f X Y = c) : v = c := by
  have := h c c (fun X Y e1 e2 e3 e4 e5 e6 => by rw [hc X Y e1 e2 e3 e4 e5 e6]; exact ⟨le_refl _, le_refl _⟩)
  omega

/-! ### A case: a bent projection -/

/-- The position lies between whole pixels and the projection is not affine. -/
def bent : Sensor := ⟨fun p => .ok (p.1, -p.2, 2), fun g => .ok (g.1 + g.1 * (4 - g.1) / 40, -g.2.1)⟩

theorem bent_near : NearAffine bent 2 1 (-2) 3 0 (fun lon _ => lon + lon * (4 - lon) / 40) (fun _ lat => -lat) (1 / 10) := by
  refine ⟨fun _ _ _ _ _ _ => rfl, 0, 1, 0, 0, 0, -1, ?_⟩
  intro lon lat h1 h2 _ _
  rw [abs_le, abs_le]
  refine ⟨⟨by nlinarith, by nlinarith [sq_nonneg (lon - 2)]⟩, by linarith, by linarith⟩

theorem nearest_interpolates : Interpolates nearest := by
  intro w h c x y lo hi _ _ x0 x1 y0 y1 hall
  unfold nearest
  have fx := Int.floor_le x
  have gx := Int.lt_floor_add_one x
  have fy := Int.floor_le y
  have gy := Int.lt_floor_add_one y
  refine hall ⌊x⌋ ⌊y⌋ (Int.floor_nonneg.2 x0) ?_ (Int.floor_nonneg.2 y0) ?_ ?_ ?_
  · rw [Int.floor_lt]; push_cast; linarith
  · rw [Int.floor_lt]; push_cast; linarith
  · rw [abs_le]; constructor <;> linarith
  · rw [abs_le]; constructor <;> linarith

/-- The premises hold for the pixel in the middle of a tile of 3 × 3 pixels, whose true position is (2.1, 1); the tile exists. -/
example : (∃ rows, createOrthophotoTile small bent .minmax (fun a _ => .ok a) nearest 1 (-2) 3 0 3 3 = .ok (some rows)) ∧
    bent.toWorld ((small.height : ℚ) / 2, (small.width : ℚ) / 2) = .ok (1, -2, 2) ∧ along 1 3 3 1 = 2 ∧ along 0 (-2) 3 1 = -1 ∧
    2 * (1 / 10 : ℚ) ≤ 2 + 2 * (4 - 2) / 40 ∧ (2 + 2 * (4 - 2) / 40 : ℚ) ≤ (small.width : ℚ) - 2 * (1 / 10) ∧ 2 * (1 / 10 : ℚ) ≤ - -1 ∧ (- -1 : ℚ) ≤ (small.height : ℚ) - 2 * (1 / 10) := by
  refine ⟨?_, ?_, by norm_num [along], by norm_num [along], by norm_num, by norm_num [small], by norm_num, by norm_num [small]⟩
  · have h : ((createOrthophotoTile small bent .minmax (fun a _ => .ok a) nearest 1 (-2) 3 0 3 3).toOption.bind id).isSome = true := by decide +kernel
    rcases hc : createOrthophotoTile small bent .minmax (fun a _ => .ok a) nearest 1 (-2) 3 0 3 3 with e | v
    · rw [hc] at h; simp [Except.toOption] at h
    · cases v with
      | none => rw [hc] at h; simp [Except.toOption] at h
      | some rows => exact ⟨rows, rfl⟩
  · show Except.ok _ = Except.ok _
    norm_num [small]

/-- Premises of the colour case: three bands with the values of `small`. -/
example : ∃ rows, createOrthophotoTile { small with bands := 3 } bent .minmax (fun a _ => .ok a) nearest 1 (-2) 3 0 3 3 = .ok (some rows) := by
  have h : ((createOrthophotoTile { small with bands := 3 } bent .minmax (fun a _ => .ok a) nearest 1 (-2) 3 0 3 3).toOption.bind id).isSome = true := by decide +kernel
  rcases hc : createOrthophotoTile { small with bands := 3 } bent .minmax (fun a _ => .ok a) nearest 1 (-2) 3 0 3 3 with e | v
  · rw [hc] at h; simp [Except.toOption] at h
  · cases v with
    | none => rw [hc] at h; simp [Except.toOption] at h
    | some rows => exact ⟨rows, rfl⟩

/-- Premises of `uniform_shown`: a uniform image has only one value to show. -/
example : NearValue (fun _ _ => 7) 1 (1 / 10) 5 5 0 0 4 4 7 := by
  intro lo hi h
  exact h 2 2 (by norm_num) (by norm_num) (by norm_num) (by norm_num) (by norm_num [abs_lt]) (by norm_num [abs_lt])

end Verif.Props.OrthophotoNear
