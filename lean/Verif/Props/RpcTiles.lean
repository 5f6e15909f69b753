import Verif.Props.RpcSmooth
import Verif.Props.Remap
import Verif.Props.Mercator

/-!
# Values of orthophoto tiles of smooth projections and of images with an RPC model
-/

namespace Verif.Props.RpcTiles

open Real
open Verif.Orthophoto Verif.TileFactory Verif.GdalUtils Verif.Updaters Verif.Rpc
open Verif.Remap Verif.Orthophoto Verif.TileFactory Verif.GdalUtils Verif.Updaters Verif.Float64 Verif.Float32 Verif.Sar
open Verif.Props.TileFactory Verif.Props.Orthophoto Verif.Props.OrthophotoNear
open Verif.Spec.Mercator Verif.Lemmas.Mercator Verif.Spec.MapTiles Verif.MapTiles Verif.Props.MapTiles Real
open Verif.TileFactory Verif.GdalUtils Verif.Props.TileFactory Verif.Orthophoto Verif.Props.Orthophoto Verif.Props.OrthophotoNear
open Verif.Props.Remap Verif.Props.Mercator Verif.Props.OrthophotoNear
open Verif.Props.OrthophotoSmooth (SmoothProjection smooth_follows)
open Verif.Props.RpcSmooth (Regular Computes rpc_follows)

/-- **C181**: C150 for smooth projections. -/
theorem grey_values_smooth (R : Raster) (hb : R.bands = 1) (S : Sensor) (adj : Adjust) (hadj : adj = .minmax ∨ adj = .dra) (sar : Channel → Channel → Except PyErr Channel)
    (minLon minLat maxLon maxLat : ℚ) (hlon : minLon ≤ maxLon) (hlat : minLat ≤ maxLat) (n : Nat) (g : ℚ × ℚ × ℚ) (hg : S.toWorld ((R.height : ℚ) / 2, (R.width : ℚ) / 2) = .ok g)
    (tx ty : ℚ → ℚ → ℚ) (M N δ : ℚ) (hM : 0 ≤ M) (hN : 0 ≤ N) (hS : SmoothProjection S g.2.2 minLon minLat maxLon maxLat tx ty M N)
    (hδ : δ = (M * (maxLon - minLon) ^ 2 + N * (maxLat - minLat) ^ 2) / 64)
    (rows : List (List Rgba)) (h : createOrthophotoTile R S adj sar remap minLon minLat maxLon maxLat n n = .ok (some rows)) :
    ∃ (r : Nat) (X0 Y0 X1 Y1 : Int) (ps : List ℚ) (f : ℚ → Int) (dx dy : ℚ), r ≤ R.overviews ∧ (0 ≤ X0 ∧ X0 < X1 ∧ X1 * 2 ^ r ≤ R.width) ∧ (0 ≤ Y0 ∧ Y0 < Y1 ∧ Y1 * 2 ^ r ≤ R.height) ∧
      WindowValues R 1 r X0 Y0 X1 Y1 ps ∧ Adjusted adj R 1 ps f ∧ (0 ≤ dx ∧ dx < 1) ∧ (0 ≤ dy ∧ dy < 1) ∧ (r = 0 → dx = 0 ∧ dy = 0) ∧
      ∀ (i j : Nat) (lon lat : ℚ), i < n → j < n → lon = along minLon maxLon n j → lat = along maxLat minLat n i →
        2 * δ ≤ tx lon lat → tx lon lat ≤ R.width - 2 * δ → 2 * δ ≤ ty lon lat → ty lon lat ≤ R.height - 2 * δ →
        ∃ row p, rows[i]? = some row ∧ row[j]? = some p ∧ ∃ x y : ℚ, |x - tx lon lat| ≤ 2 * δ ∧ |y - ty lon lat| ≤ 2 * δ ∧
          |(p.red : ℚ) - smooth (continued R f r X0 Y0 X1 Y1) (x / 2 ^ r - dx) (y / 2 ^ r - dy)| ≤ 9 :=
  grey_values_follow R hb S adj hadj sar minLon minLat maxLon maxLat hlon hlat n g hg tx ty δ (smooth_follows hM hN hS hlon hlat n hδ) rows h

/-- **C181**: C150 for images with an RPC model, the misplacement bounded by its coefficients. -/
theorem grey_values_rpc (R : Raster) (hb : R.bands = 1) (S : Sensor) (adj : Adjust) (hadj : adj = .minmax ∨ adj = .dra) (sar : Channel → Channel → Except PyErr Channel)
    (minLon minLat maxLon maxLat : ℚ) (hlon : minLon ≤ maxLon) (hlat : minLat ≤ maxLat) (n : Nat) (g : ℚ × ℚ × ℚ) (hg : S.toWorld ((R.height : ℚ) / 2, (R.width : ℚ) / 2) = .ok g)
    (M : RpcModel) (q K η : ℝ) (hM : Regular M q K) (hK : 0 ≤ K) (tx ty : ℚ → ℚ → ℚ) (hS : Computes S M g.2.2 minLon minLat maxLon maxLat tx ty η) (δ : ℚ)
    (hδ : K * ((180 / Real.pi * ((maxLon : ℝ) - minLon) / M.longScale) ^ 2 + (180 / Real.pi * ((maxLat : ℝ) - minLat) / M.latScale) ^ 2) / 64 + η ≤ δ)
    (rows : List (List Rgba)) (h : createOrthophotoTile R S adj sar remap minLon minLat maxLon maxLat n n = .ok (some rows)) :
    ∃ (r : Nat) (X0 Y0 X1 Y1 : Int) (ps : List ℚ) (f : ℚ → Int) (dx dy : ℚ), r ≤ R.overviews ∧ (0 ≤ X0 ∧ X0 < X1 ∧ X1 * 2 ^ r ≤ R.width) ∧ (0 ≤ Y0 ∧ Y0 < Y1 ∧ Y1 * 2 ^ r ≤ R.height) ∧
      WindowValues R 1 r X0 Y0 X1 Y1 ps ∧ Adjusted adj R 1 ps f ∧ (0 ≤ dx ∧ dx < 1) ∧ (0 ≤ dy ∧ dy < 1) ∧ (r = 0 → dx = 0 ∧ dy = 0) ∧
      ∀ (i j : Nat) (lon lat : ℚ), i < n → j < n → lon = along minLon maxLon n j → lat = along maxLat minLat n i →
        2 * δ ≤ tx lon lat → tx lon lat ≤ R.width - 2 * δ → 2 * δ ≤ ty lon lat → ty lon lat ≤ R.height - 2 * δ →
        ∃ row p, rows[i]? = some row ∧ row[j]? = some p ∧ ∃ x y : ℚ, |x - tx lon lat| ≤ 2 * δ ∧ |y - ty lon lat| ≤ 2 * δ ∧
          |(p.red : ℚ) - smooth (continued R f r X0 Y0 X1 Y1) (x / 2 ^ r - dx) (y / 2 ^ r - dy)| ≤ 9 :=
  grey_values_follow R hb S adj hadj sar minLon minLat maxLon maxLat hlon hlat n g hg tx ty δ (rpc_follows hM hK hS hlon hlat n hδ) rows h

/-- **C151** for images with an RPC model. -/
theorem outside_rpc_partial (R : Raster) (hb : 0 < R.bands) (S : Sensor) (adj : Adjust) (hadj : adj = .minmax ∨ adj = .dra ∨ R.bands = 1 ∨ R.bands = 3) (sar : Channel → Channel → Except PyErr Channel)
    (minLon minLat maxLon maxLat : ℚ) (hlon : minLon ≤ maxLon) (hlat : minLat ≤ maxLat) (n : Nat) (g : ℚ × ℚ × ℚ) (hg : S.toWorld ((R.height : ℚ) / 2, (R.width : ℚ) / 2) = .ok g)
    (M : RpcModel) (q K η : ℝ) (hM : Regular M q K) (hK : 0 ≤ K) (tx ty : ℚ → ℚ → ℚ) (hS : Computes S M g.2.2 minLon minLat maxLon maxLat tx ty η) (δ : ℚ)
    (hδ : K * ((180 / Real.pi * ((maxLon : ℝ) - minLon) / M.longScale) ^ 2 + (180 / Real.pi * ((maxLat : ℝ) - minLat) / M.latScale) ^ 2) / 64 + η ≤ δ)
    (rows : List (List Rgba)) (h : createOrthophotoTile R S adj sar remap minLon minLat maxLon maxLat n n = .ok (some rows)) :
    ∃ r : Nat, r ≤ R.overviews ∧ ∀ (i j : Nat) (lon lat : ℚ), i < n → j < n → lon = along minLon maxLon n j → lat = along maxLat minLat n i →
      (tx lon lat ≤ -(3 * 2 ^ r + 2 * δ) ∨ R.width + (3 * 2 ^ r + 2 * δ) ≤ tx lon lat ∨ ty lon lat ≤ -(3 * 2 ^ r + 2 * δ) ∨ R.height + (3 * 2 ^ r + 2 * δ) ≤ ty lon lat) →
      ∃ row, rows[i]? = some row ∧ row[j]? = some ⟨0, 0, 0, 0⟩ :=
  outside_follows_partial R hb S adj hadj sar minLon minLat maxLon maxLat hlon hlat n g hg tx ty δ (rpc_follows hM hK hS hlon hlat n hδ) rows h

/-- **C143** for images with an RPC model.  Missing as there. -/
theorem grey_mercator_rpc_partial (R' : ℝ) (hR' : 0 < R') (size : Nat) (hs : 2 ≤ size) (name : String) (z : Nat) (id : TileId) (hid : IsTileOfLevel z id) (minLon minLat maxLon maxLat : ℚ) (ε : ℝ)
    (hε : ε ≤ 1 / 1000) (hk : KnownTo ((mercSet R' size name).getTile id).bounds minLon minLat maxLon maxLat ε)
    (R : Raster) (hb : R.bands = 1) (S : Sensor) (adj : Adjust) (hadj : adj = .minmax ∨ adj = .dra) (sar : Channel → Channel → Except PyErr Channel)
    (sample : Nat → Nat → Channel → ℚ → ℚ → Int) (hsample : Interpolates sample) (hlon : minLon ≤ maxLon) (hlat : minLat ≤ maxLat)
    (g : ℚ × ℚ × ℚ) (hg : S.toWorld ((R.height : ℚ) / 2, (R.width : ℚ) / 2) = .ok g)
    (M : RpcModel) (q K η : ℝ) (hM : Regular M q K) (hK : 0 ≤ K) (tx ty : ℚ → ℚ → ℚ) (hS : Computes S M g.2.2 minLon minLat maxLon maxLat tx ty η) (δ : ℚ)
    (hδ : K * ((180 / Real.pi * ((maxLon : ℝ) - minLon) / M.longScale) ^ 2 + (180 / Real.pi * ((maxLat : ℝ) - minLat) / M.latScale) ^ 2) / 64 + η ≤ δ)
    (rows : List (List Rgba)) (h : createOrthophotoTile R S adj sar sample minLon minLat maxLon maxLat ((mercSet R' size name).getTile id).size.1 ((mercSet R' size name).getTile id).size.2 = .ok (some rows)) :
    ∃ (r : Nat) (X0 Y0 X1 Y1 : Int) (ps : List ℚ) (f : ℚ → Int), r ≤ R.overviews ∧ WindowValues R 1 r X0 Y0 X1 Y1 ps ∧ Adjusted adj R 1 ps f ∧
      ∀ i j : Nat, i < size → j < size → ∃ lon lat : ℚ,
        |rowPosition ((mercSet R' size name).getTile id).bounds.maxLat ((mercSet R' size name).getTile id).bounds.minLat size lat - (i + 1 / 2)| ≤ 1 / 2 + size * π / (2 * 2 ^ z) + 2 * size * ε * 2 ^ z ∧
        |colPosition ((mercSet R' size name).getTile id).bounds.minLon ((mercSet R' size name).getTile id).bounds.maxLon size lon - (j + 1 / 2)| ≤ 1 / 2 + size * ε * 2 ^ z ∧
        (2 * δ ≤ tx lon lat → tx lon lat ≤ R.width - 2 * δ → 2 * δ ≤ ty lon lat → ty lon lat ≤ R.height - 2 * δ →
          ∃ row p, rows[i]? = some row ∧ row[j]? = some p ∧ NearValue (fun X Y => f (R.pixel 1 r X Y)) r δ (tx lon lat) (ty lon lat) X0 Y0 X1 Y1 p.red) :=
  grey_mercator_follows_partial R' hR' size hs name z id hid minLon minLat maxLon maxLat ε hε hk R hb S adj hadj sar sample hsample hlon hlat g hg tx ty δ (rpc_follows hM hK hS hlon hlat size hδ) rows h

/-! ## A case -/

open Verif.Props.RpcSmooth (InCube projects bend curve total column row)
open Verif.Spec.Rpc (cubic rpc00b)
open Verif.Dem (Geo)

/-- An RPC model of an image of 8 × 8 pixels, two degrees wide and high, that is bent along parallels. -/
noncomputable def bowed : RpcModel where
  lineOff := 4
  sampOff := 4
  latOff := 0
  longOff := 0
  heightOff := 0
  lineScale := 4
  sampScale := 4
  latScale := 1
  longScale := 1
  heightScale := 500
  lineNum := [0, 0, -1, 0, 0, 0, 0, 0, 0, 0, 0, 0, 0, 0, 0, 0, 0, 0, 0, 0]
  lineDen := [1, 0, 0, 0, 0, 0, 0, 0, 0, 0, 0, 0, 0, 0, 0, 0, 0, 0, 0, 0]
  sampNum := [0, 1, 0, 0, 0, 0, 0, 1 / 10, 0, 0, 0, 0, 0, 0, 0, 0, 0, 0, 0, 0]
  sampDen := [1, 0, 0, 0, 0, 0, 0, 0, 0, 0, 0, 0, 0, 0, 0, 0, 0, 0, 0, 0]

theorem bowed_regular : Regular bowed 1 (12 / 5) where
  lineNum := rfl
  lineDen := rfl
  sampNum := rfl
  sampDen := rfl
  long := by norm_num [bowed]
  lat := by norm_num [bowed]
  height := by norm_num [bowed]
  pos := by norm_num
  line l p h _ _ _ := by simp [cubic, bowed, rpc00b]
  samp l p h _ _ _ := by simp [cubic, bowed, rpc00b]
  bendLine := by norm_num [bend, curve, total, bowed]
  bendSamp := by norm_num [bend, curve, total, bowed]

/-- It is computed with six digits of 180 / π. -/
def bowedX (lon _ : ℚ) : ℚ := 4 + 4 * (572958 / 10000 * lon + (572958 / 10000 * lon) ^ 2 / 10)

def bowedY (_ lat : ℚ) : ℚ := 4 - 4 * (572958 / 10000 * lat)

def bowedSensor : Sensor := ⟨fun _ => .ok (0, 0, 0), fun p => .ok (bowedX p.1 p.2.1, bowedY p.1 p.2.1)⟩

theorem degree_close : |(572958 / 10000 : ℝ) - 180 / π| ≤ 1 / 10000 := by
  have p1 := Real.pi_gt_d6
  have p2 := Real.pi_lt_d6
  have p0 := Real.pi_pos
  have u : 180 / π ≤ 572958 / 10000 + 1 / 10000 := by rw [div_le_iff₀ p0]; linarith
  have l : 572958 / 10000 - 1 / 10000 ≤ 180 / π := by rw [le_div_iff₀ p0]; linarith
  rw [abs_le]
  constructor <;> linarith

theorem bowed_computes : Computes bowedSensor bowed 0 (-1 / 60) (-1 / 60) (1 / 60) (1 / 60) bowedX bowedY (1 / 100000) := by
  have real : ∀ x : ℚ, -1 / 60 ≤ x → x ≤ 1 / 60 → |(x : ℝ)| ≤ 1 / 60 := fun x h1 h2 => by
    have a := (Rat.cast_le (K := ℝ)).2 h1
    have b := (Rat.cast_le (K := ℝ)).2 h2
    push_cast at a b
    rw [abs_le]
    constructor <;> linarith
  have deg : ∀ x : ℝ, |x| ≤ 1 / 60 → |180 / π * x| ≤ 1 ∧ |572958 / 10000 * x - 180 / π * x| ≤ 1 / 600000 ∧ |572958 / 10000 * x| ≤ 1 := fun x hx => by
    have d := degree_close
    have m : |572958 / 10000 * x - 180 / π * x| ≤ 1 / 600000 := by
      rw [← sub_mul, abs_mul]
      calc _ ≤ 1 / 10000 * (1 / 60) := mul_le_mul d hx (abs_nonneg _) (by norm_num)
        _ = 1 / 600000 := by norm_num
    have k : |572958 / 10000 * x| ≤ 96 / 100 := by
      rw [abs_mul, abs_of_pos (by norm_num)]
      linarith
    refine ⟨?_, m, by linarith⟩
    have a := abs_le.1 m
    have b := abs_le.1 k
    rw [abs_le]
    constructor <;> linarith
  have inside : ∀ lon lat : ℚ, -1 / 60 ≤ lon → lon ≤ 1 / 60 → -1 / 60 ≤ lat → lat ≤ 1 / 60 → InCube bowed ⟨lon, lat, (0 : ℚ)⟩ := fun lon lat a b c d => by
    refine ⟨?_, ?_, ?_⟩
    · simpa [bowed] using (deg _ (real lon a b)).1
    · simpa [bowed] using (deg _ (real lat c d)).1
    · simp [bowed]
  refine ⟨fun _ _ _ _ _ _ => rfl, inside, fun lon lat x y a b c d h => ?_⟩
  rw [projects bowed_regular (inside lon lat a b c d)] at h
  obtain ⟨rfl, rfl⟩ := Prod.mk.inj (Except.ok.inj h)
  have ex : column bowed lon lat ((0 : ℚ) : ℝ) = 4 + 4 * (180 / π * lon + (180 / π * lon) ^ 2 / 10) := by
    simp [column, cubic, bowed, rpc00b]
    ring
  have ey : row bowed lon lat ((0 : ℚ) : ℝ) = 4 - 4 * (180 / π * lat) := by
    simp [row, cubic, bowed, rpc00b]
    ring
  rw [ex, ey]
  obtain ⟨p1, p2, p3⟩ := deg _ (real lon a b)
  obtain ⟨-, q2, -⟩ := deg _ (real lat c d)
  unfold bowedX bowedY
  push_cast
  generalize 572958 / 10000 * (lon : ℝ) = u at *
  generalize 180 / π * (lon : ℝ) = v at *
  generalize 572958 / 10000 * (lat : ℝ) = s at *
  generalize 180 / π * (lat : ℝ) = t at *
  constructor
  · have e : 4 + 4 * (u + u ^ 2 / 10) - (4 + 4 * (v + v ^ 2 / 10)) = (u - v) * (4 * (1 + (u + v) / 10)) := by ring
    have w : |4 * (1 + (u + v) / 10)| ≤ 24 / 5 := by
      rw [abs_le] at *
      constructor <;> linarith [p1.1, p1.2, p3.1, p3.2]
    rw [e, abs_mul]
    calc _ ≤ 1 / 600000 * (24 / 5) := mul_le_mul p2 w (abs_nonneg _) (by norm_num)
      _ ≤ 1 / 100000 := by norm_num
  · rw [abs_le] at *
    constructor <;> linarith [q2.1, q2.2]

/-- The bound of the misplacement, twice 0.28 pixels. -/
theorem bowed_bound : (12 / 5 : ℝ) * ((180 / π * (((1 / 60 : ℚ) : ℝ) - (-1 / 60 : ℚ)) / bowed.longScale) ^ 2 + (180 / π * (((1 / 60 : ℚ) : ℝ) - (-1 / 60 : ℚ)) / bowed.latScale) ^ 2) / 64 + 1 / 100000 ≤ ((7 / 25 : ℚ) : ℝ) := by
  have d := abs_le.1 degree_close
  have k0 : 0 ≤ 180 / π := by positivity
  have e : (180 / π) ^ 2 ≤ (573 / 10) ^ 2 := pow_le_pow_left₀ k0 (by linarith [d.1]) 2
  simp only [bowed]
  push_cast
  generalize 180 / π = x at *
  nlinarith [e]

/-- The tile of 3 × 3 pixels exists, and the value in its middle is within nine grey levels of the image at a place less than 0.56 pixels from (4, 4). -/
example : ∃ rows, createOrthophotoTile striped bowedSensor .minmax (fun a _ => .ok a) remap (-1 / 60) (-1 / 60) (1 / 60) (1 / 60) 3 3 = .ok (some rows) ∧
    ∃ (r : Nat) (X0 Y0 X1 Y1 : Int) (ps : List ℚ) (f : ℚ → Int) (dx dy : ℚ), r ≤ 0 ∧ WindowValues striped 1 r X0 Y0 X1 Y1 ps ∧ Adjusted .minmax striped 1 ps f ∧ dx = 0 ∧ dy = 0 ∧
      ∃ row p, rows[1]? = some row ∧ row[1]? = some p ∧ ∃ x y : ℚ, |x - 4| ≤ 14 / 25 ∧ |y - 4| ≤ 14 / 25 ∧ |(p.red : ℚ) - smooth (continued striped f r X0 Y0 X1 Y1) (x / 2 ^ r - dx) (y / 2 ^ r - dy)| ≤ 9 := by
  have made : ∃ rows, createOrthophotoTile striped bowedSensor .minmax (fun a _ => .ok a) remap (-1 / 60) (-1 / 60) (1 / 60) (1 / 60) 3 3 = .ok (some rows) := by
    have h : ((createOrthophotoTile striped bowedSensor .minmax (fun a _ => .ok a) remap (-1 / 60) (-1 / 60) (1 / 60) (1 / 60) 3 3).toOption.bind id).isSome = true := by decide +kernel
    rcases hc : createOrthophotoTile striped bowedSensor .minmax (fun a _ => .ok a) remap (-1 / 60) (-1 / 60) (1 / 60) (1 / 60) 3 3 with e | v
    · rw [hc] at h; simp [Except.toOption] at h
    · cases v with
      | none => rw [hc] at h; simp [Except.toOption] at h
      | some rows => exact ⟨rows, rfl⟩
  obtain ⟨rows, h⟩ := made
  obtain ⟨r, X0, Y0, X1, Y1, ps, f, dx, dy, hr, -, -, hps, hf, -, -, h0, hp⟩ := grey_values_rpc striped rfl bowedSensor .minmax (Or.inl rfl) (fun a _ => .ok a) (-1 / 60) (-1 / 60) (1 / 60) (1 / 60) (by norm_num)
    (by norm_num) 3 (0, 0, 0) rfl bowed 1 (12 / 5) (1 / 100000) bowed_regular (by norm_num) bowedX bowedY bowed_computes (7 / 25) bowed_bound rows h
  have r0 : r = 0 := Nat.le_zero.1 hr
  obtain ⟨row, p, e1, e2, x, y, ex, ey, e⟩ := hp 1 1 0 0 (by norm_num) (by norm_num) (by norm_num [along]) (by norm_num [along]) (by norm_num [bowedX]) (by norm_num [bowedX, striped]) (by norm_num [bowedY]) (by norm_num [bowedY, striped])
  refine ⟨rows, h, r, X0, Y0, X1, Y1, ps, f, dx, dy, hr, hps, hf, (h0 r0).1, (h0 r0).2, row, p, e1, e2, x, y, ?_, ?_, e⟩
  · norm_num [bowedX] at ex
    exact ex
  · norm_num [bowedY] at ey
    exact ey

end Verif.Props.RpcTiles
