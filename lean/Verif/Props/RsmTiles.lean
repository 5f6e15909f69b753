import Verif.Props.RsmSmooth
import Verif.Props.RpcTiles

/-!
# Orthophoto tiles of images with an RSM model: outside the image, and of Web Mercator tiles
-/

namespace Verif.Props.RsmTiles

open Real
open Verif.Orthophoto Verif.TileFactory Verif.GdalUtils Verif.Updaters Verif.Rpc Verif.Rsm
open Verif.Remap Verif.Sar
open Verif.Spec.Mercator Verif.Lemmas.Mercator Verif.Spec.MapTiles Verif.MapTiles Verif.Props.MapTiles
open Verif.Props.TileFactory Verif.Props.Orthophoto Verif.Props.OrthophotoNear
open Verif.Props.Remap Verif.Props.Mercator
open Verif.Props.RsmSmooth (Regular Computes rsm_follows InCube column row bendX bendY arch weighted projects)

/-- **C151** for images with an RSM model. -/
theorem outside_rsm_partial (R : Raster) (hb : 0 < R.bands) (S : Sensor) (adj : Adjust) (hadj : adj = .minmax ∨ adj = .dra ∨ R.bands = 1 ∨ R.bands = 3) (sar : Channel → Channel → Except PyErr Channel)
    (minLon minLat maxLon maxLat : ℚ) (hlon : minLon ≤ maxLon) (hlat : minLat ≤ maxLat) (n : Nat) (g : ℚ × ℚ × ℚ) (hg : S.toWorld ((R.height : ℚ) / 2, (R.width : ℚ) / 2) = .ok g)
    (earth : Earth) (m : PolyModel) (q K L η : ℝ) (hm : Regular m q K L) (hK : 0 ≤ K) (hL : 0 ≤ L) (tx ty : ℚ → ℚ → ℚ) (hS : Computes S earth m g.2.2 minLon minLat maxLon maxLat tx ty η) (δ : ℚ)
    (hδ : (K * (((maxLon : ℝ) - minLon) / m.xScale) ^ 2 + L * (((maxLat : ℝ) - minLat) / m.yScale) ^ 2) / 64 + η ≤ δ)
    (rows : List (List Rgba)) (h : createOrthophotoTile R S adj sar remap minLon minLat maxLon maxLat n n = .ok (some rows)) :
    ∃ r : Nat, r ≤ R.overviews ∧ ∀ (i j : Nat) (lon lat : ℚ), i < n → j < n → lon = along minLon maxLon n j → lat = along maxLat minLat n i →
      (tx lon lat ≤ -(3 * 2 ^ r + 2 * δ) ∨ R.width + (3 * 2 ^ r + 2 * δ) ≤ tx lon lat ∨ ty lon lat ≤ -(3 * 2 ^ r + 2 * δ) ∨ R.height + (3 * 2 ^ r + 2 * δ) ≤ ty lon lat) →
      ∃ row, rows[i]? = some row ∧ row[j]? = some ⟨0, 0, 0, 0⟩ :=
  outside_follows_partial R hb S adj hadj sar minLon minLat maxLon maxLat hlon hlat n g hg tx ty δ (rsm_follows hm hK hL hS hlon hlat n hδ) rows h

/-- **C143** for images with an RSM model.  Missing as there. -/
theorem grey_mercator_rsm_partial (R' : ℝ) (hR' : 0 < R') (size : Nat) (hs : 2 ≤ size) (name : String) (z : Nat) (id : TileId) (hid : IsTileOfLevel z id) (minLon minLat maxLon maxLat : ℚ) (ε : ℝ)
    (hε : ε ≤ 1 / 1000) (hk : KnownTo ((mercSet R' size name).getTile id).bounds minLon minLat maxLon maxLat ε)
    (R : Raster) (hb : R.bands = 1) (S : Sensor) (adj : Adjust) (hadj : adj = .minmax ∨ adj = .dra) (sar : Channel → Channel → Except PyErr Channel)
    (sample : Nat → Nat → Channel → ℚ → ℚ → Int) (hsample : Interpolates sample) (hlon : minLon ≤ maxLon) (hlat : minLat ≤ maxLat)
    (g : ℚ × ℚ × ℚ) (hg : S.toWorld ((R.height : ℚ) / 2, (R.width : ℚ) / 2) = .ok g)
    (earth : Earth) (m : PolyModel) (q K L η : ℝ) (hm : Regular m q K L) (hK : 0 ≤ K) (hL : 0 ≤ L) (tx ty : ℚ → ℚ → ℚ) (hS : Computes S earth m g.2.2 minLon minLat maxLon maxLat tx ty η) (δ : ℚ)
    (hδ : (K * (((maxLon : ℝ) - minLon) / m.xScale) ^ 2 + L * (((maxLat : ℝ) - minLat) / m.yScale) ^ 2) / 64 + η ≤ δ)
    (rows : List (List Rgba)) (h : createOrthophotoTile R S adj sar sample minLon minLat maxLon maxLat ((mercSet R' size name).getTile id).size.1 ((mercSet R' size name).getTile id).size.2 = .ok (some rows)) :
    ∃ (r : Nat) (X0 Y0 X1 Y1 : Int) (ps : List ℚ) (f : ℚ → Int), r ≤ R.overviews ∧ WindowValues R 1 r X0 Y0 X1 Y1 ps ∧ Adjusted adj R 1 ps f ∧
      ∀ i j : Nat, i < size → j < size → ∃ lon lat : ℚ,
        |rowPosition ((mercSet R' size name).getTile id).bounds.maxLat ((mercSet R' size name).getTile id).bounds.minLat size lat - (i + 1 / 2)| ≤ 1 / 2 + size * π / (2 * 2 ^ z) + 2 * size * ε * 2 ^ z ∧
        |colPosition ((mercSet R' size name).getTile id).bounds.minLon ((mercSet R' size name).getTile id).bounds.maxLon size lon - (j + 1 / 2)| ≤ 1 / 2 + size * ε * 2 ^ z ∧
        (2 * δ ≤ tx lon lat → tx lon lat ≤ R.width - 2 * δ → 2 * δ ≤ ty lon lat → ty lon lat ≤ R.height - 2 * δ →
          ∃ row p, rows[i]? = some row ∧ row[j]? = some p ∧ NearValue (fun X Y => f (R.pixel 1 r X Y)) r δ (tx lon lat) (ty lon lat) X0 Y0 X1 Y1 p.red) :=
  grey_mercator_follows_partial R' hR' size hs name z id hid minLon minLat maxLon maxLat ε hε hk R hb S adj hadj sar sample hsample hlon hlat g hg tx ty δ (rsm_follows hm hK hL hS hlon hlat size hδ) rows h

/-! ## A case -/

/-- An RSM model of an image of 8 × 8 pixels that is bent along parallels, made for a domain wider than the image. -/
noncomputable def wide : PolyModel where
  domain := Verif.Props.RsmModel.easternDomain .geodetic
  rowSection := 1
  colSection := 1
  rowOff := 4
  colOff := 4
  xOff := 33 / 10
  yOff := 3 / 20
  zOff := 0
  rowScale := 4
  colScale := 12
  xScale := 1 / 60
  yScale := 1 / 60
  zScale := 100
  rowNum := ⟨0, 1, 0, [0, -1]⟩
  rowDen := ⟨0, 0, 0, [1]⟩
  colNum := ⟨2, 0, 0, [0, 1, 1 / 10]⟩
  colDen := ⟨0, 0, 0, [1]⟩

theorem wide_regular : Regular wide 1 (12 / 5) 0 := by
  have den : ∀ x y z : ℝ, |x| ≤ 1 → |y| ≤ 1 → |z| ≤ 1 → 1 ≤ |Verif.Spec.Rounded.value (⟨0, 0, 0, [1]⟩ : RsmPoly ℝ) x y z| := by
    intro x y z _ _ _
    simp [Verif.Spec.Rounded.value, Verif.Spec.Rsm.triple, Verif.Spec.Rounded.coefficient]
  refine ⟨rfl, ?_, ?_, ?_, ?_, by norm_num [wide], by norm_num [wide], by norm_num [wide], by norm_num, den, den, ?_, ?_, ?_, ?_⟩
  · constructor <;> simp [wide] <;> norm_num
  · constructor <;> simp [wide] <;> norm_num
  · constructor <;> simp [wide] <;> norm_num
  · constructor <;> simp [wide] <;> norm_num
  · simp [bendX, arch, weighted, wide, Finset.sum_range_succ, Verif.Spec.Rounded.coefficient]
    try norm_num
  · simp [bendX, arch, weighted, wide, Finset.sum_range_succ, Verif.Spec.Rounded.coefficient]
    try norm_num [abs_of_pos]
  · simp [bendY, arch, weighted, wide, Finset.sum_range_succ, Verif.Spec.Rounded.coefficient]
  · simp [bendY, arch, weighted, wide, Finset.sum_range_succ, Verif.Spec.Rounded.coefficient]

def wideX (lon _ : ℚ) : ℚ := 4 + 12 * ((lon - 33 / 10) * 60 + ((lon - 33 / 10) * 60) ^ 2 / 10)

def wideY (_ lat : ℚ) : ℚ := 4 - 4 * ((lat - 3 / 20) * 60)

def wideSensor : Sensor := ⟨fun _ => .ok (33 / 10, 3 / 20, 0), fun p => .ok (wideX p.1 p.2.1, wideY p.1 p.2.1)⟩

theorem wide_computes (earth : Earth) : Computes wideSensor earth wide 0 (33 / 10 - 1 / 60) (3 / 20 - 1 / 60) (33 / 10 + 1 / 60) (3 / 20 + 1 / 60) wideX wideY 0 := by
  have inside : ∀ lon lat : ℚ, 33 / 10 - 1 / 60 ≤ lon → lon ≤ 33 / 10 + 1 / 60 → 3 / 20 - 1 / 60 ≤ lat → lat ≤ 3 / 20 + 1 / 60 → InCube wide ⟨lon, lat, (0 : ℚ)⟩ := fun lon lat a b c d => by
    have a' := (Rat.cast_le (K := ℝ)).2 a
    have b' := (Rat.cast_le (K := ℝ)).2 b
    have c' := (Rat.cast_le (K := ℝ)).2 c
    have d' := (Rat.cast_le (K := ℝ)).2 d
    push_cast at a' b' c' d'
    refine ⟨?_, ?_, ?_⟩
    · show |((lon : ℝ) - 33 / 10) / (1 / 60)| ≤ 1
      rw [abs_le]
      constructor <;> linarith
    · show |((lat : ℝ) - 3 / 20) / (1 / 60)| ≤ 1
      rw [abs_le]
      constructor <;> linarith
    · simp [wide]
  refine ⟨fun _ _ _ _ _ _ => rfl, inside, fun lon lat x y a b c d h => ?_⟩
  rw [projects earth wide_regular (inside lon lat a b c d)] at h
  obtain ⟨rfl, rfl⟩ := Prod.mk.inj (Except.ok.inj h)
  have ex : column wide lon lat ((0 : ℚ) : ℝ) = wideX lon lat := by
    simp [column, wideX, Verif.Spec.Rounded.value, wide, Verif.Spec.Rsm.triple, Finset.sum_range_succ, Verif.Spec.Rounded.coefficient]
    ring
  have ey : row wide lon lat ((0 : ℚ) : ℝ) = wideY lon lat := by
    simp [row, wideY, Verif.Spec.Rounded.value, wide, Verif.Spec.Rsm.triple, Finset.sum_range_succ, Verif.Spec.Rounded.coefficient]
    ring
  rw [ex, ey]
  simp

/-- The tile of 3 × 3 pixels exists.  Its left column, 6.8 pixels west of the image, is transparent; the value in its middle is within nine grey levels of the image at a place less than 0.3 pixels from (4, 4). -/
example (earth : Earth) : ∃ rows, createOrthophotoTile striped wideSensor .minmax (fun a _ => .ok a) remap (33 / 10 - 1 / 60) (3 / 20 - 1 / 60) (33 / 10 + 1 / 60) (3 / 20 + 1 / 60) 3 3 = .ok (some rows) ∧
    (∀ i < 3, ∃ row, rows[i]? = some row ∧ row[0]? = some ⟨0, 0, 0, 0⟩) ∧
    ∃ (X0 Y0 X1 Y1 : Int) (ps : List ℚ) (f : ℚ → Int), WindowValues striped 1 0 X0 Y0 X1 Y1 ps ∧ Adjusted .minmax striped 1 ps f ∧
      ∃ row p, rows[1]? = some row ∧ row[1]? = some p ∧ ∃ x y : ℚ, |x - 4| ≤ 3 / 10 ∧ |y - 4| ≤ 3 / 10 ∧ |(p.red : ℚ) - smooth (continued striped f 0 X0 Y0 X1 Y1) x y| ≤ 9 := by
  have made : ∃ rows, createOrthophotoTile striped wideSensor .minmax (fun a _ => .ok a) remap (33 / 10 - 1 / 60) (3 / 20 - 1 / 60) (33 / 10 + 1 / 60) (3 / 20 + 1 / 60) 3 3 = .ok (some rows) := by
    have h : ((createOrthophotoTile striped wideSensor .minmax (fun a _ => .ok a) remap (33 / 10 - 1 / 60) (3 / 20 - 1 / 60) (33 / 10 + 1 / 60) (3 / 20 + 1 / 60) 3 3).toOption.bind id).isSome = true := by decide +kernel
    rcases hc : createOrthophotoTile striped wideSensor .minmax (fun a _ => .ok a) remap (33 / 10 - 1 / 60) (3 / 20 - 1 / 60) (33 / 10 + 1 / 60) (3 / 20 + 1 / 60) 3 3 with e | v
    · rw [hc] at h; simp [Except.toOption] at h
    · cases v with
      | none => rw [hc] at h; simp [Except.toOption] at h
      | some rows => exact ⟨rows, rfl⟩
  obtain ⟨rows, h⟩ := made
  have bound : ((12 / 5 : ℝ) * ((((33 / 10 + 1 / 60 : ℚ) : ℝ) - (33 / 10 - 1 / 60 : ℚ)) / wide.xScale) ^ 2 + 0 * ((((3 / 20 + 1 / 60 : ℚ) : ℝ) - (3 / 20 - 1 / 60 : ℚ)) / wide.yScale) ^ 2) / 64 + 0 ≤ ((3 / 20 : ℚ) : ℝ) := by
    norm_num [wide]
  refine ⟨rows, h, ?_, ?_⟩
  · obtain ⟨r, hr, hp⟩ := outside_rsm_partial striped (by decide) wideSensor .minmax (Or.inl rfl) (fun a _ => .ok a) _ _ _ _ (by norm_num) (by norm_num) 3 _ rfl earth wide 1 (12 / 5) 0 0 wide_regular
      (by norm_num) le_rfl wideX wideY (wide_computes earth) (3 / 20) bound rows h
    have r0 : r = 0 := Nat.le_zero.1 hr
    subst r0
    intro i hi
    exact hp i 0 _ _ hi (by norm_num) rfl rfl (Or.inl (by norm_num [wideX, along]))
  · obtain ⟨r, X0, Y0, X1, Y1, ps, f, dx, dy, hr, -, -, hps, hf, -, -, h0, hp⟩ := Verif.Props.RsmSmooth.grey_values_rsm striped rfl wideSensor .minmax (Or.inl rfl) (fun a _ => .ok a) _ _ _ _ (by norm_num)
      (by norm_num) 3 _ rfl earth wide 1 (12 / 5) 0 0 wide_regular (by norm_num) le_rfl wideX wideY (wide_computes earth) (3 / 20) bound rows h
    have r0 : r = 0 := Nat.le_zero.1 hr
    subst r0
    obtain ⟨rfl, rfl⟩ := h0 rfl
    obtain ⟨row, p, e1, e2, x, y, ex, ey, e⟩ := hp 1 1 (33 / 10) (3 / 20) (by norm_num) (by norm_num) (by norm_num [along]) (by norm_num [along]) (by norm_num [wideX]) (by norm_num [wideX, striped])
      (by norm_num [wideY]) (by norm_num [wideY, striped])
    refine ⟨X0, Y0, X1, Y1, ps, f, hps, hf, row, p, e1, e2, x, y, ?_, ?_, ?_⟩
    · norm_num [wideX] at ex
      exact ex
    · norm_num [wideY] at ey
      exact ey
    · simpa using e

end Verif.Props.RsmTiles
