import Verif.Props.Orthophoto

/-!
# Orthophoto tiles of large images (C147)

`cv2.remap` takes no array with 32767 rows or columns or more.
-/

namespace Verif.Props.OrthophotoLarge

open Verif.Props.Tre (mapM_ok)
open Verif Verif.TileFactory Verif.Orthophoto Verif.GdalUtils Verif.Props.Orthophoto Verif.Props.TileFactory

/-- **C147** is false: an image with 32763 columns or more that has no overviews has no tile that shows all its columns: two of the nine grid points, one left of the image and one right of it,
are enough, whatever the sensor model, the adjustment and the size of the tile. -/
theorem wide_image_no_tile (R : Raster) (hw : 32763 ≤ R.width) (hov : R.overviews = 0) (S : Sensor) (adj : Adjust) (sar : Channel → Channel → Except PyErr Channel)
    (sample : Nat → Nat → Channel → ℚ → ℚ → Int) (minLon minLat maxLon maxLat : ℚ) (tw th : Nat) (g : ℚ × ℚ × ℚ) (hg : S.toWorld ((R.height : ℚ) / 2, (R.width : ℚ) / 2) = .ok g)
    (i j i' j' : Fin 3) (x y x' y' : ℚ)
    (h1 : S.toImage (minLon + (maxLon - minLon) * (j.val : ℚ) / 2, maxLat + (minLat - maxLat) * (i.val : ℚ) / 2, g.2.2) = .ok (x, y)) (hx : x ≤ 0)
    (h2 : S.toImage (minLon + (maxLon - minLon) * (j'.val : ℚ) / 2, maxLat + (minLat - maxLat) * (i'.val : ℚ) / 2, g.2.2) = .ok (x', y')) (hx' : (R.width : ℚ) ≤ x')
    (rows : List (List Rgba)) : createOrthophotoTile R S adj sar sample minLon minLat maxLon maxLat tw th ≠ .ok (some rows) := by
  intro h
  obtain ⟨g', zs, b, full, r, o, hg', hz, hb, hr, hrender⟩ := create_ok R S adj sar sample minLon minLat maxLon maxLat tw th rows h
  rw [hg] at hg'
  injection hg' with hg'
  subst hg'
  unfold projectGrid at hz
  rw [mapM_ok] at hz
  have hall : ∀ ij : Fin 3 × Fin 3, ∃ z ∈ zs, project S g.2.2 (linspace3 minLon maxLon ij.2) (linspace3 maxLat minLat ij.1) = .ok z := by
    intro ij
    have hm : ij ∈ gridIndices := by revert ij; decide
    obtain ⟨k, hk, e⟩ := List.getElem_of_mem hm
    have hk' : k < zs.length := hz.length_eq ▸ hk
    have hget := hz.get hk hk'
    rw [List.get_eq_getElem, List.get_eq_getElem, e] at hget
    exact ⟨zs[k], List.getElem_mem _, hget⟩
  obtain ⟨z, hzm, hz1⟩ := hall (i, j)
  obtain ⟨z', hzm', hz1'⟩ := hall (i', j')
  have e1 : z = (x, y) := by
    unfold project linspace3 at hz1
    rw [h1] at hz1
    exact (Except.ok.inj hz1).symm
  have e2 : z' = (x', y') := by
    unfold project linspace3 at hz1'
    rw [h2] at hz1'
    exact (Except.ok.inj hz1').symm
  subst e1
  subst e2
  obtain ⟨hbx, -⟩ := (source_box_tight (zs.map Prod.fst) (zs.map Prod.snd)).2 b hb
  have k1 := (hbx x (List.mem_map_of_mem (f := Prod.fst) hzm)).1
  have k2 := (hbx x' (List.mem_map_of_mem (f := Prod.fst) hzm')).2
  have b0 : b.x0 ≤ 0 := by exact_mod_cast k1.trans hx
  have b1 : (R.width : Int) ≤ b.x1 := by exact_mod_cast hx'.trans k2
  obtain ⟨-, ⟨l, -, hl⟩, rfl, rfl⟩ := readWindow_ok _ _ _ _ _ _ _ _ hr
  rw [hov, Nat.min_zero] at hl
  subst hl
  unfold render at hrender
  by_cases hc : (overviewBox (clipBox b R.width R.height) 0).x1 ≤ (overviewBox (clipBox b R.width R.height) 0).x0 ∨
      (overviewBox (clipBox b R.width R.height) 0).y1 ≤ (overviewBox (clipBox b R.width R.height) 0).y0
  · rw [if_pos hc] at hrender; exact absurd hrender (by simp)
  · rw [if_neg hc, if_pos] at hrender
    · exact absurd hrender (by simp)
    · left
      simp only [overviewBox, clipBox, pow_zero, Int.tdiv_one, remapLimit]
      omega

/-- Premises: 40000 × 40000 pixels, the map tile of the whole image. -/
def huge : Raster := ⟨40000, 40000, 1, 0, fun _ _ x _ => x, fun _ => some 0, fun _ => some 255, fun _ _ _ _ => []⟩

example : huge.overviews = 0 ∧ 32763 ≤ huge.width ∧ flat.toImage (0 + (40000 - 0) * ((0 : Fin 3).val : ℚ) / 2, 0 + (-40000 - 0) * ((0 : Fin 3).val : ℚ) / 2, 0) = .ok (0, 0) ∧
    flat.toImage (0 + (40000 - 0) * ((2 : Fin 3).val : ℚ) / 2, 0 + (-40000 - 0) * ((2 : Fin 3).val : ℚ) / 2, 0) = .ok (40000, 40000) := by
  refine ⟨rfl, by decide, ?_, ?_⟩ <;> norm_num [flat]

/-- **C147** is false: for this image the call raises. -/
theorem whole_image_raises : createOrthophotoTile huge flat .minmax (fun a _ => .ok a) nearest 0 (-40000) 40000 0 256 256 = .error .runtimeError := by
  decide +kernel

/-- **C147** (in part): with MINMAX, and as long as the window that is read is not empty, there is a tile exactly when the window has fewer than 32763 rows and columns, whatever the image. -/
theorem tile_iff_window_fits (R : Raster) (hbands : R.bands = 1 ∨ 3 ≤ R.bands) (S : Sensor) (sar : Channel → Channel → Except PyErr Channel)
    (sample : Nat → Nat → Channel → ℚ → ℚ → Int) (minLon minLat maxLon maxLat : ℚ) (tw th : Nat) (hw : 2 ≤ tw ∧ tw < 32767) (hh : 2 ≤ th ∧ th < 32767) (g : ℚ × ℚ × ℚ)
    (hg : S.toWorld ((R.height : ℚ) / 2, (R.width : ℚ) / 2) = .ok g) (zs : List (ℚ × ℚ))
    (hz : List.Forall₂ (fun ij z => S.toImage (minLon + (maxLon - minLon) * ((ij : Nat × Nat).2 : ℚ) / 2, maxLat + (minLat - maxLat) * (ij.1 : ℚ) / 2, g.2.2) = .ok z)
      [(0, 0), (0, 1), (0, 2), (1, 0), (1, 1), (1, 2), (2, 0), (2, 1), (2, 2)] zs)
    (b full o : Box) (r : Nat) (hb : sourceBox (zs.map Prod.fst) (zs.map Prod.snd) = some b) (hr : readWindow b R.width R.height tw R.overviews = .ok (some (full, r, o)))
    (ho : o.x0 < o.x1 ∧ o.y0 < o.y1) :
    (∃ rows, createOrthophotoTile R S .minmax sar sample minLon minLat maxLon maxLat tw th = .ok (some rows)) ↔ o.x1 - o.x0 < 32763 ∧ o.y1 - o.y0 < 32763 := by
  constructor
  · rintro ⟨rows, h⟩
    obtain ⟨g', zs', b', full', r', o', hg', hz', hb', hr', hrender⟩ := create_ok R S _ sar sample minLon minLat maxLon maxLat tw th rows h
    rw [hg] at hg'
    injection hg' with hg'
    subst hg'
    have hz'' : projectGrid S g.2.2 minLon minLat maxLon maxLat = .ok zs := by
      unfold projectGrid project
      rw [mapM_ok]
      have e : [(0, 0), (0, 1), (0, 2), (1, 0), (1, 1), (1, 2), (2, 0), (2, 1), (2, 2)] = gridIndices.map (fun ij => (ij.1.val, ij.2.val)) := rfl
      rw [e, List.forall₂_map_left_iff] at hz
      exact hz
    rw [hz''] at hz'
    injection hz' with hz'
    subst hz'
    rw [hb] at hb'
    injection hb' with hb'
    subst hb'
    rw [hr] at hr'
    simp only [Except.ok.injEq, Option.some.injEq, Prod.mk.injEq] at hr'
    obtain ⟨rfl, rfl, rfl⟩ := hr'
    unfold render at hrender
    rw [if_neg (by omega)] at hrender
    split at hrender
    · exact absurd hrender (by simp)
    · rename_i hn
      unfold remapLimit at hn
      omega
  · rintro ⟨h1, h2⟩
    exact minmax_tile_produced R hbands S sar sample minLon minLat maxLon maxLat tw th hw.1 hh.1 g hg zs hz b full o r hb hr ho ⟨h1, h2, by omega, by omega⟩

/-- **C147** (in part): the window fits when the image has fewer than 32763 rows and columns, or when the level that suits the map tile exists (the smaller side of the source box is less than `2 ^ (overviews + 1)` tile widths)
and the sides of the source box are at most `k` times its smaller side, `k` times the width of the map tile being at most 16381. -/
theorem window_fits_partial (b full o : Box) (width height : Nat) (tw ov k : Nat) (htw : 0 < tw) (hb : b.x0 ≤ b.x1 ∧ b.y0 ≤ b.y1) (r : Nat)
    (hr : readWindow b width height tw ov = .ok (some (full, r, o)))
    (h : width < 32763 ∧ height < 32763 ∨
      (min (b.x1 - b.x0) (b.y1 - b.y0) < 2 ^ (ov + 1) * tw ∧ b.x1 - b.x0 ≤ k * min (b.x1 - b.x0) (b.y1 - b.y0) ∧ b.y1 - b.y0 ≤ k * min (b.x1 - b.x0) (b.y1 - b.y0) ∧ k * tw ≤ 16381)) :
    o.x1 - o.x0 < 32763 ∧ o.y1 - o.y0 < 32763 := by
  obtain ⟨hno, ⟨l, hl, hrl⟩, hfull, hoo⟩ := readWindow_ok _ _ _ _ _ _ _ _ hr
  obtain ⟨-, ⟨ox0, ox1, ox2⟩, ⟨oy0, oy1, oy2⟩, -, -, fx0, fx1, fy0, fy1⟩ :=
    window_inside_partial b width height hb ⟨by omega, by omega⟩ tw ov full o r hr
  have hp : (1 : Int) ≤ 2 ^ r := one_le_pow₀ (by norm_num)
  rcases h with ⟨h1, h2⟩ | ⟨hd, hx, hy, hk⟩
  · have a : o.x1 ≤ o.x1 * 2 ^ r := le_mul_of_one_le_right (by omega) hp
    have c : o.y1 ≤ o.y1 * 2 ^ r := le_mul_of_one_le_right (by omega) hp
    omega
  · obtain ⟨dim, hdim, hbig, hsmall⟩ := level_fits_width b tw l htw hl
    rw [← hdim] at hd hx hy
    have hlov : l ≤ ov := by
      by_cases hc : tw ≤ dim
      · have h1 := (hbig hc).1
        have h2 : dim < 2 ^ (ov + 1) * tw := by exact_mod_cast hd
        have h3 : 2 ^ l < 2 ^ (ov + 1) := Nat.lt_of_mul_lt_mul_right (lt_of_le_of_lt h1 h2)
        have := (Nat.pow_lt_pow_iff_right (by norm_num : 1 < 2)).1 h3
        omega
      · rw [hsmall (by omega)]; exact Nat.zero_le _
    have hr' : r = l := by omega
    have hdl : dim ≤ 2 ^ (l + 1) * tw := by
      by_cases hc : tw ≤ dim
      · exact (hbig hc).2.le
      · have := hsmall (by omega)
        subst this
        omega
    have key : ∀ (x0 x1 : Int), 0 ≤ x0 → x0 ≤ x1 → x1 - x0 ≤ k * dim → x1.tdiv (2 ^ r) - x0.tdiv (2 ^ r) < 32763 := by
      intro x0 x1 h0 h01 hs
      rw [Int.tdiv_eq_ediv_of_nonneg h0, Int.tdiv_eq_ediv_of_nonneg (h0.trans h01)]
      have hq : (0 : Int) < 2 ^ r := by positivity
      have hs' : x1 - x0 ≤ 32762 * 2 ^ r := by
        calc x1 - x0 ≤ k * dim := hs
          _ ≤ ((k * (2 ^ (l + 1) * tw) : Nat) : Int) := by exact_mod_cast Nat.mul_le_mul_left k hdl
          _ = ((k * tw : Nat) : Int) * 2 * 2 ^ l := by push_cast; rw [pow_succ]; ring
          _ ≤ 16381 * 2 * 2 ^ l := by
            have : ((k * tw : Nat) : Int) ≤ 16381 := by exact_mod_cast hk
            gcongr
          _ = 32762 * 2 ^ r := by rw [hr']; norm_num
      have : x1 / 2 ^ r ≤ x0 / 2 ^ r + 32762 := by
        have : x1 ≤ x0 + 32762 * 2 ^ r := by omega
        calc x1 / 2 ^ r ≤ (x0 + 32762 * 2 ^ r) / 2 ^ r := Int.ediv_le_ediv hq this
          _ = x0 / 2 ^ r + 32762 := by rw [Int.add_mul_ediv_right _ _ hq.ne']
      omega
    have ho1 := key full.x0 full.x1
    have ho2 := key full.y0 full.y1
    have eo : o = overviewBox full r := hoo
    rw [eo]
    simp only [overviewBox]
    simp only [noOverlap, decide_eq_false_iff_not, not_or, not_lt, gt_iff_lt] at hno
    obtain ⟨n1, n2, n3, n4⟩ := hno
    generalize hm : (k : Int) * dim = m at *
    clear hd hl hrl hoo hfull hr ox0 ox1 ox2 oy0 oy1 oy2 key hp hdim hbig hsmall
    constructor
    · exact ho1 (by omega) (by omega) (by omega)
    · exact ho2 (by omega) (by omega) (by omega)

/-- Premises: 100000 × 100000 pixels with eight overviews, the map tile of 256 pixels of the whole image; the level that is used is the eighth. -/
example : readWindow ⟨0, 0, 100000, 100000⟩ 100000 100000 256 8 = .ok (some (⟨0, 0, 100000, 100000⟩, 8, ⟨0, 0, 390, 390⟩)) ∧ (100000 : Int) < 2 ^ (8 + 1) * 256 ∧ 1 * 256 ≤ 16381 := by
  decide +kernel

end Verif.Props.OrthophotoLarge
