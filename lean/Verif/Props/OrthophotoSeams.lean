import Verif.Props.OrthophotoNear

/-!
# Neighbouring orthophoto tiles

Two map tiles that share an edge show the same ground along it: the last column of the western tile and the first column of the eastern one, and the last row of the northern tile and the first row of the southern
one.  Here is how well they agree, and why they do not agree exactly (C140).
-/

namespace Verif.Props.OrthophotoSeams

open Verif.Orthophoto Verif.TileFactory Verif.GdalUtils Verif.Updaters
open Verif.Props.Tre (bind_ok pure_ok mapM_ok)
open Verif.Props.TileFactory Verif.Props.Orthophoto Verif.Props.OrthophotoNear

/-- `v` is the value at point `i` of `n` equidistant points of the line that goes from `a 0` straight to `a 1` and then straight to `a 2`. -/
structure OnLine (n i : Nat) (a : Fin 3 → ℚ) (v : ℚ) : Prop where
  first : 2 * (i : ℚ) ≤ (n : ℚ) - 1 → v = a 0 + (a 1 - a 0) * (2 * (i : ℚ) / ((n : ℚ) - 1))
  second : (n : ℚ) - 1 < 2 * (i : ℚ) → v = a 1 + (a 2 - a 1) * (2 * (i : ℚ) / ((n : ℚ) - 1) - 1)

theorem lin3_onLine (n i : Nat) (hn : 2 ≤ n) (a : Fin 3 → ℚ) (v : ℚ) (h : OnLine n i a v) : lin3 (((n : ℚ) - 1) / 2) (a 0) (a 1) (a 2) i = v := by
  have h2 : (2 : ℚ) ≤ n := by exact_mod_cast hn
  have hm : (n : ℚ) - 1 ≠ 0 := by linarith
  unfold lin3
  by_cases hc : 2 * (i : ℚ) ≤ (n : ℚ) - 1
  · rw [if_pos (by linarith), h.first hc]
    field_simp
  · rw [if_neg (by intro h'; exact hc (by linarith)), h.second (not_le.1 hc)]
    field_simp

/-- The value of a grey tile pixel: between the least and the greatest adjusted value of the pixels of level `r` that are less than two pixels of this level from the position (`x`, `y`) of the image. -/
def Shown (R : Raster) (f : ℚ → Int) (r : Nat) (x y : ℚ) (p : Rgba) : Prop :=
  (∀ lo hi : Int, (∀ X Y : Int, 0 ≤ X → (X + 1) * 2 ^ r ≤ R.width → 0 ≤ Y → (Y + 1) * 2 ^ r ≤ R.height → |(X : ℚ) - x / 2 ^ r| < 2 → |(Y : ℚ) - y / 2 ^ r| < 2 →
      lo ≤ f (R.pixel 1 r X Y) ∧ f (R.pixel 1 r X Y) ≤ hi) → lo ≤ p.red ∧ p.red ≤ hi) ∧
    p.green = p.red ∧ p.blue = p.red ∧ p.alpha = if p.red = 0 then 0 else 255

/-- Interpolation on the projected grid, for the tile pixel in row `i` and column `j`. -/
def at3 (n : Nat) (z : Fin 3 → Fin 3 → ℚ) (i j : Nat) : ℚ :=
  lin3 (((n : ℚ) - 1) / 2) (lin3 (((n : ℚ) - 1) / 2) (z 0 0) (z 0 1) (z 0 2) j) (lin3 (((n : ℚ) - 1) / 2) (z 1 0) (z 1 1) (z 1 2) j) (lin3 (((n : ℚ) - 1) / 2) (z 2 0) (z 2 1) (z 2 2) j) i

theorem lin3_ends (n : Nat) (hn : 2 ≤ n) (a b c : ℚ) : lin3 (((n : ℚ) - 1) / 2) a b c (0 : Nat) = a ∧ lin3 (((n : ℚ) - 1) / 2) a b c ((n - 1 : Nat) : ℚ) = c := by
  have h2 : (2 : ℚ) ≤ n := by exact_mod_cast hn
  have hm : (n : ℚ) - 1 ≠ 0 := by linarith
  have e : ((n - 1 : Nat) : ℚ) = (n : ℚ) - 1 := by rw [Nat.cast_sub (by omega)]; norm_num
  unfold lin3
  rw [e, Nat.cast_zero, if_pos (by linarith), if_neg (by intro h; linarith)]
  constructor
  · ring
  · field_simp; ring

/-- The adjustment does not depend on the window when the statistics of the image are known. -/
theorem adjuster_known (adj : Adjust) (R : Raster) (lo hi : ℚ) (hlo : R.gmin 1 = some lo) (hhi : R.gmax 1 = some hi) (ps : List ℚ) : adjuster adj R 1 ps = adjuster adj R 1 [] := by
  unfold adjuster limits
  rw [hlo, hhi]
  simp only [Option.some_or]

/-- One tile of a grey image whose statistics are known.  The adjustment is the one of the image, `row` and `col` may be any row and column. -/
theorem grey_tile_core (R : Raster) (hb : R.bands = 1) (lo hi : ℚ) (hlo : R.gmin 1 = some lo) (hhi : R.gmax 1 = some hi) (S : Sensor) (adj : Adjust) (hadj : adj = .minmax ∨ adj = .dra)
    (sar : Channel → Channel → Except PyErr Channel) (sample : Nat → Nat → Channel → ℚ → ℚ → Int) (hsample : Interpolates sample)
    (minLon minLat maxLon maxLat : ℚ) (n : Nat) (rows : List (List Rgba)) (h : createOrthophotoTile R S adj sar sample minLon minLat maxLon maxLat n n = .ok (some rows)) :
    2 ≤ n ∧ ∃ g zx zy f r, S.toWorld ((R.height : ℚ) / 2, (R.width : ℚ) / 2) = .ok g ∧
      (∀ p q : Fin 3, S.toImage (linspace3 minLon maxLon q, linspace3 maxLat minLat p, g.2.2) = .ok (zx p q, zy p q)) ∧ adjuster adj R 1 [] = .ok f ∧ r ≤ R.overviews ∧
      ∀ i j x y, i < n → j < n → x = at3 n zx i j → y = at3 n zy i j → 0 ≤ x → x ≤ R.width → 0 ≤ y → y ≤ R.height →
        ∃ row p, rows[i]? = some row ∧ row[j]? = some p ∧ Shown R f r x y p := by
  obtain ⟨g, zs, _, full, r', o', hg, hz, _, _, hr'⟩ := create_ok R S adj sar sample minLon minLat maxLon maxLat n n rows h
  obtain ⟨_, _, _, _, _, _, hm1, _, _⟩ := render_ok R adj sar sample zs n n full r' o' rows hr'
  have hn : 2 ≤ n := (remapArray_ok _ _ _ _ hm1).1
  have hS : ∃ tx ty : ℚ → ℚ → ℚ, ∀ p q : Fin 3, S.toImage (linspace3 minLon maxLon q, linspace3 maxLat minLat p, g.2.2) =
      .ok (tx (linspace3 minLon maxLon q) (linspace3 maxLat minLat p), ty (linspace3 minLon maxLon q) (linspace3 maxLat minLat p)) := by
    refine ⟨fun lon lat => ((S.toImage (lon, lat, g.2.2)).toOption.getD (0, 0)).1, fun lon lat => ((S.toImage (lon, lat, g.2.2)).toOption.getD (0, 0)).2, ?_⟩
    intro p q
    unfold projectGrid project at hz
    obtain ⟨i, hi, hpq⟩ := List.mem_iff_getElem.1 (mem_gridIndices p q)
    obtain ⟨z, _, hf⟩ := (mapM_getElem? _ _ _ hz).2 i (p, q) (by rw [List.getElem?_eq_getElem hi, hpq])
    simp only at hf
    simp only [hf, Except.toOption, Option.getD_some]
  obtain ⟨tx, ty, hS⟩ := hS
  obtain ⟨w0, hw0, he0⟩ := remap_weights_of n hn
  obtain ⟨_, _, o, r, cs, hr, x0, hx, x1, y0, hy, y1, hcs, hpix⟩ := tile_core R S adj sar sample hsample minLon minLat maxLon maxLat n w0 (fun i hi => (hw0 i hi).1) he0 g hg tx ty hS rows h
  rw [hb] at hcs
  have hd : ∃ f, adjuster adj R 1 [] = .ok f ∧ cs = [fun row col => f (readBand R r o 1 row col)] := by
    unfold display at hcs
    rw [if_neg (by rcases hadj with rfl | rfl <;> simp)] at hcs
    simp only [List.range_one, List.map_cons, List.map_nil, bind_ok, pure_ok, adjustBand] at hcs
    obtain ⟨c', ⟨f, hf, rfl⟩, rfl⟩ := hcs
    rw [adjuster_known adj R lo hi hlo hhi] at hf
    exact ⟨f, hf, rfl⟩
  obtain ⟨f, hf, hcs'⟩ := hd
  refine ⟨hn, g, fun p q => tx (linspace3 minLon maxLon q) (linspace3 maxLat minLat p), fun p q => ty (linspace3 minLon maxLon q) (linspace3 maxLat minLat p), f, r, hg, hS, hf, hr, ?_⟩
  intro i j x y hi hj ex ey a b c d
  have key : ∀ z : Fin 3 → Fin 3 → ℚ, at3 n z i j = mix (w0 i) (w0 j) z := by
    intro z
    unfold at3
    rw [(hw0 i hi).2, (hw0 j hj).2, (hw0 j hj).2, (hw0 j hj).2]
    rfl
  rw [key] at ex ey
  obtain ⟨row, p, hrow, hp, vs, henc, hvs⟩ := hpix i j x y hi hj ex ey a b c d
  rw [hcs'] at hvs
  cases hvs with
  | cons hv hnil =>
    rename_i v _
    cases hnil
    rw [(written_pixel_partial v 0 0 0).1] at henc
    injection henc with henc
    refine ⟨row, p, hrow, hp, ?_, ?_⟩
    · rw [← henc]
      intro lo hi hall
      refine hv lo hi ?_
      intro X Y e1 e2 e3 e4 e5 e6
      rw [mul_zero, zero_div, add_zero] at e5 e6
      have hpow : (0 : Int) < 2 ^ r := by positivity
      have := hall X Y (by omega) ((mul_le_mul_of_nonneg_right (by omega : X + 1 ≤ o.x1) hpow.le).trans x1) (by omega)
        ((mul_le_mul_of_nonneg_right (by omega : Y + 1 ≤ o.y1) hpow.le).trans y1) e5 e6
      unfold readBand
      beta_reduce
      rw [show o.x0 + (X - o.x0) = X by ring, show o.y0 + (Y - o.y0) = Y by ring]
      exact this
    · rw [← henc]; exact ⟨rfl, rfl, rfl⟩

theorem linspace3_ends (a b : ℚ) : linspace3 a b 0 = a ∧ linspace3 a b 2 = b := ⟨(linspace3_values a b).1, (linspace3_values a b).2.2⟩

/-- **C140**, what holds: two square tiles of one grey image, one west of the other, share the meridian `middle`.  For every sensor model the last column of the western and the first column of the eastern tile are
taken from the same positions of the image, the points of the line through the projections of the two ends and the middle of the shared edge.  When the statistics of the image are known both are adjusted with one
function.  What each shows lies between the adjusted values of the pixels less than two pixels from this position, at the level from which its tile was read.  Missing: equality (`seam_at_full_resolution`), one
level (`seam_of_levels`), and unknown statistics (`seam_of_statistics`). -/
theorem shared_meridian_partial (R : Raster) (hb : R.bands = 1) (lo hi : ℚ) (hlo : R.gmin 1 = some lo) (hhi : R.gmax 1 = some hi) (S : Sensor) (adj : Adjust) (hadj : adj = .minmax ∨ adj = .dra)
    (sar : Channel → Channel → Except PyErr Channel) (sample : Nat → Nat → Channel → ℚ → ℚ → Int) (hsample : Interpolates sample) (west middle east south north : ℚ) (n : Nat)
    (W E : List (List Rgba)) (hW : createOrthophotoTile R S adj sar sample west south middle north n n = .ok (some W)) (hE : createOrthophotoTile R S adj sar sample middle south east north n n = .ok (some E)) :
    ∃ g X Y f r r', S.toWorld ((R.height : ℚ) / 2, (R.width : ℚ) / 2) = .ok g ∧
      (∀ k : Fin 3, S.toImage (middle, north + (south - north) * (k.val : ℚ) / 2, g.2.2) = .ok (X k, Y k)) ∧ Adjusted adj R 1 [] f ∧ r ≤ R.overviews ∧ r' ≤ R.overviews ∧
      ∀ i x y, i < n → OnLine n i X x → OnLine n i Y y → 0 ≤ x → x ≤ R.width → 0 ≤ y → y ≤ R.height →
        ∃ row p row' q, W[i]? = some row ∧ row[n - 1]? = some p ∧ E[i]? = some row' ∧ row'[0]? = some q ∧ Shown R f r x y p ∧ Shown R f r' x y q := by
  obtain ⟨hn, g, zx, zy, f, r, hg, hz, hf, hr, hp⟩ := grey_tile_core R hb lo hi hlo hhi S adj hadj sar sample hsample west south middle north n W hW
  obtain ⟨_, g', zx', zy', f', r', hg', hz', hf', hr', hp'⟩ := grey_tile_core R hb lo hi hlo hhi S adj hadj sar sample hsample middle south east north n E hE
  rw [hg] at hg'
  injection hg' with hg'
  subst hg'
  rw [hf] at hf'
  injection hf' with hf'
  subst hf'
  have same : ∀ k, zx k 2 = zx' k 0 ∧ zy k 2 = zy' k 0 := by
    intro k
    have a := hz k 2
    have b := hz' k 0
    rw [(linspace3_ends _ _).2] at a
    rw [(linspace3_ends _ _).1] at b
    rw [a] at b
    injection b with b
    exact ⟨congrArg Prod.fst b, congrArg Prod.snd b⟩
  refine ⟨g, fun k => zx k 2, fun k => zy k 2, f, r, r', hg, ?_, adjuster_spec adj hadj R 1 [] f hf, hr, hr', ?_⟩
  · intro k
    have a := hz k 2
    rw [(linspace3_ends _ _).2] at a
    exact a
  intro i x y hi hx hy a b c d
  have ex : at3 n zx i (n - 1) = x := by
    unfold at3
    rw [(lin3_ends n hn _ _ _).2, (lin3_ends n hn _ _ _).2, (lin3_ends n hn _ _ _).2]
    exact lin3_onLine n i hn _ _ hx
  have ey : at3 n zy i (n - 1) = y := by
    unfold at3
    rw [(lin3_ends n hn _ _ _).2, (lin3_ends n hn _ _ _).2, (lin3_ends n hn _ _ _).2]
    exact lin3_onLine n i hn _ _ hy
  have ex' : at3 n zx' i 0 = x := by
    unfold at3
    rw [(lin3_ends n hn _ _ _).1, (lin3_ends n hn _ _ _).1, (lin3_ends n hn _ _ _).1, ← (same 0).1, ← (same 1).1, ← (same 2).1]
    exact lin3_onLine n i hn _ _ hx
  have ey' : at3 n zy' i 0 = y := by
    unfold at3
    rw [(lin3_ends n hn _ _ _).1, (lin3_ends n hn _ _ _).1, (lin3_ends n hn _ _ _).1, ← (same 0).2, ← (same 1).2, ← (same 2).2]
    exact lin3_onLine n i hn _ _ hy
  obtain ⟨row, p, h1, h2, h3⟩ := hp i (n - 1) x y hi (by omega) ex.symm ey.symm a b c d
  obtain ⟨row', q, h4, h5, h6⟩ := hp' i 0 x y hi (by omega) ex'.symm ey'.symm a b c d
  exact ⟨row, p, row', q, h1, h2, h4, h5, h3, h6⟩

/-- **C140**, what holds for tiles one above the other, which share the parallel `middle`: the last row of the northern and the first row of the southern tile. -/
theorem shared_parallel_partial (R : Raster) (hb : R.bands = 1) (lo hi : ℚ) (hlo : R.gmin 1 = some lo) (hhi : R.gmax 1 = some hi) (S : Sensor) (adj : Adjust) (hadj : adj = .minmax ∨ adj = .dra)
    (sar : Channel → Channel → Except PyErr Channel) (sample : Nat → Nat → Channel → ℚ → ℚ → Int) (hsample : Interpolates sample) (west east south middle north : ℚ) (n : Nat)
    (N M : List (List Rgba)) (hN : createOrthophotoTile R S adj sar sample west middle east north n n = .ok (some N)) (hM : createOrthophotoTile R S adj sar sample west south east middle n n = .ok (some M)) :
    ∃ g X Y f r r', S.toWorld ((R.height : ℚ) / 2, (R.width : ℚ) / 2) = .ok g ∧
      (∀ k : Fin 3, S.toImage (west + (east - west) * (k.val : ℚ) / 2, middle, g.2.2) = .ok (X k, Y k)) ∧ Adjusted adj R 1 [] f ∧ r ≤ R.overviews ∧ r' ≤ R.overviews ∧
      ∀ j x y, j < n → OnLine n j X x → OnLine n j Y y → 0 ≤ x → x ≤ R.width → 0 ≤ y → y ≤ R.height →
        ∃ row p row' q, N[n - 1]? = some row ∧ row[j]? = some p ∧ M[0]? = some row' ∧ row'[j]? = some q ∧ Shown R f r x y p ∧ Shown R f r' x y q := by
  obtain ⟨hn, g, zx, zy, f, r, hg, hz, hf, hr, hp⟩ := grey_tile_core R hb lo hi hlo hhi S adj hadj sar sample hsample west middle east north n N hN
  obtain ⟨_, g', zx', zy', f', r', hg', hz', hf', hr', hp'⟩ := grey_tile_core R hb lo hi hlo hhi S adj hadj sar sample hsample west south east middle n M hM
  rw [hg] at hg'
  injection hg' with hg'
  subst hg'
  rw [hf] at hf'
  injection hf' with hf'
  subst hf'
  have same : ∀ k, zx 2 k = zx' 0 k ∧ zy 2 k = zy' 0 k := by
    intro k
    have a := hz 2 k
    have b := hz' 0 k
    rw [(linspace3_ends _ _).2] at a
    rw [(linspace3_ends _ _).1] at b
    rw [a] at b
    injection b with b
    exact ⟨congrArg Prod.fst b, congrArg Prod.snd b⟩
  refine ⟨g, fun k => zx 2 k, fun k => zy 2 k, f, r, r', hg, ?_, adjuster_spec adj hadj R 1 [] f hf, hr, hr', ?_⟩
  · intro k
    have a := hz 2 k
    rw [(linspace3_ends _ _).2] at a
    exact a
  intro j x y hj hx hy a b c d
  have ex : at3 n zx (n - 1) j = x := by
    unfold at3
    rw [(lin3_ends n hn _ _ _).2]
    exact lin3_onLine n j hn _ _ hx
  have ey : at3 n zy (n - 1) j = y := by
    unfold at3
    rw [(lin3_ends n hn _ _ _).2]
    exact lin3_onLine n j hn _ _ hy
  have ex' : at3 n zx' 0 j = x := by
    unfold at3
    rw [(lin3_ends n hn _ _ _).1, ← (same 0).1, ← (same 1).1, ← (same 2).1]
    exact lin3_onLine n j hn _ _ hx
  have ey' : at3 n zy' 0 j = y := by
    unfold at3
    rw [(lin3_ends n hn _ _ _).1, ← (same 0).2, ← (same 1).2, ← (same 2).2]
    exact lin3_onLine n j hn _ _ hy
  obtain ⟨row, p, h1, h2, h3⟩ := hp (n - 1) j x y (by omega) hj ex.symm ey.symm a b c d
  obtain ⟨row', q, h4, h5, h6⟩ := hp' 0 j x y (by omega) hj ex'.symm ey'.symm a b c d
  exact ⟨row, p, row', q, h1, h2, h4, h5, h3, h6⟩

/-- **C140**: where all pixels around a place have one value on both levels, the tiles agree. -/
theorem uniform_agrees (R : Raster) (f : ℚ → Int) (r r' : Nat) (x y : ℚ) (p q : Rgba) (hp : Shown R f r x y p) (hq : Shown R f r' x y q) (c : Int)
    (hc : ∀ s ∈ [r, r'], ∀ X Y : Int, 0 ≤ X → (X + 1) * 2 ^ s ≤ R.width → 0 ≤ Y → (Y + 1) * 2 ^ s ≤ R.height → |(X : ℚ) - x / 2 ^ s| < 2 → |(Y : ℚ) - y / 2 ^ s| < 2 → R.pixel 1 s X Y = c) : p = q := by
  have a := hp.1 (f c) (f c) (fun X Y e1 e2 e3 e4 e5 e6 => by rw [hc r (by simp) X Y e1 e2 e3 e4 e5 e6]; exact ⟨le_refl _, le_refl _⟩)
  have b := hq.1 (f c) (f c) (fun X Y e1 e2 e3 e4 e5 e6 => by rw [hc r' (by simp) X Y e1 e2 e3 e4 e5 e6]; exact ⟨le_refl _, le_refl _⟩)
  have hr : p.red = q.red := by omega
  obtain ⟨_, p1, p2, p3⟩ := hp
  obtain ⟨_, q1, q2, q3⟩ := hq
  cases p
  cases q
  simp only at *
  rw [Rgba.mk.injEq]
  refine ⟨hr, by rw [p1, q1, hr], by rw [p2, q2, hr], by rw [p3, q3, hr]⟩

/-! ## Seams -/

/-- The red channel of a tile. -/
def reds (R : Raster) (S : Sensor) (minLon minLat maxLon maxLat : ℚ) (n : Nat) : Option (List (List Int)) :=
  ((createOrthophotoTile R S .minmax (fun a _ => .ok a) bilinear minLon minLat maxLon maxLat n n).toOption.bind id).map (·.map (·.map Rgba.red))

/-- **C140** is false: the image `striped` with columns of 100 and 200 in turn lies on the ground pixel by pixel and its statistics are known.  At full resolution the western tile shows 200 along the shared meridian
(the column left of it, because the window that is read ends there) and the eastern tile 100. -/
theorem seam_at_full_resolution :
    reds striped flat 2 (-4) 4 (-2) 3 = some (List.replicate 3 [100, 200, 200]) ∧ reds striped flat 4 (-4) 6 (-2) 3 = some (List.replicate 3 [100, 200, 200]) := by
  decide +kernel

/-- An image without statistics: 100 in the columns 0 to 5, 50 in the others. -/
def step : Raster := ⟨8, 8, 1, 0, fun _ _ x _ => if x < 6 then 100 else 50, fun _ => none, fun _ => none, fun _ _ _ _ => []⟩

/-- **C140** is false: without statistics each tile is adjusted with its own pixels.  All pixels less than two pixels from the shared meridian have the value 100, but the western tile shows black and the eastern grey. -/
theorem seam_of_statistics :
    (∀ X Y : Int, |(X : ℚ) - 4| < 2 → step.pixel 1 0 X Y = 100) ∧
    reds step flat 0 (-6) 4 (-2) 3 = some (List.replicate 3 [0, 0, 0]) ∧ reds step flat 4 (-6) 8 (-2) 3 = some (List.replicate 3 [127, 0, 0]) := by
  refine ⟨?_, by decide +kernel, by decide +kernel⟩
  intro X Y h
  have h2 : (X : ℚ) < 6 := by linarith [(abs_lt.1 h).2]
  have : X < 6 := by exact_mod_cast h2
  show (if X < 6 then (100 : Int) else 50) = 100
  rw [if_pos this]

/-- An image with one overview whose values grow by 10 from column to column. -/
def ramp : Raster := ⟨16, 16, 1, 1, fun _ r x _ => if r = 0 then 10 * x else 20 * x + 5, fun _ => some 0, fun _ => some 255, fun _ _ _ _ => []⟩

/-- **C140** is false: two tiles of the same size on the ground and in pixels are read from different levels, because the windows are rounded to whole pixels first.  They show 25 and 41 on the shared meridian. -/
theorem seam_of_levels :
    readWindow ⟨1, 1, 5, 5⟩ 16 16 2 1 = .ok (some (⟨1, 1, 5, 5⟩, 1, ⟨0, 0, 2, 2⟩)) ∧ readWindow ⟨4, 1, 7, 5⟩ 16 16 2 1 = .ok (some (⟨4, 1, 7, 5⟩, 0, ⟨4, 1, 7, 5⟩)) ∧
    reds ramp flat (19 / 10) (-5) (41 / 10) (-1) 2 = some (List.replicate 2 [14, 25]) ∧ reds ramp flat (41 / 10) (-5) (63 / 10) (-1) 2 = some (List.replicate 2 [41, 60]) := by
  refine ⟨by decide +kernel, by decide +kernel, by decide +kernel, by decide +kernel⟩

/-! ### Cases -/

theorem comb (t a b lo hi : ℚ) (h0 : 0 ≤ t) (h1 : t ≤ 1) (ha : lo ≤ a ∧ a ≤ hi) (hb : t ≠ 0 → lo ≤ b ∧ b ≤ hi) : lo ≤ (1 - t) * a + t * b ∧ (1 - t) * a + t * b ≤ hi := by
  by_cases ht : t = 0
  · subst ht; simp only [sub_zero, one_mul, zero_mul, add_zero]; exact ha
  · obtain ⟨b0, b1⟩ := hb ht
    constructor <;> nlinarith [ha.1, ha.2]

/-- Bilinear interpolation, rounded to the nearest integer, meets the assumption about `cv2.remap`. -/
theorem bilinear_interpolates : Interpolates bilinear := by
  intro w h c x y lo hi _ _ x0 x1 y0 y1 hall
  have fx := Int.floor_le x
  have gx := Int.lt_floor_add_one x
  have fy := Int.floor_le y
  have gy := Int.lt_floor_add_one y
  have wx : ⌊x⌋ < w := by rw [Int.floor_lt]; push_cast; linarith
  have wy : ⌊y⌋ < h := by rw [Int.floor_lt]; push_cast; linarith
  have nx : x - ⌊x⌋ ≠ 0 → ⌊x⌋ + 1 < w := by
    intro hne
    by_contra hge
    have : (w : ℚ) ≤ ⌊x⌋ + 1 := by exact_mod_cast not_lt.1 hge
    exact hne (by linarith)
  have ny : y - ⌊y⌋ ≠ 0 → ⌊y⌋ + 1 < h := by
    intro hne
    by_contra hge
    have : (h : ℚ) ≤ ⌊y⌋ + 1 := by exact_mod_cast not_lt.1 hge
    exact hne (by linarith)
  have px := Int.floor_nonneg.2 x0
  have py := Int.floor_nonneg.2 y0
  have row : ∀ Y : Int, 0 ≤ Y → Y < h → |(Y : ℚ) - y| ≤ 1 →
      (lo : ℚ) ≤ (1 - (x - ⌊x⌋)) * c Y ⌊x⌋ + (x - ⌊x⌋) * c Y (⌊x⌋ + 1) ∧ (1 - (x - ⌊x⌋)) * c Y ⌊x⌋ + (x - ⌊x⌋) * c Y (⌊x⌋ + 1) ≤ hi := by
    intro Y h0 h1 h2
    refine comb _ _ _ _ _ (by linarith) (by linarith) ?_ ?_
    · have := hall ⌊x⌋ Y px wx h0 h1 (by rw [abs_le]; constructor <;> linarith) h2
      exact ⟨by exact_mod_cast this.1, by exact_mod_cast this.2⟩
    · intro hne
      have := hall (⌊x⌋ + 1) Y (by omega) (nx hne) h0 h1 (by push_cast; rw [abs_le]; constructor <;> linarith) h2
      exact ⟨by exact_mod_cast this.1, by exact_mod_cast this.2⟩
  have all := comb (y - ⌊y⌋) _ _ lo hi (by linarith) (by linarith) (row ⌊y⌋ py wy (by rw [abs_le]; constructor <;> linarith))
    (fun hne => row (⌊y⌋ + 1) (by omega) (ny hne) (by push_cast; rw [abs_le]; constructor <;> linarith))
  unfold Orthophoto.bilinear
  constructor
  · rw [Int.le_floor]; linarith [all.1]
  · rw [← Int.lt_add_one_iff, Int.floor_lt]; push_cast; linarith [all.2]

/-- Premises of `shared_meridian_partial` and `shared_parallel_partial`: a sensor model that is not affine, an image with known statistics, tiles on both sides; the position of the middle pixel of the shared edges is in the image. -/
example : small.gmin 1 = some 0 ∧ small.gmax 1 = some 255 ∧ Interpolates bilinear ∧
    (∃ W, createOrthophotoTile small bent .minmax (fun a _ => .ok a) bilinear 1 (-2) 2 0 3 3 = .ok (some W)) ∧ (∃ E, createOrthophotoTile small bent .minmax (fun a _ => .ok a) bilinear 2 (-2) 3 0 3 3 = .ok (some E)) ∧
    (∃ N, createOrthophotoTile small bent .minmax (fun a _ => .ok a) bilinear 1 (-1) 3 0 3 3 = .ok (some N)) ∧ (∃ M, createOrthophotoTile small bent .minmax (fun a _ => .ok a) bilinear 1 (-2) 3 (-1) 3 3 = .ok (some M)) ∧
    OnLine 3 1 (fun _ => 21 / 10) (21 / 10) ∧ OnLine 3 1 ![0, 1, 2] 1 := by
  have some_of : ∀ t : Except PyErr (Option (List (List Rgba))), (t.toOption.bind id).isSome = true → ∃ rows, t = .ok (some rows) := by
    intro t h
    rcases t with e | v
    · simp [Except.toOption] at h
    · cases v with
      | none => simp [Except.toOption] at h
      | some rows => exact ⟨rows, rfl⟩
  refine ⟨rfl, rfl, bilinear_interpolates, some_of _ (by decide +kernel), some_of _ (by decide +kernel), some_of _ (by decide +kernel), some_of _ (by decide +kernel), ⟨?_, ?_⟩, ⟨?_, ?_⟩⟩ <;> norm_num

/-- Premises of `uniform_agrees`: grey pixels of a uniform image, seen at different levels. -/
example : Shown { striped with pixel := fun _ _ _ _ => 7, overviews := 1 } (fun v => ⌊v⌋) 0 4 4 ⟨7, 7, 7, 255⟩ ∧ Shown { striped with pixel := fun _ _ _ _ => 7, overviews := 1 } (fun v => ⌊v⌋) 1 4 4 ⟨7, 7, 7, 255⟩ := by
  refine ⟨⟨?_, rfl, rfl, by norm_num⟩, ⟨?_, rfl, rfl, by norm_num⟩⟩
  · intro lo hi h
    simpa using h 4 4 (by norm_num) (by norm_num [striped]) (by norm_num) (by norm_num [striped]) (by norm_num) (by norm_num)
  · intro lo hi h
    simpa using h 2 2 (by norm_num) (by norm_num [striped]) (by norm_num) (by norm_num [striped]) (by norm_num) (by norm_num)

end Verif.Props.OrthophotoSeams
