import Verif.Props.SiddFiles
import Verif.Props.SicdSide

/-!
# SAR images as files: what their sensor models give
-/

namespace Verif.Props.SarFiles

open Verif Verif.Sensors Verif.Loading Verif.SarTiles Verif.SicdFiles
open Verif.Updaters (siddModel)
open Verif.Props.Updaters (cropChip)
open Verif.Props.Tre (bind_ok)
open Verif.Props.SicdFiles (IsApproximate Answers load_selected combine_answers)
open Verif.Spec.Sicd (Independent side)
open Verif.Props.Sicd (Imaged)
open Verif.Factory (combine)

/-- The text of a segment that a tile factory would take is not empty. -/
theorem selected_ne_empty (lib : Verif.Factory.Lib) (parses : Product → String → Except PyErr Unit) (dess : Option (List String)) (sel : Selected)
    (hsel : newFactory lib parses "NITF" dess = .ok (some sel)) : sel.xml ≠ "" := by
  have h := hsel
  unfold newFactory at h
  rw [if_pos rfl, bind_ok] at h
  obtain ⟨l, -, h⟩ := h
  obtain ⟨pre, s', post, -, -, -, -, -, h1, h2⟩ := (Verif.Props.SarTiles.segment_selected ..).1 h
  cases hp : sel.product with
  | sidd => exact Verif.Props.SarTiles.mentions_ne_empty _ (.inl (h1.1 hp))
  | sicd => exact Verif.Props.SarTiles.mentions_ne_empty _ (.inr (h2 hp))

/-- **C129**: a SICD image loads with the model of its metadata.  With an elevation model, the location of a pixel (column, row) is on the side of the track that the metadata names,
and at range and range rate of the pixel; world coordinates are projected by the search of the metadata's model. -/
theorem sicd_file_model (env : Env) (x : Xsdata) (G : Ground) (henv : env.sicd = sicdBuilder x G) (parses : Product → String → Except PyErr Unit) (i : Image)
    (sel : Selected) (hsel : newFactory env.lib parses "NITF" (some i.dess) = .ok (some sel)) (hp : sel.product = .sicd) (d : Doc)
    (hd : x.parse sel.xml = .ok d) (M₀ : Sicd.Model) (hb : d.content.build G.geo = some (.model M₀)) (ri : Image × Option Model) (hi : load env (.image i) = .ok ri) :
    ∃ M a, ri = (i, some M) ∧ IsApproximate env i a ∧
      (∀ c r o, Answers a (c, r) none o → ∀ g : Verif.Dem.Geo ℝ, M.imageToWorld (c, r) none o = .ok g ↔ M₀.toWorld G.geo (r, c) = .ok (some ⟨g.longitude, g.latitude, g.elevation⟩)) ∧
      (∀ c r e o, Answers a (c, r) (some e) o → ∀ (g : Verif.Dem.Geo ℝ) (k : Sicd.Contour), M.imageToWorld (c, r) (some e) o = .ok g →
        k = M₀.coa.contour (M₀.conv.toGrid (r + M₀.conv.firstRow, c + M₀.conv.firstCol)) → 0 ≤ k.r →
        ∃ p, (⟨g.longitude, g.latitude, g.elevation⟩ : Sicd.Lle) = G.geo.toLle p ∧ (d.rest.right = true → side k.P k.V k.P p ≤ 0) ∧ (d.rest.right = false → 0 ≤ side k.P k.V k.P p)) ∧
      ∀ (g : Verif.Dem.Geo ℝ) c r, M.worldToImage g = .ok (c, r) ↔ M₀.toImage G.geo ⟨g.longitude, g.latitude, g.elevation⟩ = .ok (r, c) := by
  have hxml := selected_ne_empty env.lib parses _ sel hsel
  obtain ⟨a, ha, hri⟩ := load_selected env parses i sel hsel ri hi
  have hmodel : Verif.Props.SarTiles.modelOf (builders env i.crs) sel = env.sicd sel.xml := by
    simp only [Verif.Props.SarTiles.modelOf, hp]
    rfl
  have e1 : env.sicd sel.xml = some (sensorOf G d.content.right (.model M₀)) := by
    rw [henv]
    unfold sicdBuilder
    rw [if_neg hxml, hd]
    simp only [hb, Option.map_some]
  rw [hmodel, e1] at hri
  obtain ⟨M, hM, hM1, hM2⟩ := combine_answers env i.crs a (sensorOf G d.content.right (.model M₀)) (fun _ _ _ _ => rfl)
  refine ⟨M, a, by rw [hri, hM], ha, ?_, ?_, ?_⟩
  · intro c r o hans g
    rw [hM2 _ _ _ hans]
    simp only [sensorOf, Sicd.Built.toWorld]
    rcases M₀.toWorld G.geo (r, c) with er | _ | l
    · simp [outcome]
    · simp [outcome]
    · simp only [outcome, Except.ok.injEq, Option.some.injEq]
      constructor <;> intro h
      · rw [← h]
      · rw [h]
  · intro c r e o hans g k hg hk hr
    rw [hM2 _ _ _ hans] at hg
    simp only [sensorOf, onTerrain] at hg
    have hw : d.content.toWorldDem G.geo (G.dem e) (r, c) = .ok ⟨g.longitude, g.latitude, g.elevation⟩ := by
      unfold Sicd.Meta.toWorldDem
      rw [hb]
      dsimp only
      rcases h : M₀.toWorldDem G.geo d.content.right (G.dem e) (r, c) with er | l
      · rw [h] at hg
        cases hg
      · rw [h] at hg
        simp only [Functor.map, Except.map, outcome, Except.ok.injEq] at hg
        rw [← hg]
    obtain ⟨M₁, hM₁, h1⟩ := (Verif.Props.SicdSide.terrain_side_partial G.geo (G.dem e) (r, c) _).1 d.content hw
    rw [hb] at hM₁
    cases hM₁
    exact h1 k hk hr
  · intro g c r
    rw [hM1]
    simp only [sensorOf, Sicd.Built.toImage]
    rcases M₀.toImage G.geo ⟨g.longitude, g.latitude, g.elevation⟩ with er | rc
    · simp
    · simp only [Except.ok.injEq, Prod.ext_iff]
      exact and_comm

/-- A range-azimuth image, with and without elevation model. -/
example (lstsq : List (Verif.Transforms.Row ℝ) → Verif.Transforms.Projective ℝ) : ∃ (env : Env) (G : Ground) (i : Image) (M : Model) (M₀ : Sicd.Model),
    load env (.image i) = .ok (i, some M) ∧ ∀ (g : Verif.Dem.Geo ℝ) c r, M.worldToImage g = .ok (c, r) ↔ M₀.toImage G.geo ⟨g.longitude, g.latitude, g.elevation⟩ = .ok (r, c) := by
  obtain ⟨x, hx⟩ := Verif.Props.SicdFiles.demo_exists
  obtain ⟨h, hsel⟩ := Verif.Props.SicdFiles.demo_select x hx lstsq ⟨100, 200, 50, 60⟩
  obtain ⟨r, hr⟩ := Verif.Props.SicdFiles.demo_load x hx lstsq ⟨100, 200, 50, 60⟩
  obtain ⟨M₀, hM₀⟩ : ∃ M₀, (Verif.Props.SicdFiles.demoDoc ⟨100, 200, 50, 60⟩).content.build Verif.Props.SicdFiles.demoGround.geo = some (.model M₀) := ⟨_, rfl⟩
  obtain ⟨M, a, rfl, -, -, -, k⟩ := sicd_file_model (Verif.Props.SicdFiles.demoEnv x lstsq) x Verif.Props.SicdFiles.demoGround rfl _ _ _ hsel rfl _ (hx.parse _) M₀ hM₀ r hr
  exact ⟨_, _, _, M, M₀, hr, k⟩

/-- Which pixel of the full image (column, row) the builder takes a pixel for. -/
def Place (chip : Option (Verif.Updaters.Chip ℝ)) (p p' : ℝ × ℝ) : Prop :=
  (chip = none ∧ p' = p) ∨ ∃ (x y : ℝ) (w h : Int), 1 < w ∧ 1 < h ∧ chip = some (cropChip x y w h) ∧ p' = (x + p.1 * (w - 1) / w, y + p.2 * (h - 1) / h)

/-- **C129**: on a SIDD image, or a crop of one, `world_to_image` of the loaded model inverts `image_to_world` exactly, for every pixel that is seen from the scene's side of the track;
and with an elevation model locations are to the left of the track. -/
theorem sidd_file_round_trip (env : Env) (x : SiddFiles.Xsdata) (G : Ground) (henv : env.sidd = SiddFiles.siddBuilder x G env.lstsq)
    (hlstsq : ∀ rows, Verif.Transforms.IsLstsq rows (env.lstsq rows)) (parses : Product → String → Except PyErr Unit) (i : Image)
    (sel : Selected) (hsel : newFactory env.lib parses "NITF" (some i.dess) = .ok (some sel)) (hp : sel.product = .sidd) (d : SiddFiles.Doc)
    (hd : x.parse sel.xml = .ok d) (hchip : ∃ p p', Place d.chip p p') (s : Sicd.Sidd) (hs : s = d.rest)
    (hr : Spec.Sicd.IsUnit s.uRow) (hc : Spec.Sicd.IsUnit s.uCol) (hi : Independent s.uRow s.uCol) (hrs : s.rowSS ≠ 0) (hcs : s.colSS ≠ 0)
    (hG : ∀ p, G.geo.toEcf (G.geo.toLle p) = p) (ri : Image × Option Model) (hload : load env (.image i) = .ok ri) :
    ∃ M a, ri = (i, some M) ∧ IsApproximate env i a ∧
      (∀ p p' o, Place d.chip p p' → Answers a p none o →
        Imaged s (Sicd.polyval2d s.time ((p'.2 - s.scpRow) * s.rowSS) ((p'.1 - s.scpCol) * s.colSS))
          ((s.model G.geo).conv.toPlane ((p'.2 - s.scpRow) * s.rowSS, (p'.1 - s.scpCol) * s.colSS)) →
        ∃ g, M.imageToWorld p none o = .ok g ∧ M.worldToImage g = .ok p) ∧
      ∀ p p' e o (g : Verif.Dem.Geo ℝ) (k : Sicd.Contour), Place d.chip p p' → Answers a p (some e) o → M.imageToWorld p (some e) o = .ok g →
        k = (s.model G.geo).coa.contour ((s.model G.geo).conv.toGrid (p'.2, p'.1)) → 0 ≤ k.r →
        ∃ q, (⟨g.longitude, g.latitude, g.elevation⟩ : Sicd.Lle) = G.geo.toLle q ∧ 0 ≤ side k.P k.V k.P q := by
  subst hs
  have hxml := selected_ne_empty env.lib parses _ sel hsel
  obtain ⟨a, ha, hri⟩ := load_selected env parses i sel hsel ri hload
  have hmodel : Verif.Props.SarTiles.modelOf (builders env i.crs) sel = env.sidd sel.xml := by
    simp only [Verif.Props.SarTiles.modelOf, hp]
    rfl
  -- the model of the metadata, through the chip
  obtain ⟨m, hm, k1, k2⟩ : ∃ m, siddModel env.lstsq d.chip (SiddFiles.fullModel G d.rest) = .ok m ∧
      (∀ p p' e o, Place d.chip p p' → m.imageToWorld p e o = (SiddFiles.fullModel G d.rest).imageToWorld p' e none) ∧
      ∀ p p' g, Place d.chip p p' → (SiddFiles.fullModel G d.rest).worldToImage g = .ok p' → m.worldToImage g = .ok p := by
    obtain ⟨_, _, ⟨hn, -⟩ | ⟨X, Y, w, h, hw, hh, hn, -⟩⟩ := hchip
    · refine ⟨SiddFiles.fullModel G d.rest, by rw [hn]; rfl, ?_, ?_⟩
      · rintro p p' e o (⟨-, rfl⟩ | ⟨_, _, _, _, _, _, h, _⟩)
        · rfl
        · rw [hn] at h; cases h
      · rintro p p' g (⟨-, rfl⟩ | ⟨_, _, _, _, _, _, h, _⟩) h'
        · exact h'
        · rw [hn] at h; cases h
    · obtain ⟨m, hm, k1, k2⟩ := Verif.Props.SiddFiles.crop_model env.lstsq hlstsq (SiddFiles.fullModel G d.rest) X Y w h hw hh
      have hplace : ∀ p p', Place d.chip p p' → p' = (X + p.1 * (w - 1) / w, Y + p.2 * (h - 1) / h) := by
        rintro p p' (⟨hn', -⟩ | ⟨X', Y', w', h', _, _, hn', rfl⟩)
        · rw [hn] at hn'; cases hn'
        · rw [hn] at hn'
          simp only [cropChip, Option.some.injEq, Verif.Updaters.Chip.mk.injEq, Prod.mk.injEq] at hn'
          obtain ⟨rfl, rfl, ⟨rfl, rfl⟩, -⟩ := hn'
          rfl
      refine ⟨m, by rw [hn]; exact hm, ?_, ?_⟩
      · intro p p' e o hpl
        rw [k1, hplace p p' hpl]
        rfl
      · intro p p' g hpl hg
        have w1 : ((w : ℝ) - 1) ≠ 0 := by
          have : ((w - 1 : Int) : ℝ) ≠ 0 := Int.cast_ne_zero.2 (by omega)
          simpa using this
        have h1 : ((h : ℝ) - 1) ≠ 0 := by
          have : ((h - 1 : Int) : ℝ) ≠ 0 := Int.cast_ne_zero.2 (by omega)
          simpa using this
        have w0 : (w : ℝ) ≠ 0 := Int.cast_ne_zero.2 (by omega)
        have h0 : (h : ℝ) ≠ 0 := Int.cast_ne_zero.2 (by omega)
        rw [k2, hg, hplace p p' hpl]
        simp only [Except.map, Except.ok.injEq]
        ext <;> simp only <;> field_simp <;> ring
  have e1 : env.sidd sel.xml = some m := by
    rw [henv]
    unfold SiddFiles.siddBuilder
    rw [if_neg hxml, hd]
    simp only [hm, Except.toOption]
  rw [hmodel, e1] at hri
  obtain ⟨M, hM, hM1, hM2⟩ : ∃ M, combine (builders env i.crs) a (some m) = some M ∧ M.worldToImage = m.worldToImage ∧
      ∀ p p' e o, Place d.chip p p' → Answers a p e o → M.imageToWorld p e o = (SiddFiles.fullModel G d.rest).imageToWorld p' e none := by
    cases a with
    | none => exact ⟨m, rfl, rfl, fun p p' e o hpl _ => k1 p p' e o hpl⟩
    | some a =>
      refine ⟨compositeModel a m, rfl, rfl, ?_⟩
      intro p p' e o hpl hans
      obtain ⟨g, hg⟩ := hans a rfl
      simp only [compositeModel, hg]
      exact k1 _ _ _ _ hpl
  refine ⟨M, a, by rw [hri, hM], ha, ?_, ?_⟩
  · intro p p' o hpl hans him
    obtain ⟨h1, h2⟩ := Verif.Props.Sicd.sidd_round_trip G.geo d.rest hr hc hi hrs hcs (p'.2, p'.1) _ (hG _) rfl him
    generalize G.geo.toLle _ = l at h1 h2
    refine ⟨⟨l.lon, l.lat, l.h⟩, ?_, ?_⟩
    · rw [hM2 p p' none o hpl hans]
      simp only [SiddFiles.fullModel, sensorOf, Sicd.Built.toWorld, h1]
      rfl
    · rw [hM1]
      apply k2 p p' _ hpl
      simp only [SiddFiles.fullModel, sensorOf, Sicd.Built.toImage]
      rw [h2]
  · intro p p' e o g k hpl hans hg hk hkr
    rw [hM2 p p' (some e) o hpl hans] at hg
    simp only [SiddFiles.fullModel, sensorOf, onTerrain] at hg
    have hw : d.rest.toWorldDem G.geo (G.dem e) (p'.2, p'.1) = .ok ⟨g.longitude, g.latitude, g.elevation⟩ := by
      unfold Sicd.Sidd.toWorldDem
      rcases h : (d.rest.model G.geo).toWorldDem G.geo false (G.dem e) (p'.2, p'.1) with er | l
      · rw [h] at hg
        cases hg
      · rw [h] at hg
        simp only [Functor.map, Except.map, outcome, Except.ok.injEq] at hg
        rw [← hg]
    exact (Verif.Props.SicdSide.terrain_side_partial G.geo (G.dem e) (p'.2, p'.1) _).2 d.rest hw k hk hkr

/-- A crop of 8 by 4 pixels at (30, 5): its pixel (4, 2) is located and found again. -/
example : ∃ (env : Env) (i : Image) (M : Model) (g : Verif.Dem.Geo ℝ), load env (.image i) = .ok (i, some M) ∧ M.imageToWorld (4, 2) none none = .ok g ∧ M.worldToImage g = .ok (4, 2) := by
  obtain ⟨x, hx⟩ := Verif.Props.SiddFiles.demo_exists
  obtain ⟨lstsq, hl, -⟩ := Verif.Transforms.lstsq_function (K := ℝ)
  have hw : Verif.Props.SiddFiles.Written (some (cropChip ((30 : Int) : ℝ) ((5 : Int) : ℝ) 8 4)) := .inr ⟨30, 5, 8, 4, rfl⟩
  obtain ⟨h, hsel⟩ := Verif.Props.SiddFiles.demo_select x hx lstsq (some (cropChip ((30 : Int) : ℝ) ((5 : Int) : ℝ) 8 4)) hw
  have hload := Verif.Props.SiddFiles.demo_load x hx lstsq (some (cropChip ((30 : Int) : ℝ) ((5 : Int) : ℝ) 8 4)) hw
  have hpl : Place (some (cropChip ((30 : Int) : ℝ) ((5 : Int) : ℝ) 8 4)) (4, 2) (33.5, 6.5) := .inr ⟨_, _, 8, 4, by norm_num, by norm_num, rfl, by norm_num⟩
  obtain ⟨M, a, k1, k2, k, -⟩ := sidd_file_round_trip (Verif.Props.SiddFiles.demoEnv x lstsq) x Verif.Props.SicdFiles.demoGround rfl hl _ _ _ hsel rfl _ (hx.parse _ hw) ⟨_, _, hpl⟩
    Verif.Props.Sicd.exSidd rfl Verif.Props.Sicd.exSidd_units.1 Verif.Props.Sicd.exSidd_units.2.1 Verif.Props.Sicd.exSidd_units.2.2 one_ne_zero one_ne_zero (fun _ => rfl) _ hload
  obtain rfl := Verif.Props.SiddFiles.demo_approximate x lstsq _ a k2
  obtain ⟨g, h1, h2⟩ := k (4, 2) (33.5, 6.5) none hpl (fun m h => by cases h) (by
    have := Verif.Props.Sicd.exSidd_imaged (6.5 - 10) (33.5 - 20) (by norm_num)
    have e : Verif.Sicd.polyval2d Verif.Props.Sicd.exSidd.time ((6.5 - Verif.Props.Sicd.exSidd.scpRow) * Verif.Props.Sicd.exSidd.rowSS)
        ((33.5 - Verif.Props.Sicd.exSidd.scpCol) * Verif.Props.Sicd.exSidd.colSS) = 0 := by
      norm_num [Verif.Props.Sicd.exSidd, Verif.Sicd.polyval2d, Verif.Sicd.polyval]
    rw [e, Verif.Props.Sicd.exSidd_toPlane]
    simpa [Verif.Props.Sicd.exSidd] using this)
  exact ⟨_, _, M, g, hload.trans (congrArg _ k1), h1, h2⟩

end Verif.Props.SarFiles
