import Verif.Props.DocumentLocated
import Verif.Props.SicdSide

/-!
# From the elements of a SICD document to the places of its pixels on terrain
-/

namespace Verif.Props.TerrainLocated

open Verif Verif.Xsdata Verif.SarXml Verif.SarTiles Verif.Sensors Verif.Loading Verif.SicdFiles Verif.Spec.Sicd Verif.Spec.Scene
open Verif.Props.XmlPaths Verif.Props.XmlComplete Verif.Props.SicdFiles Verif.Props.SarFiles Verif.Props.Located Verif.Props.DocumentLocated Verif.Props.SicdDem Verif.Props.SicdSide
open Verif.Schema (all)
open Verif.Factory
open Verif.Sicd (Geo V3 Lle Meta DemModel DemSummary demToGround samples)

variable {P : Type}

/-! ## What is seen at range and rate of a contour -/

theorem seen_sees (m : Meta) (hg : Good m) (t : ℝ) (R extra : ℝ → ℝ) (k : Verif.Sicd.Contour) (kP : k.P = platform m t) (kV : k.V = velocity m t) (kr : k.r = R t)
    (krate : HasDerivAt R (k.rdot - extra t) t) (hr : 0 < R t) (p : V3) (h : Seen k.P k.V k.r k.rdot p) : Sees m t R extra p := by
  rw [kP, kV] at h
  have hd : distance (platform m t) p = R t := by
    unfold distance
    rw [h.1, kr]
    exact Real.sqrt_sq hr.le
  have hne : platform m t ≠ p := by
    intro e
    rw [e] at hd
    simp [distance, sqDist] at hd
    linarith
  refine ⟨hd, _, krate, ?_⟩
  have := distance_rate m hg p t hne
  rw [hd, h.2, kr] at this
  rw [sub_add_cancel]
  rwa [mul_div_cancel_left₀ _ hr.ne'] at this

/-! ## The place of a pixel on terrain -/

/-- The contour of the pixel is sampled in the ordinary way: from a place below the horizontal plane of the platform upwards, and not higher above that plane than it started below.  No sample is
exactly at the tolerance above the terrain. -/
structure Ordinary (G : Geo) (scp : V3) (right : Bool) (dem : DemModel) (k : Verif.Sicd.Contour) : Prop where
  down : ∀ s cosA cosB step, Sampled G scp right dem 10 k s cosA cosB step →
    0 < s.postSpacing ∧ 0 < cosB ∧ cosA ≤ cosB ∧ -cosB ≤ cosB + ((samples cosA cosB step - 1 : Int) : ℝ) * step
  off : ∀ s cosA cosB step, Sampled G scp right dem 10 k s cosA cosB step → ∀ (i : Nat) p z, (i : Int) < samples cosA cosB step →
    p = (Verif.Sicd.circleOf k).point (if right then -1 else 1) (cosB + i * step) → dem.terrain (G.toLle p).lon (G.toLle p).lat = some z → (G.toLle p).h - z ≠ 1 / 1000

/-- The point `p` is on the terrain: within a millimeter of it, or on the way between two points that are seen as well, at most ten meters apart, one above and one below the terrain.
Where there is no terrain, every point counts (C87). -/
def OnTerrain (G : Geo) (dem : DemModel) (sees : V3 → Prop) (p : V3) : Prop :=
  (∀ z, dem.terrain (G.toLle p).lon (G.toLle p).lat = some z → |(G.toLle p).h - z| < 1 / 1000) ∨
  ∃ a b za zb, sees a ∧ sees b ∧ distance a b ≤ 10 ∧ sqDist ⟨0, 0, 0⟩ a < sqDist ⟨0, 0, 0⟩ p ∧ sqDist ⟨0, 0, 0⟩ p < sqDist ⟨0, 0, 0⟩ b ∧
    dem.terrain (G.toLle a).lon (G.toLle a).lat = some za ∧ dem.terrain (G.toLle b).lon (G.toLle b).lat = some zb ∧ ((G.toLle a).h - za) * ((G.toLle b).h - zb) < 0

/-- **C172**: the place of a pixel on terrain, in the numbers of the document. -/
theorem terrain_located (G : Geo) (m : Meta) (hg : Good m) (r c : ℝ) (x y t : ℝ) (hx : x = (r + m.firstRow - m.scpRow) * m.rowSS) (hy : y = (c + m.firstCol - m.scpCol) * m.colSS)
    (ht : t = value2 m.timeCoa.coef x y) (R extra : ℝ → ℝ) (n : V3) (hp : Pixel G m x y R extra n) (hn : n ≠ ⟨0, 0, 0⟩) (hR : 0 < R t) (hs : platform m t ≠ m.scp) (M : Verif.Sicd.Model)
    (hM : m.build G = some (.model M)) (dem : DemModel) (l : Lle) (hl : M.toWorldDem G m.right dem (r, c) = .ok l) :
    ∃ p, l = G.toLle p ∧ (m.right = true → side (platform m t) (velocity m t) (platform m t) p ≤ 0) ∧ (m.right = false → 0 ≤ side (platform m t) (velocity m t) (platform m t) p) ∧
      ∀ k : Verif.Sicd.Contour, k.P = platform m t → k.V = velocity m t → k.r = R t → HasDerivAt R (k.rdot - extra t) t → Ordinary G m.scp m.right dem k →
        Sees m t R extra p ∧ OnTerrain G dem (Sees m t R extra) p := by
  obtain ⟨M', hM', hconv, -, -, kP, kV, kr, krate⟩ := built G m hg x y R extra n hp hn
  rw [hM] at hM'
  cases hM'
  rw [← ht] at kP kV kr krate
  obtain ⟨ps, p, h1, h2, h3⟩ := toWorldDem_ok hl
  rw [hconv] at h1
  simp only [Verif.Sicd.Converter.toGrid, ← hx, ← hy] at h1
  generalize hk : M.coa.contour (x, y) = k at *
  have hside := terrain_points_side G m.scp m.right dem 10 (1 / 1000) k ps (by rw [kr]; exact hR.le) h1 p h2
  rw [kP, kV] at hside
  refine ⟨p, h3, hside.1, hside.2, fun k' e1 e2 e3 e4 ho => ?_⟩
  obtain rfl : k' = k := by
    have := e4.unique (krate hR hs)
    rcases k with ⟨kr', kd', kP', kV'⟩
    rcases k' with ⟨kr'', kd'', kP'', kV''⟩
    simp only at *
    subst kr kP kV e1 e2 e3
    congr 1
    linarith
  have sees := seen_sees m hg t R extra k' kP kV kr (krate hR hs) hR
  obtain ⟨s, cosA, cosB, step, hS, H⟩ := dem_projection G m.scp m.right dem 10 (1 / 1000) k' ps (by norm_num) (by norm_num) (by rw [kr]; exact hR) h1
  obtain ⟨a1, a2, a3, a4⟩ := ho.down s cosA cosB step hS
  obtain ⟨pts, hpts, -, q1, q2, q3, -⟩ := H a1 a2 a3 a4
  obtain ⟨-, q3⟩ := q3 (fun p hp z hz => by
    rw [hpts] at hp
    obtain ⟨i, hi, rfl⟩ := List.mem_map.1 hp
    exact ho.off s cosA cosB step hS i _ z (by have := List.mem_range.1 hi; omega) rfl hz)
  obtain ⟨w1, w2⟩ := q3 p h2
  refine ⟨sees p w1, ?_⟩
  rcases w2 with ⟨-, w2⟩ | ⟨i, a, b, za, zb, b1, b2, b3, b4, b5, b6, b7⟩
  · exact .inl w2
  · refine .inr ⟨a, b, za, zb, sees a (q1 a (List.mem_of_getElem? b1)), sees b (q1 b (List.mem_of_getElem? b2)), ?_, b3, b4, b5, b6, b7⟩
    have := (q2 i a b b1 b2).2.1
    unfold distance
    rw [show (10 : ℝ) = √(10 ^ 2) from (Real.sqrt_sq (by norm_num)).symm]
    exact Real.sqrt_le_sqrt this

/-! ## Files -/

/-- A SICD image with an elevation model. -/
theorem file_terrain (env : Env) (x : Verif.SicdFiles.Xsdata) (G : Ground) (henv : env.sicd = sicdBuilder x G) (parses : Product → String → Except PyErr Unit) (i : Image)
    (sel : Selected) (hsel : newFactory env.lib parses "NITF" (some i.dess) = .ok (some sel)) (hp : sel.product = .sicd) (d : Doc)
    (hd : x.parse sel.xml = .ok d) (M₀ : Sicd.Model) (hb : d.content.build G.geo = some (.model M₀)) (ri : Image × Option Model) (hi : load env (.image i) = .ok ri) :
    ∃ M a, ri = (i, some M) ∧ IsApproximate env i a ∧
      ∀ c r e o, Answers a (c, r) (some e) o → ∀ g : Verif.Dem.Geo ℝ, M.imageToWorld (c, r) (some e) o = .ok g ↔
        M₀.toWorldDem G.geo d.content.right (G.dem e) (r, c) = .ok ⟨g.longitude, g.latitude, g.elevation⟩ := by
  have hxml := selected_ne_empty env.lib parses _ sel hsel
  obtain ⟨a, ha, hri⟩ := load_selected env parses i sel hsel ri hi
  have hmodel : Verif.Props.SarTiles.modelOf (builders env i.crs) sel = env.sicd sel.xml := by
    simp only [Verif.Props.SarTiles.modelOf, hp]
    rfl
  have e1 : env.sicd sel.xml = some (sensorOf G d.content.right (.model M₀)) := by
    rw [henv]
    unfold sicdBuilder
    rw [if_neg hxml, hd]
    simp only [hb, Option.map_some]
  rw [hmodel, e1] at hri
  obtain ⟨M, hM, hM1, hM2⟩ := combine_answers env i.crs a (sensorOf G d.content.right (.model M₀)) (fun _ _ _ _ => rfl)
  refine ⟨M, a, by rw [hri, hM], ha, fun c r e o hans g => ?_⟩
  rw [hM2 _ _ _ hans]
  simp only [sensorOf, onTerrain]
  rcases M₀.toWorldDem G.geo d.content.right (G.dem e) (r, c) with er | l
  · simp [outcome, Functor.map, Except.map]
  · simp only [Functor.map, Except.map, outcome, Except.ok.injEq]
    constructor <;> intro h
    · rw [← h]
    · rw [h]

/-- **C172**: the places of the pixels of a SICD file on terrain follow from the elements of its document. -/
theorem document_terrain_located [DecidableEq P] (K : Codec P) (N : Numbers P) (he : EmptyIsNoNumber (reader K N)) (W : Text) (o₁ : Val P) (env : Env) (G : Ground)
    (henv : env.sicd = sicdBuilder (sicdXsdata all K N W o₁) G) (parses : Product → String → Except PyErr Unit) (i : Image) (sel : Selected)
    (hsel : newFactory env.lib parses "NITF" (some i.dess) = .ok (some sel)) (hp : sel.product = .sicd) (ns : Name) (ats : List (QName × String)) (txt : String) (ts : List Tree)
    (hread : W.read sel.xml = .ok (.node (ns, n!"SICD") none ats txt ts)) (o : Val P) (hparse : parse all K (.node (ns, n!"SICD") none ats txt ts) = .ok o)
    (m : Meta) (hm : States (reader K N) (.node (ns, n!"SICD") none ats txt ts) m) (hg : Good m)
    (hgrid : ∃ R extra n, Pixel G.geo m 0 0 R extra n ∧ n ≠ ⟨0, 0, 0⟩) (ri : Image × Option Model) (hi : load env (.image i) = .ok ri) :
    ∃ M a, ri = (i, some M) ∧ IsApproximate env i a ∧ ∀ c r e opts, Answers a (c, r) (some e) opts → ∀ x y t, x = (r + m.firstRow - m.scpRow) * m.rowSS →
      y = (c + m.firstCol - m.scpCol) * m.colSS → t = value2 m.timeCoa.coef x y → ∀ R extra n, Pixel G.geo m x y R extra n → n ≠ ⟨0, 0, 0⟩ → 0 < R t → platform m t ≠ m.scp →
      ∀ g : Verif.Dem.Geo ℝ, M.imageToWorld (c, r) (some e) opts = .ok g → ∃ p, (⟨g.longitude, g.latitude, g.elevation⟩ : Lle) = G.geo.toLle p ∧
        (m.right = true → side (platform m t) (velocity m t) (platform m t) p ≤ 0) ∧ (m.right = false → 0 ≤ side (platform m t) (velocity m t) (platform m t) p) ∧
        ∀ k : Verif.Sicd.Contour, k.P = platform m t → k.V = velocity m t → k.r = R t → HasDerivAt R (k.rdot - extra t) t → Ordinary G.geo m.scp m.right (G.dem e) k →
          Sees m t R extra p ∧ OnTerrain G.geo (G.dem e) (Sees m t R extra) p := by
  obtain ⟨d, hd, hc⟩ := states_read K N he W o₁ sel.xml ns ats txt ts hread o hparse m hm
  obtain ⟨R₀, extra₀, n₀, hp₀, hn₀⟩ := hgrid
  obtain ⟨M₀, hM₀, -⟩ := built G.geo m hg 0 0 R₀ extra₀ n₀ hp₀ hn₀
  obtain ⟨M, a, h1, h2, h3⟩ := file_terrain env _ G henv parses i sel hsel hp d hd M₀ (by rw [hc]; exact hM₀) ri hi
  refine ⟨M, a, h1, h2, fun c r e opts hans x y t hx hy ht R extra n hpix hn hR hs g hgw => ?_⟩
  have := (h3 c r e opts hans g).1 hgw
  rw [hc] at this
  exact terrain_located G.geo m hg r c x y t hx hy ht R extra n hpix hn hR hs M₀ hM₀ (G.dem e) _ this

/-! ## The image of the plain -/

/-- The image of `flatModel` as SICD metadata, seen to the right. -/
noncomputable def flatMeta : Meta :=
  ⟨⟨3, 1, 0⟩, 0, 0, 0, 0, ⟨0, 1, 0⟩, ⟨0, 0, 1⟩, 1, 1, ⟨0, 0, [(0, 0, 0)]⟩, ⟨⟨0, [(0, 7)]⟩, ⟨0, []⟩, ⟨1, [(1, 1)]⟩⟩, .plane, .other, none, none, none, ⟨7, 0, 0⟩, ⟨0, 0, 1⟩, true⟩

theorem flat_good : Good flatMeta := by
  refine ⟨?_, ?_, ?_, ?_⟩
  · simp [Good2, flatMeta]
  · simp [Good1, flatMeta]
  · intro n a k h
    simp [flatMeta] at h
  · intro r c d h
    simp [flatMeta] at h

theorem flat_platform (t : ℝ) : platform flatMeta t = ⟨7, 0, t⟩ := by simp [platform, value1, flatMeta]

theorem flat_velocity (t : ℝ) : velocity flatMeta t = ⟨0, 0, 1⟩ := by
  simp only [velocity, flat_platform, deriv_const]
  congr 1
  exact deriv_id t

/-- The range of the pixel in row 2 and column 0. -/
theorem flat_pixel : Pixel flatGeo flatMeta 2 0 (fun t => √(t ^ 2 + 25)) (fun _ => 0) ⟨1, 0, 0⟩ := by
  have h := Pixel.plane (G := flatGeo) (m := flatMeta) (x := 2) (y := 0) (.inl rfl)
  have e : (fun t => distance (platform flatMeta t) ⟨flatMeta.scp.x + (2 * flatMeta.uRow.x + 0 * flatMeta.uCol.x), flatMeta.scp.y + (2 * flatMeta.uRow.y + 0 * flatMeta.uCol.y),
      flatMeta.scp.z + (2 * flatMeta.uRow.z + 0 * flatMeta.uCol.z)⟩) = fun t => √(t ^ 2 + 25) := by
    funext t
    rw [flat_platform]
    simp only [distance, sqDist, flatMeta]
    congr 1
    ring
  have u : up flatGeo flatMeta = ⟨1, 0, 0⟩ := by simp [up, flatGeo]
  rw [e, u] at h
  exact h

theorem flat_ordinary (right : Bool) : Ordinary flatGeo ⟨3, 1, 0⟩ right flatDem flatContour := by
  have hs : √(9 / 25 : ℝ) = 3 / 5 := by rw [show (9 / 25 : ℝ) = (3 / 5) ^ 2 by norm_num]; exact Real.sqrt_sq (by norm_num)
  have key : ∀ s cosA cosB step, Sampled flatGeo ⟨3, 1, 0⟩ right flatDem 10 flatContour s cosA cosB step → s.postSpacing = 8 / 3 ∧ cosA = 3 / 5 ∧ cosB = 4 / 5 ∧ step = -(1 / 5) := by
    intro s cosA cosB step hS
    have hsum : s = ⟨2, 3, 8 / 3⟩ := by simpa [flatDem] using hS.summary.symm
    subst hsum
    obtain ⟨a, m, ha, rfl⟩ := hS.a
    obtain ⟨b, m', hb, rfl⟩ := hS.b
    change Verif.Sicd.haeToGround flatGeo ⟨3, 1, 0⟩ right 3 1 3 flatContour = _ at ha
    change Verif.Sicd.haeToGround flatGeo ⟨3, 1, 0⟩ right 2 1 3 flatContour = _ at hb
    rw [flat_hae_side right 3 4 (.inr ⟨rfl, rfl⟩)] at ha
    rw [flat_hae_side right 2 3 (.inl ⟨rfl, rfl⟩)] at hb
    simp only [Except.ok.injEq, Option.some.injEq, Prod.mk.injEq] at ha hb
    obtain ⟨rfl, -⟩ := ha
    obtain ⟨rfl, -⟩ := hb
    have cA : (Verif.Sicd.circleOf flatContour).cosine ⟨1 + 3, 4, 0⟩ = 3 / 5 := by rw [flat_circle]; norm_num [Verif.Sicd.Circle.cosine, Verif.Sicd.V3.dot, Verif.Sicd.V3.sub]
    have cB : (Verif.Sicd.circleOf flatContour).cosine ⟨1 + 2, 3, 0⟩ = 4 / 5 := by rw [flat_circle]; norm_num [Verif.Sicd.Circle.cosine, Verif.Sicd.V3.dot, Verif.Sicd.V3.sub]
    refine ⟨rfl, cA, cB, ?_⟩
    rw [hS.step_eq, cB, flat_circle]
    norm_num [Verif.Sicd.demStep, Verif.Sicd.stepOf, hs]
  have hN : samples (3 / 5) (4 / 5) (-(1 / 5)) = 3 := by norm_num [samples]
  constructor
  · intro s cosA cosB step hS
    obtain ⟨h1, rfl, rfl, rfl⟩ := key s cosA cosB step hS
    rw [h1, hN]
    norm_num
  · intro s cosA cosB step hS i p z hi hp hz
    obtain ⟨h1, rfl, rfl, rfl⟩ := key s cosA cosB step hS
    rw [hN] at hi
    simp only [flatDem, Option.some.injEq] at hz
    have hx : p.x = 7 - 5 * (4 / 5 + i * -(1 / 5)) := by rw [hp, flat_circle]; simp only [Verif.Sicd.Circle.point, Verif.Sicd.V3.add, Verif.Sicd.V3.smul]; ring
    rw [← hz]
    simp only [flatGeo, hx]
    have : i = 0 ∨ i = 1 ∨ i = 2 := by omega
    rcases this with rfl | rfl | rfl <;> norm_num

/-- The pixel in row 2 and column 0 over terrain of height 5/2: it is put on the right at the range 5, between a point above and a point below the terrain. -/
example : ∃ l p, flatMeta.toWorldDem flatGeo flatDem (2, 0) = .ok l ∧ l = flatGeo.toLle p ∧ side (platform flatMeta 0) (velocity flatMeta 0) (platform flatMeta 0) p ≤ 0 ∧
    Sees flatMeta 0 (fun t => √(t ^ 2 + 25)) (fun _ => 0) p ∧ OnTerrain flatGeo flatDem (Sees flatMeta 0 (fun t => √(t ^ 2 + 25)) (fun _ => 0)) p := by
  obtain ⟨M, hM, hconv, -, -, kP, kV, kr, krate⟩ := built flatGeo flatMeta flat_good 2 0 _ _ _ flat_pixel (by simp)
  have ht : value2 flatMeta.timeCoa.coef 2 0 = 0 := by simp [value2, flatMeta]
  have h25 : √(25 : ℝ) = 5 := by
    rw [show (25 : ℝ) = 5 ^ 2 by norm_num]
    exact Real.sqrt_sq (by norm_num)
  have hR : (0 : ℝ) < √((0 : ℝ) ^ 2 + 25) := by norm_num [h25]
  have hne : platform flatMeta 0 ≠ flatMeta.scp := by
    rw [flat_platform]
    simp [flatMeta]
  have hd : HasDerivAt (fun t : ℝ => √(t ^ 2 + 25)) 0 0 := by
    have h1 : HasDerivAt (fun t : ℝ => t ^ 2 + 25) 0 0 := by simpa using (hasDerivAt_pow 2 (0 : ℝ)).add_const 25
    simpa using h1.sqrt (by norm_num)
  rw [ht] at kP kV kr krate
  have hk : M.coa.contour (2, 0) = flatContour := by
    have := (krate hR hne).unique hd
    rw [flat_platform] at kP
    rw [flat_velocity] at kV
    rcases e : M.coa.contour (2, 0) with ⟨r, rd, P, V⟩
    rw [e] at kP kV kr this
    simp only at kP kV kr this
    simp only [flatContour, Verif.Sicd.Contour.mk.injEq]
    refine ⟨by rw [kr]; norm_num [h25], by linarith, kP, kV⟩
  have hw : M.toWorldDem flatGeo flatMeta.right flatDem (2, 0) = .ok (flatGeo.toLle ((Verif.Sicd.circleOf flatContour).point (-1) (4 / 5 + 1 / 2 * -(1 / 5)))) := by
    have e : M.conv.toGrid (2 + M.conv.firstRow, 0 + M.conv.firstCol) = (2, 0) := by
      rw [hconv]
      simp [Verif.Sicd.Converter.toGrid, flatMeta]
    have hscp : M.conv.scp = ⟨3, 1, 0⟩ := by rw [hconv]; rfl
    have := flat_points true
    unfold Verif.Sicd.Model.toWorldDem
    simp only [e, hk, hscp]
    rw [show flatMeta.right = true from rfl, this]
    rfl
  obtain ⟨p, h1, h2, -, h3⟩ := terrain_located flatGeo flatMeta flat_good 2 0 2 0 0 (by norm_num [flatMeta]) (by norm_num [flatMeta]) ht.symm _ _ _ flat_pixel (by simp) hR hne M hM flatDem _ hw
  obtain ⟨h4, h5⟩ := h3 flatContour (by rw [flat_platform]; rfl) (by rw [flat_velocity]; rfl) (by norm_num [flatContour, h25]) (by simpa [flatContour] using hd) (flat_ordinary true)
  refine ⟨_, p, ?_, h1, h2 rfl, h4, h5⟩
  unfold Meta.toWorldDem
  rw [hM]
  exact hw

end Verif.Props.TerrainLocated
