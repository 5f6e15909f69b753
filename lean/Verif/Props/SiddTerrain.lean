import Verif.Props.SiddLocated
import Verif.Props.TerrainLocated

/-!
# From the elements of a SIDD document to the places of its pixels on terrain
-/

namespace Verif.Props.SiddTerrain

open Verif Verif.Xsdata Verif.SarXml Verif.SarTiles Verif.Sensors Verif.Loading Verif.SiddFiles Verif.Spec.Sicd Verif.Spec.Scene
open Verif.Props.XmlPaths Verif.Props.XmlComplete Verif.Props.SarFiles Verif.Props.Located Verif.Transforms Verif.Props.SiddLocated Verif.Props.SicdDem Verif.Props.SicdSide
open Verif.Props.TerrainLocated (Ordinary OnTerrain flat_ordinary)
open Verif.Props.SicdFiles (IsApproximate Answers)
open Verif.Schema (all)
open Verif.SicdFiles (Ground)
open Verif.Sicd (Geo V3 Lle Meta DemModel DemSummary demToGround samples)

variable {P : Type}

/-! ## What is seen like a point -/

/-- At time `t` the points `p` and `q` are at the same distance from the platform, and the distances change at the same rate: a radar cannot tell them apart. -/
def SameView (m : Measured) (t : ℝ) (q p : V3) : Prop :=
  distance (orbit m.arp t) p = distance (orbit m.arp t) q ∧
    ∃ d, HasDerivAt (fun s => distance (orbit m.arp s) q) d t ∧ HasDerivAt (fun s => distance (orbit m.arp s) p) d t

/-- A SICD image with a planar grid in the product plane. -/
def asSicd (m : Measured) : Meta :=
  ⟨m.ref, m.refRow, m.refCol, 0, 0, m.uRow, m.uCol, m.rowSS, m.colSS, m.time, m.arp, .plane, .other, none, none, none, ⟨0, 0, 0⟩, ⟨0, 0, 0⟩, false⟩

theorem asSicd_good (m : Measured) (hg : SiddLocated.Good m) : Spec.Scene.Good (asSicd m) :=
  ⟨hg.time, hg.arp, fun _ _ _ h => by simp [asSicd] at h, fun _ _ _ h => by simp [asSicd] at h⟩

theorem up_ne_zero (G : Geo) (m : Meta) : up G m ≠ ⟨0, 0, 0⟩ := by
  intro h
  unfold up at h
  simp only [V3.mk.injEq] at h
  obtain ⟨h1, h2, h3⟩ := h
  generalize (G.toLle m.scp).lat = a at *
  generalize (G.toLle m.scp).lon = b at *
  have e1 := Real.sin_sq_add_cos_sq a
  have e2 := Real.sin_sq_add_cos_sq b
  have : (1:ℝ) = Real.sin a ^ 2 + ((Real.cos a * Real.cos b) ^ 2 + (Real.cos a * Real.sin b) ^ 2) := by
    have : (Real.cos a * Real.cos b) ^ 2 + (Real.cos a * Real.sin b) ^ 2 = Real.cos a ^ 2 * (Real.sin b ^ 2 + Real.cos b ^ 2) := by ring
    rw [this, e2]
    linarith
  rw [h1, h2, h3] at this
  norm_num at this

/-- The two models have the same points on terrain. -/
theorem same_terrain (G : Geo) (m : Measured) (hg : SiddLocated.Good m) (s : Verif.Sicd.Sidd) (hr : Reads m s) :
    ∃ M, (asSicd m).build G = some (.model M) ∧ ∀ dem rc, M.toWorldDem G false dem rc = (s.model G).toWorldDem G false dem rc := by
  obtain ⟨T, hT, eT⟩ := native2 m.time hg.time
  obtain ⟨ax, hax, eax⟩ := native1 m.arp.x hg.arp.1
  obtain ⟨ay, hay, eay⟩ := native1 m.arp.y hg.arp.2.1
  obtain ⟨az, haz, eaz⟩ := native1 m.arp.z hg.arp.2.2
  have hA : m.arp.native = .ok ⟨ax, ay, az⟩ := by
    unfold Verif.Sicd.XyzPoly.native
    rw [hax, hay, haz]
    rfl
  obtain ⟨hP, hV⟩ := platform_eq (asSicd m) ⟨ax, ay, az⟩ eax eay eaz
  obtain ⟨s1, s2, s3, s4, s5, s6, s7⟩ := hr.rest
  refine ⟨_, by
    unfold Meta.build Meta.fromDataclass
    rw [show (asSicd m).timeCoa = m.time from rfl, hT, show (asSicd m).arp = m.arp from rfl, hA,
      show (asSicd m).grid = .ok (some (some (.plane m.ref m.uRow m.uCol), none)) from rfl]
    rfl, fun dem rc => ?_⟩
  unfold Verif.Sicd.Model.toWorldDem
  simp only [Verif.Sicd.Model.new, Verif.Sicd.Sidd.model, contour_plain, hP, hV, eT, hr.time, hr.position, hr.velocity, s1, s2, s3, s4, s5, s6, s7, asSicd,
    Verif.Sicd.Converter.toGrid, Verif.Sicd.Coa.specific]
  rfl

/-! ## The place of a pixel on terrain -/

/-- The place of pixel (row, column) of the full image on terrain, in the numbers of the document. -/
theorem sidd_terrain (G : Geo) (m : Measured) (hg : SiddLocated.Good m) (s : Verif.Sicd.Sidd) (hread : Reads m s) (r c : ℝ) (x y t : ℝ) (q : V3) (hx : x = (r - m.refRow) * m.rowSS)
    (hy : y = (c - m.refCol) * m.colSS) (hq : q = onProduct m x y) (ht : t = value2 m.time.coef x y) (hR : 0 < distance (orbit m.arp t) q) (hs : orbit m.arp t ≠ m.ref) (dem : DemModel) (l : Lle)
    (hl : (s.model G).toWorldDem G false dem (r, c) = .ok l) :
    ∃ p, l = G.toLle p ∧ 0 ≤ side (orbit m.arp t) (orbitRate m.arp t) (orbit m.arp t) p ∧
      ∀ k : Verif.Sicd.Contour, k.P = orbit m.arp t → k.V = orbitRate m.arp t → k.r = distance (orbit m.arp t) q → HasDerivAt (fun s => distance (orbit m.arp s) q) k.rdot t →
        Ordinary G m.ref false dem k → SameView m t q p ∧ OnTerrain G dem (SameView m t q) p := by
  obtain ⟨M, hM, hsame⟩ := same_terrain G m hg s hread
  rw [← hsame] at hl
  subst hq
  obtain ⟨p, h1, -, h2, h3⟩ := TerrainLocated.terrain_located G (asSicd m) (asSicd_good m hg) r c x y t (by rw [hx]; simp [asSicd]) (by rw [hy]; simp [asSicd]) ht _ _ _
    (Pixel.plane (.inl rfl)) (up_ne_zero G _) hR hs M hM dem l hl
  refine ⟨p, h1, h2 rfl, fun k e1 e2 e3 e4 ho => ?_⟩
  obtain ⟨w1, w2⟩ := h3 k e1 e2 e3 (by rw [sub_zero]; exact e4) ho
  have conv : ∀ a, Sees (asSicd m) t (fun s => distance (platform (asSicd m) s) ⟨(asSicd m).scp.x + (x * (asSicd m).uRow.x + y * (asSicd m).uCol.x),
      (asSicd m).scp.y + (x * (asSicd m).uRow.y + y * (asSicd m).uCol.y), (asSicd m).scp.z + (x * (asSicd m).uRow.z + y * (asSicd m).uCol.z)⟩) (fun _ => 0) a → SameView m t (onProduct m x y) a := by
    rintro a ⟨a1, d, a2, a3⟩
    rw [add_zero] at a3
    exact ⟨a1, d, a2, a3⟩
  refine ⟨conv p w1, ?_⟩
  rcases w2 with w2 | ⟨a, b, za, zb, w3, w4, w5⟩
  · exact .inl w2
  · exact .inr ⟨a, b, za, zb, conv a w3, conv b w4, w5⟩

/-- **C174**: the places of the pixels of a SIDD file, chipped or not, on terrain follow from the elements of its document and from the assumption that the radar looks to the left. -/
theorem sidd_document_terrain_partial [DecidableEq P] (K : Codec P) (N : Numbers P) (he : EmptyIsNoNumber (reader K N)) (W : Text) (o₁ : Val P) (env : Env) (G : Ground)
    (hlstsq : ∀ rows, IsLstsq rows (env.lstsq rows))
    (henv : env.sidd = siddBuilder (siddXsdata all K N W o₁) G env.lstsq) (parses : Verif.SarTiles.Product → String → Except PyErr Unit) (i : Image) (sel : Selected)
    (hsel : newFactory env.lib parses "NITF" (some i.dess) = .ok (some sel)) (hp : sel.product = .sidd) (ns : Name) (ats : List (QName × String)) (txt : String) (ts : List Tree)
    (hread : W.read sel.xml = .ok (.node (ns, n!"SIDD") none ats txt ts)) (o : Val P) (hparse : parse all K (.node (ns, n!"SIDD") none ats txt ts) = .ok o)
    (m : Measured) (hm : SiddLocated.States (reader K N) (.node (ns, n!"SIDD") none ats txt ts) m) (hg : SiddLocated.Good m) (ri : Image × Option Model) (hi : load env (.image i) = .ok ri) :
    ∃ M a, ri = (i, some M) ∧ IsApproximate env i a ∧ ∀ c r e opts, Answers a (c, r) (some e) opts → ∀ x y t q, x = ((full m.chip (c, r)).2 - m.refRow) * m.rowSS →
      y = ((full m.chip (c, r)).1 - m.refCol) * m.colSS → q = onProduct m x y → t = value2 m.time.coef x y → 0 < distance (orbit m.arp t) q → orbit m.arp t ≠ m.ref →
      ∀ g : Verif.Dem.Geo ℝ, M.imageToWorld (c, r) (some e) opts = .ok g → ∃ p, (⟨g.longitude, g.latitude, g.elevation⟩ : Lle) = G.geo.toLle p ∧
        0 ≤ side (orbit m.arp t) (orbitRate m.arp t) (orbit m.arp t) p ∧
        ∀ k : Verif.Sicd.Contour, k.P = orbit m.arp t → k.V = orbitRate m.arp t → k.r = distance (orbit m.arp t) q → HasDerivAt (fun s => distance (orbit m.arp s) q) k.rdot t →
          Ordinary G.geo m.ref false (G.dem e) k → SameView m t q p ∧ OnTerrain G.geo (G.dem e) (SameView m t q) p := by
  obtain ⟨d, hd, hr, hc⟩ := SiddLocated.states_read K N he W o₁ sel.xml ns ats txt ts hread o hparse m hm hg
  have hxml := selected_ne_empty env.lib parses _ sel hsel
  obtain ⟨a, ha, hri⟩ := Verif.Props.SicdFiles.load_selected env parses i sel hsel ri hi
  have hmodel : Verif.Props.SarTiles.modelOf (builders env i.crs) sel = env.sidd sel.xml := by
    simp only [Verif.Props.SarTiles.modelOf, hp]
    rfl
  obtain ⟨m', hm', k1, -⟩ := chip_model env.lstsq hlstsq (fullModel G d.rest) d.chip (by rw [hc]; exact hg.chip)
  have e1 : env.sidd sel.xml = some m' := by
    rw [henv]
    unfold siddBuilder
    rw [if_neg hxml, hd]
    simp only [hm', Except.toOption]
  rw [hmodel, e1] at hri
  obtain ⟨M, hM, hM1, hM2⟩ := Verif.Props.SicdFiles.combine_answers env i.crs a m' (fun p e o o' => by rw [k1, k1]; rfl)
  refine ⟨M, a, by rw [hri, hM], ha, fun c r e opts hans x y t q hx hy hq ht hR hs g hgw => ?_⟩
  rw [hM2 _ _ _ hans, k1, hc] at hgw
  refine sidd_terrain G.geo m hg d.rest hr _ _ x y t q hx hy hq ht hR hs (G.dem e) _ ?_
  simp only [SiddFiles.fullModel, Verif.SicdFiles.sensorOf, Verif.SicdFiles.onTerrain] at hgw
  rcases h : (d.rest.model G.geo).toWorldDem G.geo false (G.dem e) ((full m.chip (c, r)).2, (full m.chip (c, r)).1) with er | l
  · rw [h] at hgw
    cases hgw
  · rw [h] at hgw
    simp only [Functor.map, Except.map, Verif.SicdFiles.outcome, Except.ok.injEq] at hgw
    rw [← hgw]

/-- **C174** is false of images of a radar that looks to the right: a point to the left of the track is at least as far away from a pixel `q` to the right of it as `q` is from the vertical plane of
the track. -/
theorem right_of_track_elsewhere (A V p q : V3) (hp : 0 ≤ side A V A p) (hq : side A V A q < 0) :
    p ≠ q ∧ side A V A q ^ 2 ≤ distance p q ^ 2 * Verif.Sicd.V3.dot (Verif.Sicd.V3.cross A V) (Verif.Sicd.V3.cross A V) := by
  refine ⟨fun e => by rw [e] at hp; linarith, ?_⟩
  have e : distance p q ^ 2 = sqDist p q := by
    unfold distance
    exact Real.sq_sqrt (by unfold sqDist; positivity)
  have h0 : side A V A q ^ 2 ≤ (side A V A p - side A V A q) ^ 2 := by nlinarith
  refine h0.trans ?_
  rw [e]
  simp only [side, sqDist, Verif.Sicd.V3.dot, Verif.Sicd.V3.cross]
  have key : ∀ a b c u v w : ℝ, (a * u + b * v + c * w) ^ 2 ≤ (a ^ 2 + b ^ 2 + c ^ 2) * (u * u + v * v + w * w) := by
    intro a b c u v w
    nlinarith [sq_nonneg (a * v - b * u), sq_nonneg (a * w - c * u), sq_nonneg (b * w - c * v)]
  refine le_trans (le_of_eq ?_) (key (p.x - q.x) (p.y - q.y) (p.z - q.z) (A.y * V.z - A.z * V.y) (A.z * V.x - A.x * V.z) (A.x * V.y - A.y * V.x))
  ring

/-! ## The image of the plain, seen to the left -/

noncomputable def plain : Measured := ⟨⟨3, 1, 0⟩, 6, 0, ⟨0, 1, 0⟩, ⟨0, 0, 1⟩, 1, 1, ⟨0, 0, [(0, 0, 0)]⟩, ⟨⟨0, [(0, 7)]⟩, ⟨0, []⟩, ⟨1, [(1, 1)]⟩⟩, none⟩

theorem plain_good : SiddLocated.Good plain := by
  refine ⟨?_, ?_, ?_, ?_, ?_, ?_, ?_, ?_⟩
  · simp [Good2, plain]
  · simp [Good1, plain]
  · norm_num [Spec.Sicd.IsUnit, plain]
  · norm_num [Spec.Sicd.IsUnit, plain]
  · norm_num [Independent, plain]
  · norm_num [plain]
  · norm_num [plain]
  · intro g hg
    simp [plain] at hg

theorem plain_orbit (t : ℝ) : orbit plain.arp t = ⟨7, 0, t⟩ := by simp [orbit, value1, plain]

theorem plain_rate (t : ℝ) : orbitRate plain.arp t = ⟨0, 0, 1⟩ := by
  simp only [orbitRate, plain_orbit, deriv_const]
  congr 1
  exact deriv_id t

/-- What the builder reads. -/
noncomputable def plainSidd : Verif.Sicd.Sidd := ⟨⟨3, 1, 0⟩, 6, 0, [[0]], ⟨[7], [0], [0, 1]⟩, ⟨0, 1, 0⟩, ⟨0, 0, 1⟩, 1, 1⟩

theorem plain_reads : Reads plain plainSidd := by
  have h1 : ∀ t, plainSidd.arp.at t = orbit plain.arp t := by
    intro t
    rw [plain_orbit]
    simp [plainSidd, Verif.Sicd.PolyXYZ.at, Verif.Sicd.polyval]
  refine ⟨⟨rfl, rfl, rfl, rfl, rfl, rfl, rfl⟩, ?_, h1, ?_⟩
  · intro x y
    simp [plainSidd, plain, value2, Verif.Sicd.polyval2d, Verif.Sicd.polyval]
  · intro t
    rw [plain_rate]
    norm_num [plainSidd, Verif.Sicd.PolyXYZ.deriv, Verif.Sicd.PolyXYZ.at, Verif.Sicd.polyval, Verif.Sicd.polyder, Verif.Sicd.polyderFrom]

/-- The pixel in row 2 and column 0, which is at (3, -3, 0) in the product plane, over terrain of height 5/2: it is put on the left at the range 5, between a point above and a point below the terrain. -/
example : ∃ l p, plainSidd.toWorldDem flatGeo flatDem (2, 0) = .ok l ∧ l = flatGeo.toLle p ∧ 0 ≤ side ⟨7, 0, 0⟩ ⟨0, 0, 1⟩ ⟨7, 0, 0⟩ p ∧
    SameView plain 0 ⟨3, -3, 0⟩ p ∧ OnTerrain flatGeo flatDem (SameView plain 0 ⟨3, -3, 0⟩) p := by
  have h25 : √(25 : ℝ) = 5 := by
    rw [show (25 : ℝ) = 5 ^ 2 by norm_num]
    exact Real.sqrt_sq (by norm_num)
  have ht : (0 : ℝ) = value2 plain.time.coef (-4) 0 := by simp [value2, plain]
  have hq : (⟨3, -3, 0⟩ : V3) = onProduct plain (-4) 0 := by norm_num [onProduct, plain]
  have hfun : (fun t => distance (orbit plain.arp t) ⟨3, -3, 0⟩) = fun t : ℝ => √(t ^ 2 + 25) := by
    funext t
    rw [plain_orbit]
    simp only [distance, sqDist]
    congr 1
    ring
  have hd : HasDerivAt (fun t : ℝ => √(t ^ 2 + 25)) 0 0 := by
    have h1 : HasDerivAt (fun t : ℝ => t ^ 2 + 25) 0 0 := by simpa using (hasDerivAt_pow 2 (0 : ℝ)).add_const 25
    simpa using h1.sqrt (by norm_num)
  have hr : distance (orbit plain.arp 0) ⟨3, -3, 0⟩ = 5 := by
    rw [congrFun hfun 0]
    norm_num [h25]
  have hcon : (plainSidd.model flatGeo).coa.contour ((plainSidd.model flatGeo).conv.toGrid (2 + (plainSidd.model flatGeo).conv.firstRow, 0 + (plainSidd.model flatGeo).conv.firstCol)) = flatContour := by
    have h5 : Verif.Sicd.V3.norm ⟨4, 3, 0⟩ = 5 := Verif.Sicd.norm_eq_of (by norm_num) (by norm_num [Verif.Sicd.V3.dot])
    simp only [Verif.Sicd.Sidd.model, Verif.Sicd.Model.new, Verif.Sicd.Coa.contour, plainSidd, flatContour, Verif.Sicd.Coa.timeAt, Verif.Sicd.Coa.specific, Verif.Sicd.Converter.toGrid]
    norm_num [Verif.Sicd.polyval2d, Verif.Sicd.polyval, Verif.Sicd.polyder, Verif.Sicd.polyderFrom, Verif.Sicd.PolyXYZ.at, Verif.Sicd.PolyXYZ.deriv, Verif.Sicd.V3.sub, Verif.Sicd.V3.add,
      Verif.Sicd.V3.smul, h5, Verif.Sicd.V3.dot]
  have hw : (plainSidd.model flatGeo).toWorldDem flatGeo false flatDem (2, 0) = .ok (flatGeo.toLle ((Verif.Sicd.circleOf flatContour).point 1 (4 / 5 + 1 / 2 * -(1 / 5)))) := by
    have := flat_points false
    unfold Verif.Sicd.Model.toWorldDem
    simp only [hcon]
    rw [show (plainSidd.model flatGeo).conv.scp = ⟨3, 1, 0⟩ from rfl, this]
    rfl
  obtain ⟨p, h1, h2, h3⟩ := sidd_terrain flatGeo plain plain_good plainSidd plain_reads 2 0 (-4) 0 0 ⟨3, -3, 0⟩ (by norm_num [plain]) (by norm_num [plain]) hq ht (by rw [hr]; norm_num)
    (by rw [plain_orbit]; simp [plain]) flatDem _ hw
  obtain ⟨h4, h5⟩ := h3 flatContour (by rw [plain_orbit]; rfl) (by rw [plain_rate]; rfl) (by rw [hr]; rfl) (by rw [hfun]; exact hd) (flat_ordinary false)
  rw [plain_orbit, plain_rate] at h2
  exact ⟨_, p, hw, h1, h2, h4, h5⟩

end Verif.Props.SiddTerrain
