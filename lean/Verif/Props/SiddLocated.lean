import Verif.Props.DocumentLocated

/-!
# From the elements of a SIDD document to the places of its pixels
-/

namespace Verif.Props.SiddLocated

open Verif Verif.Xsdata Verif.SarXml Verif.SarTiles Verif.Sensors Verif.Loading Verif.SiddFiles Verif.Spec.Sicd Verif.Spec.Scene
open Verif.Props.XmlPaths Verif.Props.XmlComplete Verif.Props.SarFiles Verif.Props.Located Verif.Transforms
open Verif.Props.SicdFiles (IsApproximate Answers)
open Verif.Updaters (Chip siddModel)
open Verif.Spec.Transforms (GeneralPosition)
open Verif.Schema (all)
open Verif.Spec.XmlPath (NumberAt Poly2At WholeAt At named)
open Verif.SicdFiles (Ground)

variable {P : Type}

/-! ## Chips -/

/-- The map of a parallelogram to the pixels of the chip. -/
noncomputable def chipMap (g : Chip ℝ) : Projective ℝ :=
  let u := (g.ur.1 - g.ul.1, g.ur.2 - g.ul.2)
  let v := (g.ll.1 - g.ul.1, g.ll.2 - g.ul.2)
  let D := u.1 * v.2 - u.2 * v.1
  ⟨-(g.cols * (g.ul.1 * v.2 - g.ul.2 * v.1) / D), g.cols * v.2 / D, -(g.cols * v.1 / D), -(g.rows * (u.1 * g.ul.2 - u.2 * g.ul.1) / D), -(g.rows * u.2 / D), g.rows * u.1 / D, 0, 0⟩

theorem chip_model {O : Type} (lstsq : List (Row ℝ) → Projective ℝ) (hl : ∀ rows, IsLstsq rows (lstsq rows)) (m : SensorModel ℝ O) (chip : Option (Chip ℝ))
    (hg : ∀ g, chip = some g → Parallelogram g) :
    ∃ m', siddModel lstsq chip m = .ok m' ∧ (∀ p e o, m'.imageToWorld p e o = m.imageToWorld (full chip p) e o) ∧
      ∀ p w, m.worldToImage w = .ok (full chip p) → m'.worldToImage w = .ok p := by
  cases chip with
  | none => exact ⟨m, rfl, fun _ _ _ => rfl, fun _ _ h => h⟩
  | some g =>
    obtain ⟨hc, hr, hcl, hop⟩ := hg g rfl
    have hc' : (g.cols : ℝ) ≠ 0 := Int.cast_ne_zero.2 hc
    have hr' : (g.rows : ℝ) ≠ 0 := Int.cast_ne_zero.2 hr
    obtain ⟨cols, rows, ⟨ux, uy⟩, ⟨rx, ry⟩, ⟨qx, qy⟩, ⟨lx, ly⟩⟩ := g
    simp only at hc' hr' hcl hop
    simp only [Prod.mk.injEq] at hcl
    obtain ⟨rfl, rfl⟩ := hcl
    set G : Chip ℝ := ⟨cols, rows, (ux, uy), (rx, ry), (rx + (lx - ux), ry + (ly - uy)), (lx, ly)⟩ with hG
    have hden : ∀ q, (chipMap G).den q = 1 := fun q => by simp [chipMap, Projective.den]
    have hdet : (chipMap G).det ≠ 0 := by
      have : (chipMap G).det = cols * rows / ((rx - ux) * (ly - uy) - (ry - uy) * (lx - ux)) := by
        simp only [chipMap, Projective.det, hG]
        generalize hD : (rx - ux) * (ly - uy) - (ry - uy) * (lx - ux) = D at *
        field_simp
        rw [← hD]
        ring
      rw [this]
      exact div_ne_zero (mul_ne_zero hc' hr') hop
    have hfull : ∀ p, (chipMap G).forward (full (some G) p) = some p := by
      intro p
      rw [forward_some _ _ (by rw [hden]; exact one_ne_zero), hden]
      simp only [full, chipMap, hG, div_one, Option.some.injEq]
      generalize hD : (rx - ux) * (ly - uy) - (ry - uy) * (lx - ux) = D at *
      ext <;> simp only <;> field_simp <;> rw [← hD] <;> ring
    have hest : estimateStacked lstsq [G.ul, G.ur, G.lr, G.ll] [(0, 0), ((G.cols : ℝ), 0), ((G.cols : ℝ), (G.rows : ℝ)), (0, (G.rows : ℝ))] = .ok (chipMap G) := by
      unfold estimateStacked
      rw [if_neg (by simp)]
      congr 1
      apply Verif.Props.Transforms.estimate_recovers lstsq (chipMap G) hdet _ (hl _)
      · have k1 := hfull (0, 0)
        have k2 := hfull ((cols : ℝ), 0)
        have k3 := hfull ((cols : ℝ), (rows : ℝ))
        have k4 := hfull (0, (rows : ℝ))
        simp only [full, hG, zero_div, zero_mul, add_zero, div_self hc', div_self hr', one_mul] at k1 k2 k3 k4
        rw [show ux + (rx - ux) = rx by ring, show uy + (ry - uy) = ry by ring] at k2 k3
        rw [show ux + (lx - ux) = lx by ring, show uy + (ly - uy) = ly by ring] at k4
        intro p hp
        simp only [List.zip_cons_cons, List.zip_nil_right, List.mem_cons, List.not_mem_nil, or_false] at hp
        rcases hp with rfl | rfl | rfl | rfl
        · exact k1
        · exact k2
        · exact k3
        · exact k4
      · refine ⟨(ux, uy), by simp [hG], (rx, ry), by simp [hG], (rx + (lx - ux), ry + (ly - uy)), by simp [hG], (lx, ly), by simp [hG], ?_, ?_, ?_, ?_⟩ <;>
          simp only [Verif.Spec.Transforms.area] <;> intro h <;> apply hop <;> linarith
    refine ⟨_, by unfold siddModel chipped; simp only [hest]; rfl, fun p e o => ?_, fun p w h => ?_⟩
    · simp only [Verif.Props.Transforms.inverse_forward _ hdet _ _ (hfull p)]
      rfl
    · simp only [h]
      show finite ((chipMap G).forward (full (some G) p)) = _
      rw [hfull]
      rfl

/-! ## Documents -/

/-- The numbers that the elements of a document state. -/
structure States (R : Spec.XmlPath.Reader) (t : Tree) (m : Measured) : Prop where
  ref : VectorAt R t [n!"Measurement", n!"PlaneProjection", n!"ReferencePoint", n!"ECEF"] m.ref
  refRow : NumberAt R n!"float" t [n!"Measurement", n!"PlaneProjection", n!"ReferencePoint", n!"Point", n!"Row"] m.refRow
  refCol : NumberAt R n!"float" t [n!"Measurement", n!"PlaneProjection", n!"ReferencePoint", n!"Point", n!"Col"] m.refCol
  uRow : VectorAt R t [n!"Measurement", n!"PlaneProjection", n!"ProductPlane", n!"RowUnitVector"] m.uRow
  uCol : VectorAt R t [n!"Measurement", n!"PlaneProjection", n!"ProductPlane", n!"ColUnitVector"] m.uCol
  rowSS : NumberAt R n!"float" t [n!"Measurement", n!"PlaneProjection", n!"SampleSpacing", n!"Row"] m.rowSS
  colSS : NumberAt R n!"float" t [n!"Measurement", n!"PlaneProjection", n!"SampleSpacing", n!"Col"] m.colSS
  time : Poly2At R t [n!"Measurement", n!"PlaneProjection", n!"TimeCOAPoly"] m.time.order1 m.time.order2 m.time.coef
  arp : CurveAt R t [n!"Measurement", n!"ARPPoly"] m.arp
  chip : ChipFrom R t m.chip

/-- They are as the standard asks for. -/
structure Good (m : Measured) : Prop where
  time : Good2 m.time
  arp : Good1 m.arp.x ∧ Good1 m.arp.y ∧ Good1 m.arp.z
  uRow : IsUnit m.uRow
  uCol : IsUnit m.uCol
  plane : Independent m.uRow m.uCol
  rowSS : m.rowSS ≠ 0
  colSS : m.colSS ≠ 0
  chip : ∀ g, m.chip = some g → Parallelogram g

/-- What the builder makes of the numbers. -/
structure Reads (m : Measured) (s : Verif.Sicd.Sidd) : Prop where
  rest : s.scp = m.ref ∧ s.scpRow = m.refRow ∧ s.scpCol = m.refCol ∧ s.uRow = m.uRow ∧ s.uCol = m.uCol ∧ s.rowSS = m.rowSS ∧ s.colSS = m.colSS
  time : ∀ x y, Verif.Sicd.polyval2d s.time x y = value2 m.time.coef x y
  position : ∀ t, s.arp.at t = orbit m.arp t
  velocity : ∀ t, s.arp.deriv.at t = orbitRate m.arp t

theorem states_read [DecidableEq P] (K : Codec P) (N : Numbers P) (he : EmptyIsNoNumber (reader K N)) (W : Text) (o₁ : Val P) (xml : String) (ns : Name)
    (ats : List (QName × String)) (txt : String) (ts : List Tree) (hread : W.read xml = .ok (.node (ns, n!"SIDD") none ats txt ts)) (o : Val P)
    (h : parse all K (.node (ns, n!"SIDD") none ats txt ts) = .ok o) (m : Measured) (hm : States (reader K N) (.node (ns, n!"SIDD") none ats txt ts) m) (hg : Good m) :
    ∃ d, (siddXsdata all K N W o₁).parse xml = .ok d ∧ Reads m d.rest ∧ d.chip = m.chip := by
  obtain ⟨T, hT, eT⟩ := native2 m.time hg.time
  obtain ⟨ax, hax, eax⟩ := native1 m.arp.x hg.arp.1
  obtain ⟨ay, hay, eay⟩ := native1 m.arp.y hg.arp.2.1
  obtain ⟨az, haz, eaz⟩ := native1 m.arp.z hg.arp.2.2
  have hA : m.arp.native = .ok ⟨ax, ay, az⟩ := by
    unfold Verif.Sicd.XyzPoly.native
    rw [hax, hay, haz]
    rfl
  have hrest := sidd_complete K N he ns ats txt ts o h ⟨m.ref, m.refRow, m.refCol, T, ⟨ax, ay, az⟩, m.uRow, m.uCol, m.rowSS, m.colSS⟩
    ⟨hm.ref, hm.refRow, hm.refCol, ⟨m.time, hm.time, hT⟩, ⟨m.arp, hm.arp, hA⟩, hm.uRow, hm.uCol, hm.rowSS, hm.colSS⟩
  have hchip := sidd_chip_complete K N ns ats txt ts o h m.chip hm.chip
  have h1 : ∀ t, Verif.Sicd.PolyXYZ.at ⟨ax, ay, az⟩ t = orbit m.arp t := fun t => by
    unfold Verif.Sicd.PolyXYZ.at orbit
    rw [eax, eay, eaz]
  refine ⟨⟨⟨m.ref, m.refRow, m.refCol, T, ⟨ax, ay, az⟩, m.uRow, m.uCol, m.rowSS, m.colSS⟩, m.chip⟩, ?_, ⟨⟨rfl, rfl, rfl, rfl, rfl, rfl, rfl⟩, eT, h1, fun t => ?_⟩, rfl⟩
  · simp only [siddXsdata, hread, ok_bind, h, siddDoc, hrest, hchip]
    rfl
  · unfold orbitRate
    simp only [← h1]
    unfold Verif.Sicd.PolyXYZ.deriv Verif.Sicd.PolyXYZ.at
    rw [(Verif.Props.SicdSurface.hasDerivAt_polyval ax t).deriv, (Verif.Props.SicdSurface.hasDerivAt_polyval ay t).deriv, (Verif.Props.SicdSurface.hasDerivAt_polyval az t).deriv]

/-- **C168**: the places of the pixels of a SIDD file, chipped or not, follow from the elements of its document: `image_to_world` gives the point of the product plane at the distances
of the pixel from the reference pixel, and `world_to_image` leads back from there. -/
theorem sidd_document_located [DecidableEq P] (K : Codec P) (N : Numbers P) (he : EmptyIsNoNumber (reader K N)) (W : Text) (o₁ : Val P) (env : Env) (G : Ground)
    (hG : ∀ p, G.geo.toEcf (G.geo.toLle p) = p) (hlstsq : ∀ rows, IsLstsq rows (env.lstsq rows))
    (henv : env.sidd = siddBuilder (siddXsdata all K N W o₁) G env.lstsq) (parses : Verif.SarTiles.Product → String → Except PyErr Unit) (i : Image) (sel : Selected)
    (hsel : newFactory env.lib parses "NITF" (some i.dess) = .ok (some sel)) (hp : sel.product = .sidd) (ns : Name) (ats : List (QName × String)) (txt : String) (ts : List Tree)
    (hread : W.read sel.xml = .ok (.node (ns, n!"SIDD") none ats txt ts)) (o : Val P) (hparse : parse all K (.node (ns, n!"SIDD") none ats txt ts) = .ok o)
    (m : Measured) (hm : States (reader K N) (.node (ns, n!"SIDD") none ats txt ts) m) (hg : Good m) (ri : Image × Option Model) (hi : load env (.image i) = .ok ri) :
    ∃ M a, ri = (i, some M) ∧ IsApproximate env i a ∧ ∀ c r opts, Answers a (c, r) none opts → ∀ x y q, x = ((full m.chip (c, r)).2 - m.refRow) * m.rowSS →
      y = ((full m.chip (c, r)).1 - m.refCol) * m.colSS → q = onProduct m x y → InSight m (value2 m.time.coef x y) q →
      M.imageToWorld (c, r) none opts = .ok ⟨(G.geo.toLle q).lon, (G.geo.toLle q).lat, (G.geo.toLle q).h⟩ ∧
        M.worldToImage ⟨(G.geo.toLle q).lon, (G.geo.toLle q).lat, (G.geo.toLle q).h⟩ = .ok (c, r) := by
  obtain ⟨d, hd, hr, hc⟩ := states_read K N he W o₁ sel.xml ns ats txt ts hread o hparse m hm hg
  have hxml := selected_ne_empty env.lib parses _ sel hsel
  obtain ⟨a, ha, hri⟩ := Verif.Props.SicdFiles.load_selected env parses i sel hsel ri hi
  have hmodel : Verif.Props.SarTiles.modelOf (builders env i.crs) sel = env.sidd sel.xml := by
    simp only [Verif.Props.SarTiles.modelOf, hp]
    rfl
  obtain ⟨m', hm', k1, k2⟩ := chip_model env.lstsq hlstsq (fullModel G d.rest) d.chip (by rw [hc]; exact hg.chip)
  have e1 : env.sidd sel.xml = some m' := by
    rw [henv]
    unfold siddBuilder
    rw [if_neg hxml, hd]
    simp only [hm', Except.toOption]
  rw [hmodel, e1] at hri
  obtain ⟨M, hM, hM1, hM2⟩ := Verif.Props.SicdFiles.combine_answers env i.crs a m' (fun p e o o' => by rw [k1, k1]; rfl)
  refine ⟨M, a, by rw [hri, hM], ha, fun c r opts hans x y q hx hy hq hs => ?_⟩
  obtain ⟨s1, s2, s3, s4, s5, s6, s7⟩ := hr.rest
  have hplane : q = (d.rest.model G.geo).conv.toPlane (((full d.chip (c, r)).2 - d.rest.scpRow) * d.rest.rowSS, ((full d.chip (c, r)).1 - d.rest.scpCol) * d.rest.colSS) := by
    rw [hq, hx, hy, ← hc, ← s2, ← s3, ← s6, ← s7]
    unfold onProduct
    rw [← s1, ← s4, ← s5]
    rfl
  obtain ⟨h1, h2⟩ := Verif.Props.Sicd.sidd_round_trip G.geo d.rest (by rw [s4]; exact hg.uRow) (by rw [s5]; exact hg.uCol) (by rw [s4, s5]; exact hg.plane) (by rw [s6]; exact hg.rowSS)
    (by rw [s7]; exact hg.colSS) ((full d.chip (c, r)).2, (full d.chip (c, r)).1) q (hG _) hplane (by
      rw [hr.time, s2, s3, s6, s7, hc, ← hx, ← hy]
      refine ⟨?_, ?_, ?_⟩
      · rw [hr.velocity, s4, s5]; exact hs.velocity
      · rw [hr.position, s4, s5]; exact hs.direction
      · rw [hr.velocity, hr.position, s4, s5, s1]; exact hs.side)
  constructor
  · rw [hM2 _ _ _ hans, k1]
    show Verif.SicdFiles.outcome ((d.rest.model G.geo).toWorld G.geo ((full d.chip (c, r)).2, (full d.chip (c, r)).1)) = _
    rw [h1]
    rfl
  · rw [hM1]
    apply k2
    simp only [fullModel, Verif.SicdFiles.sensorOf, Verif.Sicd.Built.toImage]
    rw [h2]

/-! ## A document with a chip that lies across the image -/

open Verif.Props.SarXml (leaf branch vector poly demoCodec)
open Verif.Props.SicdFiles (demoGround)
open Verif.Xsdata.Namespace (sidd200 sicommon10)

def rowCol (n : Name) (row col : String) : Tree := branch sidd200 n [leaf sicommon10 n!"Row" row, leaf sicommon10 n!"Col" col]

/-- A chip of three rows and two columns whose columns go down the full image, and the measurement; the codec of the example reads "10" as 0 and "111" as 3. -/
def tiltKids : List Tree := [
  branch sidd200 n!"DownstreamReprocessing" [branch sidd200 n!"GeometricChip" [rowCol n!"ChipSize" "111" "11",
    rowCol n!"OriginalUpperLeftCoordinate" "1" "11111111", rowCol n!"OriginalUpperRightCoordinate" "11111" "11111111",
    rowCol n!"OriginalLowerLeftCoordinate" "1" "11", rowCol n!"OriginalLowerRightCoordinate" "11111" "11"]],
  branch sidd200 n!"Measurement" [
    branch sidd200 n!"PlaneProjection" [
      branch sidd200 n!"ReferencePoint" [vector sicommon10 sicommon10 n!"ECEF" "10" "1111" "10",
        branch sicommon10 n!"Point" [leaf sicommon10 n!"Row" "1", leaf sicommon10 n!"Col" "1"]],
      rowCol n!"SampleSpacing" "1" "1",
      .node (sidd200, n!"TimeCOAPoly") none [((0, n!"order1"), "10"), ((0, n!"order2"), "10")] "" [
        .node (sicommon10, n!"Coef") none [((0, n!"exponent1"), "10"), ((0, n!"exponent2"), "10")] "10" []],
      branch sidd200 n!"ProductPlane" [vector sidd200 sicommon10 n!"RowUnitVector" "1" "10" "10", vector sidd200 sicommon10 n!"ColUnitVector" "10" "1" "10"]],
    branch sidd200 n!"ARPPoly" [poly sicommon10 sicommon10 n!"X" "1" [("1", "1")], poly sicommon10 sicommon10 n!"Y" "10" [], poly sicommon10 sicommon10 n!"Z" "10" [("10", "111")]]]]

def tiltTree : Tree := .node (sidd200, n!"SIDD") none [] "" tiltKids

def tiltObject : Val String := match parse all demoCodec tiltTree with | .ok o => o | .error _ => .null

/-- What it states. -/
noncomputable def tilt : Measured :=
  ⟨⟨(0 : Int), (4 : Int), (0 : Int)⟩, (1 : Int), (1 : Int), ⟨(1 : Int), (0 : Int), (0 : Int)⟩, ⟨(0 : Int), (1 : Int), (0 : Int)⟩, (1 : Int), (1 : Int), ⟨0, 0, [(0, 0, (0 : Int))]⟩,
    ⟨⟨1, [(1, (1 : Int))]⟩, ⟨0, []⟩, ⟨0, [(0, (3 : Int))]⟩⟩, some ⟨2, 3, ((8 : Int), (1 : Int)), ((8 : Int), (5 : Int)), ((2 : Int), (5 : Int)), ((2 : Int), (1 : Int))⟩⟩

set_option maxRecDepth 100000 in
theorem tilt_parses : parse all demoCodec tiltTree = .ok tiltObject := by rfl

set_option maxRecDepth 100000 in
theorem tilt_states : States (reader demoCodec strictNumbers) tiltTree tilt := by
  have down : ∀ (t k u : Tree) (n : Name) (ns : List Name), named n t = [k] → At k ns u → At t (n :: ns) u := .down
  have w : ∀ R t path x u, At t path u → Verif.Spec.XmlPath.inside u = [] → R.int (Verif.Spec.XmlPath.textIn u) = some x → WholeAt R t path x := fun _ _ _ _ u a b c => ⟨u, a, b, c⟩
  have r : ∀ R k t path x u, At t path u → Verif.Spec.XmlPath.inside u = [] → R.real k (Verif.Spec.XmlPath.textIn u) = some x → NumberAt R k t path x := fun _ _ _ _ _ u a b c => ⟨u, a, b, c⟩
  refine ⟨⟨?_, ?_, ?_⟩, ?_, ?_, ⟨?_, ?_, ?_⟩, ⟨?_, ?_, ?_⟩, ?_, ?_, ?_, ⟨?_, ?_, ?_⟩, ⟨?_, ?_, ⟨?_, ?_⟩, ⟨?_, ?_⟩, ⟨?_, ?_⟩, ⟨?_, ?_⟩⟩⟩
  all_goals first
    | exact r _ _ _ _ _ _ (down _ _ _ _ _ rfl (down _ _ _ _ _ rfl (down _ _ _ _ _ rfl (down _ _ _ _ _ rfl (down _ _ _ _ _ rfl (.here _)))))) rfl rfl
    | exact r _ _ _ _ _ _ (down _ _ _ _ _ rfl (down _ _ _ _ _ rfl (down _ _ _ _ _ rfl (down _ _ _ _ _ rfl (.here _))))) rfl rfl
    | exact w _ _ _ _ _ (down _ _ _ _ _ rfl (down _ _ _ _ _ rfl (down _ _ _ _ _ rfl (down _ _ _ _ _ rfl (.here _))))) rfl rfl
    | exact ⟨_, down _ _ _ _ _ rfl (down _ _ _ _ _ rfl (down _ _ _ _ _ rfl (.here _))), rfl, rfl, .cons ⟨rfl, rfl, rfl⟩ .nil⟩
    | exact ⟨_, down _ _ _ _ _ rfl (down _ _ _ _ _ rfl (down _ _ _ _ _ rfl (.here _))), rfl, .cons ⟨rfl, rfl⟩ .nil⟩
    | exact ⟨_, down _ _ _ _ _ rfl (down _ _ _ _ _ rfl (down _ _ _ _ _ rfl (.here _))), rfl, .nil⟩

theorem tilt_good : Good tilt := by
  refine ⟨?_, ?_, ?_, ?_, ?_, ?_, ?_, ?_⟩
  · simp [Good2, tilt]
  · simp [Good1, tilt]
  · norm_num [Spec.Sicd.IsUnit, tilt]
  · norm_num [Spec.Sicd.IsUnit, tilt]
  · norm_num [Independent, tilt]
  · norm_num [tilt]
  · norm_num [tilt]
  · intro g hg
    simp only [tilt, Option.some.injEq] at hg
    subst hg
    constructor <;> norm_num

attribute [local irreducible] tiltObject tiltKids

/-- Every text is that document. -/
noncomputable def tiltText : Text := ⟨fun _ => "", fun _ => .ok tiltTree⟩

noncomputable def tiltEnv (x : Verif.SiddFiles.Xsdata) (lstsq : List (Row ℝ) → Projective ℝ) : Env :=
  { Verif.Props.SiddFiles.demoEnv x lstsq with sidd := siddBuilder (siddXsdata all demoCodec strictNumbers tiltText tiltObject) demoGround lstsq }

theorem tilt_load (x : Verif.SiddFiles.Xsdata) (hx : Verif.Props.SiddFiles.Demo x) (lstsq : List (Row ℝ) → Projective ℝ) :
    ∃ r, load (tiltEnv x lstsq) (.image (Verif.Props.SiddFiles.demoImage x none)) = .ok r := by
  obtain ⟨h, hh⟩ := Verif.Props.SiddFiles.demo_select x hx lstsq none (.inl rfl)
  have := (Verif.Props.SarTiles.same_segment_as_sensor_model (tiltEnv x lstsq).lib (fun _ _ => .ok ()) (Verif.Props.Loading.metadata (Verif.Props.SiddFiles.demoImage x none) none)
    ((Verif.Props.Factory.isSelected_iff _ _).1 (Verif.Props.Loading.selected_all _ none .sicd)) (builders (tiltEnv x lstsq) none) none _ hh).1 _ rfl
  refine ⟨(Verif.Props.SiddFiles.demoImage x none, Verif.Factory.combine (builders (tiltEnv x lstsq) none) none
    (Verif.Props.SarTiles.modelOf (builders (tiltEnv x lstsq) none) ⟨.sidd, x.render (Verif.Props.SiddFiles.demoDoc none), h⟩)), ?_⟩
  unfold load
  simp only [openImage, Tre.bind_ok, Except.ok.injEq, exists_eq_left']
  refine ⟨none, rfl, _, ?_, rfl⟩
  change Verif.Factory.build (builders (tiltEnv x lstsq) none) (tiltEnv x lstsq).lib (Verif.Props.Loading.metadata (Verif.Props.SiddFiles.demoImage x none) none) = _
  unfold Verif.Factory.build
  simp only [Tre.bind_ok]
  exact ⟨none, rfl, (none, none), rfl, _, this, rfl⟩

theorem tilt_orbit (t : ℝ) : orbit tilt.arp t = ⟨t, 0, 3⟩ := by simp [orbit, value1, tilt]

theorem tilt_rate (t : ℝ) : orbitRate tilt.arp t = ⟨1, 0, 0⟩ := by
  simp only [orbitRate, tilt_orbit, deriv_const]
  congr 1
  exact deriv_id t

/-- Pixel (1, 1) of the chip is pixel (6, 3) of the full image; this is at (2, 9, 0). -/
example : ∃ (env : Env) (i : Image) (M : Model), load env (.image i) = .ok (i, some M) ∧ M.imageToWorld (1, 1) none none = .ok ⟨2, 9, 0⟩ ∧ M.worldToImage ⟨2, 9, 0⟩ = .ok (1, 1) := by
  obtain ⟨x, hx⟩ := Verif.Props.SiddFiles.demo_exists
  obtain ⟨lstsq, hl, -⟩ := lstsq_function (K := ℝ)
  obtain ⟨h, hsel⟩ := Verif.Props.SiddFiles.demo_select x hx lstsq none (.inl rfl)
  obtain ⟨ri, hri⟩ := tilt_load x hx lstsq
  obtain ⟨M, a, rfl, k2, k⟩ := sidd_document_located demoCodec strictNumbers strict_empty tiltText tiltObject (tiltEnv x lstsq) demoGround (fun _ => rfl) hl rfl (fun _ _ => .ok ()) _ _ hsel rfl
    sidd200 [] "" tiltKids rfl tiltObject tilt_parses tilt tilt_states tilt_good ri hri
  have hnone : a = none := by
    obtain ⟨tres, a₀, p, h1, h2, h3⟩ := k2
    cases h1
    cases h2
    cases h3
    rfl
  subst hnone
  refine ⟨_, _, M, hri, ?_⟩
  refine k 1 1 none (fun m h => by cases h) 2 5 ⟨2, 9, 0⟩ ?_ ?_ ?_ ?_
  · norm_num [full, tilt]
  · norm_num [full, tilt]
  · norm_num [onProduct, tilt]
  · have ht : value2 tilt.time.coef 2 5 = 0 := by simp [value2, tilt]
    rw [ht]
    refine ⟨?_, ?_, ?_⟩
    · rw [tilt_rate]
      norm_num [Independent, across, tilt]
    · rw [tilt_orbit]
      norm_num [Independent, across, tilt, Verif.Sicd.V3.sub]
    · rw [tilt_orbit, tilt_rate]
      norm_num [side, across, tilt]

end Verif.Props.SiddLocated
