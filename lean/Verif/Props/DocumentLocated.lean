import Verif.Props.Located
import Verif.Props.SarFiles
import Verif.Props.XmlComplete

/-!
# From the elements of a SICD document to the places of its pixels
-/

namespace Verif.Props.DocumentLocated

open Verif Verif.Xsdata Verif.SarXml Verif.SarTiles Verif.Sensors Verif.Loading Verif.SicdFiles Verif.Spec.Sicd Verif.Spec.Scene
open Verif.Props.XmlPaths Verif.Props.XmlComplete Verif.Props.SicdFiles Verif.Props.SarFiles Verif.Props.Located
open Verif.Schema (all)
open Verif.Xsdata.Namespace (sicd121)
open Verif.Factory
open Verif.Props.Loading (metadata)
open Verif.Spec.XmlPath (WholeAt At named)

variable {P : Type}

/-- The numbers that the elements of a document state, with the position of the image in the full image. -/
structure States (R : Spec.XmlPath.Reader) (t : Tree) (m : Verif.Sicd.Meta) : Prop where
  rest : SicdIs R t { m with firstRow := 0, firstCol := 0 }
  firstRow : ∃ k : Int, WholeAt R t [n!"ImageData", n!"FirstRow"] k ∧ m.firstRow = k
  firstCol : ∃ k : Int, WholeAt R t [n!"ImageData", n!"FirstCol"] k ∧ m.firstCol = k

theorem states_read [DecidableEq P] (K : Codec P) (N : Numbers P) (he : EmptyIsNoNumber (reader K N)) (W : Text) (o₁ : Val P) (xml : String) (ns : Name)
    (ats : List (QName × String)) (txt : String) (ts : List Tree) (hread : W.read xml = .ok (.node (ns, n!"SICD") none ats txt ts)) (o : Val P)
    (h : parse all K (.node (ns, n!"SICD") none ats txt ts) = .ok o) (m : Verif.Sicd.Meta) (hm : States (reader K N) (.node (ns, n!"SICD") none ats txt ts) m) :
    ∃ d, (sicdXsdata all K N W o₁).parse xml = .ok d ∧ d.content = m := by
  obtain ⟨k1, hk1, e1⟩ := hm.firstRow
  obtain ⟨k2, hk2, e2⟩ := hm.firstCol
  have hrest := sicd_complete K N he ns ats txt ts o h _ hm.rest
  obtain ⟨im, him, i1, i2⟩ := sicd_image_complete K N ns ats txt ts o h k1 k2 hk1 hk2
  refine ⟨⟨{ m with firstRow := 0, firstCol := 0 }, im⟩, ?_, ?_⟩
  · simp only [sicdXsdata, hread, ok_bind, h, sicdDoc, hrest, him]
    rfl
  · unfold Doc.content
    simp only [i1, i2]
    rw [← e1, ← e2]

/-- **C167**: the places of the pixels of a SICD file, in the numbers that xsdata read from its document. -/
theorem read_located (env : Env) (x₀ : Verif.SicdFiles.Xsdata) (G : Ground) (henv : env.sicd = sicdBuilder x₀ G) (parses : Product → String → Except PyErr Unit) (i : Image)
    (sel : Selected) (hsel : newFactory env.lib parses "NITF" (some i.dess) = .ok (some sel)) (hp : sel.product = .sicd) (d : Doc) (hd : x₀.parse sel.xml = .ok d)
    (m : Verif.Sicd.Meta) (hm : d.content = m) (hg : Good m) (hgrid : ∃ R extra n, Pixel G.geo m 0 0 R extra n ∧ n ≠ ⟨0, 0, 0⟩) (ri : Image × Option Model)
    (hi : load env (.image i) = .ok ri) :
    ∃ M a, ri = (i, some M) ∧ IsApproximate env i a ∧ ∀ c r opts, Answers a (c, r) none opts → ∀ x y t, x = (r + m.firstRow - m.scpRow) * m.rowSS →
      y = (c + m.firstCol - m.scpCol) * m.colSS → t = value2 m.timeCoa.coef x y → ∀ R extra n, Pixel G.geo m x y R extra n →
      side (platform m t) (velocity m t) n m.scp ≠ 0 →
      (∀ g : Verif.Dem.Geo ℝ, M.imageToWorld (c, r) none opts = .ok g → ∃ p, (⟨g.longitude, g.latitude, g.elevation⟩ : Sicd.Lle) = G.geo.toLle p ∧ OnPlane m.scp n p ∧
        Sees m t R extra p ∧ 0 ≤ side (platform m t) (velocity m t) n p * side (platform m t) (velocity m t) n m.scp) ∧
      ∀ p, 0 < R t → Independent (velocity m t) n → Independent (Sicd.V3.sub (platform m t) p) n → OnPlane m.scp n p → Sees m t R extra p →
        0 < side (platform m t) (velocity m t) n p * side (platform m t) (velocity m t) n m.scp →
        M.imageToWorld (c, r) none opts = .ok ⟨(G.geo.toLle p).lon, (G.geo.toLle p).lat, (G.geo.toLle p).h⟩ := by
  obtain ⟨R₀, extra₀, n₀, hp₀, hn₀⟩ := hgrid
  obtain ⟨M₀, hM₀, -⟩ := built G.geo m hg 0 0 R₀ extra₀ n₀ hp₀ hn₀
  obtain ⟨M, a, h1, h2, h3, -⟩ := sicd_file_model env x₀ G henv parses i sel hsel hp d hd M₀ (by rw [hm]; exact hM₀) ri hi
  refine ⟨M, a, h1, h2, fun c r opts hans x y t hx hy ht R extra n hpix hs => ⟨fun g hgw => ?_, fun p q1 q2 q3 q4 q5 q6 => ?_⟩⟩
  · exact located G.geo m hg r c x y t hx hy ht R extra n hpix hs M₀ hM₀ _ ((h3 c r opts hans g).1 hgw)
  · obtain ⟨M₁, hM₁, hw⟩ := found G.geo m hg r c x y t hx hy ht R extra n hpix q1 q2 p q3 q4 q5 q6
    rw [hM₀] at hM₁
    cases hM₁
    exact (h3 c r opts hans ⟨_, _, _⟩).2 hw

/-- **C167**: the places of the pixels of a SICD file follow from the elements of its document. -/
theorem document_located [DecidableEq P] (K : Codec P) (N : Numbers P) (he : EmptyIsNoNumber (reader K N)) (W : Text) (o₁ : Val P) (env : Env) (G : Ground)
    (henv : env.sicd = sicdBuilder (sicdXsdata all K N W o₁) G) (parses : Product → String → Except PyErr Unit) (i : Image) (sel : Selected)
    (hsel : newFactory env.lib parses "NITF" (some i.dess) = .ok (some sel)) (hp : sel.product = .sicd) (ns : Name) (ats : List (QName × String)) (txt : String) (ts : List Tree)
    (hread : W.read sel.xml = .ok (.node (ns, n!"SICD") none ats txt ts)) (o : Val P) (hparse : parse all K (.node (ns, n!"SICD") none ats txt ts) = .ok o)
    (m : Verif.Sicd.Meta) (hm : States (reader K N) (.node (ns, n!"SICD") none ats txt ts) m) (hg : Good m)
    (hgrid : ∃ R extra n, Pixel G.geo m 0 0 R extra n ∧ n ≠ ⟨0, 0, 0⟩) (ri : Image × Option Model) (hi : load env (.image i) = .ok ri) :
    ∃ M a, ri = (i, some M) ∧ IsApproximate env i a ∧ ∀ c r opts, Answers a (c, r) none opts → ∀ x y t, x = (r + m.firstRow - m.scpRow) * m.rowSS →
      y = (c + m.firstCol - m.scpCol) * m.colSS → t = value2 m.timeCoa.coef x y → ∀ R extra n, Pixel G.geo m x y R extra n →
      side (platform m t) (velocity m t) n m.scp ≠ 0 →
      (∀ g : Verif.Dem.Geo ℝ, M.imageToWorld (c, r) none opts = .ok g → ∃ p, (⟨g.longitude, g.latitude, g.elevation⟩ : Sicd.Lle) = G.geo.toLle p ∧ OnPlane m.scp n p ∧
        Sees m t R extra p ∧ 0 ≤ side (platform m t) (velocity m t) n p * side (platform m t) (velocity m t) n m.scp) ∧
      ∀ p, 0 < R t → Independent (velocity m t) n → Independent (Sicd.V3.sub (platform m t) p) n → OnPlane m.scp n p → Sees m t R extra p →
        0 < side (platform m t) (velocity m t) n p * side (platform m t) (velocity m t) n m.scp →
        M.imageToWorld (c, r) none opts = .ok ⟨(G.geo.toLle p).lon, (G.geo.toLle p).lat, (G.geo.toLle p).h⟩ := by
  obtain ⟨d, hd, hc⟩ := states_read K N he W o₁ sel.xml ns ats txt ts hread o hparse m hm
  exact read_located env _ G henv parses i sel hsel hp d hd m hc hg hgrid ri hi

/-! ## A document, and where one of its pixels is -/

open Verif.Props.SarXml (leaf branch vector poly demoCodec)
open Verif.Props.SicdFiles (demoGround)

/-- The elements of a document; the codec of the example reads "10" as 0 and "111" as 3. -/
def sceneKids : List Tree := [
  branch sicd121 n!"ImageData" [leaf sicd121 n!"NumRows" "11111", leaf sicd121 n!"NumCols" "111111", leaf sicd121 n!"FirstRow" "1", leaf sicd121 n!"FirstCol" "11",
    branch sicd121 n!"SCPPixel" [leaf sicd121 n!"Row" "1111111111", leaf sicd121 n!"Col" "11111111111111111111"]],
  branch sicd121 n!"GeoData" [branch sicd121 n!"SCP" [vector sicd121 sicd121 n!"ECF" "10" "1111" "10"]],
  branch sicd121 n!"Grid" [leaf sicd121 n!"Type" "RGAZIM",
    .node (sicd121, n!"TimeCOAPoly") none [((0, n!"order1"), "10"), ((0, n!"order2"), "10")] "" [
      .node (sicd121, n!"Coef") none [((0, n!"exponent1"), "10"), ((0, n!"exponent2"), "10")] "10" []],
    branch sicd121 n!"Row" [vector sicd121 sicd121 n!"UVectECF" "1" "10" "10", leaf sicd121 n!"SS" "1"],
    branch sicd121 n!"Col" [vector sicd121 sicd121 n!"UVectECF" "10" "1" "10", leaf sicd121 n!"SS" "1"]],
  branch sicd121 n!"Position" [branch sicd121 n!"ARPPoly" [poly sicd121 sicd121 n!"X" "1" [("1", "1")], poly sicd121 sicd121 n!"Y" "10" [], poly sicd121 sicd121 n!"Z" "10" [("10", "111")]]],
  branch sicd121 n!"ImageFormation" [leaf sicd121 n!"ImageFormAlgo" "PFA"],
  branch sicd121 n!"SCPCOA" [vector sicd121 sicd121 n!"ARPPos" "10" "10" "111", vector sicd121 sicd121 n!"ARPVel" "1" "10" "10", leaf sicd121 n!"SideOfTrack" "L"],
  branch sicd121 n!"PFA" [vector sicd121 sicd121 n!"FPN" "10" "10" "1", poly sicd121 sicd121 n!"PolarAngPoly" "10" [], poly sicd121 sicd121 n!"SpatialFreqSFPoly" "10" [("10", "11")]]]

/-- The document. -/
def sceneTree : Tree := .node (sicd121, n!"SICD") none [] "" sceneKids

def sceneObject : Val String := match parse all demoCodec sceneTree with | .ok o => o | .error _ => .null

/-- What it states. -/
noncomputable def sceneMeta : Verif.Sicd.Meta :=
  ⟨⟨(0 : Int), (4 : Int), (0 : Int)⟩, (10 : Int), (20 : Int), (1 : Int), (2 : Int), ⟨(1 : Int), (0 : Int), (0 : Int)⟩,
    ⟨(0 : Int), (1 : Int), (0 : Int)⟩, (1 : Int), (1 : Int), ⟨0, 0, [(0, 0, (0 : Int))]⟩, ⟨⟨1, [(1, (1 : Int))]⟩, ⟨0, []⟩, ⟨0, [(0, (3 : Int))]⟩⟩, .rgazim, .pfa,
    some (⟨(0 : Int), (0 : Int), (1 : Int)⟩, ⟨0, []⟩, ⟨0, [(0, (2 : Int))]⟩), none, none, ⟨(0 : Int), (0 : Int), (3 : Int)⟩, ⟨(1 : Int), (0 : Int), (0 : Int)⟩,
    decide ("L" = "R")⟩

set_option maxRecDepth 100000 in
theorem scene_parses : parse all demoCodec sceneTree = .ok sceneObject := by rfl

set_option maxRecDepth 100000 in
theorem scene_rest : sicdRest all strictNumbers sceneObject = .ok { sceneMeta with firstRow := 0, firstCol := 0 } := by rfl

set_option maxRecDepth 100000 in
theorem scene_states : States (reader demoCodec strictNumbers) sceneTree sceneMeta := by
  have down : ∀ (t k u : Tree) (n : Name) (ns : List Name), named n t = [k] → At k ns u → At t (n :: ns) u := .down
  exact ⟨(sicd_exactly demoCodec strictNumbers strict_empty _ _ _ _ _ scene_parses _).1 scene_rest,
    ⟨1, ⟨_, down _ _ _ _ _ rfl (down _ _ _ _ _ rfl (.here _)), rfl, rfl⟩, rfl⟩, ⟨2, ⟨_, down _ _ _ _ _ rfl (down _ _ _ _ _ rfl (.here _)), rfl, rfl⟩, rfl⟩⟩

theorem scene_good : Good sceneMeta := by
  refine ⟨?_, ?_, ?_, ?_⟩
  · simp [Good2, sceneMeta]
  · simp [Good1, sceneMeta]
  · intro n a k h
    simp only [sceneMeta, Option.some.injEq, Prod.mk.injEq] at h
    obtain ⟨-, rfl, rfl⟩ := h
    simp [Good1]
  · intro r c d h
    simp [sceneMeta] at h

theorem scene_platform (t : ℝ) : platform sceneMeta t = ⟨t, 0, 3⟩ := by simp [platform, value1, sceneMeta]

theorem scene_velocity (t : ℝ) : velocity sceneMeta t = ⟨1, 0, 0⟩ := by
  simp only [velocity, scene_platform, deriv_const]
  congr 1
  exact deriv_id t

/-- The range of a pixel. -/
theorem scene_pixel (x y : ℝ) : Pixel demoGround.geo sceneMeta x y (fun t => √(t ^ 2 + 25) + 2 * x) (fun _ => 0) ⟨0, 0, 1⟩ := by
  have h := Pixel.pfa (G := demoGround.geo) (m := sceneMeta) (x := x) (y := y) ⟨(0 : Int), (0 : Int), (1 : Int)⟩ ⟨0, []⟩ ⟨0, [(0, (2 : Int))]⟩ rfl rfl rfl
  have e : (fun t => distance (platform sceneMeta t) sceneMeta.scp + value1 [(0, ((2 : Int) : ℝ))] (value1 [] t) * (x * Real.cos (value1 [] t) + y * Real.sin (value1 [] t))) =
      fun t => √(t ^ 2 + 25) + 2 * x := by
    funext t
    rw [scene_platform]
    simp only [distance, sqDist, sceneMeta, value1, List.map_nil, List.map_cons, List.sum_nil, List.sum_cons, Real.cos_zero, Real.sin_zero]
    norm_num
    congr 1
    ring
  simp only at h
  rw [e] at h
  simpa using h

/-- Every text is that document. -/
noncomputable def sceneText : Text := ⟨fun _ => "", fun _ => .ok sceneTree⟩

noncomputable def sceneLib : Verif.SicdFiles.Xsdata := sicdXsdata all demoCodec strictNumbers sceneText sceneObject

noncomputable def sceneEnv (lstsq : List (Verif.Transforms.Row ℝ) → Verif.Transforms.Projective ℝ) : Env :=
  { demoEnv demoXsdata lstsq with sicd := sicdBuilder sceneLib demoGround }

theorem scene_demo : Demo demoXsdata := by
  refine ⟨?_, ?_, ?_, ?_⟩ <;> intro i <;> rw [demo_render]
  · exact demo_parse i
  · exact demo_sicd _
  · exact demo_not_sidd _
  · exact demo_char _

noncomputable def sceneImage : Image := demoImage demoXsdata ⟨0, 0, 5, 6⟩

theorem scene_load (lstsq : List (Verif.Transforms.Row ℝ) → Verif.Transforms.Projective ℝ) : ∃ r, load (sceneEnv lstsq) (.image sceneImage) = .ok r := by
  obtain ⟨h, hh⟩ := demo_select demoXsdata scene_demo lstsq ⟨0, 0, 5, 6⟩
  have := (Verif.Props.SarTiles.same_segment_as_sensor_model (sceneEnv lstsq).lib (fun _ _ => .ok ()) (metadata sceneImage none)
    ((Verif.Props.Factory.isSelected_iff _ _).1 (Verif.Props.Loading.selected_all _ none .sicd)) (builders (sceneEnv lstsq) none) none _ hh).1 _ rfl
  refine ⟨(sceneImage, combine (builders (sceneEnv lstsq) none) none (Verif.Props.SarTiles.modelOf (builders (sceneEnv lstsq) none) ⟨.sicd, demoXsdata.render (demoDoc ⟨0, 0, 5, 6⟩), h⟩)), ?_⟩
  unfold load
  simp only [openImage, Tre.bind_ok, Except.ok.injEq, exists_eq_left']
  refine ⟨none, rfl, _, ?_, rfl⟩
  change build (builders (sceneEnv lstsq) none) (sceneEnv lstsq).lib (metadata sceneImage none) = _
  unfold build
  simp only [Tre.bind_ok]
  exact ⟨none, rfl, (none, none), rfl, _, this, rfl⟩

theorem scene_approximate (lstsq : List (Verif.Transforms.Row ℝ) → Verif.Transforms.Projective ℝ) (a : Option Model) (h : IsApproximate (sceneEnv lstsq) sceneImage a) : a = none := by
  obtain ⟨tres, a₀, p, h1, h2, h3⟩ := h
  cases h1
  cases h2
  cases h3
  rfl

/-- The pixel in column 4 and row 67/8 of the image is at (0, 9/4, 0): its range is 5 - 2 * 5/8 = 15/4. -/
example (lstsq : List (Verif.Transforms.Row ℝ) → Verif.Transforms.Projective ℝ) : ∃ (env : Env) (i : Image) (M : Model),
    load env (.image i) = .ok (i, some M) ∧ M.imageToWorld (4, 67 / 8) none none = .ok ⟨0, 9 / 4, 0⟩ := by
  obtain ⟨h, hsel⟩ := demo_select demoXsdata scene_demo lstsq ⟨0, 0, 5, 6⟩
  obtain ⟨ri, hri⟩ := scene_load lstsq
  obtain ⟨M, a, rfl, k2, k⟩ := document_located demoCodec strictNumbers strict_empty sceneText sceneObject (sceneEnv lstsq) demoGround rfl (fun _ _ => .ok ()) sceneImage _ hsel rfl
    sicd121 [] "" sceneKids rfl sceneObject scene_parses sceneMeta scene_states scene_good ⟨_, _, _, scene_pixel 0 0, by simp⟩ ri hri
  obtain rfl := scene_approximate lstsq a k2
  refine ⟨_, _, M, hri, ?_⟩
  obtain ⟨-, k⟩ := k 4 (67 / 8) none (fun m h => by cases h) (-5 / 8) (-14) 0 (by norm_num [sceneMeta]) (by norm_num [sceneMeta]) (by simp [value2, sceneMeta]) _ _ _ (scene_pixel _ _)
    (by rw [scene_velocity, scene_platform]; norm_num [side, sceneMeta])
  have h25 : √(25 : ℝ) = 5 := by
    rw [show (25 : ℝ) = 5 ^ 2 by norm_num]
    exact Real.sqrt_sq (by norm_num)
  have h225 : √(225 / 16 : ℝ) = 15 / 4 := by
    rw [show (225 / 16 : ℝ) = (15 / 4) ^ 2 by norm_num]
    exact Real.sqrt_sq (by norm_num)
  refine k ⟨0, 9 / 4, 0⟩ ?_ ?_ ?_ ?_ ?_ ?_
  · norm_num [h25]
  · rw [scene_velocity]
    norm_num [Independent]
  · rw [scene_platform]
    norm_num [Independent, Verif.Sicd.V3.sub]
  · norm_num [OnPlane, along, sceneMeta]
  · refine ⟨?_, 0, ?_, ?_⟩
    · rw [scene_platform]
      simp only [distance, sqDist]
      rw [show ((0 : ℝ) - 0) ^ 2 + (0 - 9 / 4) ^ 2 + (3 - 0) ^ 2 = 225 / 16 by norm_num, h225]
      norm_num [h25]
    · have h1 : HasDerivAt (fun t : ℝ => t ^ 2 + 25) 0 0 := by simpa using (hasDerivAt_pow 2 (0 : ℝ)).add_const 25
      have h2 := (h1.sqrt (by norm_num)).add_const (2 * (-5 / 8 : ℝ))
      simpa using h2
    · have h1 : HasDerivAt (fun t : ℝ => t ^ 2 + 225 / 16) 0 0 := by simpa using (hasDerivAt_pow 2 (0 : ℝ)).add_const (225 / 16)
      have h2 := h1.sqrt (by norm_num)
      have e : (fun s => distance (platform sceneMeta s) ⟨0, 9 / 4, 0⟩) = fun t : ℝ => √(t ^ 2 + 225 / 16) := by
        funext t
        rw [scene_platform]
        simp only [distance, sqDist]
        congr 1
        ring
      rw [e]
      simpa using h2
  · rw [scene_velocity, scene_platform]
    norm_num [side, sceneMeta]

end Verif.Props.DocumentLocated
