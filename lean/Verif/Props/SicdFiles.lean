import Verif.Model.SicdFiles
import Verif.Props.Loading
import Verif.Props.SicdBuilder

/-!
# SICD tiles as files
-/

namespace Verif.Props.SicdFiles

open Verif Verif.Sensors Verif.Loading Verif.SarTiles Verif.Factory Verif.Des Verif.Tre Verif.SicdFiles
open Verif.Updaters (ImageData Request Window)
open Verif.Props.SarTiles (Mentions)
open Verif.Props.Loading (metadata)
open Verif.Props.Tre (bind_ok pure_ok)
open Verif.TileFactory (Call Config State createEncodedTile serve)
open Verif.Props.SicdBuilder (withFirst search_withFirst)

/-! ## The sensor model of the metadata -/

/-- The same model with another first row and column. -/
noncomputable def moved (r c : ℝ) : Sicd.Built → Sicd.Built
  | .model M => .model (withFirst M r c)
  | .noProjection conv => .noProjection { conv with firstRow := r, firstCol := c }

theorem build_moved (G : Sicd.Geo) (m : Sicd.Meta) (r c : ℝ) : ({ m with firstRow := r, firstCol := c } : Sicd.Meta).build G = (m.build G).map (moved r c) := by
  have hg : ({ m with firstRow := r, firstCol := c } : Sicd.Meta).grid = m.grid := rfl
  unfold Sicd.Meta.build Sicd.Meta.fromDataclass
  simp only [hg, bind, Except.bind, pure, Except.pure]
  rcases m.timeCoa.native with e | time
  · rfl
  · rcases m.arp.native with e | arp
    · rfl
    · rcases m.grid with e | (_ | ⟨_ | g, n⟩)
      · rfl
      · rfl
      · rfl
      · rfl

theorem toGrid_moved (M : Sicd.Model) (a b x y : ℝ) (rc : ℝ × ℝ) :
    (withFirst M (a + y) (b + x)).conv.toGrid (rc.1 + (withFirst M (a + y) (b + x)).conv.firstRow, rc.2 + (withFirst M (a + y) (b + x)).conv.firstCol)
      = (withFirst M a b).conv.toGrid (rc.1 + y + (withFirst M a b).conv.firstRow, rc.2 + x + (withFirst M a b).conv.firstCol) := by
  simp only [withFirst, Sicd.Converter.toGrid]
  ext <;> simp only <;> ring

/-- Moving the first row and column moves pixels. -/
theorem sensor_moved (G : Ground) (right : Bool) (b : Sicd.Built) (r c x y : ℝ) :
    (∀ p e o, (sensorOf G right (moved (r + y) (c + x) b)).imageToWorld p e o = (sensorOf G right (moved r c b)).imageToWorld (p.1 + x, p.2 + y) e o) ∧
    ∀ g, (sensorOf G right (moved (r + y) (c + x) b)).worldToImage g
      = ((sensorOf G right (moved r c b)).worldToImage g).map (fun p : ℝ × ℝ => (p.1 - x, p.2 - y)) := by
  cases b with
  | noProjection conv =>
    constructor
    · intro p e o
      cases e <;> rfl
    · intro g
      rfl
  | model M =>
    constructor
    · intro p e o
      have := toGrid_moved M r c x y (p.2, p.1)
      cases e with
      | none =>
        simp only [sensorOf, moved, Sicd.Built.toWorld, Sicd.Model.toWorld, Sicd.Model.toWorldOn]
        simp only at this
        rw [this]
        rfl
      | some e =>
        simp only [sensorOf, moved, onTerrain, Sicd.Model.toWorldDem]
        simp only at this
        rw [this]
        rfl
    · intro g
      simp only [sensorOf, moved, Sicd.Built.toImage, Sicd.Model.toImage, search_withFirst, bind, Except.bind, pure, Except.pure]
      rcases M.search _ 9 1 _ with e | s
      · rfl
      · simp only [Except.map, Except.ok.injEq, withFirst, Sicd.Converter.toPixel]
        ext <;> simp only <;> ring

/-! ## The model of a file with a metadata segment -/

/-- The approximate model of an image, if it has one. -/
def IsApproximate (env : Env) (i : Image) (a : Option Model) : Prop :=
  ∃ tres a₀ p, parsedTres env i = .ok tres ∧ approximate (builders env i.crs) (metadata i tres) = .ok a₀ ∧ treModels (builders env i.crs) env.lib (metadata i tres) a₀ = .ok (a, p)

/-- The approximate model, if there is one, locates the pixel. -/
def Answers (a : Option Model) (p : ℝ × ℝ) (e : Option (Elev ℝ)) (o : Option (Dict ℝ)) : Prop := ∀ m, a = some m → ∃ g, m.imageToWorld p e o = .ok g

theorem load_des (env : Env) (i : Image) (r : Image × Option Model) (h : load env (.image i) = .ok r) (m : Option Model)
    (hm : ∀ tres p, desModel (builders env i.crs) env.lib (metadata i tres) p = .ok m) :
    ∃ a, IsApproximate env i a ∧ r = (i, combine (builders env i.crs) a m) := by
  unfold load at h
  simp only [openImage, bind_ok, Except.ok.injEq, exists_eq_left'] at h
  obtain ⟨tres, ht, q, hq, hr⟩ := h
  rw [pure_ok] at hr
  change build (builders env i.crs) env.lib (metadata i tres) = .ok q at hq
  unfold build at hq
  simp only [bind_ok] at hq
  obtain ⟨a₀, ha₀, ⟨a, p⟩, hap, q', hq', hq⟩ := hq
  rw [hm] at hq'
  cases hq'
  rw [pure_ok] at hq
  exact ⟨a, ⟨tres, a₀, p, ht, ha₀, hap⟩, by rw [← hr, ← hq]⟩

/-- The model of an image whose segment is found. -/
theorem load_selected (env : Env) (parses : Product → String → Except PyErr Unit) (i : Image) (sel : Selected)
    (hsel : newFactory env.lib parses "NITF" (some i.dess) = .ok (some sel)) (r : Image × Option Model) (h : load env (.image i) = .ok r) :
    ∃ a, IsApproximate env i a ∧ r = (i, combine (builders env i.crs) a (Verif.Props.SarTiles.modelOf (builders env i.crs) sel)) := by
  refine load_des env i r h _ fun tres p => ?_
  exact (Verif.Props.SarTiles.same_segment_as_sensor_model env.lib parses (metadata i tres)
    ((Verif.Props.Factory.isSelected_iff _ _).1 (Verif.Props.Loading.selected_all i tres .sicd)) (builders env i.crs) p (some sel) hsel).1 sel rfl

/-- The model of an image whose first segment is a SIDD or a SICD. -/
theorem load_first (env : Env) (t : Image) (lists : List Xml) (s : Xml) (rest : List Xml) (text : String) (hl : parsedLists env.lib.parse (t.dess.map String.toList) = .ok lists)
    (hsegs : segments lists "XML_DATA_CONTENT" = s :: rest) (hext : extractXml env.lib.codec s = .ok (some text)) (m : Option Model)
    (hm : (Mentions text "SIDD" ∧ m = env.sidd text) ∨ (¬ Mentions text "SIDD" ∧ Mentions text "SICD" ∧ m = env.sicd text))
    (r : Image × Option Model) (h : load env (.image t) = .ok r) : ∃ a, IsApproximate env t a ∧ r = (t, combine (builders env t.crs) a m) := by
  refine load_des env t r h _ fun tres p => ?_
  have hsel : Verif.Spec.Factory.Selected (metadata t tres) .sicd := (Verif.Props.Factory.isSelected_iff _ _).1 (Verif.Props.Loading.selected_all t tres .sicd)
  rw [Verif.Props.SarTiles.dess_getD env.lib (metadata t tres) (builders env t.crs) p lists hl, hsegs]
  refine Verif.Props.Factory.fromSegments_ok (builders env t.crs) env.lib.codec (metadata t tres) p (s :: rest) (some m) (.inl ⟨[], s, rest, text, rfl, hext, ?_, by simp, ?_, ?_⟩)
  · rcases hm with ⟨h, -⟩ | ⟨-, h, -⟩
    · exact .inl h
    · exact .inr ⟨h, hsel⟩
  · intro h
    rcases hm with ⟨-, rfl⟩ | ⟨h', -⟩
    · rfl
    · exact absurd h h'
  · intro h
    rcases hm with ⟨h', -⟩ | ⟨-, -, rfl⟩
    · exact absurd h' h
    · rfl

/-- A precision model that does not look at the options gives the answers of the whole, when the approximate model answers. -/
theorem combine_answers (env : Env) (crs : Option (Crs ℝ)) (a : Option Model) (m : Model) (hm : ∀ p e o o', m.imageToWorld p e o = m.imageToWorld p e o') :
    ∃ M, combine (builders env crs) a (some m) = some M ∧ M.worldToImage = m.worldToImage ∧
      ∀ p e o, Answers a p e o → M.imageToWorld p e o = m.imageToWorld p e none := by
  cases a with
  | none => exact ⟨m, rfl, rfl, fun p e o _ => hm p e o none⟩
  | some a =>
    refine ⟨compositeModel a m, rfl, rfl, ?_⟩
    intro p e o ha
    obtain ⟨g, hg⟩ := ha a rfl
    simp only [compositeModel, hg]
    exact hm _ _ _ _

/-! ## Tiles -/

/-- What is assumed of GDAL: the segment that a call of `Translate` asks for is the first `XML_DATA_CONTENT` segment of the file, and its content is the same document as
the text that was given.  The text itself may differ, for example in prefixes, but not in whether it has the words SICD and SIDD in it. -/
def ReadBack {D : Type} (lib : Lib) (parse : String → Except PyErr D) (header : String) (call : Call) (t : Image) : Prop :=
  ∀ xml, "DES=XML_DATA_CONTENT=" ++ (header ++ xml) ∈ call.options → ∃ lists s rest text,
    parsedLists lib.parse (t.dess.map String.toList) = .ok lists ∧ segments lists "XML_DATA_CONTENT" = s :: rest ∧ extractXml lib.codec s = .ok (some text) ∧
    parse text = parse xml ∧ (Mentions text "SICD" ↔ Mentions xml "SICD") ∧ (Mentions text "SIDD" ↔ Mentions xml "SIDD")

/-- What is assumed of xsdata: the document with another `ImageData` is read as it was written, and it still is a SICD. -/
def Renders (x : Xsdata) (d : Doc) : Prop :=
  ∀ im, x.parse (x.render { d with image := im }) = .ok { d with image := im } ∧ Mentions (x.render { d with image := im }) "SICD" ∧
    ¬ Mentions (x.render { d with image := im }) "SIDD"

theorem builder_doc (x : Xsdata) (G : Ground) (xml : String) (hne : xml ≠ "") (d : Doc) (im : ImageData) (h : x.parse xml = .ok { d with image := im }) :
    sicdBuilder x G xml = (d.rest.build G.geo).map (fun b => sensorOf G d.rest.right (moved im.firstRow im.firstCol b)) := by
  unfold sicdBuilder
  rw [if_neg hne, h]
  simp only
  have : ({ d with image := im } : Doc).content.build G.geo = (d.rest.build G.geo).map (moved im.firstRow im.firstCol) := build_moved G.geo d.rest _ _
  rw [this, Option.map_map]
  rfl

/-- The option that carries the metadata of a tile. -/
theorem tile_option (x : Xsdata) (sel : Selected) (d : Doc) (hd : x.parse sel.xml = .ok d) (igeolo : Option (Window → Except PyErr String))
    (c : Config Updaters.Sicd) (s₀ : Updaters.Sicd) (hc : sicdTiles x sel .nitf igeolo = .ok (c, s₀)) (st : State Updaters.Sicd) (hst : st.sar = s₀) (base : List String)
    (hbase : st.heap[st.defaults.creationOptions]? = some base) (history : List (String × (Call → Bool × Except PyErr Bool) × Request))
    (translate : Call → Bool × Except PyErr Bool) (name : String) (q : Request) (hq : q.out = none ∨ q.out = some (q.win.w, q.win.h)) (call : Call)
    (hcall : (createEncodedTile c translate name q (serve c st history)).2.2 = some call) :
    "DES=XML_DATA_CONTENT=" ++ (String.ofList sel.header ++
      x.render { d with image := ⟨d.image.firstRow + q.win.y, d.image.firstCol + q.win.x, q.win.h, q.win.w⟩ }) ∈ call.options := by
  simp only [sicdTiles, hd, bind, Except.bind, pure, Except.pure, Except.ok.injEq, Prod.mk.injEq] at hc
  obtain ⟨hc, rfl⟩ := hc
  have hcf : c.format = .nitf := by rw [← hc]
  have hcs : c.sar = some (Updaters.Sicd.update, fun s => x.render { d with image := s.image }, String.ofList sel.header) := by rw [← hc]
  obtain ⟨-, -, -, -, -, -, corners, md, ho, -, -, -, -, hmd⟩ := Verif.Props.TileFactory.tile_options c st base hbase history translate name q call hcall
  obtain ⟨s, hs, rfl⟩ := hmd _ _ _ hcf hcs
  obtain ⟨win, out⟩ := q
  have hrun : ∃ qs, (serve c st history).sar = Updaters.runAll Updaters.Sicd.update (Updaters.Sicd.new d.image) qs := by
    rcases Verif.Props.TileFactory.serve_sar c st base st.defaults ⟨rfl, hbase⟩ history with h | ⟨u, en, hd', qs, h1, h2⟩
    · exact ⟨[], h.trans hst⟩
    · rw [hcs] at h1
      simp only [Option.some.injEq, Prod.mk.injEq] at h1
      obtain ⟨rfl, -, -⟩ := h1
      exact ⟨qs, by rw [h2, hst]⟩
  obtain ⟨qs, hqs⟩ := hrun
  obtain ⟨s', h1, h2⟩ := Props.Updaters.sicd_tile_metadata d.image qs win out hq
  rw [hqs, h1] at hs
  cases hs
  rw [ho, h2]
  simp

/-- **C127**: a tile of a SICD image, after any requests on the same factory, loads with a sensor model that is the image's own, shifted by the corner of the tile: a pixel of the tile is
located where the image's model locates the pixel plus the corner, with and without elevation model and whatever options are given, and a world coordinate is projected to the image's
pixel minus the corner.  An approximate model (from a geotransform, ground control points or corners) can only make locating fail. -/
theorem sicd_tile_reloads (env : Env) (x : Xsdata) (G : Ground) (henv : env.sicd = sicdBuilder x G) (parses : Product → String → Except PyErr Unit) (i : Image)
    (sel : Selected) (hsel : newFactory env.lib parses "NITF" (some i.dess) = .ok (some sel)) (hp : sel.product = .sicd) (d : Doc)
    (hd : x.parse sel.xml = .ok d) (hx : Renders x d) (hb : d.content.build G.geo ≠ none) (igeolo : Option (Window → Except PyErr String))
    (c : Config Updaters.Sicd) (s₀ : Updaters.Sicd) (hc : sicdTiles x sel .nitf igeolo = .ok (c, s₀)) (st : State Updaters.Sicd) (hst : st.sar = s₀) (base : List String)
    (hbase : st.heap[st.defaults.creationOptions]? = some base) (history : List (String × (Call → Bool × Except PyErr Bool) × Request))
    (translate : Call → Bool × Except PyErr Bool) (name : String) (q : Request) (hq : q.out = none ∨ q.out = some (q.win.w, q.win.h)) (call : Call)
    (hcall : (createEncodedTile c translate name q (serve c st history)).2.2 = some call) (t : Image) (ht : ReadBack env.lib x.parse (String.ofList sel.header) call t)
    (ri rt : Image × Option Model) (hi : load env (.image i) = .ok ri) (hload : load env (.image t) = .ok rt) :
    ∃ M M' a a', ri = (i, some M) ∧ rt = (t, some M') ∧ IsApproximate env i a ∧ IsApproximate env t a' ∧
      (∀ p e o o', Answers a (p.1 + q.win.x, p.2 + q.win.y) e o → Answers a' p e o' →
        M'.imageToWorld p e o' = M.imageToWorld (p.1 + q.win.x, p.2 + q.win.y) e o) ∧
      ∀ g, M'.worldToImage g = (M.worldToImage g).map (fun p : ℝ × ℝ => (p.1 - q.win.x, p.2 - q.win.y)) := by
  obtain ⟨hr1, hr2, hr3⟩ := hx ⟨d.image.firstRow + q.win.y, d.image.firstCol + q.win.x, q.win.h, q.win.w⟩
  obtain ⟨lists, s, rest, text, hl, hsegs, hext, hparse, hw1, hw2⟩ :=
    ht _ (tile_option x sel d hd igeolo c s₀ hc st hst base hbase history translate name q hq call hcall)
  rw [hr1] at hparse
  have hm1 := hw1.2 hr2
  have hm2 : ¬ Mentions text "SIDD" := fun h => hr3 (hw2.1 h)
  -- the model of the metadata
  have hxml : sel.xml ≠ "" := by
    have h := hsel
    unfold newFactory at h
    rw [if_pos rfl] at h
    rw [bind_ok] at h
    obtain ⟨l, -, h⟩ := h
    obtain ⟨pre, s', post, -, -, -, -, -, h1, h2⟩ := (Verif.Props.SarTiles.segment_selected ..).1 h
    exact Verif.Props.SarTiles.mentions_ne_empty _ (.inr (h2 hp))
  have htext : text ≠ "" := Verif.Props.SarTiles.mentions_ne_empty _ (.inr hm1)
  obtain ⟨b, hb⟩ : ∃ b, d.rest.build G.geo = some b := by
    have : d.content.build G.geo = (d.rest.build G.geo).map (moved d.image.firstRow d.image.firstCol) := build_moved G.geo d.rest _ _
    rw [this] at hb
    cases h : d.rest.build G.geo with
    | none => rw [h] at hb; exact absurd rfl hb
    | some b => exact ⟨b, rfl⟩
  have e1 := builder_doc x G sel.xml hxml d d.image hd
  have e2 := builder_doc x G text htext d _ hparse
  rw [hb, Option.map_some] at e1 e2
  -- the image and the tile
  obtain ⟨a, ha, hri⟩ := load_selected env parses i sel hsel ri hi
  obtain ⟨a', ha', hrt⟩ := load_first env t lists s rest text hl hsegs hext (env.sicd text) (.inr ⟨hm2, hm1, rfl⟩) rt hload
  have hmodel : Verif.Props.SarTiles.modelOf (builders env i.crs) sel = env.sicd sel.xml := by
    simp only [Verif.Props.SarTiles.modelOf, hp]
    rfl
  rw [hmodel] at hri
  rw [henv, e1] at hri
  rw [henv, e2] at hrt
  obtain ⟨M, hM, hM1, hM2⟩ := combine_answers env i.crs a (sensorOf G d.rest.right (moved d.image.firstRow d.image.firstCol b)) (fun _ _ _ _ => rfl)
  obtain ⟨M', hM', hM1', hM2'⟩ := combine_answers env t.crs a'
    (sensorOf G d.rest.right (moved ((d.image.firstRow + q.win.y : Int) : ℝ) ((d.image.firstCol + q.win.x : Int) : ℝ) b)) (fun _ _ _ _ => rfl)
  obtain ⟨k1, k2⟩ := sensor_moved G d.rest.right b d.image.firstRow d.image.firstCol q.win.x q.win.y
  push_cast at hM1' hM2'
  refine ⟨M, M', a, a', by rw [hri, hM], by rw [hrt, hM'], ha, ha', ?_, ?_⟩
  · intro p e o o' h1 h2
    rw [hM2 _ _ _ h1, hM2' _ _ _ h2, k1]
  · intro g
    rw [hM1, hM1', k2]

/-! ### An example -/

/-- A number in a text that mentions SICD. -/
def demoText (n : Nat) : String := String.ofList ("SICD".toList ++ List.replicate n 'x')

theorem demoText_toList (n : Nat) : (demoText n).toList = ['S', 'I', 'C', 'D'] ++ List.replicate n 'x' := by simp [demoText]

/-- `ImageData` as a number. -/
def demoCode (i : ImageData) : Nat := Encodable.encode (i.firstRow, i.firstCol, i.numRows, i.numCols)

noncomputable def demoDoc (i : ImageData) : Doc := ⟨{ Verif.Props.SicdBuilder.exMeta .rgazim .pfa with firstRow := 0, firstCol := 0 }, i⟩

noncomputable def demoXsdata : Xsdata where
  parse := fun s =>
    match (Encodable.decode (s.toList.length - 4) : Option (Int × Int × Int × Int)) with
    | some (a, b, c, e) => .ok (demoDoc ⟨a, b, c, e⟩)
    | none => .error .valueError
  render := fun d => demoText (demoCode d.image)

theorem demo_parse (i : ImageData) : demoXsdata.parse (demoText (demoCode i)) = .ok (demoDoc i) := by
  have h1 : (demoText (demoCode i)).toList.length - 4 = demoCode i := by simp [demoText]
  have h2 : (Encodable.decode (demoCode i) : Option (Int × Int × Int × Int)) = some (i.firstRow, i.firstCol, i.numRows, i.numCols) := Encodable.encodek _
  simp only [demoXsdata, h1, h2]

theorem demo_sicd (n : Nat) : Mentions (demoText n) "SICD" := by
  unfold Mentions
  rw [demoText_toList]
  exact (List.prefix_append _ _).isInfix

theorem demo_not_sidd (n : Nat) : ¬ Mentions (demoText n) "SIDD" := by
  unfold Mentions
  rw [demoText_toList]
  intro h
  have h1 := h.sublist.count_le 'D'
  rw [List.count_append, List.count_replicate] at h1
  have e1 : List.count 'D' "SIDD".toList = 2 := by decide
  have e2 : List.count 'D' ['S', 'I', 'C', 'D'] = 1 := by decide
  rw [e1, e2] at h1
  simp at h1

theorem demo_char (n : Nat) (c : Char) (h : c ∈ (demoText n).toList) : c = 'S' ∨ c = 'I' ∨ c = 'C' ∨ c = 'D' ∨ c = 'x' := by
  rw [demoText_toList] at h
  simp only [List.cons_append, List.nil_append, List.mem_cons, List.mem_replicate] at h
  tauto

/-- What the example needs of the library. -/
structure Demo (x : Xsdata) : Prop where
  parse (i : ImageData) : x.parse (x.render (demoDoc i)) = .ok (demoDoc i)
  sicd (i : ImageData) : Mentions (x.render (demoDoc i)) "SICD"
  sidd (i : ImageData) : ¬ Mentions (x.render (demoDoc i)) "SIDD"
  char (i : ImageData) (c : Char) (h : c ∈ (x.render (demoDoc i)).toList) : c = 'S' ∨ c = 'I' ∨ c = 'C' ∨ c = 'D' ∨ c = 'x'

theorem demo_render (i : ImageData) : demoXsdata.render (demoDoc i) = demoText (demoCode i) := rfl

theorem demo_exists : ∃ x, Demo x := by
  refine ⟨demoXsdata, ?_, ?_, ?_, ?_⟩ <;> intro i <;> rw [demo_render]
  · exact demo_parse i
  · exact demo_sicd _
  · exact demo_not_sidd _
  · exact demo_char _

noncomputable def demoGround : Ground := ⟨⟨fun p => ⟨p.x, p.y, p.z⟩, fun l => ⟨l.lon, l.lat, l.h⟩⟩, fun _ => ⟨fun _ => none, fun _ _ => none⟩⟩

/-- The document of a metadata segment is its text. -/
noncomputable def demoEnv (x : Xsdata) (lstsq : List (Verif.Transforms.Row ℝ) → Verif.Transforms.Projective ℝ) : Env where
  lib := ⟨Verif.Props.Tre.demoReal, fun s => .ok (.node "des_list" [] [Verif.Props.SarTiles.demoSegment (String.ofList s)]), Verif.Props.SarTiles.demoCodec⟩
  parseTres := fun _ => .error .valueError
  earth := Verif.Props.RsmModel.flatEarth
  minimise := Verif.Props.Rpc.oneStep
  lstsq := lstsq
  sidd := fun _ => none
  sicd := sicdBuilder x demoGround

/-- An image with a SICD segment and nothing else. -/
noncomputable def demoImage (x : Xsdata) (i : ImageData) : Image := ⟨i.numCols, i.numRows, none, none, [], none, [], [x.render (demoDoc i)]⟩

theorem strip_id (s : List Char) (h : ∀ c ∈ s, isSpace c = false) : strip s = s := by
  have key : ∀ l : List Char, (∀ c ∈ l, isSpace c = false) → l.dropWhile isSpace = l := by
    intro l hl
    cases l with
    | nil => rfl
    | cons a l => rw [List.dropWhile_cons_of_neg (by rw [hl a (by simp)]; simp)]
  unfold strip
  rw [key s h, key s.reverse (fun c hc => h c (List.mem_reverse.1 hc)), List.reverse_reverse]

section
variable (x : Xsdata) (hx : Demo x) (lstsq : List (Verif.Transforms.Row ℝ) → Verif.Transforms.Projective ℝ)
include hx

theorem demo_lists (i : ImageData) :
    parsedLists (demoEnv x lstsq).lib.parse ([x.render (demoDoc i)].map String.toList) = .ok [.node "des_list" [] [Verif.Props.SarTiles.demoSegment (x.render (demoDoc i))]] := by
  have hc := hx.char i
  generalize x.render (demoDoc i) = s at *
  have h1 : removeProlog s.toList = s.toList := Verif.Props.Des.removeProlog_plain _ (by
    intro h
    have : '<' ∈ s.toList := h.subset (by decide)
    rcases hc _ this with h | h | h | h | h <;> revert h <;> decide)
  have h2 : strip s.toList = s.toList := by
    apply strip_id
    intro c h
    rcases hc c h with rfl | rfl | rfl | rfl | rfl <;> decide
  simp only [parsedLists, List.map_cons, List.map_nil, List.mapM_cons, List.mapM_nil, h1, h2, demoEnv, String.ofList_toList]
  rfl

theorem demo_extract (i : ImageData) :
    extractXml Verif.Props.SarTiles.demoCodec (Verif.Props.SarTiles.demoSegment (x.render (demoDoc i))) = .ok (some (x.render (demoDoc i))) := by
  have hne := Verif.Props.SarTiles.mentions_ne_empty _ (.inr (hx.sicd i))
  generalize x.render (demoDoc i) = s at *
  have hf : (Verif.Props.SarTiles.demoSegment s).find "field" "DESDATA" = some (.node "field" [("name", "DESDATA"), ("value", s)] []) := rfl
  have hv : Xml.get (.node "field" [("name", "DESDATA"), ("value", s)] []) "value" = some s := rfl
  unfold extractXml
  simp only [hf, hv, ne_eq, hne, not_false_eq_true, if_true]
  rfl

omit hx in
theorem demo_header : ∃ h, ∀ text, header Verif.Props.Tre.demoReal (Verif.Props.SarTiles.demoSegment text) = .ok h := ⟨_, fun _ => rfl⟩

theorem demo_select (i : ImageData) :
    ∃ h, newFactory (demoEnv x lstsq).lib (fun _ _ => .ok ()) "NITF" (some (demoImage x i).dess) = .ok (some ⟨.sicd, x.render (demoDoc i), h⟩) := by
  obtain ⟨h, hh⟩ := demo_header
  refine ⟨h, ?_⟩
  unfold newFactory
  rw [if_pos rfl]
  change (do let l ← parsedLists (demoEnv x lstsq).lib.parse ([x.render (demoDoc i)].map String.toList); _) = _
  rw [demo_lists x hx]
  refine (Verif.Props.SarTiles.segment_selected ..).2 ⟨[], Verif.Props.SarTiles.demoSegment (x.render (demoDoc i)), [], ?_, by simp, ?_, hh _, rfl, ?_, fun _ => hx.sicd i⟩
  · rfl
  · exact demo_extract x hx i
  · exact ⟨fun h => by simp at h, fun h => absurd h (hx.sidd i)⟩

theorem demo_load (i : ImageData) : ∃ r, load (demoEnv x lstsq) (.image (demoImage x i)) = .ok r := by
  obtain ⟨h, hh⟩ := demo_select x hx lstsq i
  have := (Verif.Props.SarTiles.same_segment_as_sensor_model (demoEnv x lstsq).lib (fun _ _ => .ok ()) (metadata (demoImage x i) none)
    ((Verif.Props.Factory.isSelected_iff _ _).1 (Verif.Props.Loading.selected_all _ none .sicd)) (builders (demoEnv x lstsq) none) none _ hh).1 _ rfl
  refine ⟨(demoImage x i, combine (builders (demoEnv x lstsq) none) none (Verif.Props.SarTiles.modelOf (builders (demoEnv x lstsq) none) ⟨.sicd, x.render (demoDoc i), h⟩)), ?_⟩
  unfold load
  simp only [openImage, bind_ok, Except.ok.injEq, exists_eq_left']
  refine ⟨none, rfl, _, ?_, rfl⟩
  change build (builders (demoEnv x lstsq) none) (demoEnv x lstsq).lib (metadata (demoImage x i) none) = _
  unfold build
  simp only [bind_ok]
  exact ⟨none, rfl, (none, none), rfl, _, this, rfl⟩

/-- The tile factory of an image. -/
noncomputable def demoConfig (x : Xsdata) (h : List Char) : Config Updaters.Sicd :=
  ⟨.nitf, none, some (Updaters.Sicd.update, fun s => x.render (demoDoc s.image), String.ofList h)⟩

def demoState (i : ImageData) : State Updaters.Sicd := ⟨[["IC=NC"]], Updaters.Sicd.new i, [], ⟨[], 1, .nitf, 0, none⟩⟩

/-- The metadata of a tile. -/
def demoTile (i : ImageData) (w : Window) : ImageData := ⟨i.firstRow + w.y, i.firstCol + w.x, w.h, w.w⟩

noncomputable def demoCall (x : Xsdata) (h : List Char) (i : ImageData) (w : Window) : Call :=
  ⟨w, [], 1, .nitf, ["IC=NC"] ++ ["ICAT=SAR", "IREP=NODISPLY", "IREPBAND= , ", "ISUBCAT=I,Q",
      "DES=XML_DATA_CONTENT=" ++ (String.ofList h ++ x.render (demoDoc (demoTile i w)))], none⟩

omit hx in
theorem demo_call (h : List Char) (i : ImageData) (w : Window) (history : List (String × (Call → Bool × Except PyErr Bool) × Request)) :
    (createEncodedTile (demoConfig x h) (fun _ => (true, .ok true)) "b" ⟨w, none⟩ (serve (demoConfig x h) (demoState i) history)).2.2 = some (demoCall x h i w) := by
  rw [Verif.Props.TileFactory.tile_independent_of_history_partial (demoConfig x h) (demoState i) ["IC=NC"] rfl (by
      intro u en hd h1 qs q
      simp only [demoConfig, Option.some.injEq, Prod.mk.injEq] at h1
      obtain ⟨rfl, -, -⟩ := h1
      exact Verif.Props.TileFactory.sicd_history_free _ _ _) _ _ (fun _ => (true, .ok true)) _ "b",
    Verif.Props.TileFactory.create_call _ ["IC=NC"] (demoState i).defaults _ _ _ _ ⟨rfl, rfl⟩]
  rfl

theorem demo_read_back (h : List Char) (i : ImageData) (w : Window) :
    ReadBack (demoEnv x lstsq).lib x.parse (String.ofList h) (demoCall x h i w) (demoImage x (demoTile i w)) := by
  intro xml hxml
  have : xml = x.render (demoDoc (demoTile i w)) := by
    simp only [demoCall, List.cons_append, List.nil_append, List.mem_cons, List.not_mem_nil, or_false] at hxml
    have key : ∀ s t : String, "DES=XML_DATA_CONTENT=" ++ s = t → t.toList.head? = some 'D' := by
      rintro s t rfl
      rw [String.toList_append]
      rfl
    rcases hxml with h | h | h | h | h | h
    · exact absurd (key _ _ h) (by decide)
    · exact absurd (key _ _ h) (by decide)
    · exact absurd (key _ _ h) (by decide)
    · exact absurd (key _ _ h) (by decide)
    · exact absurd (key _ _ h) (by decide)
    · have := congrArg String.toList h
      simp only [String.toList_append] at this
      exact String.toList_inj.1 (List.append_cancel_left (List.append_cancel_left this))
  subst this
  exact ⟨_, Verif.Props.SarTiles.demoSegment _, [], _, demo_lists x hx lstsq _, rfl, demo_extract x hx _, rfl, Iff.rfl, Iff.rfl⟩

/-- Premises: any image, and any unscaled tile of it after any requests. -/
theorem demo_premises (i : ImageData) (w : Window) (history : List (String × (Call → Bool × Except PyErr Bool) × Request)) : ∃ h ri rt,
    newFactory (demoEnv x lstsq).lib (fun _ _ => .ok ()) "NITF" (some (demoImage x i).dess) = .ok (some ⟨.sicd, x.render (demoDoc i), h⟩) ∧
    x.parse (x.render (demoDoc i)) = .ok (demoDoc i) ∧ Renders x (demoDoc i) ∧ (demoDoc i).content.build demoGround.geo ≠ none ∧
    sicdTiles x ⟨.sicd, x.render (demoDoc i), h⟩ .nitf none = .ok (demoConfig x h, (demoState i).sar) ∧
    (demoState i).heap[(demoState i).defaults.creationOptions]? = some ["IC=NC"] ∧
    (createEncodedTile (demoConfig x h) (fun _ => (true, .ok true)) "b" ⟨w, none⟩ (serve (demoConfig x h) (demoState i) history)).2.2 = some (demoCall x h i w) ∧
    ReadBack (demoEnv x lstsq).lib x.parse (String.ofList h) (demoCall x h i w) (demoImage x (demoTile i w)) ∧
    load (demoEnv x lstsq) (.image (demoImage x i)) = .ok ri ∧ load (demoEnv x lstsq) (.image (demoImage x (demoTile i w))) = .ok rt := by
  obtain ⟨h, hh⟩ := demo_select x hx lstsq i
  obtain ⟨ri, hri⟩ := demo_load x hx lstsq i
  obtain ⟨rt, hrt⟩ := demo_load x hx lstsq (demoTile i w)
  refine ⟨h, ri, rt, hh, hx.parse i, fun im => ⟨hx.parse im, hx.sicd im, hx.sidd im⟩, fun h => (by cases h), ?_, rfl, demo_call x h i w history,
    demo_read_back x hx lstsq h i w, hri, hrt⟩
  simp only [sicdTiles, hx.parse i]
  rfl

end

/-- A tile of 5 by 6 pixels at (10, 20) of an image, after another request. -/
example (lstsq : List (Verif.Transforms.Row ℝ) → Verif.Transforms.Projective ℝ) : ∃ (env : Env) (i t : Image) (M M' : Model),
    load env (.image i) = .ok (i, some M) ∧ load env (.image t) = .ok (t, some M') ∧
      ∀ g, M'.worldToImage g = (M.worldToImage g).map (fun p : ℝ × ℝ => (p.1 - (10 : Int), p.2 - (20 : Int))) := by
  obtain ⟨x, hx⟩ := demo_exists
  obtain ⟨h, ri, rt, h1, h2, h3, h4, h5, h6, h7, h8, h9, h10⟩ :=
    demo_premises x hx lstsq ⟨100, 200, 50, 60⟩ ⟨10, 20, 5, 6⟩ [("a", fun _ => (true, .ok true), ⟨⟨1, 2, 3, 4⟩, none⟩)]
  obtain ⟨M, M', a, a', rfl, rfl, k3, k4, -, k5⟩ := sicd_tile_reloads (demoEnv x lstsq) x demoGround rfl _ _ _ h1 rfl _ h2 h3 h4 none _ _ h5 _ rfl _ h6 _ _ _ _ (.inl rfl) _ h7 _ h8
    ri rt h9 h10
  exact ⟨demoEnv x lstsq, _, _, M, M', h9, h10, k5⟩

/-! ## Range-azimuth grids of another algorithm -/

/-- **C89** What the builder returns for a range-azimuth grid of any algorithm other than PFA and RGAZCOMP raises on every use, with and without an elevation model. -/
theorem unsupported_algorithm_raises (G : Ground) (right : Bool) (m : Sicd.Meta) (b : Sicd.Built) (hgrid : m.gridType = .rgazim) (hpfa : m.algo ≠ .pfa)
    (haz : m.algo ≠ .rgazcomp) (h : m.build G.geo = some b) :
    (∀ p e o, (sensorOf G right b).imageToWorld p e o = .error (.raised .attributeError)) ∧
    ∀ g, (sensorOf G right b).worldToImage g = .error (.raised .attributeError) := by
  have hg : m.grid = .ok (some (none, none)) := by
    unfold Sicd.Meta.grid
    rw [hgrid]
    cases ha : m.algo with
    | pfa => exact absurd ha hpfa
    | rgazcomp => exact absurd ha haz
    | rma => rfl
    | other => rfl
  have hb : ∃ conv, b = .noProjection conv := by
    unfold Sicd.Meta.build Sicd.Meta.fromDataclass at h
    simp only [hg, bind, Except.bind, pure, Except.pure] at h
    revert h
    rcases m.timeCoa.native with e | time
    · intro h
      cases h
    · rcases m.arp.native with e | arp
      · intro h
        cases h
      · intro h
        cases h
        exact ⟨_, rfl⟩
  obtain ⟨conv, rfl⟩ := hb
  refine ⟨fun p e o => ?_, fun g => rfl⟩
  cases e <;> rfl

/-- Premises: metadata of the range migration algorithm; its object raises on an elevation model too. -/
example (G : Ground) (e : Elev ℝ) : ∃ b, (Verif.Props.SicdBuilder.exMeta .rgazim .rma).build G.geo = some b ∧
    ∀ p o, (sensorOf G false b).imageToWorld p (some e) o = .error (.raised .attributeError) := by
  refine ⟨_, rfl, fun p o => ?_⟩
  exact (unsupported_algorithm_raises G false (Verif.Props.SicdBuilder.exMeta .rgazim .rma) _ rfl (by decide) (by decide) rfl).1 p (some e) o

/-- **C89** A point of a built model, with and without an elevation model, is the longitude, latitude and height of the SICD computation; a NaN is not a point. -/
theorem sensor_point (G : Ground) (right : Bool) (M : Sicd.Model) (p : ℝ × ℝ) (o : Option (Dict ℝ)) (g : Verif.Dem.Geo ℝ) :
    ((sensorOf G right (.model M)).imageToWorld p none o = .ok g ↔ M.toWorld G.geo (p.2, p.1) = .ok (some ⟨g.longitude, g.latitude, g.elevation⟩)) ∧
    ∀ e, (sensorOf G right (.model M)).imageToWorld p (some e) o = .ok g ↔
      M.toWorldDem G.geo right (G.dem e) (p.2, p.1) = .ok ⟨g.longitude, g.latitude, g.elevation⟩ := by
  constructor
  · simp only [sensorOf, Sicd.Built.toWorld]
    rcases M.toWorld G.geo (p.2, p.1) with e | (_ | l)
    · simp [outcome]
    · simp [outcome]
    · simp only [outcome, Except.ok.injEq, Option.some.injEq]
      exact ⟨fun h => by subst h; rfl, fun h => by subst h; rfl⟩
  · intro e
    simp only [sensorOf, onTerrain]
    rcases M.toWorldDem G.geo right (G.dem e) (p.2, p.1) with e | l
    · simp [outcome, Functor.map, Except.map]
    · simp only [outcome, Functor.map, Except.map, Except.ok.injEq]
      exact ⟨fun h => by subst h; rfl, fun h => by subst h; rfl⟩

/-- **C89** Failures of a built model: a NaN is not finite, an exception stays the same exception; on an elevation model there are no NaNs. -/
theorem sensor_failure (G : Ground) (right : Bool) (M : Sicd.Model) (p : ℝ × ℝ) (o : Option (Dict ℝ)) :
    ((sensorOf G right (.model M)).imageToWorld p none o = .error .notFinite ↔ M.toWorld G.geo (p.2, p.1) = .ok none) ∧
    (∀ x, (sensorOf G right (.model M)).imageToWorld p none o = .error (.raised x) ↔ M.toWorld G.geo (p.2, p.1) = .error x) ∧
    (∀ e, (sensorOf G right (.model M)).imageToWorld p (some e) o ≠ .error .notFinite) ∧
    ∀ e x, (sensorOf G right (.model M)).imageToWorld p (some e) o = .error (.raised x) ↔ M.toWorldDem G.geo right (G.dem e) (p.2, p.1) = .error x := by
  simp only [sensorOf, Sicd.Built.toWorld, onTerrain]
  refine ⟨?_, fun x => ?_, fun e => ?_, fun e x => ?_⟩
  · rcases M.toWorld G.geo (p.2, p.1) with e | (_ | l) <;> simp [outcome]
  · rcases M.toWorld G.geo (p.2, p.1) with e | (_ | l) <;> simp [outcome]
  · rcases M.toWorldDem G.geo right (G.dem e) (p.2, p.1) with e | l <;> simp [outcome, Functor.map, Except.map]
  · rcases M.toWorldDem G.geo right (G.dem e) (p.2, p.1) with e | l <;> simp [outcome, Functor.map, Except.map]

end Verif.Props.SicdFiles
