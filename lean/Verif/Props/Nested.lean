import Verif.Props.SiddFiles

/-!
# Tiles of tiles of SICD and SIDD images, to any depth

A tile that was written to a file is itself an image that can be tiled.  The statements are about chains of files, each made from the one before.
-/

namespace Verif.Props.Nested

open Verif Verif.Sensors Verif.Loading Verif.SarTiles Verif.Factory Verif.Des Verif.Tre
open Verif.Updaters (Request Window Chip ImageData)
open Verif.Props.SarTiles (Mentions)
open Verif.Props.Tre (bind_ok pure_ok)
open Verif.SicdFiles (Ground sensorOf)
open Verif.TileFactory (Call Config State createEncodedTile serve)
open Verif.Props.SicdFiles (IsApproximate Answers ReadBack load_selected load_first combine_answers)

/-- The corner of a tile of a tile: the corners of all tiles on the way added up. -/
def corner (ws : List Window) : Int × Int := ((ws.map Window.x).sum, (ws.map Window.y).sum)

theorem corner_append (ws : List Window) (w : Window) : corner (ws ++ [w]) = ((corner ws).1 + w.x, (corner ws).2 + w.y) := by
  simp [corner]

/-- The segment that a tile factory takes from a file whose first segment is a SICD or a SIDD. -/
theorem factory_first (lib : Lib) (parses : Product → String → Except PyErr Unit) (t : Image) (lists : List Xml) (s : Xml) (rest : List Xml) (text : String)
    (hl : parsedLists lib.parse (t.dess.map String.toList) = .ok lists) (hsegs : segments lists "XML_DATA_CONTENT" = s :: rest)
    (hext : extractXml lib.codec s = .ok (some text)) (hm : Mentions text "SIDD" ∨ Mentions text "SICD") (sel : Selected)
    (hsel : newFactory lib parses "NITF" (some t.dess) = .ok (some sel)) : sel.xml = text ∧ (sel.product = .sidd ↔ Mentions text "SIDD") := by
  unfold newFactory at hsel
  rw [if_pos rfl, bind_ok] at hsel
  obtain ⟨l, h1, h⟩ := hsel
  change parsedLists lib.parse (t.dess.map String.toList) = .ok l at h1
  rw [hl] at h1
  cases h1
  obtain ⟨pre, s', post, hs, hpre, hx, -, -, hp, -⟩ := (Verif.Props.SarTiles.segment_selected ..).1 h
  rw [hsegs] at hs
  cases pre with
  | nil =>
    simp only [List.nil_append, List.cons.injEq] at hs
    rw [← hs.1, hext] at hx
    cases hx
    exact ⟨rfl, hp⟩
  | cons p pre =>
    exfalso
    simp only [List.cons_append, List.cons.injEq] at hs
    obtain ⟨y, hy, hno⟩ := hpre p (by simp)
    rw [← hs.1, hext] at hy
    cases hy
    obtain ⟨h1, h2⟩ := hno text rfl
    exact hm.elim h1 h2

/-! ## SICD -/

/-- `u` is a file with the unscaled tile at `w` of the SICD image `t`: written by a tile factory of `t` after any requests, and read back by GDAL as it was written.  Every factory may
write documents in its own way (xsdata keeps what it has read), but the document with another `ImageData` must be read as it was written. -/
def SicdTile (lib : Lib) (parses : Product → String → Except PyErr Unit) (parse : String → Except PyErr Verif.SicdFiles.Doc) (t u : Image) (w : Window) : Prop :=
  ∃ (render : Verif.SicdFiles.Doc → String) (sel : Selected) (igeolo : Option (Window → Except PyErr String)) (c : Config Updaters.Sicd) (st : State Updaters.Sicd) (base : List String)
    (history : List (String × (Call → Bool × Except PyErr Bool) × Request)) (translate : Call → Bool × Except PyErr Bool) (name : String) (q : Request) (call : Call),
    q.win = w ∧ (q.out = none ∨ q.out = some (w.w, w.h)) ∧ newFactory lib parses "NITF" (some t.dess) = .ok (some sel) ∧
    (∀ d, parse sel.xml = .ok d → Verif.Props.SicdFiles.Renders ⟨parse, render⟩ d) ∧
    Verif.SicdFiles.sicdTiles ⟨parse, render⟩ sel .nitf igeolo = .ok (c, st.sar) ∧ st.heap[st.defaults.creationOptions]? = some base ∧
    (createEncodedTile c translate name q (serve c st history)).2.2 = some call ∧ ReadBack lib parse (String.ofList sel.header) call u

/-- `t` is a tile of a tile of … of `i`, at the windows `ws`, outermost first. -/
inductive SicdChain (lib : Lib) (parses : Product → String → Except PyErr Unit) (parse : String → Except PyErr Verif.SicdFiles.Doc) (i : Image) : List Window → Image → Prop
  | self : SicdChain lib parses parse i [] i
  | tile (ws : List Window) (t u : Image) (w : Window) : SicdChain lib parses parse i ws t → SicdTile lib parses parse t u w → SicdChain lib parses parse i (ws ++ [w]) u

/-- The `ImageData` of the last of the tiles at `ws`. -/
def lastImage (im : ImageData) (ws : List Window) : ImageData :=
  match ws.getLast? with
  | none => im
  | some w => ⟨im.firstRow + (corner ws).2, im.firstCol + (corner ws).1, w.h, w.w⟩

theorem lastImage_append (im : ImageData) (ws : List Window) (w : Window) :
    lastImage im (ws ++ [w]) = ⟨(lastImage im ws).firstRow + w.y, (lastImage im ws).firstCol + w.x, w.h, w.w⟩ := by
  have h : lastImage im (ws ++ [w]) = ⟨im.firstRow + (corner (ws ++ [w])).2, im.firstCol + (corner (ws ++ [w])).1, w.h, w.w⟩ := by simp [lastImage]
  rw [h, corner_append]
  unfold lastImage
  rcases hl : ws.getLast? with _ | v
  · have : ws = [] := by simpa using hl
    subst this
    simp [corner]
  · simp [add_assoc]

theorem lastImage_first (im : ImageData) (ws : List Window) :
    (lastImage im ws).firstRow = im.firstRow + (corner ws).2 ∧ (lastImage im ws).firstCol = im.firstCol + (corner ws).1 := by
  unfold lastImage
  rcases hl : ws.getLast? with _ | v
  · have : ws = [] := by simpa using hl
    subst this
    simp [corner]
  · simp

open Verif.SicdFiles (Xsdata sicdBuilder) in
/-- What a file of the chain holds and how it loads. -/
theorem sicd_chain (env : Env) (x : Xsdata) (G : Ground) (henv : env.sicd = sicdBuilder x G) (parses : Product → String → Except PyErr Unit) (i : Image)
    (sel : Selected) (hsel : newFactory env.lib parses "NITF" (some i.dess) = .ok (some sel)) (hp : sel.product = .sicd) (d : Verif.SicdFiles.Doc)
    (hd : x.parse sel.xml = .ok d) (b : Sicd.Built) (hb : d.rest.build G.geo = some b) (ws : List Window) (t : Image)
    (h : SicdChain env.lib parses x.parse i ws t) :
    (∀ sel', newFactory env.lib parses "NITF" (some t.dess) = .ok (some sel') → sel'.product = .sicd ∧ x.parse sel'.xml = .ok { d with image := lastImage d.image ws }) ∧
    ∀ r, load env (.image t) = .ok r → ∃ a, IsApproximate env t a ∧
      r = (t, combine (builders env t.crs) a (some (sensorOf G d.rest.right (Verif.Props.SicdFiles.moved (lastImage d.image ws).firstRow (lastImage d.image ws).firstCol b)))) := by
  induction h with
  | self =>
    constructor
    · intro sel' hsel'
      rw [hsel] at hsel'
      cases hsel'
      exact ⟨hp, hd⟩
    · intro r hr
      have hxml : sel.xml ≠ "" := by
        have h := hsel
        unfold newFactory at h
        rw [if_pos rfl] at h
        rw [bind_ok] at h
        obtain ⟨l, -, h⟩ := h
        obtain ⟨pre, s', post, -, -, -, -, -, h1, h2⟩ := (Verif.Props.SarTiles.segment_selected ..).1 h
        exact Verif.Props.SarTiles.mentions_ne_empty _ (.inr (h2 hp))
      have e1 := Verif.Props.SicdFiles.builder_doc x G sel.xml hxml d d.image hd
      obtain ⟨a, ha, hri⟩ := load_selected env parses i sel hsel r hr
      have hmodel : Verif.Props.SarTiles.modelOf (builders env i.crs) sel = env.sicd sel.xml := by
        simp only [Verif.Props.SarTiles.modelOf, hp]
        rfl
      rw [hmodel, henv, e1, hb, Option.map_some] at hri
      exact ⟨a, ha, hri⟩
  | tile ws t u w _ htile ih =>
    obtain ⟨render, selt, igeolo, c, st, base, history, translate, name, q, call, rfl, hq, hselt, hx, hc, hbase, hcall, hu⟩ := htile
    obtain ⟨hpt, hdt⟩ := ih.1 selt hselt
    have hren := hx _ hdt
    have hopt := Verif.Props.SicdFiles.tile_option ⟨x.parse, render⟩ selt _ hdt igeolo c _ hc st rfl base hbase history translate name q hq call hcall
    obtain ⟨hr1, hr2, hr3⟩ := hren ⟨(lastImage d.image ws).firstRow + q.win.y, (lastImage d.image ws).firstCol + q.win.x, q.win.h, q.win.w⟩
    obtain ⟨lists, s, rest, text, hl, hsegs, hext, hparse, hw1, hw2⟩ := hu _ hopt
    rw [hr1] at hparse
    have hm1 := hw1.2 hr2
    have hm2 : ¬ Mentions text "SIDD" := fun h => hr3 (hw2.1 h)
    rw [lastImage_append]
    constructor
    · intro sel' hsel'
      obtain ⟨h1, h2⟩ := factory_first env.lib parses u lists s rest text hl hsegs hext (.inr hm1) sel' hsel'
      refine ⟨?_, by rw [h1]; exact hparse⟩
      cases hprod : sel'.product with
      | sicd => rfl
      | sidd => exact absurd (h2.1 hprod) hm2
    · intro r hr
      obtain ⟨a, ha, hrt⟩ := load_first env u lists s rest text hl hsegs hext (env.sicd text) (.inr ⟨hm2, hm1, rfl⟩) r hr
      have htext : text ≠ "" := Verif.Props.SarTiles.mentions_ne_empty _ (.inr hm1)
      have e2 := Verif.Props.SicdFiles.builder_doc x G text htext d _ hparse
      rw [henv, e2, hb, Option.map_some] at hrt
      exact ⟨a, ha, hrt⟩

open Verif.SicdFiles (Xsdata sicdBuilder) in
/-- **C156**: a tile of a tile of … of a SICD image, to any depth and after any other requests on the way, loads with the sensor model of the first image shifted by the corners of all
tiles added up, and its document has the first row and column of the first image plus those corners and the size of the last tile. -/
theorem sicd_tiles_of_tiles (env : Env) (x : Xsdata) (G : Ground) (henv : env.sicd = sicdBuilder x G) (parses : Product → String → Except PyErr Unit) (i : Image)
    (sel : Selected) (hsel : newFactory env.lib parses "NITF" (some i.dess) = .ok (some sel)) (hp : sel.product = .sicd) (d : Verif.SicdFiles.Doc)
    (hd : x.parse sel.xml = .ok d) (hb : d.content.build G.geo ≠ none) (ws : List Window) (t : Image) (h : SicdChain env.lib parses x.parse i ws t)
    (ri rt : Image × Option Model) (hi : load env (.image i) = .ok ri) (ht : load env (.image t) = .ok rt) :
    (∃ M M' a a', ri = (i, some M) ∧ rt = (t, some M') ∧ IsApproximate env i a ∧ IsApproximate env t a' ∧
      (∀ p e o o', Answers a (p.1 + (corner ws).1, p.2 + (corner ws).2) e o → Answers a' p e o' →
        M'.imageToWorld p e o' = M.imageToWorld (p.1 + (corner ws).1, p.2 + (corner ws).2) e o) ∧
      ∀ g, M'.worldToImage g = (M.worldToImage g).map (fun p : ℝ × ℝ => (p.1 - (corner ws).1, p.2 - (corner ws).2))) ∧
    ∀ sel', newFactory env.lib parses "NITF" (some t.dess) = .ok (some sel') → ∀ w, ws.getLast? = some w →
      x.parse sel'.xml = .ok { d with image := ⟨d.image.firstRow + (corner ws).2, d.image.firstCol + (corner ws).1, w.h, w.w⟩ } := by
  obtain ⟨b, hb⟩ : ∃ b, d.rest.build G.geo = some b := by
    have : d.content.build G.geo = (d.rest.build G.geo).map (Verif.Props.SicdFiles.moved d.image.firstRow d.image.firstCol) := Verif.Props.SicdFiles.build_moved G.geo d.rest _ _
    rw [this] at hb
    cases h : d.rest.build G.geo with
    | none => rw [h] at hb; exact absurd rfl hb
    | some b => exact ⟨b, rfl⟩
  obtain ⟨a, ha, hri⟩ := (sicd_chain env x G henv parses i sel hsel hp d hd b hb [] i .self).2 ri hi
  obtain ⟨hdoc, hload⟩ := sicd_chain env x G henv parses i sel hsel hp d hd b hb ws t h
  obtain ⟨a', ha', hrt⟩ := hload rt ht
  obtain ⟨f1, f2⟩ := lastImage_first d.image ws
  rw [f1, f2] at hrt
  refine ⟨?_, ?_⟩
  · obtain ⟨M, hM, hM1, hM2⟩ := combine_answers env i.crs a (sensorOf G d.rest.right (Verif.Props.SicdFiles.moved d.image.firstRow d.image.firstCol b)) (fun _ _ _ _ => rfl)
    obtain ⟨M', hM', hM1', hM2'⟩ := combine_answers env t.crs a'
      (sensorOf G d.rest.right (Verif.Props.SicdFiles.moved ((d.image.firstRow + (corner ws).2 : Int) : ℝ) ((d.image.firstCol + (corner ws).1 : Int) : ℝ) b)) (fun _ _ _ _ => rfl)
    obtain ⟨k1, k2⟩ := Verif.Props.SicdFiles.sensor_moved G d.rest.right b d.image.firstRow d.image.firstCol (corner ws).1 (corner ws).2
    push_cast at hM1' hM2'
    refine ⟨M, M', a, a', by rw [hri, ← hM]; rfl, by rw [hrt, hM'], ha, ha', ?_, ?_⟩
    · intro p e o o' h1 h2
      rw [hM2 _ _ _ h1, hM2' _ _ _ h2, k1]
    · intro g
      rw [hM1, hM1', k2]
  · intro sel' hsel' w hw
    rw [(hdoc sel' hsel').2]
    unfold lastImage
    rw [hw]

/-- A tile at (3, 4) of a tile at (10, 20) of an image, each after another request. -/
example (lstsq : List (Verif.Transforms.Row ℝ) → Verif.Transforms.Projective ℝ) : ∃ (env : Env) (parses : Product → String → Except PyErr Unit)
    (parse : String → Except PyErr Verif.SicdFiles.Doc) (i t : Image) (M M' : Model), SicdChain env.lib parses parse i [⟨10, 20, 30, 40⟩, ⟨3, 4, 5, 6⟩] t ∧
    load env (.image i) = .ok (i, some M) ∧ load env (.image t) = .ok (t, some M') ∧
      ∀ g, M'.worldToImage g = (M.worldToImage g).map (fun p : ℝ × ℝ => (p.1 - 13, p.2 - 24)) := by
  obtain ⟨x, hx⟩ := Verif.Props.SicdFiles.demo_exists
  have step : ∀ (im : ImageData) (w : Window), SicdTile (Verif.Props.SicdFiles.demoEnv x lstsq).lib (fun _ _ => .ok ()) x.parse (Verif.Props.SicdFiles.demoImage x im)
      (Verif.Props.SicdFiles.demoImage x (Verif.Props.SicdFiles.demoTile im w)) w := by
    intro im w
    obtain ⟨h, ri, rt, h1, h2, h3, -, h5, h6, h7, h8, -, -⟩ :=
      Verif.Props.SicdFiles.demo_premises x hx lstsq im w [("a", fun _ => (true, .ok true), ⟨⟨1, 2, 3, 4⟩, none⟩)]
    refine ⟨x.render, _, none, _, Verif.Props.SicdFiles.demoState im, _, _, _, _, ⟨w, none⟩, _, rfl, .inl rfl, h1, ?_, h5, h6, h7, h8⟩
    intro d hd
    rw [h2] at hd
    cases hd
    exact h3
  obtain ⟨h, ri, -, h1, h2, -, h4, -, -, -, -, h9, -⟩ := Verif.Props.SicdFiles.demo_premises x hx lstsq ⟨100, 200, 50, 60⟩ ⟨10, 20, 30, 40⟩ []
  obtain ⟨rt, h10⟩ := Verif.Props.SicdFiles.demo_load x hx lstsq (Verif.Props.SicdFiles.demoTile (Verif.Props.SicdFiles.demoTile ⟨100, 200, 50, 60⟩ ⟨10, 20, 30, 40⟩) ⟨3, 4, 5, 6⟩)
  have hchain := SicdChain.tile _ _ _ _ (SicdChain.tile _ _ _ _ .self (step ⟨100, 200, 50, 60⟩ ⟨10, 20, 30, 40⟩)) (step _ ⟨3, 4, 5, 6⟩)
  obtain ⟨⟨M, M', a, a', rfl, rfl, -, -, -, k⟩, -⟩ := sicd_tiles_of_tiles _ x Verif.Props.SicdFiles.demoGround rfl _ _ _ h1 rfl _ h2 h4 _ _ hchain ri rt h9 h10
  refine ⟨_, _, _, _, _, M, M', hchain, h9, h10, ?_⟩
  intro g
  rw [k]
  norm_num [corner]

/-! ## SIDD -/

open Verif.Updaters (siddUpdate siddModel runAll)
open Verif.Props.Updaters (cropChip)
open Verif.Props.SiddFiles (Plain reaches serve_updates)

/-- The image is at (X, Y) of the full image: it is the full image itself or an unscaled chip of more than one pixel each way. -/
def At (s : Option (Chip ℝ)) (X Y : Int) : Prop := (s = none ∧ X = 0 ∧ Y = 0) ∨ ∃ w h : Int, 1 < w ∧ 1 < h ∧ s = some (cropChip (X : ℝ) (Y : ℝ) w h)

theorem update_at (s : Option (Chip ℝ)) (X Y : Int) (hs : At s X Y) (w : Window) :
    siddUpdate s ⟨w, none⟩ = .ok (some (cropChip ((X + w.x : Int) : ℝ) ((Y + w.y : Int) : ℝ) w.w w.h)) := by
  rcases hs with ⟨rfl, rfl, rfl⟩ | ⟨c, r, hc, hr, rfl⟩
  · rw [Verif.Props.Updaters.sidd_first_tile_partial]
    simp only [Option.getD_none, cropChip, Int.cast_sub, Int.cast_one, add_sub_assoc, zero_add]
  · rw [Verif.Props.Updaters.siddUpdate_crop _ _ _ _ (by omega) (by omega)]
    push_cast
    rfl

theorem run_at (ws : List Window) (hws : ∀ w ∈ ws, 1 < w.w ∧ 1 < w.h) (s : Option (Chip ℝ)) (X Y : Int) (hs : At s X Y) :
    At (runAll siddUpdate s (ws.map (⟨·, none⟩))) (X + (corner ws).1) (Y + (corner ws).2) := by
  induction ws generalizing s X Y with
  | nil => simpa [runAll, corner] using hs
  | cons w ws ih =>
    have := ih (fun v hv => hws v (by simp [hv])) (some (cropChip ((X + w.x : Int) : ℝ) ((Y + w.y : Int) : ℝ) w.w w.h)) (X + w.x) (Y + w.y)
      (.inr ⟨w.w, w.h, (hws w (by simp)).1, (hws w (by simp)).2, rfl⟩)
    rw [List.map_cons, runAll, List.foldl_cons, update_at s X Y hs w]
    simp only [corner, List.map_cons, List.sum_cons, ← add_assoc]
    exact this

open Verif.SiddFiles (Xsdata siddBuilder siddTiles fullModel)

/-- The option that carries the metadata of a tile of an image that may itself be a chip. -/
theorem sidd_option (x : Xsdata) (sel : Selected) (d : Verif.SiddFiles.Doc) (hd : x.parse sel.xml = .ok d) (X Y : Int) (hat : At d.chip X Y)
    (igeolo : Option (Window → Except PyErr String)) (c : Config (Option (Chip ℝ))) (s₀ : Option (Chip ℝ)) (hc : siddTiles x sel .nitf igeolo = .ok (c, s₀)) (st : State (Option (Chip ℝ)))
    (hst : st.sar = s₀) (base : List String) (hbase : st.heap[st.defaults.creationOptions]? = some base) (history : List (String × (Call → Bool × Except PyErr Bool) × Request))
    (hh : ∀ r ∈ history, Plain r.2.2) (translate : Call → Bool × Except PyErr Bool) (name : String) (q : Request) (hq : q.out = none) (call : Call)
    (hcall : (createEncodedTile c translate name q (serve c st history)).2.2 = some call) :
    "DES=XML_DATA_CONTENT=" ++ (String.ofList sel.header ++
      x.render { d with chip := some (cropChip ((X + (corner ((history.map (fun r => r.2.2.win)).filter (reaches igeolo))).1 + q.win.x : Int) : ℝ)
        ((Y + (corner ((history.map (fun r => r.2.2.win)).filter (reaches igeolo))).2 + q.win.y : Int) : ℝ) q.win.w q.win.h) }) ∈ call.options := by
  simp only [siddTiles, hd, bind, Except.bind, pure, Except.pure, Except.ok.injEq, Prod.mk.injEq] at hc
  obtain ⟨hc, rfl⟩ := hc
  have hcf : c.format = .nitf := by rw [← hc]
  have hci : c.igeolo = igeolo := by rw [← hc]
  have hcs : c.sar = some (siddUpdate, fun s => x.render { d with chip := s }, String.ofList sel.header) := by rw [← hc]
  obtain ⟨-, -, -, -, -, -, corners, md, ho, -, -, -, -, hmd⟩ := Verif.Props.TileFactory.tile_options c st base hbase history translate name q call hcall
  obtain ⟨s, hs, rfl⟩ := hmd _ _ _ hcf hcs
  obtain ⟨win, out⟩ := q
  obtain rfl : out = none := hq
  rw [serve_updates c hcf _ _ _ hcs st base hbase history, hci, hst] at hs
  have hwin : (history.map (fun r => r.2.2)).filter (fun q => reaches igeolo q.win) =
      ((history.map (fun r => r.2.2.win)).filter (reaches igeolo)).map (⟨·, none⟩) := by
    clear hs hcall hmd
    induction history with
    | nil => rfl
    | cons r rs ih =>
      have ih := ih (fun v hv => hh v (by simp [hv]))
      have h1 := (hh r (by simp)).1
      simp only [List.map_cons, List.filter_cons]
      rw [ih]
      split_ifs with h
      · rw [List.map_cons]
        congr 1
        rcases hr : r.2.2 with ⟨w, o⟩
        rw [hr] at h1
        exact congrArg (Request.mk w) h1
      · rfl
  have hrun := run_at ((history.map (fun r => r.2.2.win)).filter (reaches igeolo)) (by
    intro w hw
    simp only [List.mem_filter, List.mem_map] at hw
    obtain ⟨⟨r, hr, rfl⟩, -⟩ := hw
    exact (hh r hr).2) d.chip X Y hat
  rw [hwin, update_at _ _ _ hrun] at hs
  cases hs
  rw [ho]
  simp

/-- `u` is a file with the unscaled tile at `w` of the SIDD image `t`: written by a tile factory of `t`, where `done` are the windows of earlier requests that reached the updater of the
metadata, and read back by GDAL as it was written.  Requests are unscaled and more than one pixel each way. -/
def SiddTile (lib : Lib) (parses : Product → String → Except PyErr Unit) (parse : String → Except PyErr Verif.SiddFiles.Doc) (t u : Image) (done : List Window) (w : Window) : Prop :=
  ∃ (render : Verif.SiddFiles.Doc → String) (sel : Selected) (igeolo : Option (Window → Except PyErr String)) (c : Config (Option (Chip ℝ))) (st : State (Option (Chip ℝ)))
    (base : List String) (history : List (String × (Call → Bool × Except PyErr Bool) × Request)) (translate : Call → Bool × Except PyErr Bool) (name : String) (q : Request) (call : Call),
    q.win = w ∧ Plain q ∧ (∀ r ∈ history, Plain r.2.2) ∧ done = (history.map (fun r => r.2.2.win)).filter (reaches igeolo) ∧
    newFactory lib parses "NITF" (some t.dess) = .ok (some sel) ∧ (∀ d, parse sel.xml = .ok d → Verif.Props.SiddFiles.Renders ⟨parse, render⟩ d) ∧
    siddTiles ⟨parse, render⟩ sel .nitf igeolo = .ok (c, st.sar) ∧ st.heap[st.defaults.creationOptions]? = some base ∧
    (createEncodedTile c translate name q (serve c st history)).2.2 = some call ∧ ReadBack lib parse (String.ofList sel.header) call u

/-- `t` is a tile of a tile of … of `i`.  `steps` has for every tile on the way, outermost first, the windows that its factory had served before and its own. -/
inductive SiddChain (lib : Lib) (parses : Product → String → Except PyErr Unit) (parse : String → Except PyErr Verif.SiddFiles.Doc) (i : Image) :
    List (List Window × Window) → Image → Prop
  | self : SiddChain lib parses parse i [] i
  | tile (steps : List (List Window × Window)) (t u : Image) (done : List Window) (w : Window) : SiddChain lib parses parse i steps t →
      SiddTile lib parses parse t u done w → SiddChain lib parses parse i (steps ++ [(done, w)]) u

/-- All windows that were asked for on the way. -/
def asked (steps : List (List Window × Window)) : List Window := steps.flatMap (fun s => s.1 ++ [s.2])

theorem asked_append (steps : List (List Window × Window)) (done : List Window) (w : Window) :
    corner (asked (steps ++ [(done, w)])) = ((corner (asked steps)).1 + (corner done).1 + w.x, (corner (asked steps)).2 + (corner done).2 + w.y) := by
  simp [asked, corner, add_assoc]

/-- The chip in the metadata of the last of the tiles. -/
noncomputable def lastChip (steps : List (List Window × Window)) : Option (Chip ℝ) :=
  steps.getLast?.map (fun s => cropChip ((corner (asked steps)).1 : ℝ) ((corner (asked steps)).2 : ℝ) s.2.w s.2.h)

theorem lastChip_append (steps : List (List Window × Window)) (done : List Window) (w : Window) :
    lastChip (steps ++ [(done, w)]) =
      some (cropChip (((corner (asked steps)).1 + (corner done).1 + w.x : Int) : ℝ) (((corner (asked steps)).2 + (corner done).2 + w.y : Int) : ℝ) w.w w.h) := by
  unfold lastChip
  rw [asked_append]
  simp

/-- What a file of the chain holds and how it loads. -/
theorem sidd_chain (env : Env) (x : Xsdata) (G : Ground) (henv : env.sidd = siddBuilder x G env.lstsq) (parses : Product → String → Except PyErr Unit) (i : Image) (sel : Selected)
    (hsel : newFactory env.lib parses "NITF" (some i.dess) = .ok (some sel)) (hp : sel.product = .sidd) (d : Verif.SiddFiles.Doc) (hd : x.parse sel.xml = .ok d) (hchip : d.chip = none)
    (steps : List (List Window × Window)) (t : Image) (h : SiddChain env.lib parses x.parse i steps t) :
    At (lastChip steps) (corner (asked steps)).1 (corner (asked steps)).2 ∧
    (∀ sel', newFactory env.lib parses "NITF" (some t.dess) = .ok (some sel') → sel'.product = .sidd ∧ x.parse sel'.xml = .ok { d with chip := lastChip steps }) ∧
    ∀ r, load env (.image t) = .ok r → ∃ a, IsApproximate env t a ∧
      r = (t, combine (builders env t.crs) a (siddModel env.lstsq (lastChip steps) (fullModel G d.rest)).toOption) := by
  induction h with
  | self =>
    refine ⟨.inl ⟨rfl, rfl, rfl⟩, ?_, ?_⟩
    · intro sel' hsel'
      rw [hsel] at hsel'
      cases hsel'
      exact ⟨hp, by rw [hd]; cases d; cases hchip; rfl⟩
    · intro r hr
      have hxml : sel.xml ≠ "" := by
        have h := hsel
        unfold newFactory at h
        rw [if_pos rfl] at h
        rw [bind_ok] at h
        obtain ⟨l, -, h⟩ := h
        obtain ⟨pre, s', post, -, -, -, -, -, h1, h2⟩ := (Verif.Props.SarTiles.segment_selected ..).1 h
        exact Verif.Props.SarTiles.mentions_ne_empty _ (.inl (h1.1 hp))
      obtain ⟨a, ha, hri⟩ := load_selected env parses i sel hsel r hr
      have hmodel : Verif.Props.SarTiles.modelOf (builders env i.crs) sel = env.sidd sel.xml := by
        simp only [Verif.Props.SarTiles.modelOf, hp]
        rfl
      refine ⟨a, ha, ?_⟩
      rw [hri, hmodel, henv]
      unfold siddBuilder
      rw [if_neg hxml, hd]
      simp only [hchip]
      rfl
  | tile steps t u done w _ htile ih =>
    obtain ⟨render, selt, igeolo, c, st, base, history, translate, name, q, call, rfl, ⟨hq, hw, hh'⟩, hh, rfl, hselt, hx, hc, hbase, hcall, hu⟩ := htile
    obtain ⟨hat, hdoc, -⟩ := ih
    obtain ⟨hpt, hdt⟩ := hdoc selt hselt
    have hopt := sidd_option ⟨x.parse, render⟩ selt _ hdt _ _ hat igeolo c _ hc st rfl base hbase history hh translate name q hq call hcall
    generalize (history.map (fun r => r.2.2.win)).filter (reaches igeolo) = done at *
    obtain ⟨hr1, hr2⟩ := hx _ hdt ((corner (asked steps)).1 + (corner done).1 + q.win.x) ((corner (asked steps)).2 + (corner done).2 + q.win.y) q.win.w q.win.h
    obtain ⟨lists, s, rest, text, hl, hsegs, hext, hparse, -, hw2⟩ := hu _ hopt
    rw [hr1] at hparse
    have hm1 := hw2.2 hr2
    have htext : text ≠ "" := Verif.Props.SarTiles.mentions_ne_empty _ (.inl hm1)
    rw [lastChip_append, asked_append]
    refine ⟨.inr ⟨q.win.w, q.win.h, hw, hh', rfl⟩, ?_, ?_⟩
    · intro sel' hsel'
      obtain ⟨h1, h2⟩ := factory_first env.lib parses u lists s rest text hl hsegs hext (.inl hm1) sel' hsel'
      exact ⟨h2.2 hm1, by rw [h1]; exact hparse⟩
    · intro r hr
      obtain ⟨a, ha, hrt⟩ := load_first env u lists s rest text hl hsegs hext (env.sidd text) (.inl ⟨hm1, rfl⟩) r hr
      refine ⟨a, ha, ?_⟩
      rw [hrt, henv]
      unfold siddBuilder
      rw [if_neg htext, hparse]

/-- **C157** (in part): how a tile of a tile of … of a SIDD image loads.  For the corner (X, Y) that is the sum of the corners of all tiles on the way and of all requests that their
factories had served before, and the size w × h of the last tile, a pixel (c, r) is located where the first image's model locates (X + c (w - 1) / w, Y + r (h - 1) / h), and world
coordinates are projected with the inverse of that; the chip in the metadata of the tile is at (X, Y).  Missing: this should be the sum of the corners of the tiles on the way plus
(c, r), see `sidd_tiles_of_fresh_tiles_partial` for what holds of that. -/
theorem sidd_tiles_of_tiles_partial (env : Env) (x : Xsdata) (G : Ground) (henv : env.sidd = siddBuilder x G env.lstsq)
    (hlstsq : ∀ rows, Verif.Transforms.IsLstsq rows (env.lstsq rows)) (parses : Product → String → Except PyErr Unit) (i : Image) (sel : Selected)
    (hsel : newFactory env.lib parses "NITF" (some i.dess) = .ok (some sel)) (hp : sel.product = .sidd) (d : Verif.SiddFiles.Doc) (hd : x.parse sel.xml = .ok d) (hchip : d.chip = none)
    (steps : List (List Window × Window)) (t : Image) (h : SiddChain env.lib parses x.parse i steps t) (done : List Window) (w : Window) (hlast : steps.getLast? = some (done, w))
    (ri rt : Image × Option Model) (hi : load env (.image i) = .ok ri) (ht : load env (.image t) = .ok rt) :
    (∃ M M' a a', ri = (i, some M) ∧ rt = (t, some M') ∧ IsApproximate env i a ∧ IsApproximate env t a' ∧
      (∀ p p' e o o', p' = (((corner (asked steps)).1 : ℝ) + p.1 * (w.w - 1) / w.w, ((corner (asked steps)).2 : ℝ) + p.2 * (w.h - 1) / w.h) →
        Answers a p' e o → Answers a' p e o' → M'.imageToWorld p e o' = M.imageToWorld p' e o) ∧
      ∀ g, M'.worldToImage g = (M.worldToImage g).map (fun p : ℝ × ℝ =>
        ((p.1 - (corner (asked steps)).1) * w.w / (w.w - 1), (p.2 - (corner (asked steps)).2) * w.h / (w.h - 1)))) ∧
    (1 < w.w ∧ 1 < w.h) ∧
    ∀ sel', newFactory env.lib parses "NITF" (some t.dess) = .ok (some sel') →
      x.parse sel'.xml = .ok { d with chip := some (cropChip ((corner (asked steps)).1 : ℝ) ((corner (asked steps)).2 : ℝ) w.w w.h) } := by
  obtain ⟨a, ha, hri⟩ := (sidd_chain env x G henv parses i sel hsel hp d hd hchip [] i .self).2.2 ri hi
  obtain ⟨hat, hdoc, hload⟩ := sidd_chain env x G henv parses i sel hsel hp d hd hchip steps t h
  obtain ⟨a', ha', hrt⟩ := hload rt ht
  have hl : lastChip steps = some (cropChip ((corner (asked steps)).1 : ℝ) ((corner (asked steps)).2 : ℝ) w.w w.h) := by
    unfold lastChip
    rw [hlast]
    rfl
  rw [hl] at hat hdoc hrt
  have hsize : 1 < w.w ∧ 1 < w.h := by
    rcases hat with ⟨h, -⟩ | ⟨c, r, hc, hr, h⟩
    · cases h
    · have h1 := congrArg (Option.map Chip.cols) h
      have h2 := congrArg (Option.map Chip.rows) h
      simp only [cropChip, Option.map_some, Option.some.injEq] at h1 h2
      omega
  refine ⟨?_, hsize, fun sel' hsel' => (hdoc sel' hsel').2⟩
  obtain ⟨m, hm, k1, k2⟩ := Verif.Props.SiddFiles.crop_model env.lstsq hlstsq (fullModel G d.rest) ((corner (asked steps)).1 : ℝ) ((corner (asked steps)).2 : ℝ) w.w w.h hsize.1 hsize.2
  rw [hm] at hrt
  obtain ⟨M, hM, hM1, hM2⟩ := combine_answers env i.crs a (fullModel G d.rest) (fun _ _ _ _ => rfl)
  obtain ⟨M', hM', hM1', hM2'⟩ := combine_answers env t.crs a' m (fun p e o o' => by rw [k1, k1]; rfl)
  refine ⟨M, M', a, a', by rw [hri, ← hM]; rfl, by rw [hrt, ← hM']; rfl, ha, ha', ?_, ?_⟩
  · rintro p p' e o o' rfl h1 h2
    rw [hM2 _ _ _ h1, hM2' _ _ _ h2, k1]
  · intro g
    rw [hM1, hM1', k2]

/-- The corner of a tile when every factory on the way was new. -/
theorem asked_fresh (ws : List Window) : asked (ws.map (fun w => ([], w))) = ws := by
  induction ws with
  | nil => rfl
  | cons w ws ih =>
    unfold asked at ih ⊢
    rw [List.map_cons, List.flatMap_cons, ih]
    rfl

/-- **C157** (in part): when every tile on the way is the first one of its factory, every pixel is located where the first image's model locates a point less than one pixel from the
pixel plus the corners of the tiles on the way, whatever the depth: the error does not add up. -/
theorem sidd_tiles_of_fresh_tiles_partial (env : Env) (x : Xsdata) (G : Ground) (henv : env.sidd = siddBuilder x G env.lstsq)
    (hlstsq : ∀ rows, Verif.Transforms.IsLstsq rows (env.lstsq rows)) (parses : Product → String → Except PyErr Unit) (i : Image) (sel : Selected)
    (hsel : newFactory env.lib parses "NITF" (some i.dess) = .ok (some sel)) (hp : sel.product = .sidd) (d : Verif.SiddFiles.Doc) (hd : x.parse sel.xml = .ok d) (hchip : d.chip = none)
    (ws : List Window) (t : Image) (h : SiddChain env.lib parses x.parse i (ws.map (fun w => ([], w))) t) (w : Window) (hlast : ws.getLast? = some w)
    (ri rt : Image × Option Model) (hi : load env (.image i) = .ok ri) (ht : load env (.image t) = .ok rt) :
    ∃ M M' a a', ri = (i, some M) ∧ rt = (t, some M') ∧ IsApproximate env i a ∧ IsApproximate env t a' ∧
      ∀ c r : ℝ, 0 ≤ c → c < w.w → 0 ≤ r → r < w.h → ∃ dc dr : ℝ, 0 ≤ dc ∧ dc < 1 ∧ 0 ≤ dr ∧ dr < 1 ∧ (c = 0 → dc = 0) ∧ (r = 0 → dr = 0) ∧
        ∀ e o o', Answers a ((corner ws).1 + c - dc, (corner ws).2 + r - dr) e o → Answers a' (c, r) e o' →
          M'.imageToWorld (c, r) e o' = M.imageToWorld ((corner ws).1 + c - dc, (corner ws).2 + r - dr) e o := by
  obtain ⟨⟨M, M', a, a', h1, h2, h3, h4, h5, -⟩, ⟨hw, hh⟩, -⟩ := sidd_tiles_of_tiles_partial env x G henv hlstsq parses i sel hsel hp d hd hchip _ t h [] w
    (by rw [List.getLast?_map, hlast]; rfl) ri rt hi ht
  rw [asked_fresh] at h5
  refine ⟨M, M', a, a', h1, h2, h3, h4, ?_⟩
  intro c r hc0 hc1 hr0 hr1
  have w0 : (0 : ℝ) < w.w := Int.cast_pos.2 (by omega)
  have h0 : (0 : ℝ) < w.h := Int.cast_pos.2 (by omega)
  refine ⟨c / w.w, r / w.h, div_nonneg hc0 w0.le, (div_lt_one w0).2 hc1, div_nonneg hr0 h0.le, (div_lt_one h0).2 hr1, fun h => by rw [h, zero_div], fun h => by rw [h, zero_div],
    fun e o o' ha ha' => h5 (c, r) _ e o o' ?_ ha ha'⟩
  simp only [Prod.mk.injEq]
  constructor <;> field_simp <;> ring

/-! ### An example -/

section
open Verif.Props.SiddFiles (demoImage demoDoc demoConfig demoCall demoEnv Written Demo demo_select demo_read_back demo_load)

/-- A tile of an image of the example, after no or some requests. -/
theorem demo_step (x : Xsdata) (hx : Demo x) (lstsq : List (Verif.Transforms.Row ℝ) → Verif.Transforms.Projective ℝ) (g : Option (Chip ℝ)) (hg : Written g) (X Y : Int) (hat : At g X Y)
    (done : List Window) (hdone : ∀ w ∈ done, 1 < w.w ∧ 1 < w.h) (w : Window) (hw : 1 < w.w ∧ 1 < w.h) :
    SiddTile (demoEnv x lstsq).lib (fun _ _ => .ok ()) x.parse (demoImage x g)
      (demoImage x (some (cropChip ((X + (corner done).1 + w.x : Int) : ℝ) ((Y + (corner done).2 + w.y : Int) : ℝ) w.w w.h))) done w := by
  obtain ⟨h, hsel⟩ := demo_select x hx lstsq g hg
  let history : List (String × (Call → Bool × Except PyErr Bool) × Request) := done.map (fun v => ("a", fun _ => (true, .ok true), ⟨v, none⟩))
  have hwin : history.map (fun r => r.2.2) = done.map (⟨·, none⟩) := by simp [history]
  let st : State (Option (Chip ℝ)) := ⟨[["IC=NC"]], g, [], ⟨[], 1, .nitf, 0, none⟩⟩
  have hupd := update_at _ _ _ (run_at done hdone g X Y hat) w
  have hcall : (createEncodedTile (demoConfig x h) (fun _ => (true, .ok true)) "b" ⟨w, none⟩ (serve (demoConfig x h) st history)).2.2 =
      some (demoCall x h w (some (cropChip ((X + (corner done).1 + w.x : Int) : ℝ) ((Y + (corner done).2 + w.y : Int) : ℝ) w.w w.h))) := by
    have hsar := serve_updates (demoConfig x h) rfl _ _ _ rfl st ["IC=NC"] rfl history
    have hall : (history.map (fun r => r.2.2)).filter (fun q => reaches (demoConfig x h).igeolo q.win) = history.map (fun r => r.2.2) := List.filter_eq_self.2 (fun _ _ => rfl)
    rw [hall, hwin] at hsar
    rw [Verif.Props.TileFactory.create_call (demoConfig x h) ["IC=NC"] st.defaults _ _ _ _
      (Verif.Props.TileFactory.serve_clean (demoConfig x h) history ["IC=NC"] st.defaults st ⟨rfl, rfl⟩), hsar]
    change siddUpdate (runAll siddUpdate st.sar (done.map (⟨·, none⟩))) ⟨w, none⟩ = _ at hupd
    generalize runAll siddUpdate st.sar (done.map (⟨·, none⟩)) = run at *
    unfold Verif.Props.TileFactory.extraOptions
    simp only [demoConfig, hupd]
    rfl
  refine ⟨x.render, ⟨.sidd, x.render (demoDoc g), h⟩, none, demoConfig x h, st, ["IC=NC"], history, fun _ => (true, .ok true), "b", ⟨w, none⟩, _, rfl, ⟨rfl, hw⟩, ?_, ?_, hsel, ?_, ?_, rfl, hcall,
    demo_read_back x hx lstsq h w _ (.inr ⟨_, _, _, _, rfl⟩)⟩
  · intro r hr
    simp only [history, List.mem_map] at hr
    obtain ⟨v, hv, rfl⟩ := hr
    exact ⟨rfl, hdone v hv⟩
  · have hall : (history.map (fun r => r.2.2.win)).filter (reaches none) = history.map (fun r => r.2.2.win) := List.filter_eq_self.2 (fun _ _ => rfl)
    rw [hall]
    simp only [history, List.map_map, Function.comp_def, List.map_id']
  · intro d hd
    rw [hx.parse g hg] at hd
    cases hd
    exact Verif.Props.SiddFiles.demo_renders x hx
  · simp only [siddTiles, hx.parse g hg]
    rfl

/-- A tile at (3, 4) of a tile at (10, 20) of an image; the first factory had made a tile at (1, 2) before. -/
example : ∃ (env : Env) (parses : Product → String → Except PyErr Unit) (parse : String → Except PyErr Verif.SiddFiles.Doc) (i t : Image) (M M' : Model),
    SiddChain env.lib parses parse i [([⟨1, 2, 3, 4⟩], ⟨10, 20, 30, 40⟩), ([], ⟨3, 4, 5, 6⟩)] t ∧
    load env (.image i) = .ok (i, some M) ∧ load env (.image t) = .ok (t, some M') ∧
      ∀ g, M'.worldToImage g = (M.worldToImage g).map (fun p : ℝ × ℝ => ((p.1 - 14) * 5 / 4, (p.2 - 26) * 6 / 5)) := by
  obtain ⟨x, hx⟩ := Verif.Props.SiddFiles.demo_exists
  obtain ⟨lstsq, hl, -⟩ := Verif.Transforms.lstsq_function (K := ℝ)
  have s1 := demo_step x hx lstsq none (.inl rfl) 0 0 (.inl ⟨rfl, rfl, rfl⟩) [⟨1, 2, 3, 4⟩] (by simp) ⟨10, 20, 30, 40⟩ (by simp)
  have s2 := demo_step x hx lstsq _ (.inr ⟨_, _, _, _, rfl⟩) (0 + (corner [⟨1, 2, 3, 4⟩]).1 + 10) (0 + (corner [⟨1, 2, 3, 4⟩]).2 + 20) (.inr ⟨30, 40, by norm_num, by norm_num, rfl⟩) [] (by simp)
    ⟨3, 4, 5, 6⟩ (by simp)
  have hchain := SiddChain.tile _ _ _ _ _ (SiddChain.tile _ _ _ _ _ .self s1) s2
  obtain ⟨h, hsel⟩ := demo_select x hx lstsq none (.inl rfl)
  have l1 := demo_load x hx lstsq none (.inl rfl)
  have l2 := demo_load x hx lstsq (some (cropChip ((0 + (corner [⟨1, 2, 3, 4⟩]).1 + 10 + (corner []).1 + 3 : Int) : ℝ) ((0 + (corner [⟨1, 2, 3, 4⟩]).2 + 20 + (corner []).2 + 4 : Int) : ℝ) 5 6))
    (.inr ⟨_, _, _, _, rfl⟩)
  obtain ⟨⟨M, M', a, a', k1, k2, -, -, -, k⟩, -, -⟩ := sidd_tiles_of_tiles_partial (demoEnv x lstsq) x Verif.Props.SicdFiles.demoGround rfl hl _ _ _ hsel rfl _
    (hx.parse none (.inl rfl)) rfl _ _ hchain [] ⟨3, 4, 5, 6⟩ rfl _ _ l1 l2
  refine ⟨demoEnv x lstsq, _, _, _, _, M, M', hchain, l1.trans (congrArg _ k1), l2.trans (congrArg _ k2), ?_⟩
  intro g
  rw [k g]
  congr 1
  funext p
  norm_num [asked, corner]

/-- A tile at (3, 4) of a tile at (10, 20), both the first of their factories: its first pixel is the pixel (13, 24) of the image. -/
example : ∃ (env : Env) (parses : Product → String → Except PyErr Unit) (parse : String → Except PyErr Verif.SiddFiles.Doc) (i t : Image) (M M' : Model),
    SiddChain env.lib parses parse i (([⟨10, 20, 30, 40⟩, ⟨3, 4, 5, 6⟩] : List Window).map (fun w => ([], w))) t ∧
    load env (.image i) = .ok (i, some M) ∧ load env (.image t) = .ok (t, some M') ∧ M'.imageToWorld (0, 0) none none = M.imageToWorld (13, 24) none none := by
  obtain ⟨x, hx⟩ := Verif.Props.SiddFiles.demo_exists
  obtain ⟨lstsq, hl, -⟩ := Verif.Transforms.lstsq_function (K := ℝ)
  have s1 := demo_step x hx lstsq none (.inl rfl) 0 0 (.inl ⟨rfl, rfl, rfl⟩) [] (by simp) ⟨10, 20, 30, 40⟩ (by simp)
  have s2 := demo_step x hx lstsq _ (.inr ⟨_, _, _, _, rfl⟩) (0 + (corner []).1 + 10) (0 + (corner []).2 + 20) (.inr ⟨30, 40, by norm_num, by norm_num, rfl⟩) [] (by simp)
    ⟨3, 4, 5, 6⟩ (by simp)
  have hchain := SiddChain.tile _ _ _ _ _ (SiddChain.tile _ _ _ _ _ .self s1) s2
  obtain ⟨h, hsel⟩ := demo_select x hx lstsq none (.inl rfl)
  have l1 := demo_load x hx lstsq none (.inl rfl)
  have l2 := demo_load x hx lstsq (some (cropChip ((0 + (corner []).1 + 10 + (corner []).1 + 3 : Int) : ℝ) ((0 + (corner []).2 + 20 + (corner []).2 + 4 : Int) : ℝ) 5 6))
    (.inr ⟨_, _, _, _, rfl⟩)
  obtain ⟨M, M', a, a', k1, k2, k3, k4, k⟩ := sidd_tiles_of_fresh_tiles_partial (demoEnv x lstsq) x Verif.Props.SicdFiles.demoGround rfl hl _ _ _ hsel rfl _
    (hx.parse none (.inl rfl)) rfl [⟨10, 20, 30, 40⟩, ⟨3, 4, 5, 6⟩] _ hchain ⟨3, 4, 5, 6⟩ rfl _ _ l1 l2
  obtain rfl := Verif.Props.SiddFiles.demo_approximate x lstsq none a k3
  obtain rfl := Verif.Props.SiddFiles.demo_approximate x lstsq _ a' k4
  refine ⟨demoEnv x lstsq, _, _, _, _, M, M', hchain, l1.trans (congrArg _ k1), l2.trans (congrArg _ k2), ?_⟩
  obtain ⟨dc, dr, -, -, -, -, e1, e2, h⟩ := k 0 0 le_rfl (by norm_num) le_rfl (by norm_num)
  have := h none none none (fun m h => by cases h) (fun m h => by cases h)
  rw [e1 rfl, e2 rfl] at this
  norm_num [corner] at this
  exact this

/-- **C157** is false, also when every factory on the way was new: the pixel (4, 0) of a tile at (4, 0) of a tile at (20, 0) is not located where the image's model locates (28, 0). -/
theorem sidd_tile_of_tile_misplaced : ∃ (env : Env) (x : Xsdata) (G : Ground) (parses : Product → String → Except PyErr Unit) (i t : Image) (M M' : Model) (there elsewhere : Verif.Dem.Geo ℝ),
    env.sidd = siddBuilder x G env.lstsq ∧ SiddChain env.lib parses x.parse i [([], ⟨20, 0, 30, 30⟩), ([], ⟨4, 0, 8, 8⟩)] t ∧
    load env (.image i) = .ok (i, some M) ∧ load env (.image t) = .ok (t, some M') ∧
    M.imageToWorld (28, 0) none none = .ok there ∧ M'.imageToWorld (4, 0) none none = .ok elsewhere ∧ elsewhere ≠ there := by
  obtain ⟨x, hx⟩ := Verif.Props.SiddFiles.demo_exists
  obtain ⟨lstsq, hl, -⟩ := Verif.Transforms.lstsq_function (K := ℝ)
  have s1 := demo_step x hx lstsq none (.inl rfl) 0 0 (.inl ⟨rfl, rfl, rfl⟩) [] (by simp) ⟨20, 0, 30, 30⟩ (by simp)
  have s2 := demo_step x hx lstsq _ (.inr ⟨_, _, _, _, rfl⟩) (0 + (corner []).1 + 20) (0 + (corner []).2 + 0) (.inr ⟨30, 30, by norm_num, by norm_num, rfl⟩) [] (by simp)
    ⟨4, 0, 8, 8⟩ (by simp)
  have hchain := SiddChain.tile _ _ _ _ _ (SiddChain.tile _ _ _ _ _ .self s1) s2
  obtain ⟨h, hsel⟩ := demo_select x hx lstsq none (.inl rfl)
  have l1 := demo_load x hx lstsq none (.inl rfl)
  have l2 := demo_load x hx lstsq (some (cropChip ((0 + (corner []).1 + 20 + (corner []).1 + 4 : Int) : ℝ) ((0 + (corner []).2 + 0 + (corner []).2 + 0 : Int) : ℝ) 8 8))
    (.inr ⟨_, _, _, _, rfl⟩)
  obtain ⟨⟨M, M', a, a', k1, k2, k3, k4, k, -⟩, -, -⟩ := sidd_tiles_of_tiles_partial (demoEnv x lstsq) x Verif.Props.SicdFiles.demoGround rfl hl _ _ _ hsel rfl _
    (hx.parse none (.inl rfl)) rfl _ _ hchain [] ⟨4, 0, 8, 8⟩ rfl _ _ l1 l2
  obtain rfl := Verif.Props.SiddFiles.demo_approximate x lstsq none a k3
  obtain rfl := Verif.Props.SiddFiles.demo_approximate x lstsq _ a' k4
  have hM : M = fullModel Verif.Props.SicdFiles.demoGround Verif.Props.Sicd.exSidd := by
    have e : siddBuilder x Verif.Props.SicdFiles.demoGround lstsq (x.render (demoDoc none)) = some (fullModel Verif.Props.SicdFiles.demoGround Verif.Props.Sicd.exSidd) := by
      unfold siddBuilder
      rw [if_neg (Verif.Props.SarTiles.mentions_ne_empty _ (.inl (hx.sidd none (.inl rfl)))), hx.parse none (.inl rfl)]
      rfl
    rw [e] at k1
    simp only [Prod.mk.injEq, Option.some.injEq, true_and] at k1
    exact k1.symm
  have m1 := Verif.Props.SiddFiles.demo_locates 28 0 (by norm_num) none
  have m2 := Verif.Props.SiddFiles.demo_locates (55 / 2) 0 (by norm_num) none
  rw [← hM] at m1 m2
  refine ⟨demoEnv x lstsq, x, Verif.Props.SicdFiles.demoGround, _, _, _, M, M', _, _, rfl, hchain, l1.trans (congrArg _ k1), l2.trans (congrArg _ k2), m1, (?_ : _ = Except.ok ⟨0 - 10, 55 / 2 - 16, 0⟩), ?_⟩
  · rw [← m2]
    refine k (4, 0) (55 / 2, 0) none none none ?_ (fun m h => by cases h) (fun m h => by cases h)
    norm_num [asked, corner]
  · intro h
    have := congrArg Verif.Dem.Geo.latitude h
    norm_num at this

end

end Verif.Props.Nested
