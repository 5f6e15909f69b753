import Verif.Model.SiddFiles
import Verif.Props.SicdFiles
import Verif.Props.Updaters

/-!
# SIDD tiles as files
-/

namespace Verif.Props.SiddFiles

open Verif Verif.Sensors Verif.Loading Verif.SarTiles Verif.Factory Verif.Des Verif.Tre Verif.SiddFiles
open Verif.Updaters (Request Window Chip siddUpdate siddModel runAll)
open Verif.Props.Updaters (cropChip)
open Verif.Props.SarTiles (Mentions)
open Verif.Props.Loading (metadata)
open Verif.Props.Tre (bind_ok pure_ok)
open Verif.SicdFiles (Ground sensorOf outcome)
open Verif.TileFactory (Call Config State createEncodedTile serve)
open Verif.Props.SicdFiles (IsApproximate Answers ReadBack load_selected load_first combine_answers)

/-! ## The requests that reach the updater -/

/-- The corners for the file header can be computed, if they are written. -/
def reaches (igeolo : Option (Window → Except PyErr String)) (w : Window) : Bool :=
  match igeolo with
  | none => true
  | some f => match f w with
    | .ok _ => true
    | .error _ => false

theorem serve_updates {S : Type} (c : Config S) (hf : c.format = .nitf) (update : S → Request → Except PyErr S) (encode : S → String) (header : String)
    (hs : c.sar = some (update, encode, header)) (st : State S) (base : List String) (hbase : st.heap[st.defaults.creationOptions]? = some base)
    (history : List (String × (Call → Bool × Except PyErr Bool) × Request)) :
    (serve c st history).sar = runAll update st.sar ((history.map (fun r => r.2.2)).filter (fun q => reaches c.igeolo q.win)) := by
  induction history using List.reverseRecOn with
  | nil => rfl
  | append_singleton hist r ih =>
    have hc := Verif.Props.TileFactory.serve_clean c hist base st.defaults st ⟨rfl, hbase⟩
    have e : serve c st (hist ++ [r]) = (createEncodedTile c r.2.1 r.1 r.2.2 (serve c st hist)).1 := by
      simp [serve, List.foldl_append]
    rw [e, Verif.Props.TileFactory.create_sar c base st.defaults _ _ _ _ hc, ih, List.map_append, List.filter_append]
    generalize (List.filter _ (hist.map _)) = qs
    unfold Verif.TileFactory.addOptions Verif.TileFactory.addIgeolo Verif.TileFactory.addSar
    rw [hf, hs]
    have one : ∀ q, runAll update st.sar (qs ++ [q]) = match update (runAll update st.sar qs) q with
      | .ok s' => s'
      | .error _ => runAll update st.sar qs := by
      intro q
      simp only [runAll, List.foldl_append, List.foldl_cons, List.foldl_nil]
      rfl
    cases hi : c.igeolo with
    | none =>
      simp only [List.map_cons, List.map_nil, reaches, List.filter_cons_of_pos, List.filter_nil, one]
      rcases update (runAll update st.sar qs) r.2.2 with x | s <;> rfl
    | some f =>
      rcases hw : f r.2.2.win with x | s
      · simp only [List.map_cons, List.map_nil]
        rw [List.filter_cons_of_neg (by simp [reaches, hw]), List.filter_nil, List.append_nil]
        simp only [hw]
      · simp only [List.map_cons, List.map_nil]
        rw [List.filter_cons_of_pos (by simp [reaches, hw]), List.filter_nil, one]
        simp only [hw]
        rcases update (runAll update st.sar qs) r.2.2 with x | s <;> rfl

/-! ## The sensor model of the metadata -/

theorem crop_model {O : Type} (lstsq : List (Verif.Transforms.Row ℝ) → Verif.Transforms.Projective ℝ) (hl : ∀ rows, Verif.Transforms.IsLstsq rows (lstsq rows))
    (full : SensorModel ℝ O) (x y : ℝ) (w h : Int) (hw : 1 < w) (hh : 1 < h) :
    ∃ m, siddModel lstsq (some (cropChip x y w h)) full = .ok m ∧
      (∀ p e o, m.imageToWorld p e o = full.imageToWorld (x + p.1 * (w - 1) / w, y + p.2 * (h - 1) / h) e o) ∧
      (∀ g, m.worldToImage g = (full.worldToImage g).map (fun q : ℝ × ℝ => ((q.1 - x) * w / (w - 1), (q.2 - y) * h / (h - 1)))) := by
  have w1 : (0 : ℝ) < (w : ℝ) - 1 := by
    have : (0 : ℝ) < ((w - 1 : Int) : ℝ) := Int.cast_pos.2 (by omega)
    simpa using this
  have h1 : (0 : ℝ) < (h : ℝ) - 1 := by
    have : (0 : ℝ) < ((h - 1 : Int) : ℝ) := Int.cast_pos.2 (by omega)
    simpa using this
  have w0 : (0 : ℝ) < (w : ℝ) := by linarith
  have h0 : (0 : ℝ) < (h : ℝ) := by linarith
  obtain ⟨m, hm, h2, h3⟩ := Verif.Props.Sensors.chipped_model_is_full_model lstsq hl full x y ((w : ℝ) - 1) ((h : ℝ) - 1)
    0 0 (w : ℝ) (h : ℝ) w1.ne' h1.ne' w0.ne' h0.ne'
  refine ⟨m, ?_, ?_, ?_⟩
  · simp only [siddModel, ← hm, Verif.Props.Sensors.corners, zero_add, cropChip, Int.cast_sub, Int.cast_one]
  · intro p e o
    rw [h2, sub_zero, sub_zero]
  · intro g
    rw [h3]
    simp only [zero_add]

/-! ## Tiles -/

/-- What is assumed of xsdata: the document with another chip, at whole numbers, is read as it was written, and it still is a SIDD. -/
def Renders (x : Xsdata) (d : Doc) : Prop :=
  ∀ X Y w h : Int, x.parse (x.render { d with chip := some (cropChip X Y w h) }) = .ok { d with chip := some (cropChip X Y w h) } ∧
    Mentions (x.render { d with chip := some (cropChip X Y w h) }) "SIDD"

/-- Columns that were skipped by the requests so far. -/
def skippedColumns (ws : List Window) : Int := (ws.map Window.x).sum

/-- Rows that were skipped by the requests so far. -/
def skippedRows (ws : List Window) : Int := (ws.map Window.y).sum

/-- The option that carries the metadata of a tile. -/
theorem tile_option (x : Xsdata) (sel : Selected) (d : Doc) (hd : x.parse sel.xml = .ok d) (hchip : d.chip = none) (igeolo : Option (Window → Except PyErr String))
    (c : Config (Option (Chip ℝ))) (s₀ : Option (Chip ℝ)) (hc : siddTiles x sel .nitf igeolo = .ok (c, s₀)) (st : State (Option (Chip ℝ))) (hst : st.sar = s₀) (base : List String)
    (hbase : st.heap[st.defaults.creationOptions]? = some base) (history : List (String × (Call → Bool × Except PyErr Bool) × Request))
    (hh : ∀ r ∈ history, r.2.2.out = none ∧ 1 < r.2.2.win.w ∧ 1 < r.2.2.win.h)
    (translate : Call → Bool × Except PyErr Bool) (name : String) (q : Request) (hq : q.out = none) (call : Call)
    (hcall : (createEncodedTile c translate name q (serve c st history)).2.2 = some call) :
    "DES=XML_DATA_CONTENT=" ++ (String.ofList sel.header ++
      x.render { d with chip := some (cropChip ((skippedColumns ((history.map (fun r => r.2.2.win)).filter (reaches igeolo)) + q.win.x : Int) : ℝ)
        ((skippedRows ((history.map (fun r => r.2.2.win)).filter (reaches igeolo)) + q.win.y : Int) : ℝ) q.win.w q.win.h) }) ∈ call.options := by
  simp only [siddTiles, hd, bind, Except.bind, pure, Except.pure, Except.ok.injEq, Prod.mk.injEq] at hc
  obtain ⟨hc, rfl⟩ := hc
  have hcf : c.format = .nitf := by rw [← hc]
  have hci : c.igeolo = igeolo := by rw [← hc]
  have hcs : c.sar = some (siddUpdate, fun s => x.render { d with chip := s }, String.ofList sel.header) := by rw [← hc]
  obtain ⟨-, -, -, -, -, -, corners, md, ho, -, -, -, -, hmd⟩ := Verif.Props.TileFactory.tile_options c st base hbase history translate name q call hcall
  obtain ⟨s, hs, rfl⟩ := hmd _ _ _ hcf hcs
  obtain ⟨win, out⟩ := q
  obtain rfl : out = none := hq
  rw [serve_updates c hcf _ _ _ hcs st base hbase history, hci, hst, hchip] at hs
  have hwin : (history.map (fun r => r.2.2)).filter (fun q => reaches igeolo q.win) =
      ((history.map (fun r => r.2.2.win)).filter (reaches igeolo)).map (⟨·, none⟩) := by
    clear hs hcall hmd
    induction history with
    | nil => rfl
    | cons r rs ih =>
      have ih := ih (fun v hv => hh v (by simp [hv]))
      have h1 := (hh r (by simp)).1
      simp only [List.map_cons, List.filter_cons]
      rw [ih]
      split_ifs with h
      · rw [List.map_cons]
        congr 1
        rcases hr : r.2.2 with ⟨w, o⟩
        rw [hr] at h1
        exact congrArg (Request.mk w) h1
      · rfl
  rw [hwin, Props.Updaters.sidd_tiles_accumulate] at hs
  · cases hs
    rw [ho]
    have e1 : ∀ ws : List Window, (ws.map (fun w => (w.x : ℝ))).sum = ((skippedColumns ws : Int) : ℝ) := by
      intro ws
      induction ws with
      | nil => simp [skippedColumns]
      | cons w ws ih => rw [List.map_cons, List.sum_cons, ih]; simp [skippedColumns]
    have e2 : ∀ ws : List Window, (ws.map (fun w => (w.y : ℝ))).sum = ((skippedRows ws : Int) : ℝ) := by
      intro ws
      induction ws with
      | nil => simp [skippedRows]
      | cons w ws ih => rw [List.map_cons, List.sum_cons, ih]; simp [skippedRows]
    rw [e1, e2]
    simp
  · intro w hw
    simp only [List.mem_filter, List.mem_map] at hw
    obtain ⟨⟨r, hr, rfl⟩, -⟩ := hw
    exact (hh r hr).2

/-- `t` is a file with the tile `q` of the image `i`, whose metadata is the document `d`, written by a tile factory of the image after the requests `history`; `done` are the windows of
those requests that reached the updater of the metadata. -/
def IsTile (env : Env) (x : Xsdata) (i t : Image) (d : Doc) (history : List (String × (Call → Bool × Except PyErr Bool) × Request)) (q : Request) (done : List Window) : Prop :=
  ∃ (parses : Product → String → Except PyErr Unit) (sel : Selected) (igeolo : Option (Window → Except PyErr String)) (c : Config (Option (Chip ℝ))) (st : State (Option (Chip ℝ)))
    (base : List String) (translate : Call → Bool × Except PyErr Bool) (name : String) (call : Call),
    newFactory env.lib parses "NITF" (some i.dess) = .ok (some sel) ∧ sel.product = .sidd ∧ x.parse sel.xml = .ok d ∧
    siddTiles x sel .nitf igeolo = .ok (c, st.sar) ∧ st.heap[st.defaults.creationOptions]? = some base ∧ done = (history.map (fun r => r.2.2.win)).filter (reaches igeolo) ∧
    (createEncodedTile c translate name q (serve c st history)).2.2 = some call ∧ ReadBack env.lib x.parse (String.ofList sel.header) call t

/-- An unscaled request of more than one pixel each way. -/
def Plain (q : Request) : Prop := q.out = none ∧ 1 < q.win.w ∧ 1 < q.win.h

/-- **C128** (in part): how a tile of a SIDD image loads.  For the image's own model M and an unscaled tile at (x, y) of more than one pixel each way, made after such requests whose
corners add up to (X, Y), a pixel (c, r) of the tile is located where M locates (X + x + c (w - 1) / w, Y + y + r (h - 1) / h), and world coordinates are projected with the inverse of
that.  Missing: this should be (x + c, y + r).  For the first tile of a factory it is off by less than a pixel (`first_sidd_tile_partial`), for later tiles by all earlier corners
(`second_sidd_tile_misplaced`). -/
theorem sidd_tile_reloads_partial (env : Env) (x : Xsdata) (G : Ground) (henv : env.sidd = siddBuilder x G env.lstsq)
    (hlstsq : ∀ rows, Verif.Transforms.IsLstsq rows (env.lstsq rows)) (i t : Image) (d : Doc) (hchip : d.chip = none) (hx : Renders x d)
    (history : List (String × (Call → Bool × Except PyErr Bool) × Request)) (hh : ∀ r ∈ history, Plain r.2.2) (q : Request) (hq : Plain q) (done : List Window)
    (htile : IsTile env x i t d history q done) (ri rt : Image × Option Model) (hi : load env (.image i) = .ok ri) (hload : load env (.image t) = .ok rt) :
    ∃ M M' a a', ri = (i, some M) ∧ rt = (t, some M') ∧ IsApproximate env i a ∧ IsApproximate env t a' ∧
      (∀ p p' e o o', p' = ((skippedColumns done : ℝ) + q.win.x + p.1 * (q.win.w - 1) / q.win.w, (skippedRows done : ℝ) + q.win.y + p.2 * (q.win.h - 1) / q.win.h) →
        Answers a p' e o → Answers a' p e o' → M'.imageToWorld p e o' = M.imageToWorld p' e o) ∧
      ∀ g, M'.worldToImage g = (M.worldToImage g).map (fun p : ℝ × ℝ =>
        ((p.1 - (skippedColumns done + q.win.x)) * q.win.w / (q.win.w - 1), (p.2 - (skippedRows done + q.win.y)) * q.win.h / (q.win.h - 1))) := by
  obtain ⟨parses, sel, igeolo, c, st, base, translate, name, call, hsel, hp, hd, hc, hbase, rfl, hcall, ht⟩ := htile
  obtain ⟨hq, hw, hh'⟩ := hq
  obtain ⟨lists, s, rest, text, hl, hsegs, hext, hparse, -, hw2⟩ :=
    ht _ (tile_option x sel d hd hchip igeolo c _ hc st rfl base hbase history hh translate name q hq call hcall)
  generalize (history.map (fun r => r.2.2.win)).filter (reaches igeolo) = done at *
  obtain ⟨hr1, hr2⟩ := hx (skippedColumns done + q.win.x) (skippedRows done + q.win.y) q.win.w q.win.h
  rw [hr1] at hparse
  have hm1 := hw2.2 hr2
  have hxml : sel.xml ≠ "" := by
    have h := hsel
    unfold newFactory at h
    rw [if_pos rfl] at h
    rw [bind_ok] at h
    obtain ⟨l, -, h⟩ := h
    obtain ⟨pre, s', post, -, -, -, -, -, h1, h2⟩ := (Verif.Props.SarTiles.segment_selected ..).1 h
    exact Verif.Props.SarTiles.mentions_ne_empty _ (.inl (h1.1 hp))
  have htext : text ≠ "" := Verif.Props.SarTiles.mentions_ne_empty _ (.inl hm1)
  obtain ⟨m, hm, k1, k2⟩ := crop_model env.lstsq hlstsq (fullModel G d.rest) ((skippedColumns done + q.win.x : Int) : ℝ) ((skippedRows done + q.win.y : Int) : ℝ) q.win.w q.win.h hw hh'
  have e1 : env.sidd sel.xml = some (fullModel G d.rest) := by
    rw [henv]
    unfold siddBuilder
    rw [if_neg hxml, hd]
    simp only [hchip, siddModel, Except.toOption]
  have e2 : env.sidd text = some m := by
    rw [henv]
    unfold siddBuilder
    rw [if_neg htext, hparse]
    simp only [hm, Except.toOption]
  obtain ⟨a, ha, hri⟩ := load_selected env parses i sel hsel ri hi
  obtain ⟨a', ha', hrt⟩ := load_first env t lists s rest text hl hsegs hext (env.sidd text) (.inl ⟨hm1, rfl⟩) rt hload
  have hmodel : Verif.Props.SarTiles.modelOf (builders env i.crs) sel = env.sidd sel.xml := by
    simp only [Verif.Props.SarTiles.modelOf, hp]
    rfl
  rw [hmodel, e1] at hri
  rw [e2] at hrt
  obtain ⟨M, hM, hM1, hM2⟩ := combine_answers env i.crs a (fullModel G d.rest) (fun _ _ _ _ => rfl)
  obtain ⟨M', hM', hM1', hM2'⟩ := combine_answers env t.crs a' m (fun p e o o' => by rw [k1, k1]; rfl)
  push_cast at k1 k2
  refine ⟨M, M', a, a', by rw [hri, hM], by rw [hrt, hM'], ha, ha', ?_, ?_⟩
  · rintro p p' e o o' rfl h1 h2
    rw [hM2 _ _ _ h1, hM2' _ _ _ h2, k1]
  · intro g
    rw [hM1, hM1', k2]

/-- **C128** (in part): the first tile of a factory: every pixel of the tile is located where the image's model locates a point less than a pixel from the pixel plus the corner of the
tile, and the corner itself exactly. -/
theorem first_sidd_tile_partial (env : Env) (x : Xsdata) (G : Ground) (henv : env.sidd = siddBuilder x G env.lstsq)
    (hlstsq : ∀ rows, Verif.Transforms.IsLstsq rows (env.lstsq rows)) (i t : Image) (d : Doc) (hchip : d.chip = none) (hx : Renders x d)
    (q : Request) (hq : Plain q) (done : List Window)
    (htile : IsTile env x i t d [] q done) (ri rt : Image × Option Model) (hi : load env (.image i) = .ok ri) (hload : load env (.image t) = .ok rt) :
    ∃ M M' a a', ri = (i, some M) ∧ rt = (t, some M') ∧ IsApproximate env i a ∧ IsApproximate env t a' ∧
      ∀ c r : ℝ, 0 ≤ c → c < q.win.w → 0 ≤ r → r < q.win.h → ∃ dc dr : ℝ, 0 ≤ dc ∧ dc < 1 ∧ 0 ≤ dr ∧ dr < 1 ∧ (c = 0 → dc = 0) ∧ (r = 0 → dr = 0) ∧
        ∀ e o o', Answers a (q.win.x + c - dc, q.win.y + r - dr) e o → Answers a' (c, r) e o' →
          M'.imageToWorld (c, r) e o' = M.imageToWorld (q.win.x + c - dc, q.win.y + r - dr) e o := by
  obtain ⟨M, M', a, a', h1, h2, h3, h4, h5, -⟩ := sidd_tile_reloads_partial env x G henv hlstsq i t d hchip hx [] (by simp) q hq done htile ri rt hi hload
  have hdone : done = [] := by
    obtain ⟨_, _, _, _, _, _, _, _, _, -, -, -, -, -, rfl, -, -⟩ := htile
    rfl
  subst hdone
  refine ⟨M, M', a, a', h1, h2, h3, h4, ?_⟩
  intro c r hc0 hc1 hr0 hr1
  have w0 : (0 : ℝ) < q.win.w := Int.cast_pos.2 (by have := hq.2.1; omega)
  have h0 : (0 : ℝ) < q.win.h := Int.cast_pos.2 (by have := hq.2.2; omega)
  refine ⟨c / q.win.w, r / q.win.h, div_nonneg hc0 w0.le, (div_lt_one w0).2 hc1, div_nonneg hr0 h0.le, (div_lt_one h0).2 hr1, fun h => by rw [h, zero_div], fun h => by rw [h, zero_div],
    fun e o o' ha ha' => h5 (c, r) _ e o o' ?_ ha ha'⟩
  simp only [skippedColumns, skippedRows, List.map_nil, List.sum_nil, Int.cast_zero, zero_add, Prod.mk.injEq]
  constructor <;> field_simp <;> ring

/-! ### An example -/

open Verif.Props.Sicd (exSidd)
open Verif.Props.SicdFiles (demoGround strip_id demo_header)

/-- A number in a text that mentions SIDD. -/
def demoText (n : Nat) : String := String.ofList ("SIDD".toList ++ List.replicate n 'x')

theorem demoText_toList (n : Nat) : (demoText n).toList = ['S', 'I', 'D', 'D'] ++ List.replicate n 'x' := by simp [demoText]

noncomputable def demoDoc (g : Option (Chip ℝ)) : Doc := ⟨exSidd, g⟩

/-- A chip as a number. -/
def demoCode (v : Option (Int × Int × Int × Int)) : Nat := Encodable.encode v

theorem demo_decode (v : Option (Int × Int × Int × Int)) : Encodable.decode (demoCode v) = some v := Encodable.encodek _

noncomputable def demoXsdata : Xsdata where
  parse := fun s =>
    match (Encodable.decode (s.toList.length - 4) : Option (Option (Int × Int × Int × Int))) with
    | some none => .ok (demoDoc none)
    | some (some (X, Y, w, h)) => .ok (demoDoc (some (cropChip X Y w h)))
    | none => .error .valueError
  render := fun d => demoText (demoCode (d.chip.map (fun g => (⌊g.ul.1⌋, ⌊g.ul.2⌋, g.cols, g.rows))))

/-- What the example writes. -/
def Written (g : Option (Chip ℝ)) : Prop := g = none ∨ ∃ X Y w h : Int, g = some (cropChip (X : ℝ) (Y : ℝ) w h)

/-- What the example needs of the library. -/
structure Demo (x : Xsdata) : Prop where
  parse (g : Option (Chip ℝ)) (h : Written g) : x.parse (x.render (demoDoc g)) = .ok (demoDoc g)
  sidd (g : Option (Chip ℝ)) (h : Written g) : Mentions (x.render (demoDoc g)) "SIDD"
  char (g : Option (Chip ℝ)) (hg : Written g) (c : Char) (h : c ∈ (x.render (demoDoc g)).toList) : c = 'S' ∨ c = 'I' ∨ c = 'D' ∨ c = 'x'

theorem demo_exists : ∃ x, Demo x := by
  refine ⟨demoXsdata, ?_, ?_, ?_⟩
  · intro g hg
    have e : ∀ g, demoXsdata.render (demoDoc g) = demoText (demoCode (g.map (fun g => (⌊g.ul.1⌋, ⌊g.ul.2⌋, g.cols, g.rows)))) := fun _ => rfl
    rw [e]
    have h1 : ∀ v, (demoText (demoCode v)).toList.length - 4 = demoCode v := fun v => by simp [demoText]
    simp only [demoXsdata, h1, demo_decode]
    rcases hg with rfl | ⟨X, Y, w, h, rfl⟩
    · rfl
    · simp only [Option.map_some, cropChip, Int.floor_intCast]
  · intro g _
    unfold Mentions
    change _ <:+: (demoText _).toList
    rw [demoText_toList]
    exact (List.prefix_append _ _).isInfix
  · intro g _ c h
    change c ∈ (demoText _).toList at h
    rw [demoText_toList] at h
    simp only [List.cons_append, List.nil_append, List.mem_cons, List.mem_replicate] at h
    tauto

/-- The document of a metadata segment is its text. -/
noncomputable def demoEnv (x : Xsdata) (lstsq : List (Verif.Transforms.Row ℝ) → Verif.Transforms.Projective ℝ) : Env where
  lib := ⟨Verif.Props.Tre.demoReal, fun s => .ok (.node "des_list" [] [Verif.Props.SarTiles.demoSegment (String.ofList s)]), Verif.Props.SarTiles.demoCodec⟩
  parseTres := fun _ => .error .valueError
  earth := Verif.Props.RsmModel.flatEarth
  minimise := Verif.Props.Rpc.oneStep
  lstsq := lstsq
  sidd := siddBuilder x demoGround lstsq
  sicd := fun _ => none

/-- An image with a SIDD segment and nothing else. -/
noncomputable def demoImage (x : Xsdata) (g : Option (Chip ℝ)) : Image := ⟨60, 50, none, none, [], none, [], [x.render (demoDoc g)]⟩

section
variable (x : Xsdata) (hx : Demo x) (lstsq : List (Verif.Transforms.Row ℝ) → Verif.Transforms.Projective ℝ)
include hx

theorem demo_lists (g : Option (Chip ℝ)) (hg : Written g) :
    parsedLists (demoEnv x lstsq).lib.parse ([x.render (demoDoc g)].map String.toList) = .ok [.node "des_list" [] [Verif.Props.SarTiles.demoSegment (x.render (demoDoc g))]] := by
  have hc := hx.char g hg
  generalize x.render (demoDoc g) = s at *
  have h1 : removeProlog s.toList = s.toList := Verif.Props.Des.removeProlog_plain _ (by
    intro h
    have : '<' ∈ s.toList := h.subset (by decide)
    rcases hc _ this with h | h | h | h <;> revert h <;> decide)
  have h2 : strip s.toList = s.toList := by
    apply strip_id
    intro c h
    rcases hc c h with rfl | rfl | rfl | rfl <;> decide
  simp only [parsedLists, List.map_cons, List.map_nil, List.mapM_cons, List.mapM_nil, h1, h2, demoEnv, String.ofList_toList]
  rfl

theorem demo_extract (g : Option (Chip ℝ)) (hg : Written g) :
    extractXml Verif.Props.SarTiles.demoCodec (Verif.Props.SarTiles.demoSegment (x.render (demoDoc g))) = .ok (some (x.render (demoDoc g))) := by
  have hne := Verif.Props.SarTiles.mentions_ne_empty _ (.inl (hx.sidd g hg))
  generalize x.render (demoDoc g) = s at *
  have hf : (Verif.Props.SarTiles.demoSegment s).find "field" "DESDATA" = some (.node "field" [("name", "DESDATA"), ("value", s)] []) := rfl
  have hv : Xml.get (.node "field" [("name", "DESDATA"), ("value", s)] []) "value" = some s := rfl
  unfold extractXml
  simp only [hf, hv, ne_eq, hne, not_false_eq_true, if_true]
  rfl

theorem demo_select (g : Option (Chip ℝ)) (hg : Written g) :
    ∃ h, newFactory (demoEnv x lstsq).lib (fun _ _ => .ok ()) "NITF" (some (demoImage x g).dess) = .ok (some ⟨.sidd, x.render (demoDoc g), h⟩) := by
  obtain ⟨h, hh⟩ := demo_header
  refine ⟨h, ?_⟩
  unfold newFactory
  rw [if_pos rfl]
  change (do let l ← parsedLists (demoEnv x lstsq).lib.parse ([x.render (demoDoc g)].map String.toList); _) = _
  rw [demo_lists x hx lstsq g hg]
  refine (Verif.Props.SarTiles.segment_selected ..).2 ⟨[], Verif.Props.SarTiles.demoSegment (x.render (demoDoc g)), [], ?_, by simp, ?_, hh _, rfl, ?_, fun h => (by simp at h)⟩
  · rfl
  · exact demo_extract x hx g hg
  · exact ⟨fun _ => hx.sidd g hg, fun _ => rfl⟩

theorem demo_load (g : Option (Chip ℝ)) (hg : Written g) : load (demoEnv x lstsq) (.image (demoImage x g)) = .ok (demoImage x g, siddBuilder x demoGround lstsq (x.render (demoDoc g))) := by
  obtain ⟨h, hh⟩ := demo_select x hx lstsq g hg
  have := (Verif.Props.SarTiles.same_segment_as_sensor_model (demoEnv x lstsq).lib (fun _ _ => .ok ()) (metadata (demoImage x g) none)
    ((Verif.Props.Factory.isSelected_iff _ _).1 (Verif.Props.Loading.selected_all _ none .sicd)) (builders (demoEnv x lstsq) none) none _ hh).1 _ rfl
  unfold load
  simp only [openImage, bind_ok, Except.ok.injEq, exists_eq_left']
  refine ⟨none, rfl, _, ?_, rfl⟩
  change build (builders (demoEnv x lstsq) none) (demoEnv x lstsq).lib (metadata (demoImage x g) none) = _
  unfold build
  simp only [bind_ok]
  refine ⟨none, rfl, (none, none), rfl, _, this, ?_⟩
  change Except.ok (combine (builders (demoEnv x lstsq) none) none (siddBuilder x demoGround lstsq (x.render (demoDoc g)))) = _
  cases siddBuilder x demoGround lstsq (x.render (demoDoc g)) <;> rfl

omit hx in
theorem demo_approximate (g : Option (Chip ℝ)) (a : Option Model) (h : IsApproximate (demoEnv x lstsq) (demoImage x g) a) : a = none := by
  obtain ⟨tres, a₀, p, h1, h2, h3⟩ := h
  cases h1
  cases h2
  cases h3
  rfl

/-- The tile factory of the image. -/
noncomputable def demoConfig (x : Xsdata) (h : List Char) : Config (Option (Chip ℝ)) :=
  ⟨.nitf, none, some (siddUpdate, fun s => x.render (demoDoc s), String.ofList h)⟩

noncomputable def demoState : State (Option (Chip ℝ)) := ⟨[["IC=NC"]], none, [], ⟨[], 1, .nitf, 0, none⟩⟩

noncomputable def demoCall (x : Xsdata) (h : List Char) (w : Window) (g : Option (Chip ℝ)) : Call :=
  ⟨w, [], 1, .nitf, ["IC=NC"] ++ ["ICAT=SAR", "IREP=NODISPLY", "IREPBAND= , ", "ISUBCAT=I,Q", "DES=XML_DATA_CONTENT=" ++ (String.ofList h ++ x.render (demoDoc g))], none⟩

omit hx in
theorem demo_call (h : List Char) (w : Window) (history : List (String × (Call → Bool × Except PyErr Bool) × Request)) (s : Option (Chip ℝ))
    (hs : siddUpdate (runAll siddUpdate none (history.map (fun r => r.2.2))) ⟨w, none⟩ = .ok s) :
    (createEncodedTile (demoConfig x h) (fun _ => (true, .ok true)) "b" ⟨w, none⟩ (serve (demoConfig x h) demoState history)).2.2 = some (demoCall x h w s) := by
  have hsar := serve_updates (demoConfig x h) rfl _ _ _ rfl demoState ["IC=NC"] rfl history
  have : (history.map (fun r => r.2.2)).filter (fun q => reaches (demoConfig x h).igeolo q.win) = history.map (fun r => r.2.2) := List.filter_eq_self.2 (fun _ _ => rfl)
  rw [this] at hsar
  rw [Verif.Props.TileFactory.create_call (demoConfig x h) ["IC=NC"] demoState.defaults _ _ _ _
    (Verif.Props.TileFactory.serve_clean (demoConfig x h) history ["IC=NC"] demoState.defaults demoState ⟨rfl, rfl⟩), hsar]
  change siddUpdate (runAll siddUpdate demoState.sar (history.map (fun r => r.2.2))) ⟨w, none⟩ = .ok s at hs
  generalize runAll siddUpdate demoState.sar (history.map (fun r => r.2.2)) = run at *
  unfold Verif.Props.TileFactory.extraOptions
  simp only [demoConfig, hs]
  rfl

theorem demo_read_back (h : List Char) (w : Window) (g : Option (Chip ℝ)) (hg : Written g) :
    ReadBack (demoEnv x lstsq).lib x.parse (String.ofList h) (demoCall x h w g) (demoImage x g) := by
  intro xml hxml
  have : xml = x.render (demoDoc g) := by
    simp only [demoCall, List.cons_append, List.nil_append, List.mem_cons, List.not_mem_nil, or_false] at hxml
    have key : ∀ s t : String, "DES=XML_DATA_CONTENT=" ++ s = t → t.toList.head? = some 'D' := by
      rintro s t rfl
      rw [String.toList_append]
      rfl
    rcases hxml with h | h | h | h | h | h
    · exact absurd (key _ _ h) (by decide)
    · exact absurd (key _ _ h) (by decide)
    · exact absurd (key _ _ h) (by decide)
    · exact absurd (key _ _ h) (by decide)
    · exact absurd (key _ _ h) (by decide)
    · have := congrArg String.toList h
      simp only [String.toList_append] at this
      exact String.toList_inj.1 (List.append_cancel_left (List.append_cancel_left this))
  subst this
  exact ⟨_, Verif.Props.SarTiles.demoSegment _, [], _, demo_lists x hx lstsq _ hg, rfl, demo_extract x hx _ hg, rfl, Iff.rfl, Iff.rfl⟩

theorem demo_renders : Renders x (demoDoc none) := fun X Y w h => ⟨hx.parse _ (.inr ⟨X, Y, w, h, rfl⟩), hx.sidd _ (.inr ⟨X, Y, w, h, rfl⟩)⟩

/-- Premises: any unscaled tile after any unscaled requests. -/
theorem demo_tile (w : Window) (history : List (String × (Call → Bool × Except PyErr Bool) × Request)) (hh : ∀ r ∈ history, Plain r.2.2) :
    ∃ g, Written g ∧ IsTile (demoEnv x lstsq) x (demoImage x none) (demoImage x g) (demoDoc none) history ⟨w, none⟩ (history.map (fun r => r.2.2.win)) := by
  obtain ⟨h, hsel⟩ := demo_select x hx lstsq none (.inl rfl)
  have hwin : history.map (fun r => r.2.2) = (history.map (fun r => r.2.2.win)).map (⟨·, none⟩) := by
    rw [List.map_map]
    apply List.map_congr_left
    intro r hr
    have h1 := (hh r hr).1
    rcases hr : r.2.2 with ⟨w, o⟩
    rw [hr] at h1
    simp only [Function.comp, hr]
    exact congrArg (Request.mk w) h1
  have hacc := Props.Updaters.sidd_tiles_accumulate (K := ℝ) (history.map (fun r => r.2.2.win)) (by
    intro w hw
    simp only [List.mem_map] at hw
    obtain ⟨r, hr, rfl⟩ := hw
    exact (hh r hr).2) w
  rw [← hwin] at hacc
  refine ⟨some (cropChip (((history.map (fun r => r.2.2.win)).map Window.x).sum + w.x : Int) (((history.map (fun r => r.2.2.win)).map Window.y).sum + w.y : Int) w.w w.h),
    .inr ⟨((history.map (fun r => r.2.2.win)).map Window.x).sum + w.x, ((history.map (fun r => r.2.2.win)).map Window.y).sum + w.y, w.w, w.h, rfl⟩,
    fun _ _ => .ok (), ⟨.sidd, x.render (demoDoc none), h⟩, none, demoConfig x h, demoState, ["IC=NC"], fun _ => (true, .ok true), "b", _, hsel, rfl, hx.parse none (.inl rfl), ?_, rfl,
    (List.filter_eq_self.2 (fun _ _ => rfl)).symm, demo_call x h w history _ ?_, demo_read_back x hx lstsq h w _ (.inr ⟨_, _, _, _, rfl⟩)⟩
  · simp only [siddTiles, hx.parse none (.inl rfl)]
    rfl
  · rw [hacc]
    push_cast
    simp only [List.map_map, Function.comp_def]

end

/-- What the model of the example locates. -/
theorem demo_locates (c r : ℝ) (h : 16 < c) (o : Option (Dict ℝ)) : (fullModel demoGround exSidd).imageToWorld (c, r) none o = .ok ⟨r - 10, c - 16, 0⟩ := by
  have := (Verif.Props.Sicd.sidd_round_trip demoGround.geo exSidd Verif.Props.Sicd.exSidd_units.1 Verif.Props.Sicd.exSidd_units.2.1 Verif.Props.Sicd.exSidd_units.2.2
    one_ne_zero one_ne_zero (r, c) ⟨r - 10, 4 + (c - 20), 0⟩ rfl ?_ ?_).1
  · change outcome ((exSidd.model demoGround.geo).toWorld demoGround.geo (r, c)) = _
    rw [this]
    simp only [outcome, demoGround, Except.ok.injEq]
    congr 1
    ring
  · rw [Verif.Props.Sicd.exSidd_toPlane]
    simp [exSidd]
  · have := Verif.Props.Sicd.exSidd_imaged (r - 10) (c - 20) (by linarith)
    have e : Verif.Sicd.polyval2d exSidd.time ((r - exSidd.scpRow) * exSidd.rowSS) ((c - exSidd.scpCol) * exSidd.colSS) = 0 := by
      norm_num [exSidd, Verif.Sicd.polyval2d, Verif.Sicd.polyval]
    rw [e]
    exact this

/-- Two tiles of an image, the second one at (10, 20). -/
example : ∃ (env : Env) (x : Xsdata) (i t : Image) (d : Doc) (M M' : Model), IsTile env x i t d [("a", fun _ => (true, .ok true), ⟨⟨1, 2, 3, 4⟩, none⟩)] ⟨⟨10, 20, 5, 6⟩, none⟩ [⟨1, 2, 3, 4⟩] ∧
    load env (.image i) = .ok (i, some M) ∧ load env (.image t) = .ok (t, some M') ∧
      ∀ g, M'.worldToImage g = (M.worldToImage g).map (fun p : ℝ × ℝ => ((p.1 - 11) * 5 / 4, (p.2 - 22) * 6 / 5)) := by
  obtain ⟨x, hx⟩ := demo_exists
  obtain ⟨lstsq, hl, -⟩ := Verif.Transforms.lstsq_function (K := ℝ)
  have hh : ∀ r ∈ [("a", (fun _ => (true, .ok true) : Call → Bool × Except PyErr Bool), (⟨⟨1, 2, 3, 4⟩, none⟩ : Request))], Plain r.2.2 := by simp [Plain]
  obtain ⟨g, hg, ht⟩ := demo_tile x hx lstsq ⟨10, 20, 5, 6⟩ [("a", fun _ => (true, .ok true), ⟨⟨1, 2, 3, 4⟩, none⟩)] hh
  have l1 := demo_load x hx lstsq none (.inl rfl)
  have l2 := demo_load x hx lstsq g hg
  obtain ⟨M, M', a, a', k1, k2, -, -, -, k⟩ := sidd_tile_reloads_partial (demoEnv x lstsq) x demoGround rfl hl _ _ _ rfl (demo_renders x hx) _ hh _ (by simp [Plain]) _ ht _ _ l1 l2
  refine ⟨demoEnv x lstsq, x, _, _, _, M, M', ht, l1.trans (congrArg _ k1), l2.trans (congrArg _ k2), ?_⟩
  intro g
  rw [k g]
  congr 1
  funext p
  simp only [skippedColumns, skippedRows, List.map_cons, List.map_nil, List.sum_cons, List.sum_nil]
  norm_num

/-- **C128** is false: the second of two equal tiles of a factory, at (20, 0), is loaded with a model that locates its first pixel where the image's model locates the pixel (40, 0). -/
theorem second_sidd_tile_misplaced : ∃ (env : Env) (x : Xsdata) (G : Ground) (i t : Image) (d : Doc) (M M' : Model) (history : List (String × (Call → Bool × Except PyErr Bool) × Request))
    (done : List Window) (there elsewhere : Verif.Dem.Geo ℝ), env.sidd = siddBuilder x G env.lstsq ∧ d.chip = none ∧ Renders x d ∧
    IsTile env x i t d history ⟨⟨20, 0, 8, 8⟩, none⟩ done ∧ load env (.image i) = .ok (i, some M) ∧ load env (.image t) = .ok (t, some M') ∧
    M.imageToWorld (20, 0) none none = .ok there ∧ M.imageToWorld (40, 0) none none = .ok elsewhere ∧ M'.imageToWorld (0, 0) none none = .ok elsewhere ∧ elsewhere ≠ there := by
  obtain ⟨x, hx⟩ := demo_exists
  obtain ⟨lstsq, hl, -⟩ := Verif.Transforms.lstsq_function (K := ℝ)
  have hh : ∀ r ∈ [("a", (fun _ => (true, .ok true) : Call → Bool × Except PyErr Bool), (⟨⟨20, 0, 8, 8⟩, none⟩ : Request))], Plain r.2.2 := by simp [Plain]
  obtain ⟨g, hg, ht⟩ := demo_tile x hx lstsq ⟨20, 0, 8, 8⟩ [("a", fun _ => (true, .ok true), ⟨⟨20, 0, 8, 8⟩, none⟩)] hh
  have l1 := demo_load x hx lstsq none (.inl rfl)
  have l2 := demo_load x hx lstsq g hg
  obtain ⟨M, M', a, a', k1, k2, k3, k4, k, -⟩ := sidd_tile_reloads_partial (demoEnv x lstsq) x demoGround rfl hl _ _ _ rfl (demo_renders x hx) _ hh _ (by simp [Plain]) _ ht _ _ l1 l2
  have hM : M = fullModel demoGround exSidd := by
    have e : siddBuilder x demoGround lstsq (x.render (demoDoc none)) = some (fullModel demoGround exSidd) := by
      unfold siddBuilder
      rw [if_neg (Verif.Props.SarTiles.mentions_ne_empty _ (.inl (hx.sidd none (.inl rfl)))), hx.parse none (.inl rfl)]
      rfl
    rw [e] at k1
    simp only [Prod.mk.injEq, Option.some.injEq, true_and] at k1
    exact k1.symm
  obtain rfl := demo_approximate x lstsq none a k3
  obtain rfl := demo_approximate x lstsq g a' k4
  have m1 := demo_locates 20 0 (by norm_num) none
  have m2 := demo_locates 40 0 (by norm_num) none
  rw [← hM] at m1 m2
  refine ⟨demoEnv x lstsq, x, demoGround, _, _, _, M, M', _, _, _, _, rfl, rfl, demo_renders x hx, ht, l1.trans (congrArg _ k1), l2.trans (congrArg _ k2), m1, m2, ?_, ?_⟩
  · rw [← m2]
    refine k (0, 0) (40, 0) none none none ?_ (fun m h => by cases h) (fun m h => by cases h)
    simp only [skippedColumns, skippedRows, List.map_cons, List.map_nil, List.sum_cons, List.sum_nil]
    norm_num
  · intro h
    have := congrArg Verif.Dem.Geo.latitude h
    norm_num at this

/-- The first tile of an image. -/
example : ∃ (env : Env) (x : Xsdata) (i t : Image) (d : Doc) (M M' : Model), IsTile env x i t d [] ⟨⟨20, 0, 8, 8⟩, none⟩ [] ∧
    load env (.image i) = .ok (i, some M) ∧ load env (.image t) = .ok (t, some M') ∧ M'.imageToWorld (0, 0) none none = M.imageToWorld (20, 0) none none := by
  obtain ⟨x, hx⟩ := demo_exists
  obtain ⟨lstsq, hl, -⟩ := Verif.Transforms.lstsq_function (K := ℝ)
  obtain ⟨g, hg, ht⟩ := demo_tile x hx lstsq ⟨20, 0, 8, 8⟩ [] (by simp)
  have l1 := demo_load x hx lstsq none (.inl rfl)
  have l2 := demo_load x hx lstsq g hg
  obtain ⟨M, M', a, a', k1, k2, k3, k4, k⟩ := first_sidd_tile_partial (demoEnv x lstsq) x demoGround rfl hl _ _ _ rfl (demo_renders x hx) _ (by simp [Plain]) _ ht _ _ l1 l2
  obtain rfl := demo_approximate x lstsq none a k3
  obtain rfl := demo_approximate x lstsq g a' k4
  refine ⟨demoEnv x lstsq, x, _, _, _, M, M', ht, l1.trans (congrArg _ k1), l2.trans (congrArg _ k2), ?_⟩
  obtain ⟨dc, dr, -, -, -, -, e1, e2, h⟩ := k 0 0 le_rfl (by norm_num) le_rfl (by norm_num)
  have := h none none none (fun m h => by cases h) (fun m h => by cases h)
  rw [e1 rfl, e2 rfl] at this
  norm_num at this
  exact this

end Verif.Props.SiddFiles
