import Verif.Props.SiddFiles

/-!
# Scaled tiles of SIDD images
-/

namespace Verif.Props.ScaledTiles

open Verif Verif.Sensors Verif.Loading Verif.SarTiles Verif.Factory Verif.Des Verif.Tre Verif.SiddFiles
open Verif.Updaters (Request Window Chip siddUpdate siddModel runAll)
open Verif.Props.SarTiles (Mentions)
open Verif.Props.Tre (bind_ok pure_ok)
open Verif.SicdFiles (Ground)
open Verif.TileFactory (Call Config State createEncodedTile serve)
open Verif.Props.SicdFiles (IsApproximate Answers ReadBack load_selected load_first combine_answers)
open Verif.Props.SiddFiles (reaches serve_updates)

/-! ## Areas -/

/-- A rectangle of the full image: where the first pixel is, how far the last one is from it, and the number of pixels. -/
structure Area where
  x : ℝ
  y : ℝ
  w : ℝ
  h : ℝ
  cols : Int
  rows : Int

/-- The corners of an area, as in the metadata. -/
def Area.chip (a : Area) : Chip ℝ := ⟨a.cols, a.rows, (a.x, a.y), (a.x + a.w, a.y), (a.x + a.w, a.y + a.h), (a.x, a.y + a.h)⟩

/-- More than one pixel each way. -/
structure Area.Good (a : Area) : Prop where
  w : a.w ≠ 0
  h : a.h ≠ 0
  cols : 1 < a.cols
  rows : 1 < a.rows

/-- The size of a tile in pixels. -/
def size (q : Request) : Int × Int := q.out.getD (q.win.w, q.win.h)

/-- More than one pixel each way, before and after scaling. -/
def Large (q : Request) : Prop := 1 < q.win.w ∧ 1 < q.win.h ∧ 1 < (size q).1 ∧ 1 < (size q).2

/-- The area of a tile of an image with the given area, if pixels of the image are spread evenly from its first to its last pixel. -/
noncomputable def part (s : Option Area) (q : Request) : Area :=
  match s with
  | none => ⟨q.win.x, q.win.y, q.win.w - 1, q.win.h - 1, (size q).1, (size q).2⟩
  | some a => ⟨a.x + q.win.x * (a.w / (a.cols - 1)), a.y + q.win.y * (a.h / (a.rows - 1)), (q.win.w - 1) * (a.w / (a.cols - 1)), (q.win.h - 1) * (a.h / (a.rows - 1)),
      (size q).1, (size q).2⟩

/-- Each of the requests on top of the one before. -/
noncomputable def parts (s : Option Area) (qs : List Request) : Option Area := qs.foldl (fun s q => some (part s q)) s

/-- Where a pixel of an image with the given area is in the full image, if the pixels are spread evenly over as many as there are. -/
noncomputable def place (s : Option Area) (p : ℝ × ℝ) : ℝ × ℝ :=
  match s with
  | none => p
  | some a => (a.x + p.1 * a.w / a.cols, a.y + p.2 * a.h / a.rows)

/-- The way back. -/
noncomputable def pixel (a : Area) (p : ℝ × ℝ) : ℝ × ℝ := ((p.1 - a.x) * a.cols / a.w, (p.2 - a.y) * a.rows / a.h)

theorem cast_pos (n : Int) (h : 1 < n) : (0 : ℝ) < (n : ℝ) - 1 := by
  have : (0 : ℝ) < ((n - 1 : Int) : ℝ) := Int.cast_pos.2 (by omega)
  simpa using this

theorem pixel_place (a : Area) (ha : a.Good) (p : ℝ × ℝ) : pixel a (place (some a) p) = p := by
  have hc := cast_pos _ ha.cols
  have hr := cast_pos _ ha.rows
  have hc' : (a.cols : ℝ) ≠ 0 := by linarith
  have hr' : (a.rows : ℝ) ≠ 0 := by linarith
  have := ha.w
  have := ha.h
  simp only [pixel, place, add_sub_cancel_left]
  ext <;> field_simp

theorem part_good (s : Option Area) (hs : ∀ a, s = some a → a.Good) (q : Request) (hq : Large q) : (part s q).Good := by
  obtain ⟨h1, h2, h3, h4⟩ := hq
  have w1 := (cast_pos _ h1).ne'
  have w2 := (cast_pos _ h2).ne'
  rcases s with _ | a
  · exact ⟨w1, w2, h3, h4⟩
  · have ha := hs a rfl
    exact ⟨mul_ne_zero w1 (div_ne_zero ha.w (cast_pos _ ha.cols).ne'), mul_ne_zero w2 (div_ne_zero ha.h (cast_pos _ ha.rows).ne'), h3, h4⟩

/-! ## The updater -/

theorem update_area (s : Option Area) (hs : ∀ a, s = some a → a.Good) (q : Request) : siddUpdate (s.map Area.chip) q = .ok (some (part s q).chip) := by
  rcases s with _ | a
  · rw [Option.map_none, Verif.Props.Updaters.sidd_first_tile_partial]
    simp only [part, Area.chip, size, add_sub_assoc]
  · have ha := hs a rfl
    have c1 : a.chip.cols ≠ 1 := ha.cols.ne'
    have r1 : a.chip.rows ≠ 1 := ha.rows.ne'
    have e1 := (cast_pos _ ha.cols).ne'
    have e2 := (cast_pos _ ha.rows).ne'
    have key : ∀ p : ℝ × ℝ, Verif.Updaters.chippedToFull p a.chip = .ok (a.x + p.1 * (a.w / (a.cols - 1)), a.y + p.2 * (a.h / (a.rows - 1))) := by
      intro p
      rw [Verif.Props.Updaters.chippedToFull_ok _ _ c1 r1]
      simp only [Area.chip, Verif.Updaters.bilinear, Except.ok.injEq, Prod.mk.injEq, Int.cast_sub, Int.cast_one]
      constructor <;> field_simp <;> ring
    simp only [Option.map_some, siddUpdate, Verif.Updaters.fullCorners, Verif.Updaters.windowCorners, List.mapM_cons, List.mapM_nil, key, bind, Except.bind, pure, Except.pure]
    simp only [part, Area.chip, size, Int.cast_sub, Int.cast_add, Int.cast_one, Except.ok.injEq, Option.some.injEq, Chip.mk.injEq, Prod.mk.injEq, true_and]
    refine ⟨⟨?_, trivial⟩, ⟨?_, ?_⟩, ?_⟩ <;> ring

theorem run_areas (qs : List Request) (hqs : ∀ q ∈ qs, Large q) (s : Option Area) (hs : ∀ a, s = some a → a.Good) :
    runAll siddUpdate (s.map Area.chip) qs = (parts s qs).map Area.chip ∧ ∀ a, parts s qs = some a → a.Good := by
  induction qs generalizing s with
  | nil => exact ⟨rfl, hs⟩
  | cons q qs ih =>
    have := ih (fun r hr => hqs r (by simp [hr])) (some (part s q)) (by
      rintro a h
      cases h
      exact part_good s hs q (hqs q (by simp)))
    rw [runAll, List.foldl_cons, update_area s hs q]
    exact this

/-! ## The sensor model of the metadata -/

theorem area_model {O : Type} (lstsq : List (Verif.Transforms.Row ℝ) → Verif.Transforms.Projective ℝ) (hl : ∀ rows, Verif.Transforms.IsLstsq rows (lstsq rows))
    (full : SensorModel ℝ O) (s : Option Area) (hs : ∀ a, s = some a → a.Good) :
    ∃ m, siddModel lstsq (s.map Area.chip) full = .ok m ∧ (∀ p e o, m.imageToWorld p e o = full.imageToWorld (place s p) e o) ∧
      (∀ a, s = some a → ∀ g, m.worldToImage g = (full.worldToImage g).map (pixel a)) ∧ (s = none → m = full) := by
  rcases s with _ | a
  · exact ⟨full, rfl, fun _ _ _ => rfl, fun a h => (by cases h), fun _ => rfl⟩
  · have ha := hs a rfl
    have hc := cast_pos _ ha.cols
    have hr := cast_pos _ ha.rows
    obtain ⟨m, hm, h2, h3⟩ := Verif.Props.Sensors.chipped_model_is_full_model lstsq hl full a.x a.y a.w a.h 0 0 (a.cols : ℝ) (a.rows : ℝ) ha.w ha.h (by linarith) (by linarith)
    refine ⟨m, ?_, ?_, ?_, fun h => by cases h⟩
    · simp only [Option.map_some, siddModel, ← hm, Verif.Props.Sensors.corners, zero_add, Area.chip]
    · intro p e o
      rw [h2, sub_zero, sub_zero]
      rfl
    · rintro b h g
      cases h
      rw [h3]
      simp only [zero_add]
      rfl

/-! ## Tiles -/

/-- `t` is a file with the tile `q` of the image `i`, whose metadata is the document `d`, written by a tile factory of the image; `done` are the earlier requests to the factory that reached
the updater of the metadata. -/
def IsTile (env : Env) (x : Xsdata) (i t : Image) (d : Doc) (done : List Request) (q : Request) : Prop :=
  ∃ (parses : Product → String → Except PyErr Unit) (sel : Selected) (igeolo : Option (Window → Except PyErr String)) (c : Config (Option (Chip ℝ))) (st : State (Option (Chip ℝ)))
    (base : List String) (history : List (String × (Call → Bool × Except PyErr Bool) × Request)) (translate : Call → Bool × Except PyErr Bool) (name : String) (call : Call),
    newFactory env.lib parses "NITF" (some i.dess) = .ok (some sel) ∧ sel.product = .sidd ∧ x.parse sel.xml = .ok d ∧
    siddTiles x sel .nitf igeolo = .ok (c, st.sar) ∧ st.heap[st.defaults.creationOptions]? = some base ∧
    done = (history.map (fun r => r.2.2)).filter (fun q => reaches igeolo q.win) ∧
    (createEncodedTile c translate name q (serve c st history)).2.2 = some call ∧ ReadBack env.lib x.parse (String.ofList sel.header) call t

/-- **C163** (in part): how a tile of a SIDD image loads, whether or not it is scaled and the image is a chip itself, after any requests.  The metadata of the tile describes the area that
one gets from that of the image by taking the part of each request in turn; a pixel of the tile is located where the image's model locates the pixel at the same place, and world
coordinates are projected with the inverse of that.
Missing: this should be the pixel of the image that the pixel of the tile was made from.  For the first tile of a factory it is off by less than a pixel (`first_scaled_tile_partial`);
for later ones see `scaling_spoils_next_tile`. -/
theorem scaled_tile_partial (env : Env) (x : Xsdata) (G : Ground) (henv : env.sidd = siddBuilder x G env.lstsq)
    (hlstsq : ∀ rows, Verif.Transforms.IsLstsq rows (env.lstsq rows)) (i t : Image) (d : Doc) (s : Option Area) (hs : ∀ a, s = some a → a.Good) (hd : d.chip = s.map Area.chip)
    (done : List Request) (hdone : ∀ r ∈ done, Large r) (q : Request) (hq : Large q) (T : Area) (hT : T = part (parts s done) q)
    (hx : x.parse (x.render { d with chip := some T.chip }) = .ok { d with chip := some T.chip } ∧ Mentions (x.render { d with chip := some T.chip }) "SIDD")
    (htile : IsTile env x i t d done q) (ri rt : Image × Option Model) (hi : load env (.image i) = .ok ri) (hload : load env (.image t) = .ok rt) :
    ∃ M M' a a', ri = (i, some M) ∧ rt = (t, some M') ∧ IsApproximate env i a ∧ IsApproximate env t a' ∧
      (∀ p p' e o o', place s p' = place (some T) p → Answers a p' e o → Answers a' p e o' → M'.imageToWorld p e o' = M.imageToWorld p' e o) ∧
      ∀ g, M'.worldToImage g = (M.worldToImage g).map (fun p' => pixel T (place s p')) := by
  obtain ⟨parses, sel, igeolo, c, st, base, history, translate, name, call, hsel, hp, hdoc, hc, hbase, rfl, hcall, ht⟩ := htile
  -- the metadata of the tile
  obtain ⟨hr1, hr2⟩ := run_areas _ hdone s hs
  have hTg : T.Good := hT ▸ part_good _ hr2 q hq
  have hopt : "DES=XML_DATA_CONTENT=" ++ (String.ofList sel.header ++ x.render { d with chip := some T.chip }) ∈ call.options := by
    simp only [siddTiles, hdoc, bind, Except.bind, pure, Except.pure, Except.ok.injEq, Prod.mk.injEq] at hc
    obtain ⟨hc, hst⟩ := hc
    have hcf : c.format = .nitf := by rw [← hc]
    have hci : c.igeolo = igeolo := by rw [← hc]
    have hcs : c.sar = some (siddUpdate, fun s => x.render { d with chip := s }, String.ofList sel.header) := by rw [← hc]
    obtain ⟨-, -, -, -, -, -, corners, md, ho, -, -, -, -, hmd⟩ := Verif.Props.TileFactory.tile_options c st base hbase history translate name q call hcall
    obtain ⟨s', hs', rfl⟩ := hmd _ _ _ hcf hcs
    rw [serve_updates c hcf _ _ _ hcs st base hbase history, hci, ← hst, hd, hr1, update_area _ hr2, ← hT] at hs'
    cases hs'
    rw [ho]
    simp
  obtain ⟨lists, sg, rest, text, hl, hsegs, hext, hparse, -, hw2⟩ := ht _ hopt
  rw [hx.1] at hparse
  have hm1 := hw2.2 hx.2
  have hxml : sel.xml ≠ "" := by
    have h := hsel
    unfold newFactory at h
    rw [if_pos rfl] at h
    rw [bind_ok] at h
    obtain ⟨l, -, h⟩ := h
    obtain ⟨pre, s', post, -, -, -, -, -, h1, h2⟩ := (Verif.Props.SarTiles.segment_selected ..).1 h
    exact Verif.Props.SarTiles.mentions_ne_empty _ (.inl (h1.1 hp))
  have htext : text ≠ "" := Verif.Props.SarTiles.mentions_ne_empty _ (.inl hm1)
  -- the models
  obtain ⟨m, hm, k1, k2, k3⟩ := area_model env.lstsq hlstsq (fullModel G d.rest) s hs
  obtain ⟨m', hm', k1', k2', -⟩ := area_model env.lstsq hlstsq (fullModel G d.rest) (some T) (by rintro a h; cases h; exact hTg)
  have e1 : env.sidd sel.xml = some m := by
    rw [henv]
    unfold siddBuilder
    rw [if_neg hxml, hdoc]
    simp only [hd, hm, Except.toOption]
  have e2 : env.sidd text = some m' := by
    rw [henv]
    unfold siddBuilder
    rw [if_neg htext, hparse]
    rw [Option.map_some] at hm'
    simp only [hm', Except.toOption]
  obtain ⟨a, ha, hri⟩ := load_selected env parses i sel hsel ri hi
  obtain ⟨a', ha', hrt⟩ := load_first env t lists sg rest text hl hsegs hext (env.sidd text) (.inl ⟨hm1, rfl⟩) rt hload
  have hmodel : Verif.Props.SarTiles.modelOf (builders env i.crs) sel = env.sidd sel.xml := by
    simp only [Verif.Props.SarTiles.modelOf, hp]
    rfl
  rw [hmodel, e1] at hri
  rw [e2] at hrt
  obtain ⟨M, hM, hM1, hM2⟩ := combine_answers env i.crs a m (fun p e o o' => by rw [k1, k1]; rfl)
  obtain ⟨M', hM', hM1', hM2'⟩ := combine_answers env t.crs a' m' (fun p e o o' => by rw [k1', k1']; rfl)
  refine ⟨M, M', a, a', by rw [hri, hM], by rw [hrt, hM'], ha, ha', ?_, ?_⟩
  · intro p p' e o o' hpp h1 h2
    rw [hM2 _ _ _ h1, hM2' _ _ _ h2, k1, k1', hpp]
  · intro g
    rw [hM1, hM1', k2' T rfl]
    rcases s with _ | b
    · rw [k3 rfl]
      rfl
    · rw [k2 b rfl]
      cases (fullModel G d.rest).worldToImage g with
      | error e => rfl
      | ok v =>
        simp only [Except.map]
        congr 2
        have hb := hs b rfl
        have c1 := cast_pos _ hb.cols
        have c2 := cast_pos _ hb.rows
        have c1' : (b.cols : ℝ) ≠ 0 := by linarith
        have c2' : (b.rows : ℝ) ≠ 0 := by linarith
        have := hb.w
        have := hb.h
        simp only [place, pixel]
        ext <;> field_simp <;> ring

/-- **C163** (in part): the first tile of a factory, scaled or not, of a SIDD image that may itself be a chip: every pixel of the tile is located where the image's model locates a point less
than a pixel of the image, each way, from the one that the pixel was made from.  A tile of a chip must be inside of it. -/
theorem first_scaled_tile_partial (env : Env) (x : Xsdata) (G : Ground) (henv : env.sidd = siddBuilder x G env.lstsq)
    (hlstsq : ∀ rows, Verif.Transforms.IsLstsq rows (env.lstsq rows)) (i t : Image) (d : Doc) (s : Option Area) (hs : ∀ a, s = some a → a.Good) (hd : d.chip = s.map Area.chip)
    (q : Request) (hq : Large q) (hin : ∀ a, s = some a → 0 ≤ q.win.x ∧ q.win.x + q.win.w ≤ a.cols ∧ 0 ≤ q.win.y ∧ q.win.y + q.win.h ≤ a.rows)
    (hx : x.parse (x.render { d with chip := some (part s q).chip }) = .ok { d with chip := some (part s q).chip } ∧ Mentions (x.render { d with chip := some (part s q).chip }) "SIDD")
    (htile : IsTile env x i t d [] q) (ri rt : Image × Option Model) (hi : load env (.image i) = .ok ri) (hload : load env (.image t) = .ok rt) :
    ∃ M M' a a', ri = (i, some M) ∧ rt = (t, some M') ∧ IsApproximate env i a ∧ IsApproximate env t a' ∧
      ∀ c r : ℝ, 0 ≤ c → c < (size q).1 → 0 ≤ r → r < (size q).2 → ∃ dc dr : ℝ, |dc| < 1 ∧ |dr| < 1 ∧
        ∀ e o o', Answers a (q.win.x + c * q.win.w / (size q).1 + dc, q.win.y + r * q.win.h / (size q).2 + dr) e o → Answers a' (c, r) e o' →
          M'.imageToWorld (c, r) e o' = M.imageToWorld (q.win.x + c * q.win.w / (size q).1 + dc, q.win.y + r * q.win.h / (size q).2 + dr) e o := by
  obtain ⟨M, M', a, a', h1, h2, h3, h4, h5, -⟩ := scaled_tile_partial env x G henv hlstsq i t d s hs hd [] (by simp) q hq _ rfl hx htile ri rt hi hload
  refine ⟨M, M', a, a', h1, h2, h3, h4, ?_⟩
  intro c r hc0 hc1 hr0 hr1
  obtain ⟨q1, q2, q3, q4⟩ := hq
  have w1 := cast_pos _ q1
  have w2 := cast_pos _ q2
  have w3 := cast_pos _ q3
  have w4 := cast_pos _ q4
  -- one coordinate of a tile of a chip with n pixels
  have key : ∀ (n x₀ w W : ℝ) (c : ℝ), 0 ≤ x₀ → 0 < w - 1 → x₀ + w ≤ n → 0 < W → 0 ≤ c → c < W →
      |(x₀ + c * (w - 1) / W) * (n / (n - 1)) - (x₀ + c * w / W)| < 1 := by
    intro n x₀ w W c hx₀ hw hn hW hc0 hc1
    have n1 : 0 < n - 1 := by linarith
    have t0 : 0 ≤ c / W := div_nonneg hc0 hW.le
    have t1 : c / W < 1 := (div_lt_one hW).2 hc1
    have e : (x₀ + c * (w - 1) / W) * (n / (n - 1)) - (x₀ + c * w / W) = (x₀ + c / W * (w - 1)) / (n - 1) - c / W := by
      field_simp
      ring
    have u0 : 0 ≤ (x₀ + c / W * (w - 1)) / (n - 1) := div_nonneg (add_nonneg hx₀ (mul_nonneg t0 hw.le)) n1.le
    have u1 : (x₀ + c / W * (w - 1)) / (n - 1) < 1 := (div_lt_one n1).2 (by nlinarith)
    rw [e, abs_lt]
    constructor <;> linarith
  rcases s with _ | b
  · refine ⟨-(c / (size q).1), -(r / (size q).2), ?_, ?_, fun e o o' ha ha' => h5 (c, r) _ e o o' ?_ ha ha'⟩
    · rw [abs_neg, abs_of_nonneg (div_nonneg hc0 (by linarith))]
      exact (div_lt_one (by linarith)).2 hc1
    · rw [abs_neg, abs_of_nonneg (div_nonneg hr0 (by linarith))]
      exact (div_lt_one (by linarith)).2 hr1
    · simp only [place, part, parts, List.foldl_nil, Prod.mk.injEq]
      have e1 : ((size q).1 : ℝ) ≠ 0 := by linarith
      have e2 : ((size q).2 : ℝ) ≠ 0 := by linarith
      constructor <;> field_simp <;> ring
  · obtain ⟨i1, i2, i3, i4⟩ := hin b rfl
    have hb := hs b rfl
    have c1 := cast_pos _ hb.cols
    have c2 := cast_pos _ hb.rows
    have i1' : (0 : ℝ) ≤ q.win.x := Int.cast_nonneg i1
    have i3' : (0 : ℝ) ≤ q.win.y := Int.cast_nonneg i3
    have i2' : (q.win.x : ℝ) + q.win.w ≤ b.cols := by exact_mod_cast i2
    have i4' : (q.win.y : ℝ) + q.win.h ≤ b.rows := by exact_mod_cast i4
    refine ⟨_, _, key b.cols q.win.x q.win.w (size q).1 c i1' w1 i2' (by linarith) hc0 hc1, key b.rows q.win.y q.win.h (size q).2 r i3' w2 i4' (by linarith) hr0 hr1,
      fun e o o' ha ha' => h5 (c, r) _ e o o' ?_ ha ha'⟩
    simp only [place, part, parts, List.foldl_nil, Prod.mk.injEq, add_sub_cancel]
    have e1 : ((size q).1 : ℝ) ≠ 0 := by linarith
    have e2 : ((size q).2 : ℝ) ≠ 0 := by linarith
    have e3 : (b.cols : ℝ) ≠ 0 := by linarith
    have e4 : (b.rows : ℝ) ≠ 0 := by linarith
    have e5 := c1.ne'
    have e6 := c2.ne'
    constructor <;> field_simp <;> ring

/-! ### Examples -/

open Verif.Props.SiddFiles (Demo Written demoDoc demoImage demoEnv demoConfig demoState demoCall demo_exists demo_select demo_load demo_read_back demo_approximate demo_locates)
open Verif.Props.Updaters (cropChip)
open Verif.Props.Sicd (exSidd)
open Verif.Props.SicdFiles (demoGround)

theorem demo_call (x : Xsdata) (h : List Char) (q : Request) (history : List (String × (Call → Bool × Except PyErr Bool) × Request)) (s : Option (Chip ℝ))
    (hs : siddUpdate (runAll siddUpdate none (history.map (fun r => r.2.2))) q = .ok s) :
    (createEncodedTile (demoConfig x h) (fun _ => (true, .ok true)) "b" q (serve (demoConfig x h) demoState history)).2.2 = some { demoCall x h q.win s with size := q.out } := by
  have hsar := serve_updates (demoConfig x h) rfl _ _ _ rfl demoState ["IC=NC"] rfl history
  have : (history.map (fun r => r.2.2)).filter (fun q => reaches (demoConfig x h).igeolo q.win) = history.map (fun r => r.2.2) := List.filter_eq_self.2 (fun _ _ => rfl)
  rw [this] at hsar
  rw [Verif.Props.TileFactory.create_call (demoConfig x h) ["IC=NC"] demoState.defaults _ _ _ _
    (Verif.Props.TileFactory.serve_clean (demoConfig x h) history ["IC=NC"] demoState.defaults demoState ⟨rfl, rfl⟩), hsar]
  change siddUpdate (runAll siddUpdate demoState.sar (history.map (fun r => r.2.2))) q = .ok s at hs
  generalize runAll siddUpdate demoState.sar (history.map (fun r => r.2.2)) = run at *
  unfold Verif.Props.TileFactory.extraOptions
  simp only [demoConfig, hs]
  rcases q with ⟨w, _ | o⟩ <;> rfl

/-- Premises: a tile of the image of the example, if its metadata can be written. -/
theorem demo_tile (x : Xsdata) (hx : Demo x) (lstsq : List (Verif.Transforms.Row ℝ) → Verif.Transforms.Projective ℝ) (done : List Request) (hdone : ∀ r ∈ done, Large r) (q : Request)
    (hw : Written (some (part (parts none done) q).chip)) :
    IsTile (demoEnv x lstsq) x (demoImage x none) (demoImage x (some (part (parts none done) q).chip)) (demoDoc none) done q := by
  obtain ⟨h, hsel⟩ := demo_select x hx lstsq none (.inl rfl)
  obtain ⟨r1, r2⟩ := run_areas done hdone none (fun a h => (by cases h))
  refine ⟨fun _ _ => .ok (), ⟨.sidd, x.render (demoDoc none), h⟩, none, demoConfig x h, demoState, ["IC=NC"], done.map (fun q => ("a", fun _ => (true, .ok true), q)), fun _ => (true, .ok true),
    "b", _, hsel, rfl, hx.parse none (.inl rfl), ?_, rfl, ?_, demo_call x h q _ _ ?_, demo_read_back x hx lstsq h q.win _ hw⟩
  · simp only [siddTiles, hx.parse none (.inl rfl)]
    rfl
  · refine (Eq.trans (List.filter_eq_self.2 (fun _ _ => rfl)) ?_).symm
    rw [List.map_map]
    exact List.map_id done
  · rw [List.map_map]
    have : done.map ((fun r : String × (Call → Bool × Except PyErr Bool) × Request => r.2.2) ∘ fun q => ("a", fun _ => (true, .ok true), q)) = done := List.map_id done
    rw [this]
    rw [Option.map_none] at r1
    rw [r1, update_area _ r2]

/-- An image of 11 by 11 pixels at half size, and then the 6 by 6 pixels at (20, 0) at twice the size. -/
def demoDone : List Request := [⟨⟨0, 0, 11, 11⟩, some (6, 6)⟩]
def demoRequest : Request := ⟨⟨20, 0, 6, 6⟩, some (11, 11)⟩

theorem demo_chip : (part (parts none demoDone) demoRequest).chip = cropChip ((40 : Int) : ℝ) ((0 : Int) : ℝ) 11 11 := by
  simp only [demoDone, demoRequest, parts, part, size, Area.chip, cropChip, List.foldl_cons, List.foldl_nil, Option.getD_some, Chip.mk.injEq, Prod.mk.injEq, true_and]
  norm_num

theorem demo_large : (∀ r ∈ demoDone, Large r) ∧ Large demoRequest := by simp [demoDone, demoRequest, Large, size]

/-- **C163** is false: after a tile at half size the places in the next tile of the factory count twice.  The tile at (20, 0) is loaded with a model that locates its first pixel where the
image's model locates the pixel (40, 0). -/
theorem scaling_spoils_next_tile : ∃ (env : Env) (x : Xsdata) (G : Ground) (i t : Image) (d : Doc) (M M' : Model) (there elsewhere : Verif.Dem.Geo ℝ),
    env.sidd = siddBuilder x G env.lstsq ∧ d.chip = none ∧ IsTile env x i t d demoDone demoRequest ∧ load env (.image i) = .ok (i, some M) ∧ load env (.image t) = .ok (t, some M') ∧
    M.imageToWorld (20, 0) none none = .ok there ∧ M.imageToWorld (40, 0) none none = .ok elsewhere ∧ M'.imageToWorld (0, 0) none none = .ok elsewhere ∧ elsewhere ≠ there := by
  obtain ⟨x, hx⟩ := demo_exists
  obtain ⟨lstsq, hl, -⟩ := Verif.Transforms.lstsq_function (K := ℝ)
  obtain ⟨hh, hq⟩ := demo_large
  have hw : Written (some (part (parts none demoDone) demoRequest).chip) := .inr ⟨40, 0, 11, 11, by rw [demo_chip]⟩
  have ht := demo_tile x hx lstsq demoDone hh demoRequest hw
  have l1 := demo_load x hx lstsq none (.inl rfl)
  have l2 := demo_load x hx lstsq _ hw
  obtain ⟨M, M', a, a', k1, k2, k3, k4, k, -⟩ := scaled_tile_partial (demoEnv x lstsq) x demoGround rfl hl _ _ _ none (fun a h => (by cases h)) rfl _ hh _ hq _ rfl
    ⟨hx.parse _ hw, hx.sidd _ hw⟩ ht _ _ l1 l2
  have hM : M = fullModel demoGround exSidd := by
    have e : siddBuilder x demoGround lstsq (x.render (demoDoc none)) = some (fullModel demoGround exSidd) := by
      unfold siddBuilder
      rw [if_neg (Verif.Props.SarTiles.mentions_ne_empty _ (.inl (hx.sidd none (.inl rfl)))), hx.parse none (.inl rfl)]
      rfl
    rw [e] at k1
    simp only [Prod.mk.injEq, Option.some.injEq, true_and] at k1
    exact k1.symm
  obtain rfl := demo_approximate x lstsq none a k3
  obtain rfl := demo_approximate x lstsq _ a' k4
  have m1 := demo_locates 20 0 (by norm_num) none
  have m2 := demo_locates 40 0 (by norm_num) none
  rw [← hM] at m1 m2
  refine ⟨demoEnv x lstsq, x, demoGround, _, _, _, M, M', _, _, rfl, rfl, ht, l1.trans (congrArg _ k1), l2.trans (congrArg _ k2), m1, m2, ?_, ?_⟩
  · rw [← m2]
    refine k (0, 0) (40, 0) none none none ?_ (fun m h => by cases h) (fun m h => by cases h)
    simp only [place, part, parts, demoDone, demoRequest, size, List.foldl_cons, List.foldl_nil, Option.getD_some]
    norm_num
  · intro h
    have := congrArg Verif.Dem.Geo.latitude h
    norm_num at this

/-- The first tile of the image of the example, 8 by 8 pixels (as a request with a size). -/
example : ∃ (env : Env) (x : Xsdata) (i t : Image) (d : Doc), d.chip = none ∧ IsTile env x i t d [] ⟨⟨20, 0, 8, 8⟩, some (8, 8)⟩ ∧
    x.parse (x.render { d with chip := some (part none ⟨⟨20, 0, 8, 8⟩, some (8, 8)⟩).chip }) = .ok { d with chip := some (part none ⟨⟨20, 0, 8, 8⟩, some (8, 8)⟩).chip } := by
  obtain ⟨x, hx⟩ := demo_exists
  obtain ⟨lstsq, hl, -⟩ := Verif.Transforms.lstsq_function (K := ℝ)
  have hw : Written (some (part none ⟨⟨20, 0, 8, 8⟩, some (8, 8)⟩).chip) := .inr ⟨20, 0, 8, 8, by
    simp only [part, size, Area.chip, cropChip, Option.getD_some, Option.some.injEq, Chip.mk.injEq, Prod.mk.injEq, true_and]
    norm_num⟩
  exact ⟨demoEnv x lstsq, x, _, _, _, rfl, demo_tile x hx lstsq [] (by simp) _ hw, hx.parse _ hw⟩

end Verif.Props.ScaledTiles
