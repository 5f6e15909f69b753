import Verif.Model.SarTiles
import Verif.Props.Factory
import Verif.Props.Sar
import Verif.Props.Sensors
import Verif.Props.Des
import Verif.Props.TileFactory

/-!
# Theorems about SAR tiles, decibels and ground control points
-/

namespace Verif.Props.SarTiles

open Verif.SarTiles Verif.Tre Verif.Des Verif.Factory
open Verif.Props.Tre (demoReal)

/-! ## The metadata segment (C101) -/

/-- The text has the word in it. -/
def Mentions (xml word : String) : Prop := word.toList <:+: xml.toList

/-- The segment can be read and is not about a SAR product. -/
def Silent (k : Codec) (s : Xml) : Prop :=
  ∃ y, extractXml k s = .ok y ∧ ∀ x, y = some x → ¬ Mentions x "SIDD" ∧ ¬ Mentions x "SICD"

theorem contains_iff (x w : String) : contains x w = true ↔ Mentions x w := by simp [contains, Mentions]

theorem mentions_ne_empty (x : String) (h : Mentions x "SIDD" ∨ Mentions x "SICD") : x ≠ "" := by
  rintro rfl
  revert h
  unfold Mentions
  decide

theorem take_ok (c : Conv) (parses : Product → String → Except PyErr Unit) (p : Product) (s : Xml) (xml : String) (r : Option Selected) :
    take c parses p s xml = .ok r ↔ ∃ h, header c s = .ok h ∧ parses p xml = .ok () ∧ r = some ⟨p, xml, h⟩ := by
  unfold take
  cases hh : header c s with
  | error e => simp [bind, Except.bind]
  | ok h =>
    cases hp : parses p xml with
    | error e => simp [bind, Except.bind]
    | ok u => simp [bind, Except.bind, pure, Except.pure, eq_comm]

/-- One step of the loop. -/
theorem select_cons (c : Conv) (k : Codec) (parses : Product → String → Except PyErr Unit) (s : Xml) (rest : List Xml) :
    (Silent k s → select c k parses (s :: rest) = select c k parses rest) ∧
    (∀ xml, extractXml k s = .ok (some xml) → Mentions xml "SIDD" → select c k parses (s :: rest) = take c parses .sidd s xml) ∧
    (∀ xml, extractXml k s = .ok (some xml) → ¬ Mentions xml "SIDD" → Mentions xml "SICD" → select c k parses (s :: rest) = take c parses .sicd s xml) ∧
    (∀ e, extractXml k s = .error e → select c k parses (s :: rest) = .error e) := by
  refine ⟨?_, ?_, ?_, ?_⟩
  · rintro ⟨y, hy, hn⟩
    rw [select, hy]
    cases y with
    | none => rfl
    | some x =>
      obtain ⟨h1, h2⟩ := hn x rfl
      rw [← contains_iff] at h1 h2
      simp only [bind, Except.bind]
      by_cases hx : x = ""
      · rw [if_pos hx]
      · rw [if_neg hx, if_neg h1, if_neg h2]
  · intro xml hx h1
    rw [select, hx]
    simp only [bind, Except.bind]
    rw [if_neg (mentions_ne_empty xml (.inl h1)), if_pos ((contains_iff ..).2 h1)]
  · intro xml hx h1 h2
    rw [select, hx]
    simp only [bind, Except.bind]
    rw [if_neg (mentions_ne_empty xml (.inr h2)), if_neg (fun h => h1 ((contains_iff ..).1 h)), if_pos ((contains_iff ..).2 h2)]
  · intro e he
    rw [select, he]
    rfl

/-- The segment is silent, is about a product, or cannot be read. -/
theorem segment_cases (k : Codec) (s : Xml) :
    Silent k s ∨ (∃ xml, extractXml k s = .ok (some xml) ∧ Mentions xml "SIDD") ∨
    (∃ xml, extractXml k s = .ok (some xml) ∧ ¬ Mentions xml "SIDD" ∧ Mentions xml "SICD") ∨ ∃ e, extractXml k s = .error e := by
  cases h : extractXml k s with
  | error e => exact .inr (.inr (.inr ⟨e, rfl⟩))
  | ok y =>
    cases y with
    | none => exact .inl ⟨none, h, by simp⟩
    | some x =>
      by_cases h1 : Mentions x "SIDD"
      · exact .inr (.inl ⟨x, rfl, h1⟩)
      · by_cases h2 : Mentions x "SICD"
        · exact .inr (.inr (.inl ⟨x, rfl, h1, h2⟩))
        · refine .inl ⟨some x, h, ?_⟩
          rintro x' hx'
          cases hx'
          exact ⟨h1, h2⟩

/-- **C101**: a tile factory carries the metadata of the first segment whose text mentions a SAR product, with the header of that same segment; a text
that mentions SIDD is taken as a SIDD, also when it mentions SICD. -/
theorem segment_selected (c : Conv) (k : Codec) (parses : Product → String → Except PyErr Unit) (segs : List Xml) (sel : Selected) :
    select c k parses segs = .ok (some sel) ↔
    ∃ pre s post, segs = pre ++ s :: post ∧ (∀ p ∈ pre, Silent k p) ∧ extractXml k s = .ok (some sel.xml) ∧ header c s = .ok sel.header ∧
      parses sel.product sel.xml = .ok () ∧ (sel.product = .sidd ↔ Mentions sel.xml "SIDD") ∧ (sel.product = .sicd → Mentions sel.xml "SICD") := by
  constructor
  · intro h
    induction segs with
    | nil => simp [select] at h
    | cons s rest ih =>
      obtain ⟨h1, h2, h3, h4⟩ := select_cons c k parses s rest
      rcases segment_cases k s with hs | ⟨xml, hx, hm⟩ | ⟨xml, hx, hm, hm'⟩ | ⟨e, he⟩
      · rw [h1 hs] at h
        obtain ⟨pre, s', post, rfl, hpre, hrest⟩ := ih h
        exact ⟨s :: pre, s', post, rfl, by simpa using ⟨hs, hpre⟩, hrest⟩
      · rw [h2 xml hx hm, take_ok] at h
        obtain ⟨hd, a, b, hsel⟩ := h
        cases hsel
        exact ⟨[], s, rest, rfl, by simp, hx, a, b, by simpa using hm, by simp⟩
      · rw [h3 xml hx hm hm', take_ok] at h
        obtain ⟨hd, a, b, hsel⟩ := h
        cases hsel
        exact ⟨[], s, rest, rfl, by simp, hx, a, b, by simpa using hm, by simpa using hm'⟩
      · rw [h4 e he] at h
        cases h
  · rintro ⟨pre, s, post, rfl, hpre, hx, hh, hp, h1, h2⟩
    induction pre with
    | nil =>
      obtain ⟨-, b, d, -⟩ := select_cons c k parses s post
      obtain ⟨prod, xml, hd⟩ := sel
      cases prod with
      | sidd =>
        rw [List.nil_append, b xml hx (h1.1 rfl), take_ok]
        exact ⟨hd, hh, hp, rfl⟩
      | sicd =>
        have hn : ¬ Mentions xml "SIDD" := fun h => by simpa using h1.2 h
        rw [List.nil_append, d xml hx hn (h2 rfl), take_ok]
        exact ⟨hd, hh, hp, rfl⟩
    | cons p pre ih =>
      rw [List.cons_append, (select_cons c k parses p _).1 (hpre p (by simp))]
      exact ih (fun q hq => hpre q (by simp [hq]))

/-- **C101**: and it carries none exactly when every segment can be read and mentions no SAR product. -/
theorem no_segment_selected (c : Conv) (k : Codec) (parses : Product → String → Except PyErr Unit) (segs : List Xml) :
    select c k parses segs = .ok none ↔ ∀ s ∈ segs, Silent k s := by
  induction segs with
  | nil => simp [select]
  | cons s rest ih =>
    obtain ⟨h1, h2, h3, h4⟩ := select_cons c k parses s rest
    rcases segment_cases k s with hs | ⟨xml, hx, hm⟩ | ⟨xml, hx, hm, hm'⟩ | ⟨e, he⟩
    · rw [h1 hs, ih]
      simp [hs]
    · rw [h2 xml hx hm, take_ok]
      constructor
      · rintro ⟨h, -, -, hn⟩; cases hn
      · intro hall
        obtain ⟨y, hy, hn⟩ := hall s (by simp)
        rw [hx] at hy
        cases hy
        exact absurd hm (hn xml rfl).1
    · rw [h3 xml hx hm hm', take_ok]
      constructor
      · rintro ⟨h, -, -, hn⟩; cases hn
      · intro hall
        obtain ⟨y, hy, hn⟩ := hall s (by simp)
        rw [hx] at hy
        cases hy
        exact absurd hm' (hn xml rfl).2
    · rw [h4 e he]
      constructor
      · intro h; cases h
      · intro hall
        obtain ⟨y, hy, -⟩ := hall s (by simp)
        rw [he] at hy
        cases hy

theorem silent_decides (k : Codec) (md : Metadata) (s : Xml) (h : Silent k s) :
    ∃ y, extractXml k s = .ok y ∧ ∀ x, y = some x → ¬ Verif.Spec.Factory.Decides md x := by
  obtain ⟨y, hy, hn⟩ := h
  refine ⟨y, hy, fun x hx => ?_⟩
  obtain ⟨a, b⟩ := hn x hx
  rintro (h | ⟨h, -⟩)
  · exact a h
  · exact b h

/-- The model that the sensor model factory makes from the text. -/
def modelOf {M : Type} (b : Builders M) (sel : Selected) : Option M :=
  match sel.product with
  | .sidd => b.sidd sel.xml
  | .sicd => b.sicd sel.xml

theorem dess_getD (lib : Lib) (md : Metadata) {M : Type} (b : Builders M) (p : Option M) (lists : List Xml)
    (hl : parsedLists lib.parse ((md.dess.getD []).map String.toList) = .ok lists) :
    desModel b lib md p = fromSegments b lib.codec (md.isSelected .sicd) p (segments lists "XML_DATA_CONTENT") := by
  unfold desModel
  cases hd : md.dess with
  | none =>
    rw [hd] at hl
    cases hl
    rfl
  | some l =>
    rw [hd] at hl
    cases l with
    | nil => cases hl; rfl
    | cons a l =>
      simp only [Option.getD_some] at hl
      simp only
      rw [hl]
      rfl

/-- **C101**: the metadata that is written into tiles and the sensor model of the image come from the same segment and the same reading of it (SIDD or SICD), when SICD models are not
excluded by the caller. -/
theorem same_segment_as_sensor_model {M : Type} (lib : Lib) (parses : Product → String → Except PyErr Unit) (md : Metadata)
    (hs : Verif.Spec.Factory.Selected md .sicd) (b : Builders M) (p : Option M) (r : Option Selected)
    (h : newFactory lib parses "NITF" md.dess = .ok r) :
    (∀ sel, r = some sel → desModel b lib md p = .ok (modelOf b sel)) ∧ (r = none → desModel b lib md p = .ok p) := by
  unfold newFactory at h
  rw [if_pos rfl] at h
  cases hl : parsedLists lib.parse ((md.dess.getD []).map String.toList) with
  | error e => rw [hl] at h; cases h
  | ok lists =>
    rw [hl] at h
    simp only [bind, Except.bind] at h
    rw [dess_getD lib md b p lists hl]
    constructor
    · rintro sel rfl
      obtain ⟨pre, s, post, hsegs, hpre, hx, -, -, h1, h2⟩ := (segment_selected ..).1 h
      obtain ⟨prod, xml, hd⟩ := sel
      refine Verif.Props.Factory.fromSegments_ok b lib.codec md p _ (some (modelOf b ⟨prod, xml, hd⟩)) (.inl ⟨pre, s, post, xml, hsegs, hx, ?_, fun q hq => silent_decides _ _ _ (hpre q hq), ?_⟩)
      · cases prod with
        | sidd => exact .inl (h1.1 rfl)
        | sicd => exact .inr ⟨h2 rfl, hs⟩
      · cases prod with
        | sidd => exact ⟨fun _ => rfl, fun h => absurd (h1.1 rfl) h⟩
        | sicd => exact ⟨fun h => by simpa using h1.2 h, fun _ => rfl⟩
    · rintro rfl
      have := (no_segment_selected ..).1 h
      exact Verif.Props.Factory.fromSegments_ok b lib.codec md p _ none (.inr ⟨fun q hq => silent_decides _ _ _ (this q hq), rfl⟩)

/-- A segment with a full header and the given text. -/
def demoSegment (text : String) : Xml :=
  match Verif.Props.Des.demoDes "U" "XY" with
  | .node t a cs => .node t a (cs ++ [.node "field" [("name", "DESDATA"), ("value", text)] []])

def demoCodec : Codec := ⟨fun v => .ok v, fun _ => ""⟩

/-- Premises: a segment that says nothing, a SIDD that also mentions SICD, and a SICD. -/
example : ∃ h, select demoReal demoCodec (fun _ _ => .ok ()) [demoSegment "<other/>", demoSegment "<SIDD><SICD/></SIDD>", demoSegment "<SICD/>"] =
    .ok (some ⟨.sidd, "<SIDD><SICD/></SIDD>", h⟩) := by
  obtain ⟨h, hh⟩ : ∃ h, header demoReal (demoSegment "<SIDD><SICD/></SIDD>") = .ok h := ⟨_, rfl⟩
  refine ⟨h, (segment_selected ..).2 ⟨[demoSegment "<other/>"], _, _, rfl, ?_, rfl, hh, rfl, ⟨fun _ => ?_, fun _ => rfl⟩, by simp⟩⟩
  · intro p hp
    rw [List.mem_singleton] at hp
    subst hp
    refine ⟨_, rfl, fun x hx => ?_⟩
    cases hx
    unfold Mentions
    decide
  · show "SIDD".toList <:+: "<SIDD><SICD/></SIDD>".toList
    decide

/-! ## Options of a SIDD tile (C102) -/

/-- **C102** (in part): every NITF tile of an image with SAR metadata says that it is a complex image without display, of the two bands I and Q.  Missing: this is right for SICD only, see
`sidd_tile_marked_complex`. -/
theorem sar_tile_marked_complex_partial {S : Type} (c : Verif.TileFactory.Config S) (hf : c.format = .nitf) (hs : c.sar ≠ none) (st : Verif.TileFactory.State S) (base : List String)
    (hst : st.heap[st.defaults.creationOptions]? = some base)
    (history : List (String × (Verif.TileFactory.Call → Bool × Except PyErr Bool) × Verif.Updaters.Request)) (translate : Verif.TileFactory.Call → Bool × Except PyErr Bool) (name : String)
    (q : Verif.Updaters.Request) (call : Verif.TileFactory.Call)
    (h : (Verif.TileFactory.createEncodedTile c translate name q (Verif.TileFactory.serve c st history)).2.2 = some call) :
    "ICAT=SAR" ∈ call.options ∧ "IREP=NODISPLY" ∈ call.options ∧ "ISUBCAT=I,Q" ∈ call.options := by
  obtain ⟨-, -, -, -, -, -, corners, metadata, ho, -, -, -, -, hm⟩ := Verif.Props.TileFactory.tile_options c st base hst history translate name q call h
  obtain ⟨⟨u, e, hd⟩, hsar⟩ := Option.ne_none_iff_exists'.1 hs
  obtain ⟨s, -, hmd⟩ := hm u e hd hf hsar
  rw [ho, hmd]
  simp

/-- **C102** is false for SIDD: also a tile of a detected image is marked as complex, of the bands I and Q. -/
theorem sidd_tile_marked_complex (encode : Option (Verif.Updaters.Chip ℚ) → String) (header : String) (d : Verif.TileFactory.Kwargs) (base : List String)
    (translate : Verif.TileFactory.Call → Bool × Except PyErr Bool) (name : String) (win : Verif.Updaters.Window) :
    let c : Verif.TileFactory.Config (Option (Verif.Updaters.Chip ℚ)) := ⟨.nitf, none, some (Verif.Updaters.siddUpdate, encode, header)⟩
    let st : Verif.TileFactory.State (Option (Verif.Updaters.Chip ℚ)) := ⟨[base], none, [], { d with creationOptions := 0 }⟩
    ∃ call, (Verif.TileFactory.createEncodedTile c translate name ⟨win, none⟩ st).2.2 = some call ∧ "IREP=NODISPLY" ∈ call.options ∧ "ISUBCAT=I,Q" ∈ call.options := by
  intro c st
  have hcall : ∃ call, (Verif.TileFactory.createEncodedTile c translate name ⟨win, none⟩ st).2.2 = some call := by
    have alone := Verif.Props.Updaters.sidd_tiles_accumulate (K := ℚ) [] (by simp) win
    simp only [Verif.Updaters.runAll, List.map_nil, List.foldl_nil, List.sum_nil, zero_add] at alone
    rw [Verif.Props.TileFactory.create_call c base st.defaults _ _ _ _ ⟨rfl, rfl⟩]
    simp only [Verif.Props.TileFactory.extraOptions, c, st, alone, bind, Except.bind, pure, Except.pure]
    exact ⟨_, rfl⟩
  obtain ⟨call, hcall⟩ := hcall
  obtain ⟨-, h1, h2⟩ := sar_tile_marked_complex_partial c rfl (by simp [c]) st base rfl [] translate name ⟨win, none⟩ call hcall
  exact ⟨call, hcall, h1, h2⟩

/-! ## Complex pixels (C103, C104) -/

/-- A mean as the factory estimates it from the statistics of the bands: the root of the sum of squares of mean plus 50/68 of the deviation. -/
def IsEstimate (bands : List (ℝ × ℝ × ℝ × ℝ)) (m : ℝ) : Prop :=
  0 ≤ m ∧ m * m = (bands.map (fun b => (b.2.2.1 + 50 / 68 * b.2.2.2) * (b.2.2.1 + 50 / 68 * b.2.2.2))).sum

/-- The statistics as GDAL gives them. -/
def statsOf (bands : List (ℝ × ℝ × ℝ × ℝ)) : List (Option (List ℝ)) := bands.map (fun b => some [b.1, b.2.1, b.2.2.1, b.2.2.2])

theorem bandMeans_statsOf (bands : List (ℝ × ℝ × ℝ × ℝ)) : bandMeans (statsOf bands) = bands.map (fun b => b.2.2.2 * 50 / 68 + b.2.2.1) := by
  unfold bandMeans statsOf
  induction bands with
  | nil => rfl
  | cons b bs ih => rw [List.map_cons, List.filterMap_cons]; simpa using ih

theorem precomputedMean_estimate (bands : List (ℝ × ℝ × ℝ × ℝ)) (hb : bands ≠ []) : ∃ m, precomputedMean (statsOf bands) = some m ∧ IsEstimate bands m := by
  unfold precomputedMean
  rw [bandMeans_statsOf, if_pos (by simpa using List.length_pos_iff.2 hb)]
  refine ⟨_, rfl, Real.sqrt_nonneg _, ?_⟩
  rw [Real.mul_self_sqrt]
  · rw [List.map_map]
    congr 1
    apply List.map_congr_left
    intro b _
    simp only [Function.comp]
    ring
  · apply List.sum_nonneg
    intro x hx
    obtain ⟨y, -, rfl⟩ := List.mem_map.1 hx
    positivity

theorem toComplex_none (px : List Verif.Sar.Px) : px.mapM (Verif.Sar.toComplex none none) = .ok px := by
  rw [Verif.Props.Tre.mapM_ok]
  induction px with
  | nil => exact .nil
  | cons p ps ih => exact .cons (by simp [Verif.Sar.toComplex]) ih

/-- **C103** (in part): with statistics for its bands, a complex image is shown with one brightness function for all tiles: the magnitude of a pixel in proportion to three times the estimated mean, which is
white.  Missing: images without statistics, see `sar_tiles_differ_without_statistics`; images that are 0 everywhere, see `sar_zero_statistics`; integer pixels (C48). -/
theorem sar_brightness_partial (bands : List (ℝ × ℝ × ℝ × ℝ)) (hb : bands ≠ []) (m : ℝ) (hm : IsEstimate bands m) (hm0 : 0 < m) (pixels : List Verif.Sar.Px) :
    ∃ out, normalizeComplexSar (statsOf bands) pixels = .ok out ∧ out.length = pixels.length ∧
      ∀ (i : Nat) (re im : ℝ), pixels[i]? = some (.reals re im) → ∃ r, out[i]? = some (some r) ∧ Verif.Props.Sar.Stretched (3 * m) (Real.sqrt (re * re + im * im)) r := by
  obtain ⟨m', hm', he⟩ := precomputedMean_estimate bands hb
  have hmm : m' = m := by
    have : m' * m' = m * m := he.2.trans hm.2.symm
    nlinarith [he.1, hm.1, this]
  subst hmm
  unfold normalizeComplexSar quarterPowerImage
  rw [toComplex_none, hm']
  refine ⟨_, rfl, by simp [Verif.Sar.quarterPower], ?_⟩
  intro i re im hi
  obtain ⟨m2, hg, -, hv⟩ := Verif.Props.Sar.quarter_power_values 3 (by norm_num) (some m') (by rintro g hg; cases hg; exact hm0) (pixels.map (fun p => some (Verif.Sar.power p))) (by simp)
  obtain ⟨r, h1, h2⟩ := hv i (re * re + im * im) (by rw [List.getElem?_map, hi]; rfl)
  rw [hg m' rfl, abs_of_nonneg (by nlinarith [mul_self_nonneg re, mul_self_nonneg im])] at h2
  exact ⟨r, h1, h2⟩

/-- Premises. -/
example : IsEstimate [(0, 9, 3, 0), (0, 9, 4, 0)] 5 := by
  refine ⟨by norm_num, ?_⟩
  simp only [List.map_cons, List.map_nil, List.sum_cons, List.sum_nil]
  norm_num

/-- **C103** is false without statistics: then the same pixel is shown differently in two tiles (the pixel 1 alone and beside the pixel 3). -/
theorem sar_tiles_differ_without_statistics :
    normalizeComplexSar [none, none] [.reals 1 0] = .ok [some 85] ∧ normalizeComplexSar [none, none] [.reals 1 0, .reals 3 0] = .ok [some (85 / 2), some (255 / 2)] := by
  have hmean : ∀ l : List ℝ, l ≠ [] → Verif.Sar.finiteMean (l.map some) = some (l.sum / l.length) := by
    intro l hl
    unfold Verif.Sar.finiteMean
    have : (l.map some).filterMap id = l := by simp
    simp only [this]
    rw [if_neg hl]
  have h9 : Real.sqrt 9 = 3 := by rw [show (9 : ℝ) = 3 ^ 2 by norm_num]; exact Real.sqrt_sq (by norm_num)
  have hp : precomputedMean [none, none] = none := by simp [precomputedMean, bandMeans]
  unfold normalizeComplexSar quarterPowerImage
  rw [toComplex_none, toComplex_none, hp]
  simp only [bind, Except.bind, pure, Except.pure, Verif.Sar.quarterPower, List.map_cons, List.map_nil, Option.map_some, Verif.Sar.power, Option.none_or]
  rw [show (1 : ℝ) * 1 + 0 * 0 = 1 by norm_num, show (3 : ℝ) * 3 + 0 * 0 = 9 by norm_num, abs_of_pos (by norm_num : (0 : ℝ) < 1), abs_of_pos (by norm_num : (0 : ℝ) < 9), h9, Real.sqrt_one]
  have e1 := hmean [1] (by simp)
  have e2 := hmean [1, 3] (by simp)
  simp only [List.map_cons, List.map_nil] at e1 e2
  rw [e1, e2]
  simp only [Verif.Sar.stretchOne, Verif.Sar.clip, List.sum_cons, List.sum_nil, List.length_cons, List.length_nil]
  norm_num

/-- **C103** is false for statistics that are all 0: pixels with signal are white, others are NaN. -/
theorem sar_zero_statistics (n : Nat) (hn : 0 < n) (pixels : List Verif.Sar.Px) :
    ∃ out, normalizeComplexSar (statsOf (List.replicate n (0, 0, 0, 0))) pixels = .ok out ∧
      ∀ (i : Nat) (re im : ℝ), pixels[i]? = some (.reals re im) → out[i]? = some (if re = 0 ∧ im = 0 then none else some 255) := by
  obtain ⟨m, hm, he⟩ := precomputedMean_estimate (List.replicate n (0, 0, 0, 0)) (by intro h; simp at h; omega)
  have hm0 : m = 0 := by
    have h2 := he.2
    rw [List.map_replicate] at h2
    simp at h2
    exact h2
  subst hm0
  unfold normalizeComplexSar quarterPowerImage
  rw [toComplex_none, hm]
  refine ⟨_, rfl, ?_⟩
  intro i re im hi
  simp only [Verif.Sar.quarterPower, List.map_map, List.getElem?_map, hi, Option.map_some, Function.comp, Verif.Sar.power, Option.some_or, Verif.Sar.stretchOne, mul_zero, if_true]
  have hnn : 0 ≤ re * re + im * im := by nlinarith [mul_self_nonneg re, mul_self_nonneg im]
  by_cases hz : re = 0 ∧ im = 0
  · rw [if_pos hz, if_pos (by rw [hz.1, hz.2]; simp)]
  · have hpos : 0 < re * re + im * im := by
      rcases hnn.lt_or_eq with h | h
      · exact h
      · exfalso
        apply hz
        constructor <;> nlinarith [mul_self_nonneg re, mul_self_nonneg im]
    have hs : 0 < Real.sqrt |re * re + im * im| := Real.sqrt_pos.2 (abs_pos.2 hpos.ne')
    rw [if_neg hz, if_neg hs.ne', if_pos hs]

/-- An image shows a quantity in proportion, up to white. -/
def Shows (quantity : ℝ → ℝ → ℝ) (pixels : List (ℝ × ℝ)) (out : List (Option ℝ)) : Prop :=
  ∃ κ, 0 < κ ∧ List.Forall₂ (fun p o => o = some (min (κ * quantity p.1 p.2) 255)) pixels out

/-- The pixels as an array. -/
def floats (pixels : List (ℝ × ℝ)) : List Verif.Sar.Px := pixels.map (fun p => .reals p.1 p.2)

theorem stretchOne_shows (scale m x : ℝ) (hs : 0 < scale) (hm : 0 < m) (hx : 0 ≤ x) :
    Verif.Sar.stretchOne scale (some m) (some x) = some (min (255 / (scale * m) * x) 255) := by
  have hp := mul_pos hs hm
  simp only [Verif.Sar.stretchOne, if_neg hp.ne', Verif.Sar.clip]
  rw [max_eq_left (by positivity), mul_one_div]

theorem forall₂_map {α β γ : Type} (f : α → β) (R : γ → β → Prop) (g : α → γ) (l : List α) (h : ∀ a ∈ l, R (g a) (f a)) : List.Forall₂ R (l.map g) (l.map f) := by
  induction l with
  | nil => exact .nil
  | cons a l ih => exact .cons (h a (by simp)) (ih (fun b hb => h b (by simp [hb])))

theorem finiteMean_pos' (pixels : List (ℝ × ℝ)) (q : ℝ × ℝ → ℝ) (hq : ∀ p, 0 ≤ q p) (hp : ∃ p ∈ pixels, 0 < q p) :
    ∃ m, Verif.Sar.finiteMean (pixels.map (fun p => some (q p))) = some m ∧ 0 < m := by
  apply Verif.Props.Sar.finiteMean_pos
  · intro x hx
    obtain ⟨p, -, he⟩ := List.mem_map.1 hx
    cases he
    exact hq p
  · obtain ⟨p, hp, h⟩ := hp
    exact ⟨q p, List.mem_map.2 ⟨p, hp, rfl⟩, h⟩

theorem power_nonneg (p : ℝ × ℝ) : 0 ≤ p.1 * p.1 + p.2 * p.2 := by nlinarith [mul_self_nonneg p.1, mul_self_nonneg p.2]

/-- **C104** (in part): `quarter_power_image` shows the magnitude of the pixels in proportion and `histogram_stretch` their power.  Missing: what the documentation says, see
`quarter_power_is_half_power` and `histogram_stretch_is_of_power`. -/
theorem sar_images_show_partial (scale : ℝ) (hs : 0 < scale) (given : Option ℝ) (hg : ∀ m, given = some m → 0 < m) (pixels : List (ℝ × ℝ)) (hp : ∃ p ∈ pixels, p.1 ≠ 0 ∨ p.2 ≠ 0) :
    (∃ out, quarterPowerImage none none scale given (floats pixels) = .ok out ∧ Shows (fun re im => Real.sqrt (re * re + im * im)) pixels out) ∧
    (∃ out, histogramStretchImage none none scale (floats pixels) = .ok out ∧ Shows (fun re im => re * re + im * im) pixels out) := by
  have hpos : ∃ p ∈ pixels, 0 < p.1 * p.1 + p.2 * p.2 := by
    obtain ⟨p, hp, h⟩ := hp
    refine ⟨p, hp, ?_⟩
    rcases h with h | h
    · nlinarith [mul_self_pos.2 h, mul_self_nonneg p.2]
    · nlinarith [mul_self_pos.2 h, mul_self_nonneg p.1]
  constructor
  · unfold quarterPowerImage
    rw [toComplex_none]
    refine ⟨_, rfl, ?_⟩
    have hroots : (((floats pixels).map (fun p => some (Verif.Sar.power p))).map (Option.map (fun x => Real.sqrt |x|))) =
        pixels.map (fun p => some (Real.sqrt (p.1 * p.1 + p.2 * p.2))) := by
      unfold floats
      rw [List.map_map, List.map_map]
      apply List.map_congr_left
      intro p _
      simp only [Function.comp, Option.map_some, Verif.Sar.power, abs_of_nonneg (power_nonneg p)]
    obtain ⟨m, hm, hm0⟩ : ∃ m, given.or (Verif.Sar.finiteMean (pixels.map (fun p => some (Real.sqrt (p.1 * p.1 + p.2 * p.2))))) = some m ∧ 0 < m := by
      cases given with
      | some m => exact ⟨m, rfl, hg m rfl⟩
      | none =>
        obtain ⟨p, hp, h⟩ := hpos
        exact finiteMean_pos' pixels (fun p => Real.sqrt (p.1 * p.1 + p.2 * p.2)) (fun p => Real.sqrt_nonneg _) ⟨p, hp, Real.sqrt_pos.2 h⟩
    refine ⟨255 / (scale * m), by positivity, ?_⟩
    unfold Verif.Sar.quarterPower
    simp only [hroots, hm, List.map_map]
    have := forall₂_map (fun p : ℝ × ℝ => Verif.Sar.stretchOne scale (some m) (some (Real.sqrt (p.1 * p.1 + p.2 * p.2))))
      (fun p o => o = some (min (255 / (scale * m) * Real.sqrt (p.1 * p.1 + p.2 * p.2)) 255)) id pixels (fun p _ => stretchOne_shows scale m _ hs hm0 (Real.sqrt_nonneg _))
    simpa using this
  · unfold histogramStretchImage
    rw [toComplex_none]
    refine ⟨_, rfl, ?_⟩
    have hpow : (floats pixels).map (fun p => some (Verif.Sar.power p)) = pixels.map (fun p => some (p.1 * p.1 + p.2 * p.2)) := by
      unfold floats
      rw [List.map_map]
      rfl
    obtain ⟨m, hm, hm0⟩ := finiteMean_pos' pixels (fun p => p.1 * p.1 + p.2 * p.2) power_nonneg hpos
    refine ⟨255 / (scale * m), by positivity, ?_⟩
    unfold Verif.Sar.histogramStretch
    rw [hpow, hm, List.map_map]
    have := forall₂_map (fun p : ℝ × ℝ => Verif.Sar.stretchOne scale (some m) (some (p.1 * p.1 + p.2 * p.2)))
      (fun p o => o = some (min (255 / (scale * m) * (p.1 * p.1 + p.2 * p.2)) 255)) id pixels (fun p _ => stretchOne_shows scale m _ hs hm0 (power_nonneg p))
    simpa using this

/-- An image with one bright and one black pixel. -/
example : ∃ out, histogramStretchImage none none 24 (floats [(3, 4), (0, 0)]) = .ok out ∧ Shows (fun re im => re * re + im * im) [(3, 4), (0, 0)] out :=
  (sar_images_show_partial 24 (by norm_num) none (by simp) [(3, 4), (0, 0)] ⟨(3, 4), by simp, by norm_num⟩).2

theorem ratio_excludes (κ κ' a b : ℝ) (hκ : 0 < κ) (hab : a ≠ b) (h1 : κ < 255) (hb : κ * b < 255) (e1 : κ = min κ' 255) (e2 : κ * b = min (κ' * a) 255) : False := by
  have h3 : κ' = κ := by
    rcases min_choice κ' 255 with h | h
    · rw [h] at e1; exact e1.symm
    · rw [h] at e1; linarith
  subst h3
  rcases min_choice (κ' * a) 255 with h | h
  · rw [h] at e2
    exact hab (mul_left_cancel₀ hκ.ne' e2).symm
  · rw [h] at e2; linarith

/-- **C104** is false for `quarter_power_image`: the image does not show the fourth root of the power (the quarter power of its name, the root of the magnitude).  Pixels of magnitudes 1 and 4, with the mean 4. -/
theorem quarter_power_is_half_power :
    ∃ out, quarterPowerImage none none 3 (some 4) (floats [(1, 0), (4, 0)]) = .ok out ∧ Shows (fun re im => Real.sqrt (re * re + im * im)) [(1, 0), (4, 0)] out ∧
      ¬ Shows (fun re im => Real.sqrt (Real.sqrt (re * re + im * im))) [(1, 0), (4, 0)] out := by
  have h4 : Real.sqrt (4 * 4 + 0 * 0) = 4 := by rw [show (4 * 4 + 0 * 0 : ℝ) = 4 ^ 2 by norm_num]; exact Real.sqrt_sq (by norm_num)
  have h2 : Real.sqrt 4 = 2 := by rw [show (4 : ℝ) = 2 ^ 2 by norm_num]; exact Real.sqrt_sq (by norm_num)
  have h1 : Real.sqrt (1 * 1 + 0 * 0) = 1 := by norm_num
  have hout : quarterPowerImage none none 3 (some 4) (floats [(1, 0), (4, 0)]) = .ok [some (85 / 4), some 85] := by
    unfold quarterPowerImage
    rw [toComplex_none]
    simp only [bind, Except.bind, pure, Except.pure, Verif.Sar.quarterPower, floats, List.map_cons, List.map_nil, Option.map_some, Verif.Sar.power, Option.some_or]
    rw [abs_of_nonneg (by norm_num : (0 : ℝ) ≤ 1 * 1 + 0 * 0), abs_of_nonneg (by norm_num : (0 : ℝ) ≤ 4 * 4 + 0 * 0), h1, h4, stretchOne_shows 3 4 1 (by norm_num) (by norm_num) (by norm_num),
      stretchOne_shows 3 4 4 (by norm_num) (by norm_num) (by norm_num)]
    norm_num
  refine ⟨_, hout, ⟨85 / 4, by norm_num, .cons ?_ (.cons ?_ .nil)⟩, ?_⟩
  · simp only [h1]; norm_num
  · simp only [h4]; norm_num
  · rintro ⟨κ, hκ, hf⟩
    rcases hf with _ | ⟨e1, _ | ⟨e2, -⟩⟩
    simp only [h1, Real.sqrt_one] at e1
    simp only [mul_one, Option.some.injEq] at e1
    simp only [h4, h2, Option.some.injEq] at e2
    refine ratio_excludes (85 / 4) κ 2 4 (by norm_num) (by norm_num) (by norm_num) (by norm_num) e1 ?_
    rw [← e2]
    norm_num

/-- **C104** is false for `histogram_stretch`: the image does not show the magnitude of the pixels.  Pixels of magnitudes 1 and 2. -/
theorem histogram_stretch_is_of_power :
    ∃ out, histogramStretchImage none none 8 (floats [(1, 0), (2, 0)]) = .ok out ∧ Shows (fun re im => re * re + im * im) [(1, 0), (2, 0)] out ∧
      ¬ Shows (fun re im => Real.sqrt (re * re + im * im)) [(1, 0), (2, 0)] out := by
  have h2 : Real.sqrt (2 * 2 + 0 * 0) = 2 := by rw [show (2 * 2 + 0 * 0 : ℝ) = 2 ^ 2 by norm_num]; exact Real.sqrt_sq (by norm_num)
  have h1 : Real.sqrt (1 * 1 + 0 * 0) = 1 := by norm_num
  have hm : Verif.Sar.finiteMean [some 1, some 4] = some (5 / 2) := by
    unfold Verif.Sar.finiteMean
    simp only [List.filterMap_cons, List.filterMap_nil, id, List.sum_cons, List.sum_nil, List.length_cons, List.length_nil]
    rw [if_neg (by simp)]
    norm_num
  have hout : histogramStretchImage none none 8 (floats [(1, 0), (2, 0)]) = .ok [some (51 / 4), some 51] := by
    unfold histogramStretchImage
    rw [toComplex_none]
    simp only [bind, Except.bind, pure, Except.pure, Verif.Sar.histogramStretch, floats, List.map_cons, List.map_nil, Verif.Sar.power]
    rw [show (1 * 1 + 0 * 0 : ℝ) = 1 by norm_num, show (2 * 2 + 0 * 0 : ℝ) = 4 by norm_num, hm, stretchOne_shows 8 (5 / 2) 1 (by norm_num) (by norm_num) (by norm_num),
      stretchOne_shows 8 (5 / 2) 4 (by norm_num) (by norm_num) (by norm_num)]
    norm_num
  refine ⟨_, hout, ⟨51 / 4, by norm_num, .cons ?_ (.cons ?_ .nil)⟩, ?_⟩
  · norm_num
  · norm_num
  · rintro ⟨κ, hκ, hf⟩
    rcases hf with _ | ⟨e1, _ | ⟨e2, -⟩⟩
    simp only [h1] at e1
    simp only [mul_one, Option.some.injEq] at e1
    simp only [h2, Option.some.injEq] at e2
    refine ratio_excludes (51 / 4) κ 2 4 (by norm_num) (by norm_num) (by norm_num) (by norm_num) e1 ?_
    rw [← e2]
    norm_num

/-! ## Decibels (C105) -/

/-- **C105**: decibels keep the order of powers, no power is minus infinity, ten times the power is ten decibels more, powers of ten are exact, and the power can be had back. -/
theorem decibels_law (x y : ℝ) (hx : 0 ≤ x) (hy : 0 ≤ y) :
    ∃ a b, decibels x = some a ∧ decibels y = some b ∧ (x < y ↔ a < b) ∧ (a = ⊥ ↔ x = 0) ∧ a ≠ ⊤ ∧
      (0 < x → 0 < y → decibels (x * y) = some (a + b)) ∧ (0 < x → (10 : ℝ) ^ (a.toReal / 10) = x) := by
  have hdb : ∀ z : ℝ, 0 < z → decibels z = some ((10 * Real.logb 10 z : ℝ) : EReal) := by
    intro z hz
    unfold decibels
    rw [if_neg (not_lt.2 hz.le), if_neg hz.ne']
  have h0 : decibels 0 = some ⊥ := by simp [decibels]
  have key : ∀ z : ℝ, 0 ≤ z → ∃ a, decibels z = some a ∧ (z = 0 → a = ⊥) ∧ (0 < z → a = ((10 * Real.logb 10 z : ℝ) : EReal)) := by
    intro z hz
    rcases hz.eq_or_lt with h | h
    · subst h
      exact ⟨⊥, h0, fun _ => rfl, fun h => absurd h (lt_irrefl _)⟩
    · exact ⟨_, hdb z h, fun e => absurd e h.ne', fun _ => rfl⟩
  obtain ⟨a, ha, ha0, hap⟩ := key x hx
  obtain ⟨b, hb, hb0, hbp⟩ := key y hy
  refine ⟨a, b, ha, hb, ?_, ?_, ?_, ?_, ?_⟩
  · rcases hx.eq_or_lt with h | h
    · rw [ha0 h.symm]
      rcases hy.eq_or_lt with h' | h'
      · rw [hb0 h'.symm]; simp [← h, ← h']
      · rw [hbp h', ← h]
        exact ⟨fun _ => EReal.bot_lt_coe _, fun _ => h'⟩
    · rw [hap h]
      rcases hy.eq_or_lt with h' | h'
      · rw [hb0 h'.symm, ← h']
        exact ⟨fun hh => absurd (hh.trans h) (lt_irrefl _), fun hh => absurd hh (by simp)⟩
      · rw [hbp h', EReal.coe_lt_coe_iff, mul_lt_mul_iff_right₀ (by norm_num : (0 : ℝ) < 10), Real.logb_lt_logb_iff (by norm_num) h h']
  · constructor
    · intro hbot
      by_contra hne
      rw [hap (lt_of_le_of_ne hx (Ne.symm hne))] at hbot
      exact EReal.coe_ne_bot _ hbot
    · exact ha0
  · rcases hx.eq_or_lt with h | h
    · rw [ha0 h.symm]; simp
    · rw [hap h]; exact EReal.coe_ne_top _
  · intro h h'
    rw [hdb _ (mul_pos h h'), hap h, hbp h', ← EReal.coe_add, Real.logb_mul h.ne' h'.ne', mul_add]
  · intro h
    rw [hap h, EReal.toReal_coe, mul_div_cancel_left₀ _ (by norm_num : (10 : ℝ) ≠ 0)]
    exact Real.rpow_logb (by norm_num) (by norm_num) h

/-- Premises: one watt against a hundred. -/
example : (0 : ℝ) ≤ 1 ∧ (0 : ℝ) ≤ 100 ∧ (1 : ℝ) < 100 := by norm_num

/-- **C105**: the decibel values of powers of ten; a negative number has none (NaN). -/
theorem decibels_values (n : Int) (x : ℝ) : decibels ((10 : ℝ) ^ n) = some ((10 * n : ℝ) : EReal) ∧ (decibels x = none ↔ x < 0) := by
  constructor
  · unfold decibels
    have hp : (0 : ℝ) < 10 ^ n := by positivity
    rw [if_neg (not_lt.2 hp.le), if_neg hp.ne', ← Real.rpow_intCast, Real.logb_rpow (by norm_num) (by norm_num)]
  · unfold decibels
    by_cases h : x < 0
    · simp [h]
    · by_cases h0 : x = 0 <;> simp [h, h0]

/-! ## Ground control points (C106) -/

/-- **C106**: fewer than four ground control points give no model.  Otherwise, when the points fit a projective map from longitude and latitude to the image and four of them are in general position,
the model places every point on its pixel, at any elevation. -/
theorem gcp_model_through_points {O : Type} (lstsq : List (Verif.Transforms.Row ℝ) → Verif.Transforms.Projective ℝ) (hl : ∀ rows, Verif.Transforms.IsLstsq rows (lstsq rows)) (rad : ℝ → ℝ) (gcps : List Gcp) :
    (gcps.length < 4 → gcpBuild (O := O) lstsq rad gcps = .ok none) ∧
    (4 ≤ gcps.length → ∀ t0 : Verif.Transforms.Projective ℝ, t0.det ≠ 0 → (∀ g ∈ gcps, t0.forward (rad g.x, rad g.y) = some (g.pixel, g.line)) →
      Verif.Spec.Transforms.GeneralPosition (gcps.map (fun g => (rad g.x, rad g.y))) →
      ∃ m, gcpBuild (O := O) lstsq rad gcps = .ok (some m) ∧ ∀ g ∈ gcps, ∀ z, m.worldToImage ⟨rad g.x, rad g.y, z⟩ = .ok (g.pixel, g.line)) := by
  constructor
  · intro h
    unfold gcpBuild
    rw [if_pos h]
  · intro h t0 hdet hmap hgp
    have hw : (gcps.map (fun g => (⟨rad g.x, rad g.y, g.z⟩ : Verif.Dem.Geo ℝ))).map (fun g => (g.longitude, g.latitude)) = gcps.map (fun g => (rad g.x, rad g.y)) := by
      rw [List.map_map]; rfl
    cases hp : Verif.Sensors.projective (O := O) lstsq (gcps.map (fun g => ⟨rad g.x, rad g.y, g.z⟩)) (gcps.map (fun g => (g.pixel, g.line))) with
    | error e =>
      exfalso
      unfold Verif.Sensors.projective Verif.Sensors.estimateStacked at hp
      rw [hw] at hp
      split_ifs at hp with hbad
      simp only [List.map_eq_nil_iff, List.length_map, ne_eq, not_true_eq_false, or_false, or_self] at hbad
      subst hbad
      simp at h
    | ok m =>
      refine ⟨m, by unfold gcpBuild; rw [if_neg (by omega), hp]; rfl, ?_⟩
      have key := Verif.Props.Sensors.projective_model_through_gcps lstsq hl _ _ m hp t0 hdet ?_ (by rw [hw]; exact hgp)
      · intro g hg z
        obtain ⟨i, hi, rfl⟩ := List.mem_iff_getElem.1 hg
        have := key i (by simpa using hi) (by simpa using hi)
        simp only [List.getElem_map] at this
        rw [← this]
        unfold Verif.Sensors.projective at hp
        split at hp
        · cases hp
        · cases hp
          rfl
      · rw [hw, List.zip_map']
        intro p hp'
        obtain ⟨g, hg, rfl⟩ := List.mem_map.1 hp'
        exact hmap g hg

/-- Premises: the corners of an image of 10 × 20 pixels. -/
example : let t0 : Verif.Transforms.Projective ℝ := ⟨0, 10, 0, 20, 0, -20, 0, 0⟩
    let gcps : List Gcp := [⟨0, 1, 5, 0, 0⟩, ⟨1, 1, 5, 10, 0⟩, ⟨1, 0, 5, 10, 20⟩, ⟨0, 0, 5, 0, 20⟩]
    t0.det ≠ 0 ∧ (∀ g ∈ gcps, t0.forward (g.x, g.y) = some (g.pixel, g.line)) ∧ Verif.Spec.Transforms.GeneralPosition (gcps.map (fun g => (g.x, g.y))) := by
  refine ⟨by norm_num [Verif.Transforms.Projective.det], ?_, ?_⟩
  · intro g hg
    simp only [List.mem_cons, List.not_mem_nil, or_false] at hg
    rcases hg with rfl | rfl | rfl | rfl <;> norm_num [Verif.Transforms.Projective.forward, Verif.Transforms.ndiv]
  · refine ⟨(0, 1), by simp, (1, 1), by simp, (1, 0), by simp, (0, 0), by simp, ?_⟩
    norm_num [Verif.Spec.Transforms.area]


end Verif.Props.SarTiles
