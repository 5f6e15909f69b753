import Verif.Model.Updaters
import Verif.Props.Sensors

/-!
# Theorems about the metadata of SICD and SIDD tiles
-/

set_option linter.unusedSectionVars false

namespace Verif.Props.Updaters

open Verif.Transforms Verif.Sensors Verif.Updaters

/-! ## SICD (C40) -/

theorem sicd_update_keeps_origin (s s' : Sicd) (q : Request) (h : s.update q = .ok s') :
    s'.originalFirstRow = s.originalFirstRow ∧ s'.originalFirstCol = s.originalFirstCol := by
  unfold Sicd.update at h
  split_ifs at h
  simp only [Except.ok.injEq] at h
  subst h
  exact ⟨rfl, rfl⟩

theorem sicd_run_keeps_origin (s : Sicd) (qs : List Request) :
    (runAll Sicd.update s qs).originalFirstRow = s.originalFirstRow ∧ (runAll Sicd.update s qs).originalFirstCol = s.originalFirstCol := by
  unfold runAll
  induction qs generalizing s with
  | nil => exact ⟨rfl, rfl⟩
  | cons q qs ih =>
    rw [List.foldl_cons]
    cases hu : s.update q with
    | error e => exact ih s
    | ok s' =>
      obtain ⟨h1, h2⟩ := ih s'
      obtain ⟨h3, h4⟩ := sicd_update_keeps_origin s s' q hu
      exact ⟨h1.trans h3, h2.trans h4⟩

/-- **C40**: whatever tiles were requested before, the metadata of an unscaled tile is the image's own
first row and column plus the offset, and the tile's size. -/
theorem sicd_tile_metadata (d : ImageData) (history : List Request) (win : Window) (out : Option (Int × Int))
    (hout : out = none ∨ out = some (win.w, win.h)) :
    ∃ s, (runAll Sicd.update (Sicd.new d) history).update ⟨win, out⟩ = .ok s ∧
      s.image = ⟨d.firstRow + win.y, d.firstCol + win.x, win.h, win.w⟩ := by
  obtain ⟨h1, h2⟩ := sicd_run_keeps_origin (Sicd.new d) history
  generalize runAll Sicd.update (Sicd.new d) history = run at *
  unfold Sicd.update
  have hn : ¬ (out.elim false fun o => decide (o.1 ≠ win.w ∨ o.2 ≠ win.h)) = true := by
    rcases hout with rfl | rfl <;> simp
  rw [if_neg hn, h1, h2]
  exact ⟨_, rfl, rfl⟩

/-- After two requests, one of them scaled. -/
example : ∃ s, (runAll Sicd.update (Sicd.new ⟨100, 200, 50, 60⟩) [⟨⟨1, 2, 3, 4⟩, none⟩, ⟨⟨1, 2, 3, 4⟩, some (6, 8)⟩]).update ⟨⟨10, 20, 5, 6⟩, none⟩ = .ok s ∧
    s.image = ⟨120, 210, 6, 5⟩ := sicd_tile_metadata ⟨100, 200, 50, 60⟩ _ ⟨10, 20, 5, 6⟩ none (.inl rfl)

/-- **C40**: a scaled request raises `ValueError`, and the metadata after it is what it was. -/
theorem sicd_scaled_request_rejected (d : ImageData) (history : List Request) (win : Window) (out : Int × Int)
    (hout : out ≠ (win.w, win.h)) :
    (runAll Sicd.update (Sicd.new d) history).update ⟨win, some out⟩ = .error .valueError ∧
    runAll Sicd.update (Sicd.new d) (history ++ [⟨win, some out⟩]) = runAll Sicd.update (Sicd.new d) history := by
  have h : (runAll Sicd.update (Sicd.new d) history).update ⟨win, some out⟩ = .error .valueError := by
    generalize runAll Sicd.update (Sicd.new d) history = run
    unfold Sicd.update
    rw [if_pos]
    simp only [Option.elim_some, decide_eq_true_eq]
    by_contra hc
    push Not at hc
    exact hout (Prod.ext hc.1 hc.2)
  refine ⟨h, ?_⟩
  unfold runAll at h ⊢
  rw [List.foldl_append, List.foldl_cons, List.foldl_nil, h]

/-- **C40**: a tile of a tile has the sum of the offsets, whatever else was requested from either. -/
theorem sicd_tile_of_tile (d : ImageData) (history history' : List Request) (win win' : Window) (s : Sicd)
    (h : (runAll Sicd.update (Sicd.new d) history).update ⟨win, none⟩ = .ok s) :
    ∃ s', (runAll Sicd.update (Sicd.new s.image) history').update ⟨win', none⟩ = .ok s' ∧
      s'.image = ⟨d.firstRow + (win.y + win'.y), d.firstCol + (win.x + win'.x), win'.h, win'.w⟩ := by
  obtain ⟨t, ht, hi⟩ := sicd_tile_metadata d history win none (.inl rfl)
  rw [h] at ht
  simp only [Except.ok.injEq] at ht
  subst ht
  obtain ⟨s', hs', hi'⟩ := sicd_tile_metadata s.image history' win' none (.inl rfl)
  refine ⟨s', hs', ?_⟩
  rw [hi', hi]
  simp [add_assoc]

/-- After two requests, one of them rejected, from an image that is itself a chip. -/
example : (runAll Sicd.update (Sicd.new ⟨100, 200, 50, 60⟩) [⟨⟨1, 2, 3, 4⟩, none⟩, ⟨⟨1, 2, 3, 4⟩, some (6, 8)⟩]).update
    ⟨⟨10, 20, 5, 6⟩, some (5, 6)⟩ = .ok ⟨100, 200, ⟨120, 210, 6, 5⟩⟩ := by decide

section
variable {K : Type} [Field K] [LinearOrder K] [IsStrictOrderedRing K]

/-! ## Interpolation of chip coordinates (C43) -/

theorem pyDiv_ok (a : K) (b : Int) (h : b ≠ 0) : pyDiv a b = .ok (a / (b : K)) := by
  unfold pyDiv; rw [if_neg h]

theorem chippedToFull_ok (p : K × K) (g : Chip K) (hc : g.cols ≠ 1) (hr : g.rows ≠ 1) :
    chippedToFull p g = .ok
      (bilinear (p.2 / ((g.rows - 1 : Int) : K)) (p.1 / ((g.cols - 1 : Int) : K)) g.ul.1 g.ur.1 g.lr.1 g.ll.1,
       bilinear (p.2 / ((g.rows - 1 : Int) : K)) (p.1 / ((g.cols - 1 : Int) : K)) g.ul.2 g.ur.2 g.lr.2 g.ll.2) := by
  unfold chippedToFull
  rw [pyDiv_ok _ _ (by omega), pyDiv_ok _ _ (by omega)]
  rfl

/-- **C43** (in part): the corner pixels of a chip are at the recorded corners.  Missing: chips one pixel wide or
high, see `one_pixel_chip_raises`. -/
theorem chip_corners_hit_partial (g : Chip K) (hc : g.cols ≠ 1) (hr : g.rows ≠ 1) :
    chippedToFull (0, 0) g = .ok g.ul ∧ chippedToFull (((g.cols : K) - 1), 0) g = .ok g.ur ∧
    chippedToFull (((g.cols : K) - 1), ((g.rows : K) - 1)) g = .ok g.lr ∧ chippedToFull (0, ((g.rows : K) - 1)) g = .ok g.ll := by
  have h1 : (g.cols : K) - 1 ≠ 0 := by
    have : ((g.cols - 1 : Int) : K) ≠ 0 := Int.cast_ne_zero.2 (by omega)
    simpa using this
  have h2 : (g.rows : K) - 1 ≠ 0 := by
    have : ((g.rows - 1 : Int) : K) ≠ 0 := Int.cast_ne_zero.2 (by omega)
    simpa using this
  simp only [chippedToFull_ok _ g hc hr, bilinear, Int.cast_sub, Int.cast_one, zero_div, div_self h1, div_self h2, Except.ok.injEq, Prod.ext_iff]
  refine ⟨⟨?_, ?_⟩, ⟨?_, ?_⟩, ⟨?_, ?_⟩, ?_, ?_⟩ <;> ring

/-- A rotated chip of 3 by 5 pixels. -/
example : chippedToFull ((2 : ℚ), 4) ⟨3, 5, (0, 2), (2, 4), (4, 2), (2, 0)⟩ = .ok (4, 2) := by
  have h := (chip_corners_hit_partial (⟨3, 5, (0, 2), (2, 4), (4, 2), (2, 0)⟩ : Chip ℚ) (by decide) (by decide)).2.2.1
  norm_num at h
  exact h

theorem bilinear_bounds (u v ul ur lr ll lo hi : K) (hu0 : 0 ≤ u) (hu1 : u ≤ 1) (hv0 : 0 ≤ v) (hv1 : v ≤ 1)
    (h1 : lo ≤ ul ∧ ul ≤ hi) (h2 : lo ≤ ur ∧ ur ≤ hi) (h3 : lo ≤ lr ∧ lr ≤ hi) (h4 : lo ≤ ll ∧ ll ≤ hi) :
    lo ≤ bilinear u v ul ur lr ll ∧ bilinear u v ul ur lr ll ≤ hi := by
  have e : bilinear u v ul ur lr ll = (1 - u) * ((1 - v) * ul + v * ur) + u * ((1 - v) * ll + v * lr) := by
    unfold bilinear; ring
  have mix : ∀ (t a b : K), 0 ≤ t → t ≤ 1 → (lo ≤ a ∧ a ≤ hi) → (lo ≤ b ∧ b ≤ hi) → lo ≤ (1 - t) * a + t * b ∧ (1 - t) * a + t * b ≤ hi := by
    intro t a b h0 h1 ha hb
    constructor <;> nlinarith [mul_nonneg h0 (sub_nonneg.2 hb.1), mul_nonneg h0 (sub_nonneg.2 hb.2),
      mul_nonneg (sub_nonneg.2 h1) (sub_nonneg.2 ha.1), mul_nonneg (sub_nonneg.2 h1) (sub_nonneg.2 ha.2)]
  rw [e]
  exact mix u _ _ hu0 hu1 (mix v _ _ hv0 hv1 h1 h2) (mix v _ _ hv0 hv1 h4 h3)

/-- **C43** (in part): every pixel of the chip is inside every box around the recorded corners. -/
theorem chip_pixels_inside_partial (g : Chip K) (p : K × K) (x0 x1 y0 y1 : K) (hc : 1 < g.cols) (hr : 1 < g.rows)
    (hpx : 0 ≤ p.1 ∧ p.1 ≤ (g.cols : K) - 1) (hpy : 0 ≤ p.2 ∧ p.2 ≤ (g.rows : K) - 1)
    (hbox : ∀ q ∈ [g.ul, g.ur, g.lr, g.ll], (x0 ≤ q.1 ∧ q.1 ≤ x1) ∧ (y0 ≤ q.2 ∧ q.2 ≤ y1)) :
    ∃ q, chippedToFull p g = .ok q ∧ (x0 ≤ q.1 ∧ q.1 ≤ x1) ∧ (y0 ≤ q.2 ∧ q.2 ≤ y1) := by
  refine ⟨_, chippedToFull_ok p g (by omega) (by omega), ?_⟩
  have h1 : (0 : K) < ((g.cols - 1 : Int) : K) := Int.cast_pos.2 (by omega)
  have h2 : (0 : K) < ((g.rows - 1 : Int) : K) := Int.cast_pos.2 (by omega)
  have e1 : ((g.cols - 1 : Int) : K) = (g.cols : K) - 1 := by push_cast; ring
  have e2 : ((g.rows - 1 : Int) : K) = (g.rows : K) - 1 := by push_cast; ring
  have u0 := div_nonneg hpy.1 h2.le
  have v0 := div_nonneg hpx.1 h1.le
  have u1 : p.2 / ((g.rows - 1 : Int) : K) ≤ 1 := (div_le_one h2).2 (e2 ▸ hpy.2)
  have v1 : p.1 / ((g.cols - 1 : Int) : K) ≤ 1 := (div_le_one h1).2 (e1 ▸ hpx.2)
  have b1 := hbox g.ul (by simp)
  have b2 := hbox g.ur (by simp)
  have b3 := hbox g.lr (by simp)
  have b4 := hbox g.ll (by simp)
  exact ⟨bilinear_bounds _ _ _ _ _ _ _ _ u0 u1 v0 v1 b1.1 b2.1 b3.1 b4.1, bilinear_bounds _ _ _ _ _ _ _ _ u0 u1 v0 v1 b1.2 b2.2 b3.2 b4.2⟩

example : ∃ q, chippedToFull ((1 : ℚ), 3) ⟨3, 5, (0, 2), (2, 4), (4, 2), (2, 0)⟩ = .ok q ∧ (0 ≤ q.1 ∧ q.1 ≤ 4) ∧ (0 ≤ q.2 ∧ q.2 ≤ 4) :=
  chip_pixels_inside_partial ⟨3, 5, (0, 2), (2, 4), (4, 2), (2, 0)⟩ (1, 3) 0 4 0 4 (by decide) (by decide) (by norm_num) (by norm_num) (by decide +kernel)

/-- The chip that is the crop at the offset (x, y). -/
def cropChip (x y : K) (cols rows : Int) : Chip K :=
  ⟨cols, rows, (x, y), (x + ((cols - 1 : Int) : K), y), (x + ((cols - 1 : Int) : K), y + ((rows - 1 : Int) : K)), (x, y + ((rows - 1 : Int) : K))⟩

/-- **C43** (in part): for a pure crop the interpolation is the shift by the offset, also outside the chip. -/
theorem crop_is_shift_partial (x y : K) (cols rows : Int) (p : K × K) (hc : cols ≠ 1) (hr : rows ≠ 1) :
    chippedToFull p (cropChip x y cols rows) = .ok (x + p.1, y + p.2) := by
  rw [chippedToFull_ok _ _ hc hr]
  have h1 : ((cols - 1 : Int) : K) ≠ 0 := Int.cast_ne_zero.2 (by omega)
  have h2 : ((rows - 1 : Int) : K) ≠ 0 := Int.cast_ne_zero.2 (by omega)
  simp only [cropChip, bilinear, Except.ok.injEq, Prod.mk.injEq]
  generalize ((cols - 1 : Int) : K) = a at *
  generalize ((rows - 1 : Int) : K) = b at *
  constructor <;> field_simp <;> ring

example : chippedToFull ((1 : ℚ), 3) (cropChip 100 200 8 9) = .ok (101, 203) := by
  rw [crop_is_shift_partial 100 200 8 9 (1, 3) (by decide) (by decide)]
  norm_num

/-- **C43** fails for chips one pixel wide or high: the conversion raises `ZeroDivisionError`. -/
theorem one_pixel_chip_raises (g : Chip K) (p : K × K) (h : g.cols = 1 ∨ g.rows = 1) :
    chippedToFull p g = .error .zeroDivisionError := by
  unfold chippedToFull
  by_cases hr : g.rows = 1
  · simp only [pyDiv, hr, sub_self, if_true, bind, Except.bind]
  · have hc := h.resolve_right hr
    rw [pyDiv_ok _ _ (by omega)]
    simp only [pyDiv, hc, sub_self, if_true, bind, Except.bind]

/-- A rotated quadrilateral: its centre pixel is at its centre. -/
example : chippedToFull ((1 : ℚ), 1) ⟨3, 3, (0, 2), (2, 4), (4, 2), (2, 0)⟩ = .ok (2, 2) := by decide +kernel

/-! ## SIDD tiles (C41, C42) -/


/-- **C41** (in part): the first tile of an image that is not a chip gets the corners of its window and its output
size.  Missing: later tiles, see `sidd_tiles_accumulate`. -/
theorem sidd_first_tile_partial (q : Request) :
    siddUpdate (none : Option (Chip K)) q = .ok (some ⟨(q.out.getD (q.win.w, q.win.h)).1, (q.out.getD (q.win.w, q.win.h)).2,
      ((q.win.x : K), (q.win.y : K)), ((q.win.x : K) + q.win.w - 1, (q.win.y : K)),
      ((q.win.x : K) + q.win.w - 1, (q.win.y : K) + q.win.h - 1), ((q.win.x : K), (q.win.y : K) + q.win.h - 1)⟩) := by
  simp only [siddUpdate, fullCorners, windowCorners, bind, Except.bind, pure, Except.pure, Int.cast_sub, Int.cast_add, Int.cast_one]

theorem siddUpdate_crop (x y : K) (cols rows : Int) (hc : cols ≠ 1) (hr : rows ≠ 1) (win : Window) :
    siddUpdate (some (cropChip x y cols rows)) ⟨win, none⟩ = .ok (some (cropChip (x + win.x) (y + win.y) win.w win.h)) := by
  simp only [siddUpdate, fullCorners, windowCorners, List.mapM_cons, List.mapM_nil, crop_is_shift_partial _ _ _ _ _ hc hr, bind, Except.bind,
    pure, Except.pure, Option.getD_none]
  simp only [cropChip, Int.cast_sub, Int.cast_add, Int.cast_one, add_assoc, add_sub_assoc]

/-- **C41** (in part): the first tile of an image that is itself a crop is the crop at the sum of the offsets. -/
theorem sidd_tile_of_tile_partial (x y : K) (cols rows : Int) (hc : 1 < cols) (hr : 1 < rows) (win : Window) :
    siddUpdate (some (cropChip x y cols rows)) ⟨win, none⟩ = .ok (some (cropChip (x + win.x) (y + win.y) win.w win.h)) :=
  siddUpdate_crop x y cols rows (by omega) (by omega) win

/-- **C41** is false: every tile is written as a chip of the previous one, so the offsets of all tiles made so far are
added up. -/
theorem sidd_tiles_accumulate (history : List Window) (hh : ∀ w ∈ history, 1 < w.w ∧ 1 < w.h) (win : Window) :
    siddUpdate (runAll siddUpdate (none : Option (Chip K)) (history.map (⟨·, none⟩))) ⟨win, none⟩ =
      .ok (some (cropChip ((history.map (fun w => (w.x : K))).sum + win.x) ((history.map (fun w => (w.y : K))).sum + win.y) win.w win.h)) := by
  have first : ∀ w : Window, siddUpdate (none : Option (Chip K)) ⟨w, none⟩ = .ok (some (cropChip (w.x : K) (w.y : K) w.w w.h)) := by
    intro w
    rw [sidd_first_tile_partial]
    simp only [Option.getD_none, cropChip, Int.cast_sub, Int.cast_one, add_sub_assoc]
  have step : ∀ (hist : List Window), (∀ w ∈ hist, 1 < w.w ∧ 1 < w.h) → ∀ (x y : K) (c r : Int), 1 < c → 1 < r →
      ∃ c' r' : Int, 1 < c' ∧ 1 < r' ∧ runAll siddUpdate (some (cropChip x y c r)) (hist.map (⟨·, none⟩)) =
        some (cropChip (x + (hist.map (fun w => (w.x : K))).sum) (y + (hist.map (fun w => (w.y : K))).sum) c' r') := by
    intro hist
    induction hist with
    | nil => intro _ x y c r hc hr; exact ⟨c, r, hc, hr, by simp [runAll]⟩
    | cons w ws ih =>
      intro hw x y c r hc hr
      obtain ⟨c', r', h1, h2, h3⟩ := ih (fun v hv => hw v (by simp [hv])) (x + w.x) (y + w.y) w.w w.h (hw w (by simp)).1 (hw w (by simp)).2
      refine ⟨c', r', h1, h2, ?_⟩
      rw [List.map_cons, runAll, List.foldl_cons, siddUpdate_crop x y c r (by omega) (by omega)]
      simp only [List.map_cons, List.sum_cons, ← add_assoc]
      exact h3
  cases history with
  | nil =>
    simp only [List.map_nil, runAll, List.foldl_nil, List.sum_nil, zero_add]
    exact first win
  | cons w ws =>
    obtain ⟨c', r', h1, h2, h3⟩ := step ws (fun v hv => hh v (by simp [hv])) (w.x : K) (w.y : K) w.w w.h (hh w (by simp)).1 (hh w (by simp)).2
    rw [List.map_cons, runAll, List.foldl_cons, first w]
    simp only [List.map_cons, List.sum_cons]
    unfold runAll at h3
    rw [h3]
    exact siddUpdate_crop _ _ _ _ (by omega) (by omega) win

/-- Two tiles of the same factory: the second, at (10, 0), is recorded at (20, 0). -/
example : siddUpdate (runAll siddUpdate (none : Option (Chip ℚ)) [⟨⟨10, 0, 5, 5⟩, none⟩]) ⟨⟨10, 0, 5, 5⟩, none⟩ =
    .ok (some ⟨5, 5, (20, 0), (24, 0), (24, 4), (20, 4)⟩) := by decide +kernel

/-- **C41** is false: after a tile one pixel wide or high no further tile can be made from this factory. -/
theorem sidd_one_pixel_tile_ends_factory (g : Chip K) (h : g.cols = 1 ∨ g.rows = 1) (history : List Request) (q : Request) :
    siddUpdate (runAll siddUpdate (some g) history) q = .error .zeroDivisionError := by
  have one : ∀ q, siddUpdate (some g) q = .error .zeroDivisionError := by
    intro q
    simp only [siddUpdate, fullCorners, windowCorners, List.mapM_cons, one_pixel_chip_raises g _ h, bind, Except.bind]
  have run : runAll siddUpdate (some g) history = some g := by
    induction history with
    | nil => rfl
    | cons q qs ih =>
      rw [runAll, List.foldl_cons, one q]
      exact ih
  rw [run]
  exact one q

/-- Such a chip is written by a request of width one. -/
example : siddUpdate (none : Option (Chip ℚ)) ⟨⟨3, 4, 1, 7⟩, none⟩ = .ok (some ⟨1, 7, (3, 4), (3, 4), (3, 10), (3, 10)⟩) := by decide +kernel

variable {O : Type}

/-- **C42** (in part): the model read back from the metadata of an unscaled tile: tile pixel (c, r) is taken for the full image pixel
(x + c (w - 1) / w, y + r (h - 1) / h), because the writer records the last pixel and the reader takes it for the
edge.  Missing: equality with (x + c, y + r), which is false, see `sidd_tile_model_is_off`. -/
theorem sidd_tile_model_partial (lstsq : List (Row K) → Projective K) (hl : ∀ rows, IsLstsq rows (lstsq rows))
    (full : SensorModel K O) (win : Window) (hw : 1 < win.w) (hh : 1 < win.h) :
    ∃ g m, siddUpdate none ⟨win, none⟩ = .ok g ∧ siddModel lstsq g full = .ok m ∧
      (∀ c r e o, m.imageToWorld (c, r) e o =
        full.imageToWorld (win.x + c * (win.w - 1) / win.w, win.y + r * (win.h - 1) / win.h) e o) ∧
      (∀ p, m.worldToImage p = (full.worldToImage p).map
        (fun q : K × K => ((q.1 - win.x) * win.w / (win.w - 1), (q.2 - win.y) * win.h / (win.h - 1)))) := by
  have w1 : (0 : K) < (win.w : K) - 1 := by
    have : (0 : K) < ((win.w - 1 : Int) : K) := Int.cast_pos.2 (by omega)
    simpa using this
  have h1 : (0 : K) < (win.h : K) - 1 := by
    have : (0 : K) < ((win.h - 1 : Int) : K) := Int.cast_pos.2 (by omega)
    simpa using this
  have w0 : (0 : K) < (win.w : K) := by linarith
  have h0 : (0 : K) < (win.h : K) := by linarith
  obtain ⟨m, hm, h2, h3⟩ := Verif.Props.Sensors.chipped_model_is_full_model lstsq hl full (win.x : K) (win.y : K) ((win.w : K) - 1) ((win.h : K) - 1)
    0 0 (win.w : K) (win.h : K) w1.ne' h1.ne' w0.ne' h0.ne'
  refine ⟨_, m, sidd_first_tile_partial _, ?_, ?_, ?_⟩
  · simp only [siddModel, Option.getD_none, ← hm, Verif.Props.Sensors.corners, zero_add, add_sub_assoc]
  · intro c r e o
    rw [h2, sub_zero, sub_zero]
  · intro p
    rw [h3]
    simp only [zero_add]

/-- A tile of 4 by 8 pixels at (10, 20): its pixel (4, 8) is taken for (13, 27). -/
example (full : SensorModel ℚ O) : ∃ (lstsq : List (Row ℚ) → Projective ℚ) (g : Option (Chip ℚ)) (m : SensorModel ℚ O), siddUpdate none ⟨⟨10, 20, 4, 8⟩, none⟩ = .ok g ∧
    siddModel lstsq g full = .ok m ∧ m.imageToWorld (4, 8) none none = full.imageToWorld (13, 27) none none := by
  obtain ⟨f, hf, -⟩ := Verif.Transforms.lstsq_function (K := ℚ)
  obtain ⟨g, m, h1, h2, h3, -⟩ := sidd_tile_model_partial f hf full ⟨10, 20, 4, 8⟩ (by decide) (by decide)
  refine ⟨f, g, m, h1, h2, ?_⟩
  rw [h3]
  norm_num

/-- **C42** is false: off the first column the tile's model uses a column that is too small, by less than a pixel
inside the tile; so a full image model that tells columns apart gives another location. -/
theorem sidd_tile_model_is_off (lstsq : List (Row K) → Projective K) (hl : ∀ rows, IsLstsq rows (lstsq rows))
    (full : SensorModel K O) (win : Window) (hw : 1 < win.w) (hh : 1 < win.h) (e : Option (Elev K)) (o : Option O)
    (hinj : ∀ p q, full.imageToWorld p e o = full.imageToWorld q e o → p = q) :
    ∃ g m, siddUpdate none ⟨win, none⟩ = .ok g ∧ siddModel lstsq g full = .ok m ∧
      ∀ c r, 0 < c → m.imageToWorld (c, r) e o ≠ full.imageToWorld (win.x + c, win.y + r) e o ∧
        ∃ c' r', m.imageToWorld (c, r) e o = full.imageToWorld (c', r') e o ∧ c' < win.x + c ∧
          (c < win.w → win.x + c - c' < 1) := by
  obtain ⟨g, m, h1, h2, h3, -⟩ := sidd_tile_model_partial lstsq hl full win hw hh
  refine ⟨g, m, h1, h2, fun c r hc => ?_⟩
  have w0 : (0 : K) < (win.w : K) := Int.cast_pos.2 (by omega)
  have e' : (win.x : K) + c * (win.w - 1) / win.w = win.x + c - c / win.w := by
    field_simp
    ring
  have p := div_pos hc w0
  rw [h3]
  refine ⟨fun heq => ?_, _, _, rfl, by rw [e']; linarith, fun hlt => ?_⟩
  · have := congrArg Prod.fst (hinj _ _ heq)
    simp only [e'] at this
    linarith
  · have q := (div_lt_one w0).2 hlt
    rw [e']
    linarith

/-- Premises: a model that reports the pixel itself. -/
example (p q : K × K) (h : (Except.ok (Verif.Dem.Geo.mk p.1 p.2 0) : Except Fail (Verif.Dem.Geo K)) = .ok ⟨q.1, q.2, 0⟩) : p = q := by
  simp only [Except.ok.injEq, Verif.Dem.Geo.mk.injEq] at h
  exact Prod.ext h.1 h.2.1

end

end Verif.Props.Updaters
