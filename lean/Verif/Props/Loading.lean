import Mathlib.Tactic.Linarith
import Mathlib.Tactic.LinearCombination
import Mathlib.Tactic.FieldSimp
import Mathlib.Tactic.NormNum
import Verif.Model.Loading
import Verif.Props.Factory
import Verif.Props.TreModel
import Verif.Props.Sensors
import Verif.Props.SarTiles

/-!
# From an image file to its sensor model

`load_gdal_dataset`, the factory, the builders and the sensor models together.
-/

namespace Verif.Props.Loading

open Verif.Sensors Verif.Tre Verif.Rpc Verif.Rsm Verif.Factory Verif.Loading Verif.Spec.Tre Verif.Spec.Rpc Verif.Spec.Rsm Verif.Spec.Factory
open Verif.Props.Tre (bind_ok pure_ok find_some find_none)
open Verif.Transforms (Projective IsLstsq Row)
open Verif.Dem (Geo)

/-! ## The composite model -/

/-- A model that only reads its options, with the options given by reference. -/
def byRef (m : Model) : HeapModel ℝ where
  imageToWorld := fun p e r h => (m.imageToWorld p e (r.bind (h[·]?)), h)
  worldToImage := m.worldToImage

/-- **C34**: the composite model on option objects is, for models that only read their options, the composite model on option values, and it leaves all existing objects alone. -/
theorem composite_by_value (a p : Model) (q : ℝ × ℝ) (e : Option (Elev ℝ)) (r : Option Nat) (h : Heap ℝ) (hr : ∀ k, r = some k → k < h.length) :
    (composite (radians 0.005) (byRef a) (byRef p)).worldToImage = (compositeModel a p).worldToImage ∧
    ((composite (radians 0.005) (byRef a) (byRef p)).imageToWorld q e r h).1 = (compositeModel a p).imageToWorld q e (r.bind (h[·]?)) ∧
    ∀ k, k < h.length → ((composite (radians 0.005) (byRef a) (byRef p)).imageToWorld q e r h).2[k]? = h[k]? := by
  refine ⟨rfl, ?_⟩
  cases ha : a.imageToWorld q e (r.bind (h[·]?)) with
  | error f =>
    have hh := Verif.Props.Sensors.composite_approximate_raises (radians 0.005) (byRef a) (byRef p) q e r h h f (by simp only [byRef, ha])
    rw [hh]
    refine ⟨?_, fun _ _ => rfl⟩
    simp only [compositeModel, ha]
    rfl
  | ok g =>
    obtain ⟨ref, h2, h3, h4, h5, d, hd, d1, d2, d3⟩ := Verif.Props.Sensors.composite_image_to_world (radians 0.005) (byRef a) (byRef p) q e r h h g
      (by simp only [byRef, ha]) hr
    rw [h3]
    refine ⟨?_, fun k hk => h4 k hk⟩
    simp only [compositeModel, ha, byRef, Option.bind_some, hd]
    show p.imageToWorld q e (some d) = p.imageToWorld q e _
    congr 2
    funext k
    unfold guessFrom
    by_cases k2 : k = "initial_search_distance"
    · rw [if_pos k2, k2, d2]
    · rw [if_neg k2]
      by_cases k1 : k = "initial_guess"
      · rw [if_pos k1, k1, d1]
      · rw [if_neg k1, d3 k k1 k2]
        cases r with
        | none => rfl
        | some o => simp

/-- The premises are met by any reference to an existing object. -/
example : ∀ k, (some 0 : Option Nat) = some k → k < ([fun _ => none] : Heap ℝ).length := by simp

/-! ## Opening -/

/-- **C111**: an image that GDAL cannot open gives `ValueError`, whether GDAL returns nothing or raises; other exceptions are passed on; and an answer always belongs to an
image that was opened. -/
theorem load_unreadable (env : Env) :
    load env .nothing = .error .valueError ∧ load env (.raises .runtimeError) = .error .valueError ∧
    (∀ e, e ≠ .runtimeError → load env (.raises e) = .error e) ∧ ∀ o i m, load env o = .ok (i, m) → o = .image i := by
  refine ⟨rfl, rfl, ?_, ?_⟩
  · intro e he
    cases e <;> first | rfl | exact absurd rfl he
  · intro o i m h
    unfold load at h
    rw [bind_ok] at h
    obtain ⟨i', hi, h⟩ := h
    rw [bind_ok] at h
    obtain ⟨t, -, h⟩ := h
    rw [bind_ok] at h
    obtain ⟨m', -, h⟩ := h
    rw [pure_ok] at h
    cases o with
    | image j =>
      simp only [openImage, Except.ok.injEq] at hi
      simp only [Prod.mk.injEq] at h
      rw [hi, h.1]
    | nothing => simp [openImage] at hi
    | raises e => cases e <;> simp [openImage] at hi

theorem build_selected (b : Builders Model) (lib : Verif.Factory.Lib) (w h : Int) (t : Option Xml) (d : Option (List String)) (g : Option (List ℝ))
    (c : Option (List Gcp)) (l : List Kind) (hl : ∀ k, k ∈ l) : build b lib ⟨w, h, t, d, g, c, some l⟩ = build b lib ⟨w, h, t, d, g, c, none⟩ := by
  have hs : ∀ k, (⟨w, h, t, d, g, c, some l⟩ : Metadata).isSelected k = (⟨w, h, t, d, g, c, none⟩ : Metadata).isSelected k := by
    intro k
    simp [Metadata.isSelected, hl k]
  unfold build approximate fromGeo treModels fromTres rsmOrRpc desModel
  simp only [hs]

/-- **C111**: `load_gdal_dataset` asks the factory for every type of sensor model: the result is the one of the factory without a selection, given everything that GDAL tells
about the image (of the TREs the first document). -/
theorem load_asks_for_everything (env : Env) (i : Image) :
    (∀ tres, (i.tres = [] ∧ tres = none ∨ ∃ s rest x, i.tres = s :: rest ∧ env.parseTres s = .ok x ∧ tres = some x) →
      load env (.image i) = (build (builders env i.crs) env.lib ⟨i.width, i.height, tres, some i.dess, i.geo, some i.gcps, none⟩).map (fun m => (i, m))) ∧
    ∀ s rest e, i.tres = s :: rest → env.parseTres s = .error e → load env (.image i) = .error e := by
  have hall : ∀ k : Kind, k ∈ [Kind.affine, .projective, .rpc, .sicd, .rsm] := by
    intro k; cases k <;> simp
  constructor
  · intro tres ht
    have hp : parsedTres env i = .ok tres := by
      unfold parsedTres
      rcases ht with ⟨h, rfl⟩ | ⟨s, rest, x, h, hx, rfl⟩
      · rw [h]
      · rw [h]; simp only [hx]; rfl
    unfold load
    simp only [openImage, hp, bind, Except.bind]
    rw [build_selected _ _ _ _ _ _ _ _ _ hall]
    cases build (builders env i.crs) env.lib ⟨i.width, i.height, tres, some i.dess, i.geo, some i.gcps, none⟩ <;> rfl
  · intro s rest e h he
    unfold load parsedTres
    simp only [openImage, h, he, bind, Except.bind]
    rfl

/-- An image with two TRE documents: the first one counts. -/
example : (∃ s rest x, (["a", "b"] : List String) = s :: rest ∧ (fun t : String => (.ok (.node t [] []) : Except PyErr Xml)) s = .ok x ∧ some (Xml.node "a" [] []) = some x) :=
  ⟨_, _, _, rfl, rfl, rfl⟩

/-! ## Chips -/

/-- The four points of the ICHIPB TRE in its order 11, 12, 21, 22, for a rectangle. -/
def gridPoints (x y w h : ℝ) : List (ℝ × ℝ) := [(x, y), (x + w, y), (x, y + h), (x + w, y + h)]

/-- Four column and row fields of a TRE are the corners of a rectangle. -/
def RectangleFields (c : Conv) (t : Xml) (pre : String) (x y w h : ℝ) : Prop :=
  HasField t (pre ++ "_COL_11") c.float x ∧ HasField t (pre ++ "_ROW_11") c.float y ∧
  HasField t (pre ++ "_COL_12") c.float (x + w) ∧ HasField t (pre ++ "_ROW_12") c.float y ∧
  HasField t (pre ++ "_COL_21") c.float x ∧ HasField t (pre ++ "_ROW_21") c.float (y + h) ∧
  HasField t (pre ++ "_COL_22") c.float (x + w) ∧ HasField t (pre ++ "_ROW_22") c.float (y + h)

/-- How positions in the full image and in this image correspond: the image is the full image, or the ICHIPB TRE says that the rectangle `(x, y)`–`(x+w, y+h)` of the
full image is the rectangle `(u, v)`–`(u+s, v+k)` of this image. -/
def Placed (c : Conv) (tres : Xml) (toChip toFull : ℝ × ℝ → ℝ × ℝ) : Prop :=
  (Absent tres "tre" "ICHIPB" ∧ toChip = id ∧ toFull = id) ∨
  ∃ t x y w h u v s k, IsFirst tres "tre" "ICHIPB" t ∧ w ≠ 0 ∧ h ≠ 0 ∧ s ≠ 0 ∧ k ≠ 0 ∧
    RectangleFields c t "FI" x y w h ∧ RectangleFields c t "OP" u v s k ∧ (∃ n, HasField t "FI_COL" c.int n) ∧ (∃ n, HasField t "FI_ROW" c.int n) ∧
    toChip = (fun q => (u + (q.1 - x) * s / w, v + (q.2 - y) * k / h)) ∧ toFull = (fun p => (x + (p.1 - u) * w / s, y + (p.2 - v) * h / k))

theorem estimate_grid (lstsq : List (Row ℝ) → Projective ℝ) (hl : ∀ rows, IsLstsq rows (lstsq rows)) {x y w h u v s t : ℝ} (hw : w ≠ 0) (hh : h ≠ 0)
    (hs : s ≠ 0) (ht : t ≠ 0) : estimateStacked lstsq (gridPoints x y w h) (gridPoints u v s t) = .ok (Verif.Props.Sensors.boxMap x y w h u v s t) := by
  unfold estimateStacked
  rw [if_neg (by simp [gridPoints])]
  congr 1
  apply Verif.Props.Transforms.estimate_recovers lstsq (Verif.Props.Sensors.boxMap x y w h u v s t)
  · rw [Verif.Props.Sensors.boxMap_det]
    exact mul_ne_zero (div_ne_zero hs hw) (div_ne_zero ht hh)
  · exact hl _
  · intro p hp
    simp only [gridPoints, List.zip_cons_cons, List.zip_nil_right, List.mem_cons, List.not_mem_nil, or_false] at hp
    rw [Verif.Props.Sensors.boxMap_forward]
    rcases hp with rfl | rfl | rfl | rfl <;> simp only [Option.some.injEq, Prod.mk.injEq] <;> constructor <;> field_simp <;> ring
  · have : (List.zip (gridPoints x y w h) (gridPoints u v s t)).map Prod.fst = gridPoints x y w h := by simp [gridPoints]
    rw [this]
    obtain ⟨p1, h1, p2, h2, p3, h3, p4, h4, ha⟩ := Verif.Props.Sensors.corners_general (x := x) (y := y) hw hh
    have sub : ∀ p ∈ Verif.Props.Sensors.corners x y w h, p ∈ gridPoints x y w h := by
      intro p hp
      simp only [Verif.Props.Sensors.corners, gridPoints, List.mem_cons, List.not_mem_nil, or_false] at hp ⊢
      tauto
    exact ⟨p1, sub _ h1, p2, sub _ h2, p3, sub _ h3, p4, sub _ h4, ha⟩

theorem chipped_grid (lstsq : List (Row ℝ) → Projective ℝ) (hl : ∀ rows, IsLstsq rows (lstsq rows)) (full : Model) {x y w h u v s t : ℝ} (hw : w ≠ 0) (hh : h ≠ 0)
    (hs : s ≠ 0) (ht : t ≠ 0) : ∃ m, chipped lstsq (gridPoints x y w h) (gridPoints u v s t) full = .ok m ∧
      (∀ p e o, m.imageToWorld p e o = full.imageToWorld (x + (p.1 - u) * w / s, y + (p.2 - v) * h / t) e o) ∧
      (∀ g, m.worldToImage g = (full.worldToImage g).map (fun q => (u + (q.1 - x) * s / w, v + (q.2 - y) * t / h))) := by
  obtain ⟨m, h1, h2, h3⟩ := Verif.Props.Sensors.chipped_model_is_full_model lstsq hl full x y w h u v s t hw hh hs ht
  refine ⟨m, ?_, fun p e o => h2 p.1 p.2 e o, h3⟩
  rw [← h1]
  unfold chipped
  rw [estimate_grid lstsq hl hw hh hs ht, Verif.Props.Sensors.estimate_boxes lstsq hl hw hh hs ht]

/-- A model of the full image after adaptation. -/
theorem wrap_placed (env : Env) (hl : ∀ rows, IsLstsq rows (env.lstsq rows)) (crs : Option (Crs ℝ)) (tres : Xml) (toChip toFull : ℝ × ℝ → ℝ × ℝ)
    (hp : Placed env.lib.conv tres toChip toFull) : ∃ info, chipInfo env.lib.conv tres = .ok info ∧ ∀ full : Model, ∃ m, wrap (builders env crs) info (some full) = .ok (some m) ∧
      (∀ p e o, m.imageToWorld p e o = full.imageToWorld (toFull p) e o) ∧ (∀ g, m.worldToImage g = (full.worldToImage g).map toChip) := by
  rcases hp with ⟨ha, rfl, rfl⟩ | ⟨t, x, y, w, h, u, v, s, k, ht, hw, hh, hs, hk, hfi, hop, ⟨n1, hn1⟩, ⟨n2, hn2⟩, rfl, rfl⟩
  · refine ⟨none, (Verif.Props.Factory.chipInfo_ok _ _ _).2 ha, fun full => ⟨full, rfl, fun _ _ _ => rfl, fun g => ?_⟩⟩
    cases full.worldToImage g <;> rfl
  · refine ⟨some ⟨gridPoints x y w h, gridPoints u v s k, n1, n2⟩, (Verif.Props.Factory.chipInfo_ok _ _ _).2 ⟨t, ht, ?_, ?_, hn1, hn2⟩, ?_⟩
    · obtain ⟨a1, a2, a3, a4, a5, a6, a7, a8⟩ := hfi
      exact .cons ⟨a1, a2⟩ (.cons ⟨a3, a4⟩ (.cons ⟨a5, a6⟩ (.cons ⟨a7, a8⟩ .nil)))
    · obtain ⟨a1, a2, a3, a4, a5, a6, a7, a8⟩ := hop
      exact .cons ⟨a1, a2⟩ (.cons ⟨a3, a4⟩ (.cons ⟨a5, a6⟩ (.cons ⟨a7, a8⟩ .nil)))
    · intro full
      obtain ⟨m, h1, h2, h3⟩ := chipped_grid env.lstsq hl full (x := x) (y := y) (u := u) (v := v) hw hh hs hk
      refine ⟨m, ?_, h2, h3⟩
      unfold wrap
      simp only [builders, h1]
      rfl

/-! ## Inversion of `load` -/

/-- The metadata that `load` gives to the factory. -/
def metadata (i : Image) (tres : Option Xml) : Metadata := ⟨i.width, i.height, tres, some i.dess, i.geo, some i.gcps, some [.affine, .projective, .rpc, .sicd, .rsm]⟩

theorem selected_all (i : Image) (tres : Option Xml) (k : Kind) : (metadata i tres).isSelected k = true := by
  cases k <;> rfl

/-- Data extension segments without SAR documents do not change the precision model. -/
theorem des_unused (env : Env) (i : Image) (tres : Option Xml) (h : Verif.Spec.Factory.NoSar env.lib i.dess) (p : Option Model) :
    desModel (builders env i.crs) env.lib (metadata i tres) p = .ok p := by
  unfold desModel
  have hmd : (metadata i tres).dess = some i.dess := rfl
  rw [hmd]
  rcases h with h | ⟨lists, h1, h2⟩
  · rw [h]
    rfl
  · cases hd : i.dess with
    | nil => rfl
    | cons x xs =>
      simp only [bind, Except.bind]
      rw [← hd, h1]
      simp only
      rw [Verif.Props.Des.segments_in_order]
      refine Verif.Props.Factory.fromSegments_ok (r := none) _ _ _ p _ (Or.inr ⟨?_, rfl⟩)
      intro s hs
      obtain ⟨y, hy, hn⟩ := h2 s hs
      refine ⟨y, hy, fun t ht => ?_⟩
      rintro (hd | ⟨hd, -⟩)
      · exact (hn t ht).1 hd
      · exact (hn t ht).2 hd

theorem load_precision (env : Env) (i : Image) (r : Image × Option Model) (h : load env (.image i) = .ok r) (s : String) (rest : List String) (tres : Xml)
    (ht : i.tres = s :: rest) (hparse : env.parseTres s = .ok tres) (hdes : Verif.Spec.Factory.NoSar env.lib i.dess) (info : Option ChipInfo) (hinfo : chipInfo env.lib.conv tres = .ok info)
    (p : Option Model) (hp : rsmOrRpc (builders env i.crs) (metadata i (some tres)) tres = .ok p) :
    ∃ a p', wrap (builders env i.crs) info p = .ok p' ∧ r = (i, combine (builders env i.crs) a p') := by
  unfold load at h
  simp only [openImage, parsedTres, ht, hparse, bind_ok, Except.ok.injEq, exists_eq_left'] at h
  obtain ⟨t, htt, m, hm, hr⟩ := h
  have : t = some tres := by
    exact (Except.ok.inj htt).symm
  subst this
  rw [pure_ok] at hr
  change build (builders env i.crs) env.lib (metadata i (some tres)) = .ok m at hm
  unfold build at hm
  simp only [bind_ok] at hm
  obtain ⟨a, -, ap, hap, q, hq, hm⟩ := hm
  unfold treModels at hap
  change fromTres _ _ _ _ tres = _ at hap
  unfold fromTres at hap
  simp only [bind_ok, hinfo, Except.ok.injEq, exists_eq_left', hp] at hap
  obtain ⟨p', hp', hap⟩ := hap
  have hq' : q = p' := by
    rw [des_unused env i _ hdes, Except.ok.injEq] at hq
    rw [← hq]
    split_ifs at hap with hc
    · simp only [bind_ok, pure_ok] at hap
      obtain ⟨_, -, _, -, rfl⟩ := hap
      rfl
    · rw [pure_ok] at hap
      rw [← hap]
  rw [pure_ok] at hm
  refine ⟨ap.1, p', hp', ?_⟩
  rw [← hr, ← hm, hq']

/-- With a precision model the result is that model, or a composite model with it. -/
theorem combine_precision (env : Env) (crs : Option (Crs ℝ)) (a : Option Model) (m : Model) : ∃ M, combine (builders env crs) a (some m) = some M ∧ M.worldToImage = m.worldToImage ∧
    ∀ p e o g, M.imageToWorld p e o = .ok g → ∃ o', m.imageToWorld p e o' = .ok g := by
  cases a with
  | none => exact ⟨m, rfl, rfl, fun p e o g h => ⟨o, h⟩⟩
  | some a =>
    refine ⟨compositeModel a m, rfl, rfl, ?_⟩
    intro p e o g h
    simp only [compositeModel] at h
    cases ha : a.imageToWorld p e o with
    | error f => rw [ha] at h; simp [bind, Except.bind] at h
    | ok g' =>
      rw [ha] at h
      exact ⟨_, h⟩

/-! ## RPC images -/

/-- **C112**: from the file to the projection of an RPC image.  The first RPC00B TRE says how ground points are projected into the full image: offset plus scale times the ratio of the
RPC00B cubics of the normalised coordinates; an ICHIPB TRE says where that is in this image.  `image_to_world` searches the ground point whose projection into the full image is the
pixel's position there, at the height offset or on the elevation model.  This is so whatever approximate model there is. -/
theorem rpc_image (env : Env) (hl : ∀ rows, IsLstsq rows (env.lstsq rows)) (i : Image) (r : Image × Option Model) (hload : load env (.image i) = .ok r)
    (s : String) (rest : List String) (tres t : Xml) (ht : i.tres = s :: rest) (hparse : env.parseTres s = .ok tres) (hdes : Verif.Spec.Factory.NoSar env.lib i.dess)
    (hrsm : Absent tres "tre" "RSMIDA") (hrpc : IsFirst tres "tre" "RPC00B" t) (m : RpcModel) (hm : DescribesRpc env.lib.conv t m)
    (h1 : m.lineNum.length = 20) (h2 : m.lineDen.length = 20) (h3 : m.sampNum.length = 20) (h4 : m.sampDen.length = 20)
    (hlon : m.longScale ≠ 0) (hlat : m.latScale ≠ 0) (hh : m.heightScale ≠ 0) (toChip toFull : ℝ × ℝ → ℝ × ℝ) (hplaced : Placed env.lib.conv tres toChip toFull) :
    ∃ M, r = (i, some M) ∧
      (∀ g L P H, L * m.longScale + m.longOff = 180 / Real.pi * g.longitude → P * m.latScale + m.latOff = 180 / Real.pi * g.latitude →
        H * m.heightScale + m.heightOff = g.elevation → cubic m.lineDen L P H ≠ 0 → cubic m.sampDen L P H ≠ 0 →
        M.worldToImage g = .ok (toChip (m.sampOff + m.sampScale * (cubic m.sampNum L P H / cubic m.sampDen L P H),
          m.lineOff + m.lineScale * (cubic m.lineNum L P H / cubic m.lineDen L P H)))) ∧
      (∀ p e o g, M.imageToWorld p e o = .ok g → ∃ start size lon lat,
        Finds (IsMisfit m.worldToImage m.heightOff e (toFull p)) (env.minimise start none (equilateralTriangle start size)) (lon, lat) ∧
        ground m.heightOff e lon lat = .ok g) := by
  obtain ⟨info, hinfo, hwrap⟩ := wrap_placed env hl i.crs tres toChip toFull hplaced
  have hp : rsmOrRpc (builders env i.crs) (metadata i (some tres)) tres = .ok (some (m.model env.minimise)) := by
    unfold rsmOrRpc
    rw [selected_all, selected_all]
    have e1 : buildRsm env.earth env.lib.conv tres = .ok none := by
      unfold buildRsm
      rw [(find_none _ _ _).2 hrsm]
    have e2 : buildRpc env.lib.conv tres = .ok (some m) := (Verif.Props.Tre.rpc_builder _ _ _).2 ⟨t, hrpc, hm⟩
    simp only [builders, e1, e2]
    rfl
  obtain ⟨a, p', hp', hr⟩ := load_precision env i r hload s rest tres ht hparse hdes info hinfo _ hp
  obtain ⟨w, hw, w1, w2⟩ := hwrap (m.model env.minimise)
  rw [hw] at hp'
  obtain rfl := (Except.ok.inj hp')
  obtain ⟨M, hM, M1, M2⟩ := combine_precision env i.crs a w
  refine ⟨M, by rw [hr, hM], ?_, ?_⟩
  · intro g L P H eL eP eH hd hd'
    rw [M1, w2]
    have := Verif.Props.Rpc.rpc_world_to_image m g h1 h2 h3 h4 hlon hlat hh L P H eL eP eH hd hd'
    show (m.worldToImage g).map toChip = _
    rw [this]
    rfl
  · intro p e o g hg
    obtain ⟨o', hg'⟩ := M2 p e o g hg
    rw [w1] at hg'
    obtain ⟨start, size, lon, lat, -, -, hf, hgr⟩ := (Verif.Props.Rpc.rpc_image_to_world env.minimise m (toFull p) e o').2 g hg'
    exact ⟨start, size, lon, lat, hf, hgr⟩

/-- Without any approximate source, an image with a usable RSM or RPC model is loaded. -/
theorem load_succeeds (env : Env) (i : Image) (s : String) (rest : List String) (tres : Xml) (ht : i.tres = s :: rest) (hparse : env.parseTres s = .ok tres)
    (hdes : Verif.Spec.Factory.NoSar env.lib i.dess) (hgeo : i.geo = none) (hgcps : i.gcps.length < 4) (hcorners : Absent tres "tre" "CSCRNA") (info : Option ChipInfo)
    (hinfo : chipInfo env.lib.conv tres = .ok info) (p p' : Option Model) (hp : rsmOrRpc (builders env i.crs) (metadata i (some tres)) tres = .ok p)
    (hw : wrap (builders env i.crs) info p = .ok p') : load env (.image i) = .ok (i, p') := by
  have ha : approximate (builders env i.crs) (metadata i (some tres)) = .ok none := by
    unfold approximate fromGeo
    simp only [selected_all]
    simp only [metadata, hgeo, if_neg (show ¬ i.gcps.length > 3 by omega)]
    rfl
  have hf : fromTres (builders env i.crs) env.lib (metadata i (some tres)) none tres = .ok (none, p') := by
    unfold fromTres
    simp only [hinfo, bind, Except.bind, hp, hw, (find_none _ _ _).2 hcorners, Option.isSome_none, Bool.and_false]
    rfl
  have : build (builders env i.crs) env.lib (metadata i (some tres)) = .ok p' := by
    unfold build
    simp only [bind_ok]
    refine ⟨none, ha, (none, p'), hf, p', ?_, ?_⟩
    · exact des_unused env i _ hdes p'
    · cases p' <;> rfl
  simp only [load, bind_ok]
  exact ⟨i, rfl, some tres, by simp only [parsedTres, ht, hparse]; rfl, p', this, rfl⟩

/-! ### An example -/

open Verif.Props.Tre (tre field)

noncomputable def demoConv : Conv where
  float := fun s => if s = "0" then some 0 else if s = "1" then some 1 else if s = "2" then some 2 else none
  int := fun s => if s = "0" then some 0 else if s = "1" then some 1 else if s = "2" then some 2 else if s = "20" then some 20 else none

/-- Twenty coefficients: the constant and the factor of the longitude are given, the others are 0. -/
def demoList (name c0 c1 : String) : Xml :=
  .node "repeated" [("name", name), ("number", "20")]
    [.node "group" [("index", "0")] [.node "field" [("value", c0)] []], .node "group" [("index", "1")] [.node "field" [("value", c1)] []]]

/-- Offsets 0 and scales 1; sample = 1 + 2 L, line = (2 + L) / (1 + L). -/
def demoRpcTre : Xml :=
  tre "RPC00B" (field "SUCCESS" "1" :: ["ERR_BIAS", "ERR_RAND", "LINE_SCALE", "SAMP_SCALE", "LAT_SCALE", "LONG_SCALE", "HEIGHT_SCALE"].map (field · "1") ++
    ["LINE_OFF", "SAMP_OFF", "LAT_OFF", "LONG_OFF", "HEIGHT_OFF"].map (field · "0") ++
    [demoList "LINE_NUM_COEFF" "2" "1", demoList "LINE_DEN_COEFF" "1" "1", demoList "SAMP_NUM_COEFF" "1" "2", demoList "SAMP_DEN_COEFF" "1" "0"])

/-- The square from (1, 0) to (2, 1) of the full image is the square from (0, 0) to (2, 2) of this image. -/
def demoChipTre : Xml :=
  tre "ICHIPB" [field "FI_COL_11" "1", field "FI_ROW_11" "0", field "FI_COL_12" "2", field "FI_ROW_12" "0", field "FI_COL_21" "1", field "FI_ROW_21" "1",
    field "FI_COL_22" "2", field "FI_ROW_22" "1", field "OP_COL_11" "0", field "OP_ROW_11" "0", field "OP_COL_12" "2", field "OP_ROW_12" "0",
    field "OP_COL_21" "0", field "OP_ROW_21" "2", field "OP_COL_22" "2", field "OP_ROW_22" "2", field "FI_COL" "20", field "FI_ROW" "20"]

def demoTres : Xml := .node "tres" [] [demoChipTre, demoRpcTre]

noncomputable def demoEnv (lstsq : List (Row ℝ) → Projective ℝ) : Env where
  lib := ⟨demoConv, fun _ => .ok (Verif.Props.Factory.demoSegment "a note"), ⟨fun v => .ok v, fun _ => ""⟩⟩
  parseTres := fun s => if s = "doc" then .ok demoTres else .error .valueError
  earth := Verif.Props.RsmModel.flatEarth
  minimise := Verif.Props.Rpc.oneStep
  lstsq := lstsq
  sidd := fun _ => none
  sicd := fun _ => none

/-- The image has a data extension segment, which is not about SAR. -/
noncomputable def demoImage : Image := ⟨2, 2, none, none, [], none, ["doc"], ["<des_list/>"]⟩

theorem demo_noSar (lib : Verif.Factory.Lib) (h1 : lib.parse = fun _ => .ok (Verif.Props.Factory.demoSegment "a note")) (h2 : lib.codec = ⟨fun v => .ok v, fun _ => ""⟩) :
    Verif.Spec.Factory.NoSar lib demoImage.dess := by
  refine Or.inr ⟨[Verif.Props.Factory.demoSegment "a note"], ?_, ?_⟩
  · rw [h1]
    rfl
  · intro s hs
    simp only [List.flatMap_cons, List.flatMap_nil, List.append_nil, ← Verif.Props.Tre.findall_eq] at hs
    have hs' : s ∈ [Xml.node "des" [("name", "XML_DATA_CONTENT")] [.node "field" [("name", "DESDATA"), ("value", "a note")] []]] := hs
    rw [List.mem_singleton] at hs'
    subst hs'
    rw [h2]
    refine ⟨some "a note", rfl, ?_⟩
    intro x hx
    cases hx
    decide

theorem demo_field (t : Xml) (n : String) (e : Xml) (s : String) (h : t.find "field" n = some e) (hs : e.get "value" = some s) (v : ℝ) (hv : demoConv.float s = some v) :
    HasField t n demoConv.float v := ⟨e, s, (find_some _ _ _ _).1 h, hs, hv⟩

theorem demo_placed : Placed demoConv demoTres (fun q => (0 + (q.1 - 1) * 2 / 1, 0 + (q.2 - 0) * 2 / 1)) (fun p => (1 + (p.1 - 0) * 1 / 2, 0 + (p.2 - 0) * 1 / 2)) := by
  have f0 : demoConv.float "0" = some 0 := by simp [demoConv]
  have f1 : demoConv.float "1" = some 1 := by simp [demoConv]
  have f2 : demoConv.float "2" = some 2 := by simp [demoConv]
  have g1 : demoConv.float "1" = some (0 + 1) := by simp [demoConv]
  have g2 : demoConv.float "2" = some (0 + 2) := by simp [demoConv]
  have g3 : demoConv.float "2" = some (1 + 1) := by rw [f2]; norm_num
  refine Or.inr ⟨demoChipTre, 1, 0, 1, 1, 0, 0, 2, 2, (find_some _ _ _ _).1 rfl, by norm_num, by norm_num, by norm_num, by norm_num, ?_, ?_, ?_, ?_, rfl, rfl⟩
  · exact ⟨demo_field _ _ _ _ rfl rfl _ f1, demo_field _ _ _ _ rfl rfl _ f0, demo_field _ _ _ _ rfl rfl _ g3, demo_field _ _ _ _ rfl rfl _ f0,
      demo_field _ _ _ _ rfl rfl _ f1, demo_field _ _ _ _ rfl rfl _ g1, demo_field _ _ _ _ rfl rfl _ g3, demo_field _ _ _ _ rfl rfl _ g1⟩
  · exact ⟨demo_field _ _ _ _ rfl rfl _ f0, demo_field _ _ _ _ rfl rfl _ f0, demo_field _ _ _ _ rfl rfl _ g2, demo_field _ _ _ _ rfl rfl _ f0,
      demo_field _ _ _ _ rfl rfl _ f0, demo_field _ _ _ _ rfl rfl _ g2, demo_field _ _ _ _ rfl rfl _ g2, demo_field _ _ _ _ rfl rfl _ g2⟩
  · exact ⟨20, _, _, (find_some _ _ _ _).1 rfl, rfl, by simp [demoConv]⟩
  · exact ⟨20, _, _, (find_some _ _ _ _).1 rfl, rfl, by simp [demoConv]⟩

/-- The premises of `rpc_image` are met by a chip with RPC metadata: the ground point at one degree east is seen at sample 3, line 3/2 of the full image, so at (4, 3) of
the chip. -/
example (lstsq : List (Row ℝ) → Projective ℝ) (hl : ∀ rows, IsLstsq rows (lstsq rows)) :
    ∃ M, load (demoEnv lstsq) (.image demoImage) = .ok (demoImage, some M) ∧ M.worldToImage ⟨Real.pi / 180, 0, 0⟩ = .ok (4, 3) := by
  obtain ⟨m, hm, e1, e2, e3, e4, e5, e6, e7, e8, e9, e10, e11, e12, e13, e14⟩ : ∃ m, buildRpc demoConv demoTres = .ok (some m) ∧
      m.lineOff = 0 ∧ m.sampOff = 0 ∧ m.latOff = 0 ∧ m.longOff = 0 ∧ m.heightOff = 0 ∧ m.lineScale = 1 ∧ m.sampScale = 1 ∧ m.latScale = 1 ∧ m.longScale = 1 ∧
      m.heightScale = 1 ∧ m.lineNum = 2 :: 1 :: List.replicate 18 0 ∧ m.lineDen = 1 :: 1 :: List.replicate 18 0 ∧
      m.sampNum = 1 :: 2 :: List.replicate 18 0 ∧ m.sampDen = 1 :: 0 :: List.replicate 18 0 :=
    ⟨_, rfl, rfl, rfl, rfl, rfl, rfl, rfl, rfl, rfl, rfl, rfl, rfl, rfl, rfl, rfl⟩
  obtain ⟨t, ht, hd⟩ := (Verif.Props.Tre.rpc_builder _ _ _).1 hm
  obtain ⟨info, hinfo, hwrap⟩ := wrap_placed (demoEnv lstsq) hl demoImage.crs demoTres _ _ demo_placed
  obtain ⟨w, hw, -⟩ := hwrap (m.model (demoEnv lstsq).minimise)
  have hrsm : Absent demoTres "tre" "RSMIDA" := (find_none _ _ _).1 rfl
  have hload := load_succeeds (demoEnv lstsq) demoImage "doc" [] demoTres rfl (by simp [demoEnv]) (demo_noSar _ rfl rfl) rfl (by decide) ((find_none _ _ _).1 rfl) info hinfo
    (some (m.model (demoEnv lstsq).minimise)) (some w) (by
      unfold rsmOrRpc
      rw [selected_all, selected_all]
      have x1 : buildRsm (demoEnv lstsq).earth (demoEnv lstsq).lib.conv demoTres = .ok none := by
        unfold buildRsm
        rw [(find_none _ _ _).2 hrsm]
      have x2 : buildRpc (demoEnv lstsq).lib.conv demoTres = .ok (some m) := hm
      simp only [builders, x1, x2]
      rfl) hw
  obtain ⟨M, hM, hproj, -⟩ := rpc_image (demoEnv lstsq) hl demoImage _ hload "doc" [] demoTres t rfl (by simp [demoEnv]) (demo_noSar _ rfl rfl) hrsm ht m hd
    (by rw [e11]; rfl) (by rw [e12]; rfl) (by rw [e13]; rfl) (by rw [e14]; rfl) (by rw [e9]; norm_num) (by rw [e8]; norm_num) (by rw [e10]; norm_num) _ _ demo_placed
  refine ⟨M, by rw [hload, hM], ?_⟩
  have hpi : Real.pi ≠ 0 := Real.pi_ne_zero
  have d1 : cubic m.lineDen 1 0 0 = 2 := by rw [e12]; simp [cubic, rpc00b, List.replicate]; norm_num
  have d2 : cubic m.sampDen 1 0 0 = 1 := by rw [e14]; simp [cubic, rpc00b, List.replicate]
  have d3 : cubic m.lineNum 1 0 0 = 3 := by rw [e11]; simp [cubic, rpc00b, List.replicate]; norm_num
  have d4 : cubic m.sampNum 1 0 0 = 3 := by rw [e13]; simp [cubic, rpc00b, List.replicate]; norm_num
  rw [hproj ⟨Real.pi / 180, 0, 0⟩ 1 0 0 (by rw [e9, e4]; field_simp; norm_num) (by rw [e8, e3]; simp) (by rw [e10, e5]; simp) (by rw [d1]; norm_num) (by rw [d2]; norm_num)]
  rw [d1, d2, d3, d4, e1, e2, e6, e7]
  norm_num

/-! ## RSM images -/

/-- The value of a polynomial with coefficients in the order of the RSMPCA format. -/
def Value (p : RsmPoly ℝ) (x y z r : ℝ) : Prop :=
  ∃ a, InOrder p.coefficients (p.px + 1).toNat (p.py + 1).toNat (p.pz + 1).toNat a ∧ r = triple (p.px + 1).toNat (p.py + 1).toNat (p.pz + 1).toNat a x y z

theorem triple_congr (nx ny nz : Nat) (a b : Nat → Nat → Nat → ℝ) (h : ∀ i j k, i < nx → j < ny → k < nz → a i j k = b i j k) (x y z : ℝ) :
    triple nx ny nz a x y z = triple nx ny nz b x y z := by
  unfold triple
  apply Finset.sum_congr rfl
  intro k hk
  apply Finset.sum_congr rfl
  intro j hj
  apply Finset.sum_congr rfl
  intro i hi
  rw [h i j k (Finset.mem_range.1 hi) (Finset.mem_range.1 hj) (Finset.mem_range.1 hk)]

theorem value_evaluate (p : RsmPoly ℝ) (hlen : (p.coefficients.length : Int) = (p.px + 1) * (p.py + 1) * (p.pz + 1)) (x y z : ℝ) :
    (∃ r, Value p x y z r) ∧ ∀ r, Value p x y z r → p.evaluate x y z = .ok r := by
  obtain ⟨q, a, hq, ha, he⟩ := (Verif.Props.Rsm.rsm_polynomial p.px p.py p.pz p.coefficients).2 hlen
  have : q = p := by
    unfold polynomial at hq
    rw [if_neg (by simpa using hlen)] at hq
    exact (Except.ok.inj hq).symm
  subst this
  refine ⟨⟨_, a, ha, rfl⟩, ?_⟩
  rintro r ⟨b, hb, rfl⟩
  rw [he, triple_congr _ _ _ a b]
  intro i j k hi hj hk
  exact Option.some.inj ((ha i j k hi hj hk).symm.trans (hb i j k hi hj hk))

/-- The model of an image with RSM metadata is the RSM model, moved into the image. -/
theorem rsm_loaded (env : Env) (hl : ∀ rows, IsLstsq rows (env.lstsq rows)) (i : Image) (r : Image × Option Model) (hload : load env (.image i) = .ok r)
    (s : String) (rest : List String) (tres : Xml) (ht : i.tres = s :: rest) (hparse : env.parseTres s = .ok tres) (hdes : Verif.Spec.Factory.NoSar env.lib i.dess)
    (res : RsmResult) (hres : buildRsm env.earth env.lib.conv tres = .ok (some res)) (toChip toFull : ℝ × ℝ → ℝ × ℝ) (hplaced : Placed env.lib.conv tres toChip toFull) :
    ∃ M, r = (i, some M) ∧ (∀ g, M.worldToImage g = ((res.model env.earth env.minimise).worldToImage g).map toChip) ∧
      (∀ p e o g, M.imageToWorld p e o = .ok g → ∃ o', (res.model env.earth env.minimise).imageToWorld (toFull p) e o' = .ok g) := by
  obtain ⟨info, hinfo, hwrap⟩ := wrap_placed env hl i.crs tres toChip toFull hplaced
  have hp : rsmOrRpc (builders env i.crs) (metadata i (some tres)) tres = .ok (some (res.model env.earth env.minimise)) := by
    unfold rsmOrRpc
    rw [selected_all, selected_all]
    simp only [builders, hres]
    rfl
  obtain ⟨a, p', hp', hr⟩ := load_precision env i r hload s rest tres ht hparse hdes info hinfo _ hp
  obtain ⟨w, hw, w1, w2⟩ := hwrap (res.model env.earth env.minimise)
  rw [hw] at hp'
  obtain rfl := (Except.ok.inj hp')
  obtain ⟨M, hM, M1, M2⟩ := combine_precision env i.crs a w
  refine ⟨M, by rw [hr, hM], fun g => by rw [M1, w2], ?_⟩
  intro p e o g hg
  obtain ⟨o', hg'⟩ := M2 p e o g hg
  rw [w1] at hg'
  exact ⟨o', hg'⟩

/-- **C113**: from the file to the projection of an RSM image with one section.  RSMIDA gives the ground domain, RSMPCA the polynomials: the position in the full image is offset plus
scale times the ratio of two polynomials of the normalised domain coordinate; an ICHIPB TRE says where that is in this image.  `image_to_world` searches the ground point whose
projection is the pixel's position in the full image.  RPC metadata beside it plays no role. -/
theorem rsm_image (env : Env) (hl : ∀ rows, IsLstsq rows (env.lstsq rows)) (i : Image) (r : Image × Option Model) (hload : load env (.image i) = .ok r)
    (s : String) (rest : List String) (tres t p : Xml) (ht : i.tres = s :: rest) (hparse : env.parseTres s = .ok tres) (hdes : Verif.Spec.Factory.NoSar env.lib i.dess)
    (hida : IsFirst tres "tre" "RSMIDA" t) (d : GroundDomain) (a b e f : Int) (hd : DescribesContext env.earth env.lib.conv t d a b e f)
    (hpca : allNamed tres "tre" "RSMPCA" = [p]) (m : PolyModel) (hm : DescribesRsm env.lib.conv d p m)
    (hx : m.xScale ≠ 0) (hy : m.yScale ≠ 0) (hz : m.zScale ≠ 0) (toChip toFull : ℝ × ℝ → ℝ × ℝ) (hplaced : Placed env.lib.conv tres toChip toFull) :
    ∃ M, r = (i, some M) ∧
      (∀ x y z, (∃ v, Value m.rowNum x y z v) ∧ (∃ v, Value m.rowDen x y z v) ∧ (∃ v, Value m.colNum x y z v) ∧ ∃ v, Value m.colDen x y z v) ∧
      (∀ g v X Y Z rn rd cn cd, d.frame.toDomain env.earth g = .ok v → X * m.xScale + m.xOff = v 0 → Y * m.yScale + m.yOff = v 1 → Z * m.zScale + m.zOff = v 2 →
        Value m.rowNum X Y Z rn → Value m.rowDen X Y Z rd → Value m.colNum X Y Z cn → Value m.colDen X Y Z cd → rd ≠ 0 → cd ≠ 0 →
        M.worldToImage g = .ok (toChip (m.colOff + m.colScale * (cn / cd), m.rowOff + m.rowScale * (rn / rd)))) ∧
      (∀ q el o g, M.imageToWorld q el o = .ok g → ∃ start size lon lat box,
        Finds (IsMisfit (m.worldToImage env.earth) d.defaultHeight el (toFull q)) (env.minimise start (some box) (equilateralTriangle start size)) (lon, lat) ∧
        ground d.defaultHeight el lon lat = .ok g) := by
  have hres : buildRsm env.earth env.lib.conv tres = .ok (some (.single m)) :=
    (Verif.Props.Tre.rsm_builder_single _ _ _ _).2 ⟨t, p, d, a, b, e, f, hida, hd, hpca, hm⟩
  obtain ⟨M, hM, M1, M2⟩ := rsm_loaded env hl i r hload s rest tres ht hparse hdes _ hres toChip toFull hplaced
  obtain ⟨hdom, -, -, hpol⟩ := hm
  obtain ⟨⟨form, vs, origin, units, ref, -, hgd⟩, -⟩ := hd
  have len : ∀ q ∈ rsmPolys, ((q.2 m).coefficients.length : Int) = ((q.2 m).px + 1) * ((q.2 m).py + 1) * ((q.2 m).pz + 1) := fun q hq => (hpol q hq).2.2.2.2
  have v1 := value_evaluate m.rowNum (len ("RN", (·.rowNum)) (by simp [rsmPolys]))
  have v2 := value_evaluate m.rowDen (len ("RD", (·.rowDen)) (by simp [rsmPolys]))
  have v3 := value_evaluate m.colNum (len ("CN", (·.colNum)) (by simp [rsmPolys]))
  have v4 := value_evaluate m.colDen (len ("CD", (·.colDen)) (by simp [rsmPolys]))
  refine ⟨M, hM, fun x y z => ⟨(v1 x y z).1, (v2 x y z).1, (v3 x y z).1, (v4 x y z).1⟩, ?_, ?_⟩
  · intro g v X Y Z rn rd cn cd hv eX eY eZ h1 h2 h3 h4 hr hc
    rw [M1]
    have := Verif.Props.RsmModel.rsm_world_to_image env.earth m g v (by rw [hdom]; exact hv) hx hy hz X Y Z eX eY eZ rn rd cn cd ((v1 X Y Z).2 _ h1) ((v2 X Y Z).2 _ h2)
      ((v3 X Y Z).2 _ h3) ((v4 X Y Z).2 _ h4) hr hc
    show (m.worldToImage env.earth g).map toChip = _
    rw [this]
    rfl
  · intro q el o g hg
    obtain ⟨o', hg'⟩ := M2 q el o g hg
    obtain ⟨start, size, lon, lat, -, -, box, -, -, -, -, -, h1, h2⟩ :=
      (Verif.Props.RsmModel.rsm_image_to_world env.earth env.minimise form vs origin units ref m (by rw [hdom]; exact hgd) (toFull q) el o').2 g hg'
    rw [hdom] at h1 h2
    exact ⟨start, size, lon, lat, box, h1, h2⟩

/-! ### An example -/

/-- Two coefficients. -/
def demoPoly (name c0 c1 : String) : Xml :=
  .node "repeated" [("name", name), ("number", "2")]
    [.node "group" [("index", "0")] [.node "field" [("value", c0)] []], .node "group" [("index", "1")] [.node "field" [("value", c1)] []]]

/-- Offsets 0 and scales 1; row = (1 + 2 x) / (1 + x), column = (2 + x) / 1. -/
def demoPcaTre : Xml :=
  tre "RSMPCA" ([field "RSN" "1", field "CSN" "1"] ++ ["RNRMO", "CNRMO", "XNRMO", "YNRMO", "ZNRMO"].map (field · "0") ++
    ["RNRMSF", "CNRMSF", "XNRMSF", "YNRMSF", "ZNRMSF", "RNPWRX", "RDPWRX", "CNPWRX", "CDPWRX"].map (field · "1") ++
    ["RNPWRY", "RNPWRZ", "RDPWRY", "RDPWRZ", "CNPWRY", "CNPWRZ", "CDPWRY", "CDPWRZ"].map (field · "0") ++
    [demoPoly "RNPCF" "1" "2", demoPoly "RDPCF" "1" "1", demoPoly "CNPCF" "2" "1", demoPoly "CDPCF" "1" "0"])

def demoRsmTres : Xml := .node "tres" [] [demoRpcTre, Verif.Props.Tre.demoIda, demoPcaTre]

noncomputable def demoRsmEnv (lstsq : List (Row ℝ) → Projective ℝ) : Env where
  lib := ⟨demoConv, fun _ => .ok (Verif.Props.Factory.demoSegment "a note"), ⟨fun v => .ok v, fun _ => ""⟩⟩
  parseTres := fun s => if s = "doc" then .ok demoRsmTres else .error .valueError
  earth := Verif.Props.RsmModel.flatEarth
  minimise := Verif.Props.Rpc.oneStep
  lstsq := lstsq
  sidd := fun _ => none
  sicd := fun _ => none

theorem value_two (c0 c1 x y z : ℝ) : Value ⟨1, 0, 0, [c0, c1]⟩ x y z (c0 + c1 * x) := by
  refine ⟨fun i _ _ => if i = 0 then c0 else c1, ?_, ?_⟩
  · intro i j k hi hj hk
    simp only [show ((1 : Int) + 1).toNat = 2 from rfl, show ((0 : Int) + 1).toNat = 1 from rfl] at hi hj hk ⊢
    obtain rfl : j = 0 := by omega
    obtain rfl : k = 0 := by omega
    interval_cases i <;> simp
  · simp [triple, Finset.sum_range_succ]

/-- The premises of `rsm_image` are met by an image with RSM (and RPC) metadata: the ground point at longitude 1 (radian) is at column 3, row 3/2. -/
example (lstsq : List (Row ℝ) → Projective ℝ) (hl : ∀ rows, IsLstsq rows (lstsq rows)) :
    ∃ M, load (demoRsmEnv lstsq) (.image demoImage) = .ok (demoImage, some M) ∧ M.worldToImage ⟨1, 0, 0⟩ = .ok (3, 3 / 2) := by
  obtain ⟨m, hm, e0, e1, e2, e3, e4, e5, e6, e7, e8, e9, e10, e11, e12, e13, e14⟩ :
      ∃ m, buildRsm (demoRsmEnv lstsq).earth demoConv demoRsmTres = .ok (some (.single m)) ∧
      (∀ g : Geo ℝ, m.domain.frame.toDomain (demoRsmEnv lstsq).earth g = .ok ![g.longitude, g.latitude, g.elevation]) ∧
      m.rowOff = 0 ∧ m.colOff = 0 ∧ m.xOff = 0 ∧ m.yOff = 0 ∧ m.zOff = 0 ∧ m.rowScale = 1 ∧ m.colScale = 1 ∧ m.xScale = 1 ∧ m.yScale = 1 ∧
      m.zScale = 1 ∧ m.rowNum = ⟨1, 0, 0, [1, 2]⟩ ∧ m.rowDen = ⟨1, 0, 0, [1, 1]⟩ ∧ m.colNum = ⟨1, 0, 0, [2, 1]⟩ ∧ m.colDen = ⟨1, 0, 0, [1, 0]⟩ :=
    ⟨_, rfl, fun _ => rfl, rfl, rfl, rfl, rfl, rfl, rfl, rfl, rfl, rfl, rfl, rfl, rfl, rfl, rfl⟩
  obtain ⟨t, p, d, a, b, e, f, ht, hd, hp, hdm⟩ := (Verif.Props.Tre.rsm_builder_single _ _ _ _).1 hm
  have hplaced : Placed demoConv demoRsmTres id id := Or.inl ⟨(find_none _ _ _).1 rfl, rfl, rfl⟩
  obtain ⟨info, hinfo, hwrap⟩ := wrap_placed (demoRsmEnv lstsq) hl demoImage.crs demoRsmTres _ _ hplaced
  obtain ⟨w, hw, -⟩ := hwrap (m.model (demoRsmEnv lstsq).earth (demoRsmEnv lstsq).minimise)
  have hload := load_succeeds (demoRsmEnv lstsq) demoImage "doc" [] demoRsmTres rfl (by simp [demoRsmEnv]) (demo_noSar _ rfl rfl) rfl (by decide) ((find_none _ _ _).1 rfl) info hinfo
    (some (m.model (demoRsmEnv lstsq).earth (demoRsmEnv lstsq).minimise)) (some w) (by
      unfold rsmOrRpc
      rw [selected_all, selected_all]
      have x1 : buildRsm (demoRsmEnv lstsq).earth (demoRsmEnv lstsq).lib.conv demoRsmTres = .ok (some (.single m)) := hm
      simp only [builders, x1]
      rfl) hw
  obtain ⟨M, hM, -, hproj, -⟩ := rsm_image (demoRsmEnv lstsq) hl demoImage _ hload "doc" [] demoRsmTres t p rfl (by simp [demoRsmEnv]) (demo_noSar _ rfl rfl) ht d a b e f hd hp m hdm
    (by rw [e8]; norm_num) (by rw [e9]; norm_num) (by rw [e10]; norm_num) _ _ hplaced
  refine ⟨M, by rw [hload, hM], ?_⟩
  rw [hproj ⟨1, 0, 0⟩ ![1, 0, 0] 1 0 0 (1 + 2 * 1) (1 + 1 * 1) (2 + 1 * 1) (1 + 0 * 1) (by rw [← hdm.1]; exact e0 _) (by rw [e8, e3]; simp) (by rw [e9, e4]; simp) (by rw [e10, e5]; simp)
    (by rw [e11]; exact value_two _ _ _ _ _) (by rw [e12]; exact value_two _ _ _ _ _) (by rw [e13]; exact value_two _ _ _ _ _) (by rw [e14]; exact value_two _ _ _ _ _) (by norm_num) (by norm_num)]
  rw [e1, e2, e6, e7]
  norm_num

/-- **C113**: the same for an image with several sections: the section is chosen by the position in the full image, and the RSMPCA TRE with the numbers of the section gives
the polynomials. -/
theorem sectioned_rsm_image (env : Env) (hl : ∀ rows, IsLstsq rows (env.lstsq rows)) (i : Image) (r : Image × Option Model) (hload : load env (.image i) = .ok r)
    (s : String) (rest : List String) (tres t q : Xml) (ht : i.tres = s :: rest) (hparse : env.parseTres s = .ok tres) (hdes : Verif.Spec.Factory.NoSar env.lib i.dess)
    (res : RsmResult) (hres : buildRsm env.earth env.lib.conv tres = .ok (some res)) (hm : 2 ≤ (allNamed tres "tre" "RSMPCA").length)
    (hida : IsFirst tres "tre" "RSMIDA" t) (hq : IsFirst tres "tre" "RSMPIA" q) (nr nc : Nat) (hnr : 0 < nr) (hnc : 0 < nc) (rs cs : ℝ) (hrs : 0 < rs) (hcs : 0 < cs)
    (f1 : HasField q "RNIS" env.lib.conv.int (nr : Int)) (f2 : HasField q "CNIS" env.lib.conv.int (nc : Int)) (f3 : HasField q "RSSIZ" env.lib.conv.float rs)
    (f4 : HasField q "CSSIZ" env.lib.conv.float cs) (toChip toFull : ℝ × ℝ → ℝ × ℝ) (hplaced : Placed env.lib.conv tres toChip toFull) :
    ∃ M d minRow maxRow minCol maxCol rowPoly colPoly, r = (i, some M) ∧ DescribesContext env.earth env.lib.conv t d minRow maxRow minCol maxCol ∧
      List.Forall₂ (fun n v => HasField q n env.lib.conv.float v) ["R0", "RX", "RY", "RZ", "RXX", "RXY", "RXZ", "RYY", "RYZ", "RZZ"] rowPoly ∧
      List.Forall₂ (fun n v => HasField q n env.lib.conv.float v) ["C0", "CX", "CY", "CZ", "CXX", "CXY", "CXZ", "CYY", "CYZ", "CZZ"] colPoly ∧
      (∀ p e o g, M.imageToWorld p e o = .ok g → ∃ a b m o', Responsible minRow rs (toFull p).2 nr a ∧ Responsible minCol cs (toFull p).1 nc b ∧
        Verif.Props.TreModel.SectionTre env.lib.conv d tres a b m ∧ (m.model env.earth env.minimise).imageToWorld (toFull p) e o' = .ok g) ∧
      (∀ g v, d.frame.toDomain env.earth g = .ok v → ∃ a b m, Responsible minRow rs (quadratic rowPoly (v 0) (v 1) (v 2)) nr a ∧
        Responsible minCol cs (quadratic colPoly (v 0) (v 1) (v 2)) nc b ∧ Verif.Props.TreModel.SectionTre env.lib.conv d tres a b m ∧
        M.worldToImage g = (m.worldToImage env.earth g).map toChip) := by
  obtain ⟨M, hM, M1, M2⟩ := rsm_loaded env hl i r hload s rest tres ht hparse hdes _ hres toChip toFull hplaced
  obtain ⟨d, minRow, maxRow, minCol, maxCol, rowPoly, colPoly, h1, h2, h3, h4, h5⟩ :=
    Verif.Props.TreModel.sectioned_image env.earth env.minimise env.lib.conv tres t q res hres hm hida hq nr nc hnr hnc rs cs hrs hcs f1 f2 f3 f4
  refine ⟨M, d, minRow, maxRow, minCol, maxCol, rowPoly, colPoly, hM, h1, h2, h3, ?_, ?_⟩
  · intro p e o g hg
    obtain ⟨o', hg'⟩ := M2 p e o g hg
    obtain ⟨a, b, m, r1, r2, r3, r4⟩ := h4 (toFull p).1 (toFull p).2 e o'
    exact ⟨a, b, m, o', r1, r2, r3, by rw [← r4]; exact hg'⟩
  · intro g v hv
    obtain ⟨a, b, m, r1, r2, r3, r4⟩ := h5 g v hv
    exact ⟨a, b, m, r1, r2, r3, by rw [M1, r4]⟩

/-- The premises about the TREs: an image with two sections below each other, not a chip. -/
example (earth : Earth) : let tres : Xml := .node "tres" [] [Verif.Props.Tre.demoIda, Verif.Props.Tre.demoPca "2" "1", Verif.Props.Tre.demoPca "1" "1", Verif.Props.Tre.demoPiaFull "2" "1"]
    (∃ res, buildRsm earth Verif.Props.Tre.demoReal tres = .ok (some res)) ∧ 2 ≤ (allNamed tres "tre" "RSMPCA").length ∧ Placed Verif.Props.Tre.demoReal tres id id :=
  ⟨⟨_, rfl⟩, by rw [← Verif.Props.Tre.findall_eq]; exact Nat.le_refl 2, Or.inl ⟨(find_none _ _ _).1 rfl, rfl, rfl⟩⟩

/-! ## Images that only have a geo transform or ground control points -/

/-- An image without metadata domains. -/
theorem load_plain (env : Env) (i : Image) (ht : i.tres = []) (hdes : Verif.Spec.Factory.NoSar env.lib i.dess) :
    load env (.image i) = (approximate (builders env i.crs) (metadata i none)).map (fun m => (i, m)) := by
  have hb : build (builders env i.crs) env.lib (metadata i none) = approximate (builders env i.crs) (metadata i none) := by
    unfold build
    cases ha : approximate (builders env i.crs) (metadata i none) with
    | error e => rfl
    | ok a =>
      have ht' : treModels (builders env i.crs) env.lib (metadata i none) a = .ok (a, none) := rfl
      simp only [bind, Except.bind, ht', des_unused env i none hdes]
      cases a <;> rfl
  rw [← hb]
  unfold load
  simp only [openImage, parsedTres, ht, bind, Except.bind, metadata]
  cases build (builders env i.crs) env.lib ⟨i.width, i.height, none, some i.dess, i.geo, some i.gcps, some [.affine, .projective, .rpc, .sicd, .rsm]⟩ <;> rfl

/-- **C114**: an image file with a geo transform and nothing else.  A singular geo transform makes loading fail with `ValueError`.  Otherwise pixel `(c, r)` is at `g0 + c g1 + r g2`,
`g3 + c g4 + r g5` in the reference system of the image (degrees when it has none), and `world_to_image` is the inverse. -/
theorem geo_transform_image (env : Env) (i : Image) (g0 g1 g2 g3 g4 g5 : ℝ) (hgeo : i.geo = some [g0, g1, g2, g3, g4, g5]) (ht : i.tres = []) (hdes : Verif.Spec.Factory.NoSar env.lib i.dess)
    (hgcps : i.gcps.length < 4) (hcrs : ∀ c, i.crs = some c → Verif.Props.Sensors.GoodCrs c) :
    (g1 * g5 - g2 * g4 = 0 → load env (.image i) = .error .valueError) ∧
    (g1 * g5 - g2 * g4 ≠ 0 → ∃ M, load env (.image i) = .ok (i, some M) ∧
      (∀ c r lon lat, (i.crs = none ∧ (lon, lat) = (g0 + c * g1 + r * g2, g3 + c * g4 + r * g5) ∨
          ∃ t z, i.crs = some t ∧ t.fwd (g0 + c * g1 + r * g2, g3 + c * g4 + r * g5, 1) = .ok (lon, lat, z)) →
        (∀ o, M.imageToWorld (c, r) none o = .ok ⟨Real.pi / 180 * lon, Real.pi / 180 * lat, 0⟩) ∧
        M.worldToImage ⟨Real.pi / 180 * lon, Real.pi / 180 * lat, 0⟩ = .ok (c, r))) := by
  have happ : ∀ (m : Except PyErr Model), gdalAffine ⟨degrees, radians⟩ [g0, g1, g2, g3, g4, g5] i.crs = m → load env (.image i) = m.map (fun m => (i, some m)) := by
    intro m hm
    rw [load_plain env i ht hdes]
    unfold approximate fromGeo
    simp only [selected_all]
    simp only [metadata, hgeo, if_neg (show ¬ i.gcps.length > 3 by omega), builders]
    rw [hm]
    cases m <;> rfl
  obtain ⟨hs1, hs2⟩ := Verif.Props.Sensors.affine_singular_iff (O := Dict ℝ) (⟨degrees, radians⟩ : Angles ℝ) g0 g1 g2 g3 g4 g5 [] i.crs
  constructor
  · intro h
    rw [happ _ (hs1.2 h)]
    rfl
  · intro h
    obtain ⟨m, hm⟩ := hs2 h
    refine ⟨m, by rw [happ _ hm]; rfl, ?_⟩
    intro c r lon lat hpos
    have hpi : Real.pi ≠ 0 := Real.pi_ne_zero
    have round := (Verif.Props.Sensors.affine_round_trip (O := Dict ℝ) (⟨degrees, radians⟩ : Angles ℝ) (fun x => by simp only [degrees, radians]; field_simp)
      (fun x => by simp only [degrees, radians]; field_simp) _ i.crs hcrs m hm).1
    have key : ∀ o, m.imageToWorld (c, r) none o = .ok ⟨radians lon, radians lat, 0⟩ := by
      intro o
      obtain ⟨a1, a2, -⟩ := Verif.Props.Sensors.affine_position (O := Dict ℝ) (⟨degrees, radians⟩ : Angles ℝ) g0 g1 g2 g3 g4 g5 [] i.crs m hm c r none o
      rcases hpos with ⟨h1, h2⟩ | ⟨t, z, h1, h2⟩
      · rw [a1 h1]
        simp only [Prod.mk.injEq] at h2
        rw [h2.1, h2.2]
        rfl
      · rw [a2 t lon lat z h1 h2]
        rfl
    have er : ∀ x, Real.pi / 180 * x = radians x := by
      intro x; simp only [radians]; ring
    rw [er, er]
    exact ⟨key, (round (c, r) none _ (key none)).2⟩
/-- A map with metres in both directions: 100000 of them are a degree.  Pixel (3, 4) of an image with pixels of 10 m is at 0.0003 degrees east, 0.0004 degrees south. -/
example (env : Env) : let crs : Crs ℝ := ⟨fun p => .ok (p.1 / 100000, p.2.1 / 100000, p.2.2), fun p => .ok (p.1 * 100000, p.2.1 * 100000, p.2.2)⟩
    ∃ M, load env (.image ⟨8, 8, some [0, 10, 0, 0, 0, -10], some crs, [], none, [], []⟩) = .ok (⟨8, 8, some [0, 10, 0, 0, 0, -10], some crs, [], none, [], []⟩, some M) ∧
      M.worldToImage ⟨Real.pi / 180 * 0.0003, Real.pi / 180 * (-0.0004), 0⟩ = .ok (3, 4) := by
  intro crs
  obtain ⟨M, h1, h2⟩ := (geo_transform_image env ⟨8, 8, some [0, 10, 0, 0, 0, -10], some crs, [], none, [], []⟩ 0 10 0 0 0 (-10) rfl rfl (Or.inl rfl) (by decide) (by
    intro c hc
    have hc' : c = crs := (Option.some.inj hc).symm
    rw [hc']
    constructor
    · intro x y lon lat z h
      simp only [crs, Except.ok.injEq, Prod.mk.injEq] at h ⊢
      obtain ⟨rfl, rfl, rfl⟩ := h
      refine ⟨rfl, ?_, ?_, trivial⟩ <;> ring
    · intro lon lat x y z h
      simp only [crs, Except.ok.injEq, Prod.mk.injEq] at h ⊢
      obtain ⟨rfl, rfl, rfl⟩ := h
      refine ⟨rfl, ?_, ?_, trivial⟩ <;> ring)).2 (by norm_num)
  refine ⟨M, h1, (h2 3 4 _ _ (Or.inr ⟨crs, 1, rfl, ?_⟩)).2⟩
  simp only [crs, Except.ok.injEq, Prod.mk.injEq]
  norm_num

/-- The ground control points as pairs of positions. -/
theorem gcp_loaded (env : Env) (hl : ∀ rows, IsLstsq rows (env.lstsq rows)) (i : Image) (ht : i.tres = []) (hdes : Verif.Spec.Factory.NoSar env.lib i.dess) (hgcps : 4 ≤ i.gcps.length)
    (hgeo : i.geo = none) (t0 : Projective ℝ) (hdet : t0.det ≠ 0)
    (hmap : ∀ g ∈ i.gcps, t0.forward (Real.pi / 180 * g.x, Real.pi / 180 * g.y) = some (g.pixel, g.line))
    (hgp : Verif.Spec.Transforms.GeneralPosition (i.gcps.map (fun g => (Real.pi / 180 * g.x, Real.pi / 180 * g.y)))) :
    ∃ M, load env (.image i) = .ok (i, some M) ∧ ∀ w, M.worldToImage w = finite (t0.forward (w.longitude, w.latitude)) := by
  have er : ∀ x, Real.pi / 180 * x = radians x := by
    intro x; simp only [radians]; ring
  simp only [er] at hmap hgp
  have hest : estimateStacked env.lstsq ((i.gcps.map (fun g => (⟨radians g.x, radians g.y, g.z⟩ : Geo ℝ))).map (fun g => (g.longitude, g.latitude)))
      (i.gcps.map (fun g => (g.pixel, g.line))) = .ok t0 := by
    rw [List.map_map]
    unfold estimateStacked
    rw [if_neg (by simp; intro h; rw [h] at hgcps; simp at hgcps)]
    congr 1
    apply Verif.Props.Transforms.estimate_recovers env.lstsq t0 hdet _ (hl _)
    · rw [List.zip_map']
      intro p hp
      obtain ⟨g, hg, rfl⟩ := List.mem_map.1 hp
      exact hmap g hg
    · rw [List.zip_map', List.map_map]
      exact hgp
  rw [load_plain env i ht hdes]
  unfold approximate fromGeo
  simp only [selected_all]
  simp only [metadata, hgeo, builders, projective, hest, if_pos (show i.gcps.length > 3 by omega)]
  exact ⟨_, rfl, fun _ => rfl⟩

/-- **C115**, the part that holds: for an image with ground control points in degrees that fit a projective map, the loaded model places each point on its pixel, at any elevation. -/
theorem gcp_image_partial (env : Env) (hl : ∀ rows, IsLstsq rows (env.lstsq rows)) (i : Image) (ht : i.tres = []) (hdes : Verif.Spec.Factory.NoSar env.lib i.dess) (hgcps : 4 ≤ i.gcps.length)
    (hgeo : i.geo = none) (t0 : Projective ℝ) (hdet : t0.det ≠ 0)
    (hmap : ∀ g ∈ i.gcps, t0.forward (Real.pi / 180 * g.x, Real.pi / 180 * g.y) = some (g.pixel, g.line))
    (hgp : Verif.Spec.Transforms.GeneralPosition (i.gcps.map (fun g => (Real.pi / 180 * g.x, Real.pi / 180 * g.y)))) :
    ∃ M, load env (.image i) = .ok (i, some M) ∧ ∀ g ∈ i.gcps, ∀ z, M.worldToImage ⟨Real.pi / 180 * g.x, Real.pi / 180 * g.y, z⟩ = .ok (g.pixel, g.line) := by
  obtain ⟨M, h1, h2⟩ := gcp_loaded env hl i ht hdes hgcps hgeo t0 hdet hmap hgp
  refine ⟨M, h1, fun g hg z => ?_⟩
  rw [h2, hmap g hg]
  rfl

/-- **C116**: the order in which the file lists its ground control points does not matter: the loaded model, or the error, is the same. -/
theorem gcp_order_irrelevant (env : Env) (hl : ∀ rows, IsLstsq rows (env.lstsq rows)) (i : Image) (gcps : List Gcp) (hp : i.gcps.Perm gcps) :
    (load env (.image { i with gcps := gcps })).map Prod.snd = (load env (.image i)).map Prod.snd := by
  have hb : (builders env i.crs).gcps gcps = (builders env i.crs).gcps i.gcps := by
    simp only [builders]
    have := Verif.Props.Sensors.projective_order_irrelevant (O := Dict ℝ) env.lstsq hl _ _
      (hp.symm.map (fun g => ((⟨radians g.x, radians g.y, g.z⟩ : Geo ℝ), (g.pixel, g.line))))
    simpa only [List.map_map, Function.comp_def] using this
  have hlen : gcps.length = i.gcps.length := hp.length_eq.symm
  unfold load
  have e : parsedTres env { i with gcps := gcps } = parsedTres env i := rfl
  simp only [openImage, e, bind, Except.bind]
  cases parsedTres env i with
  | error e => rfl
  | ok t =>
    simp only
    have ha : ∀ ts, build (builders env i.crs) env.lib ⟨i.width, i.height, t, some i.dess, i.geo, some gcps, ts⟩
        = build (builders env i.crs) env.lib ⟨i.width, i.height, t, some i.dess, i.geo, some i.gcps, ts⟩ := by
      intro ts
      have h1 : approximate (builders env i.crs) ⟨i.width, i.height, t, some i.dess, i.geo, some gcps, ts⟩
          = approximate (builders env i.crs) ⟨i.width, i.height, t, some i.dess, i.geo, some i.gcps, ts⟩ := by
        unfold approximate fromGeo Metadata.isSelected
        congr 1
        funext a
        simp only
        cases ts with
        | none => simp only [hb, hlen]
        | some l =>
          by_cases hk : Kind.projective ∈ l
          · simp only [decide_eq_true hk, hb, hlen]
          · simp only [decide_eq_false hk]
      unfold build
      rw [h1]
      rfl
    rw [ha]
    cases build (builders env i.crs) env.lib ⟨i.width, i.height, t, some i.dess, i.geo, some i.gcps, some [.affine, .projective, .rpc, .sicd, .rsm]⟩ <;> rfl

/-- Two orders of five points. -/
example : ([⟨0, 1, 5, 0, 0⟩, ⟨1, 1, 5, 10, 0⟩, ⟨1, 0, 5, 10, 20⟩, ⟨0, 0, 5, 0, 20⟩, ⟨2, 2, 5, 7, 7⟩] : List Gcp).Perm
    [⟨2, 2, 5, 7, 7⟩, ⟨0, 1, 5, 0, 0⟩, ⟨1, 1, 5, 10, 0⟩, ⟨1, 0, 5, 10, 20⟩, ⟨0, 0, 5, 0, 20⟩] :=
  List.perm_append_comm (l₁ := [_, _, _, _]) (l₂ := [_])

/-- **C115** is false for control points in a projected reference system: that system is ignored. -/
theorem gcp_crs_ignored (env : Env) (i : Image) (c : Option (Crs ℝ)) :
    (load env (.image { i with gcpCrs := c })).map Prod.snd = (load env (.image i)).map Prod.snd := by
  unfold load
  have e : parsedTres env { i with gcpCrs := c } = parsedTres env i := rfl
  simp only [openImage, e, bind, Except.bind]
  cases parsedTres env i with
  | error e => rfl
  | ok t =>
    simp only
    cases build (builders env i.crs) env.lib ⟨i.width, i.height, t, some i.dess, i.geo, some i.gcps, some [.affine, .projective, .rpc, .sicd, .rsm]⟩ <;> rfl

/-- **C115** is false: a control point whose geographic position is not its position in its reference system is not placed on its pixel. -/
theorem projected_gcps_misplaced (env : Env) (hl : ∀ rows, IsLstsq rows (env.lstsq rows)) (i : Image) (ht : i.tres = []) (hdes : Verif.Spec.Factory.NoSar env.lib i.dess) (hgcps : 4 ≤ i.gcps.length)
    (hgeo : i.geo = none) (t0 : Projective ℝ) (hdet : t0.det ≠ 0)
    (hmap : ∀ g ∈ i.gcps, t0.forward (Real.pi / 180 * g.x, Real.pi / 180 * g.y) = some (g.pixel, g.line))
    (hgp : Verif.Spec.Transforms.GeneralPosition (i.gcps.map (fun g => (Real.pi / 180 * g.x, Real.pi / 180 * g.y))))
    (c : Crs ℝ) (_ : i.gcpCrs = some c) (g : Gcp) (hg : g ∈ i.gcps) (lon lat z : ℝ) (_ : c.fwd (g.x, g.y, g.z) = .ok (lon, lat, z)) (hne : (lon, lat) ≠ (g.x, g.y)) :
    ∃ M, load env (.image i) = .ok (i, some M) ∧ M.worldToImage ⟨Real.pi / 180 * lon, Real.pi / 180 * lat, z⟩ ≠ .ok (g.pixel, g.line) := by
  obtain ⟨M, h1, h2⟩ := gcp_loaded env hl i ht hdes hgcps hgeo t0 hdet hmap hgp
  refine ⟨M, h1, ?_⟩
  rw [h2]
  intro h
  simp only at h
  cases hf : t0.forward (Real.pi / 180 * lon, Real.pi / 180 * lat) with
  | none => rw [hf] at h; simp [finite] at h
  | some q =>
    rw [hf] at h
    obtain rfl : q = (g.pixel, g.line) := by simpa [finite] using h
    have e1 := Verif.Props.Transforms.inverse_forward t0 hdet _ _ hf
    have e2 := Verif.Props.Transforms.inverse_forward t0 hdet _ _ (hmap g hg)
    rw [e1] at e2
    have hpi := Real.pi_ne_zero
    apply hne
    simp only [Option.some.injEq, Prod.mk.injEq] at e2 ⊢
    constructor
    · have := e2.1; field_simp at this; exact this
    · have := e2.2; field_simp at this; exact this

/-- Control points in a map of which two units are a degree. -/
example : let crs : Crs ℝ := ⟨fun p => .ok (p.1 / 2, p.2.1 / 2, p.2.2), fun p => .ok (p.1 * 2, p.2.1 * 2, p.2.2)⟩
    let gcps : List Gcp := [⟨0, 1, 5, 0, 0⟩, ⟨1, 1, 5, 10, 0⟩, ⟨1, 0, 5, 10, 20⟩, ⟨0, 0, 5, 0, 20⟩]
    let t0 : Projective ℝ := ⟨0, 10 * (180 / Real.pi), 0, 20, 0, -20 * (180 / Real.pi), 0, 0⟩
    t0.det ≠ 0 ∧ (∀ g ∈ gcps, t0.forward (Real.pi / 180 * g.x, Real.pi / 180 * g.y) = some (g.pixel, g.line)) ∧
    Verif.Spec.Transforms.GeneralPosition (gcps.map (fun g => (Real.pi / 180 * g.x, Real.pi / 180 * g.y))) ∧
    (⟨1, 1, 5, 10, 0⟩ : Gcp) ∈ gcps ∧ crs.fwd (1, 1, 5) = .ok (1 / 2, 1 / 2, 5) ∧ ((1 / 2 : ℝ), (1 / 2 : ℝ)) ≠ (1, 1) := by
  have hpi := Real.pi_ne_zero
  intro crs gcps t0
  refine ⟨?_, ?_, ?_, by simp [gcps], rfl, by norm_num⟩
  · simp only [t0, Verif.Transforms.Projective.det]
    field_simp
    norm_num
  · intro g hg
    simp only [gcps, List.mem_cons, List.not_mem_nil, or_false] at hg
    rcases hg with rfl | rfl | rfl | rfl <;> simp [t0, Verif.Transforms.Projective.forward, Verif.Transforms.ndiv] <;> field_simp <;> norm_num
  · refine ⟨(0, Real.pi / 180), by simp [gcps], (Real.pi / 180, Real.pi / 180), by simp [gcps], (Real.pi / 180, 0), by simp [gcps], (0, 0), by simp [gcps], ?_⟩
    simp [Verif.Spec.Transforms.area, hpi]

end Verif.Props.Loading
