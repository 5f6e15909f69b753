import Verif.Props.Rsm
import Mathlib.Tactic.IntervalCases

/-!
# Properties C30, C33, C75, C76 and C77: RSM sensor models
-/

namespace Verif.Props.RsmModel

open Verif.Sensors Verif.Rpc Verif.Rsm Verif.Spec.Rpc Verif.Spec.Rsm Verif.Props.Rpc Verif.Props.Rsm
open Verif.Dem (Geo)

theorem mapM_forall2 {α β : Type} (f : α → Except PyErr β) (l : List α) (r : List β) (h : l.mapM f = .ok r) :
    List.Forall₂ (fun a b => f a = .ok b) l r := by
  induction l generalizing r with
  | nil => rw [List.mapM_nil] at h; cases h; exact .nil
  | cons a l ih =>
    rw [List.mapM_cons] at h
    simp only [bind, Except.bind, pure, Except.pure] at h
    split at h
    · cases h
    · rename_i b hb
      split at h
      · cases h
      · rename_i bs hbs
        cases h
        exact .cons hb (ih _ hbs)

/-! ## C75 -/

theorem grow_fold (l : List (Geo ℝ)) (b : Box) :
    ∃ b', l.foldl grow (some b) = some b' ∧
      (b'.1.1 ≤ b.1.1 ∧ b'.1.2 ≤ b.1.2 ∧ b.2.1 ≤ b'.2.1 ∧ b.2.2 ≤ b'.2.2) ∧
      (∀ g ∈ l, b'.1.1 ≤ g.longitude ∧ g.longitude ≤ b'.2.1 ∧ b'.1.2 ≤ g.latitude ∧ g.latitude ≤ b'.2.2) ∧
      (b'.1.1 = b.1.1 ∨ ∃ g ∈ l, g.longitude = b'.1.1) ∧ (b'.1.2 = b.1.2 ∨ ∃ g ∈ l, g.latitude = b'.1.2) ∧
      (b'.2.1 = b.2.1 ∨ ∃ g ∈ l, g.longitude = b'.2.1) ∧ (b'.2.2 = b.2.2 ∨ ∃ g ∈ l, g.latitude = b'.2.2) := by
  induction l generalizing b with
  | nil => exact ⟨b, rfl, ⟨le_rfl, le_rfl, le_rfl, le_rfl⟩, by simp, .inl rfl, .inl rfl, .inl rfl, .inl rfl⟩
  | cons g l ih =>
    obtain ⟨b', h, ⟨m1, m2, m3, m4⟩, hall, t1, t2, t3, t4⟩ := ih
      ((min b.1.1 g.longitude, min b.1.2 g.latitude), max b.2.1 g.longitude, max b.2.2 g.latitude)
    simp only at m1 m2 m3 m4 t1 t2 t3 t4
    refine ⟨b', h, ⟨le_trans m1 (min_le_left _ _), le_trans m2 (min_le_left _ _), le_trans (le_max_left _ _) m3,
      le_trans (le_max_left _ _) m4⟩, ?_, ?_, ?_, ?_, ?_⟩
    · intro x hx
      rcases List.mem_cons.1 hx with rfl | hx
      · exact ⟨le_trans m1 (min_le_right _ _), le_trans (le_max_right _ _) m3, le_trans m2 (min_le_right _ _),
          le_trans (le_max_right _ _) m4⟩
      · exact hall x hx
    · rcases t1 with t1 | ⟨x, hx, e⟩
      · rcases min_choice b.1.1 g.longitude with hm | hm
        · left; rw [t1, hm]
        · right; exact ⟨g, by simp, by rw [t1, hm]⟩
      · right; exact ⟨x, by simp [hx], e⟩
    · rcases t2 with t2 | ⟨x, hx, e⟩
      · rcases min_choice b.1.2 g.latitude with hm | hm
        · left; rw [t2, hm]
        · right; exact ⟨g, by simp, by rw [t2, hm]⟩
      · right; exact ⟨x, by simp [hx], e⟩
    · rcases t3 with t3 | ⟨x, hx, e⟩
      · rcases max_choice b.2.1 g.longitude with hm | hm
        · left; rw [t3, hm]
        · right; exact ⟨g, by simp, by rw [t3, hm]⟩
      · right; exact ⟨x, by simp [hx], e⟩
    · rcases t4 with t4 | ⟨x, hx, e⟩
      · rcases max_choice b.2.2 g.latitude with hm | hm
        · left; rw [t4, hm]
        · right; exact ⟨g, by simp, by rw [t4, hm]⟩
      · right; exact ⟨x, by simp [hx], e⟩

theorem foldl_add_sum (l : List (Geo ℝ)) (a : ℝ) :
    l.foldl (fun s g => s + g.elevation) a = a + (l.map Geo.elevation).sum := by
  induction l generalizing a with
  | nil => simp
  | cons g l ih => rw [List.foldl_cons, ih, List.map_cons, List.sum_cons, add_assoc]

/-- **C75**: a ground domain has eight geodetic vertices, the images of the given ones; its search area
is the smallest box around them; its default height is the one of the reference point, or the
mean of the vertices. -/
theorem ground_domain_summary (earth : Earth) (form : Form) (vs : List Vec) (origin : Option Vec) (units : Option Mat)
    (ref : Option Vec) (d : GroundDomain) (h : groundDomain earth form vs origin units ref = .ok d) :
    List.Forall₂ (fun v g => d.frame.toGeodetic earth v = .ok g) vs d.vertices ∧ d.vertices.length = 8 ∧
    (∃ w s e n, d.bbox = some ((w, s), e, n) ∧
      (∀ g ∈ d.vertices, w ≤ g.longitude ∧ g.longitude ≤ e ∧ s ≤ g.latitude ∧ g.latitude ≤ n) ∧
      (∃ g ∈ d.vertices, g.longitude = w) ∧ (∃ g ∈ d.vertices, g.latitude = s) ∧
      (∃ g ∈ d.vertices, g.longitude = e) ∧ (∃ g ∈ d.vertices, g.latitude = n)) ∧
    (∀ v, ref = some v → ∃ g, d.frame.toGeodetic earth v = .ok g ∧ d.defaultHeight = g.elevation) ∧
    (ref = none → d.defaultHeight = (d.vertices.map Geo.elevation).sum / 8) := by
  obtain ⟨h8, -, -, -, hd⟩ := groundDomain_frame earth form vs origin units ref d h
  obtain ⟨-, hm, hb, hr, hn⟩ := describeDomain_spec _ _ _ _ _ hd
  have hf := mapM_forall2 _ _ _ hm
  have hlen : d.vertices.length = 8 := by rw [← hf.length_eq, h8]
  refine ⟨hf, hlen, ?_, hr, ?_⟩
  · rw [hb]
    match hv : d.vertices, hlen with
    | g :: l, _ =>
      obtain ⟨b', h', ⟨m1, m2, m3, m4⟩, hall, t1, t2, t3, t4⟩ :=
        grow_fold l ((g.longitude, g.latitude), g.longitude, g.latitude)
      simp only at m1 m2 m3 m4 t1 t2 t3 t4
      refine ⟨b'.1.1, b'.1.2, b'.2.1, b'.2.2, h', ?_, ?_, ?_, ?_, ?_⟩
      · intro x hx
        rcases List.mem_cons.1 hx with rfl | hx
        · exact ⟨m1, m3, m2, m4⟩
        · exact hall x hx
      · rcases t1 with t | ⟨x, hx, e⟩
        · exact ⟨g, by simp, t.symm⟩
        · exact ⟨x, by simp [hx], e⟩
      · rcases t2 with t | ⟨x, hx, e⟩
        · exact ⟨g, by simp, t.symm⟩
        · exact ⟨x, by simp [hx], e⟩
      · rcases t3 with t | ⟨x, hx, e⟩
        · exact ⟨g, by simp, t.symm⟩
        · exact ⟨x, by simp [hx], e⟩
      · rcases t4 with t | ⟨x, hx, e⟩
        · exact ⟨g, by simp, t.symm⟩
        · exact ⟨x, by simp [hx], e⟩
  · intro hnone
    rw [hn hnone, hlen, foldl_add_sum, zero_add]
    norm_num

/-- Eight vertices of a domain east of the antimeridian (longitudes 3.2 and 3.4 are more than π). -/
def easternVertices : List Vec :=
  [![3.2, 0.1, 0], ![3.4, 0.1, 0], ![3.2, 0.2, 0], ![3.4, 0.2, 0],
   ![3.2, 0.1, 100], ![3.4, 0.1, 100], ![3.2, 0.2, 100], ![3.4, 0.2, 100]]

/-- An earth whose geocentric conversion only reorders the components (for examples). -/
def flatEarth : Earth := ⟨fun g => ![g.elevation, g.longitude, g.latitude], fun v => ⟨v 1, v 2, v 0⟩⟩

/-- The ground domain made from them, for a geodetic form. -/
noncomputable def easternDomain (form : Form) : GroundDomain :=
  ⟨⟨form, none, none⟩, easternVertices.map geoOf, (easternVertices.map geoOf).foldl grow none, 7⟩

theorem easternDomain_ok (form : Form) (hf : form ≠ .rectangular) :
    groundDomain flatEarth form easternVertices none none (some ![3.3, 0.1, 7]) = .ok (easternDomain form) := by
  have ht : ∀ v, (Frame.mk form none none).toGeodetic flatEarth v = .ok (geoOf v) := by
    intro v
    cases form <;> first | rfl | exact absurd rfl hf
  unfold groundDomain describeDomain
  rw [if_neg (by simp [easternVertices]), if_neg (by simp [hf])]
  have hm : easternVertices.mapM ((Frame.mk form none none).toGeodetic flatEarth) = .ok (easternVertices.map geoOf) := by
    have : (Frame.mk form none none).toGeodetic flatEarth = fun v => (pure (geoOf v) : Except PyErr _) := funext ht
    rw [this, List.mapM_pure]
    rfl
  simp only [bind, Except.bind, hm, ht, pure, Except.pure]
  rfl

/-- `geodetic_domain_inverts` and `geodetic_2pi_domain` on that domain. -/
example : (easternDomain .geodetic).frame.toDomain flatEarth ⟨3.25, 0.15, 9⟩ = .ok ![3.25, 0.15, 9] :=
  (geodetic_domain_inverts flatEarth _ none none _ _ (easternDomain_ok .geodetic (by simp)) ⟨3.25, 0.15, 9⟩).1

example : ∃ lon g', (easternDomain .geodetic2pi).frame.toDomain flatEarth ⟨-3, 0.15, 9⟩ = .ok ![lon, 0.15, 9] ∧ 0 ≤ lon ∧
    lon < 2 * Real.pi ∧ SameLongitude lon (-3) ∧ (easternDomain .geodetic2pi).frame.toGeodetic flatEarth ![lon, 0.15, 9] = .ok g' ∧
    SameLongitude g'.longitude (-3) ∧ g'.latitude = 0.15 ∧ g'.elevation = 9 :=
  (geodetic_2pi_domain flatEarth _ none none _ _ (easternDomain_ok .geodetic2pi (by simp))).1 ⟨-3, 0.15, 9⟩

/-- A rectangular domain with a non-trivial frame can be built. -/
example : ∃ d, groundDomain flatEarth .rectangular easternVertices (some ![1, 2, 3]) (some (Matrix.diagonal ![1, -1, 1])) none =
    .ok d := by
  have hdet : (Matrix.diagonal ![(1 : ℝ), -1, 1]).det ≠ 0 := by
    rw [Matrix.det_diagonal]
    simp [Fin.prod_univ_three]
  unfold groundDomain describeDomain
  rw [if_neg (by simp [easternVertices]), if_neg (by simp)]
  simp only [matInv, if_neg hdet, Except.map, bind, Except.bind]
  have : (Frame.toGeodetic flatEarth ⟨.rectangular, some ![1, 2, 3], some (Matrix.diagonal ![(1 : ℝ), -1, 1],
      (Matrix.diagonal ![(1 : ℝ), -1, 1])⁻¹)⟩) = fun v => (pure (flatEarth.ofEcef
        (fun i => (Matrix.diagonal ![(1 : ℝ), -1, 1])⁻¹.mulVec v i + ![1, 2, 3] i)) : Except PyErr _) := rfl
  rw [this, List.mapM_pure]
  exact ⟨_, rfl⟩

/-! ## C30 and the projection -/

/-- **C29/C31 for RSM**: the projection is offset plus scale times the ratio of the polynomials of the
normalised domain coordinate. -/
theorem rsm_world_to_image (earth : Earth) (m : PolyModel) (g : Geo ℝ) (v : Vec)
    (hv : m.domain.frame.toDomain earth g = .ok v) (hx : m.xScale ≠ 0) (hy : m.yScale ≠ 0) (hz : m.zScale ≠ 0) (X Y Z : ℝ)
    (eX : X * m.xScale + m.xOff = v 0) (eY : Y * m.yScale + m.yOff = v 1) (eZ : Z * m.zScale + m.zOff = v 2)
    (rn rd cn cd : ℝ) (h1 : m.rowNum.evaluate X Y Z = .ok rn) (h2 : m.rowDen.evaluate X Y Z = .ok rd)
    (h3 : m.colNum.evaluate X Y Z = .ok cn) (h4 : m.colDen.evaluate X Y Z = .ok cd) (hr : rd ≠ 0) (hc : cd ≠ 0) :
    m.worldToImage earth g = .ok (m.colOff + m.colScale * (cn / cd), m.rowOff + m.rowScale * (rn / rd)) := by
  have e1 : (v 0 - m.xOff) / m.xScale = X := by rw [div_eq_iff hx]; linarith
  have e2 : (v 1 - m.yOff) / m.yScale = Y := by rw [div_eq_iff hy]; linarith
  have e3 : (v 2 - m.zOff) / m.zScale = Z := by rw [div_eq_iff hz]; linarith
  have hn : m.normalizeWorld v = .ok ![X, Y, Z] := by
    simp only [PolyModel.normalizeWorld, norm1, npDiv, if_neg hx, if_neg hy, if_neg hz, e1, e2, e3]
    rfl
  simp only [PolyModel.worldToImage, hv, raise, bind, Except.bind, PolyModel.domainToImage, hn, Matrix.cons_val_zero,
    Matrix.cons_val_one, Matrix.cons_val, h1, h2, h3, h4, npDiv, if_neg hr, if_neg hc]
  show Except.ok _ = _
  simp only [PolyModel.denormalizeImage, denorm1]
  congr 2 <;> ring

/-- **C30** for RSM models: the returned point is the ground point at the longitude and latitude
that the minimiser found; the minimiser starts at the hint, or at the middle of the domain, with a
triangle of the hinted size, or as large as the domain, inside the box around the domain; it is told
the distance in the image for ground points on the elevation surface; no other point is projected. -/
theorem rsm_image_to_world (earth : Earth) (minimise : Minimiser) (form : Form) (vs : List Vec) (origin : Option Vec)
    (units : Option Mat) (ref : Option Vec) (m : PolyModel)
    (hd : groundDomain earth form vs origin units ref = .ok m.domain) (p : ℝ × ℝ) (e : Option (Elev ℝ))
    (o : Option (Dict ℝ)) :
    (∀ g ∈ (m.locate earth minimise p e o).1, ∃ lon lat, ground m.domain.defaultHeight e lon lat = .ok g) ∧
    ∀ g, (m.model earth minimise).imageToWorld p e o = .ok g →
      ∃ start size lon lat v1 v4 box, m.domain.vertices[0]? = some v1 ∧ m.domain.vertices[3]? = some v4 ∧
        m.domain.bbox = some box ∧
        ((o.bind (· "initial_guess")) = some (.pair start.1 start.2) ∨ (o.bind (· "initial_guess")) = none ∧
          start = ((v1.longitude + v4.longitude) / 2, (v1.latitude + v4.latitude) / 2)) ∧
        ((o.bind (· "initial_search_distance")) = some (.num size) ∨ (o.bind (· "initial_search_distance")) = none ∧
          size = misfit (v1.longitude, v1.latitude) (v4.longitude, v4.latitude)) ∧
        Finds (IsMisfit (m.model earth minimise).worldToImage m.domain.defaultHeight e p)
          (minimise start (some box) (equilateralTriangle start size)) (lon, lat) ∧
        ground m.domain.defaultHeight e lon lat = .ok g := by
  obtain ⟨-, hlen, ⟨w, s, ea, n, hbox, -⟩, -, -⟩ := ground_domain_summary earth form vs origin units ref m.domain hd
  have h0 : m.domain.vertices[0]? = some (m.domain.vertices[0]'(by omega)) := List.getElem?_eq_getElem _
  have h3 : m.domain.vertices[3]? = some (m.domain.vertices[3]'(by omega)) := List.getElem?_eq_getElem _
  have key := searchImageToWorld_spec minimise m.domain.bbox (m.worldToImage earth) m.domain.defaultHeight
    (((m.domain.vertices[0]'(by omega)).longitude + (m.domain.vertices[3]'(by omega)).longitude) / 2,
      ((m.domain.vertices[0]'(by omega)).latitude + (m.domain.vertices[3]'(by omega)).latitude) / 2)
    (Real.sqrt (((m.domain.vertices[0]'(by omega)).longitude - (m.domain.vertices[3]'(by omega)).longitude) ^ 2 +
      ((m.domain.vertices[0]'(by omega)).latitude - (m.domain.vertices[3]'(by omega)).latitude) ^ 2)) p e o
  have hloc : m.locate earth minimise p e o = searchImageToWorld minimise m.domain.bbox (m.worldToImage earth)
      (constantElevation m.domain.defaultHeight)
    (((m.domain.vertices[0]'(by omega)).longitude + (m.domain.vertices[3]'(by omega)).longitude) / 2,
      ((m.domain.vertices[0]'(by omega)).latitude + (m.domain.vertices[3]'(by omega)).latitude) / 2)
    (Real.sqrt (((m.domain.vertices[0]'(by omega)).longitude - (m.domain.vertices[3]'(by omega)).longitude) ^ 2 +
      ((m.domain.vertices[0]'(by omega)).latitude - (m.domain.vertices[3]'(by omega)).latitude) ^ 2)) p e o := by
    unfold PolyModel.locate
    rw [h0, h3]
  constructor
  · rw [hloc]
    exact key.1
  · intro g hg
    have hg' : (m.locate earth minimise p e o).2 = .ok g := hg
    rw [hloc] at hg'
    obtain ⟨start, size, lon, lat, k1, k2, k3, k4⟩ := key.2 g hg'
    rw [hbox] at k3
    exact ⟨start, size, lon, lat, _, _, _, h0, h3, hbox, k1, k2, k3, k4⟩

/-- A model on the domain: the image coordinates are the longitude and latitude in thousandths. -/
noncomputable def easternModel (form : Form) : PolyModel :=
  { domain := easternDomain form, rowSection := 1, colSection := 1, rowOff := 0, colOff := 0, xOff := 0, yOff := 0,
    zOff := 0, rowScale := 1000, colScale := 1000, xScale := 1, yScale := 1, zScale := 1,
    rowNum := ⟨0, 1, 0, [0, 1]⟩, rowDen := ⟨0, 0, 0, [1]⟩, colNum := ⟨1, 0, 0, [0, 1]⟩, colDen := ⟨0, 0, 0, [1]⟩ }

theorem eval_x (x y z : ℝ) : (⟨1, 0, 0, [0, 1]⟩ : RsmPoly ℝ).evaluate x y z = .ok x := by
  rw [evaluate_inOrder _ (fun i _ _ => if i = 0 then 0 else 1)]
  · simp [triple, Finset.sum_range_succ]
  · intro i j k hi hj hk
    simp only [Int.reduceAdd, Int.reduceToNat, zero_add] at hi hj hk
    interval_cases i <;> interval_cases j <;> interval_cases k <;> simp

theorem eval_y (x y z : ℝ) : (⟨0, 1, 0, [0, 1]⟩ : RsmPoly ℝ).evaluate x y z = .ok y := by
  rw [evaluate_inOrder _ (fun _ j _ => if j = 0 then 0 else 1)]
  · simp [triple, Finset.sum_range_succ]
  · intro i j k hi hj hk
    simp only [Int.reduceAdd, Int.reduceToNat, zero_add] at hi hj hk
    interval_cases i <;> interval_cases j <;> interval_cases k <;> simp

theorem eval_one (x y z : ℝ) : (⟨0, 0, 0, [1]⟩ : RsmPoly ℝ).evaluate x y z = .ok 1 := by
  rw [evaluate_inOrder _ (fun _ _ _ => 1)]
  · simp [triple, Finset.sum_range_succ]
  · intro i j k hi hj hk
    simp only [Int.reduceAdd, Int.reduceToNat, zero_add] at hi hj hk
    interval_cases i <;> interval_cases j <;> interval_cases k <;> simp

theorem easternModel_projects (form : Form) (g : Geo ℝ) (v : Vec) (hv : (easternDomain form).frame.toDomain flatEarth g = .ok v) :
    (easternModel form).worldToImage flatEarth g = .ok (1000 * v 0, 1000 * v 1) := by
  have h := rsm_world_to_image flatEarth (easternModel form) g v hv (by simp [easternModel]) (by simp [easternModel])
    (by simp [easternModel]) (v 0) (v 1) (v 2) (by simp [easternModel]) (by simp [easternModel]) (by simp [easternModel])
    (v 1) 1 (v 0) 1 (eval_y _ _ _) (eval_one _ _ _) (eval_x _ _ _) (eval_one _ _ _) one_ne_zero one_ne_zero
  rw [h]
  simp [easternModel]

example : (easternModel .geodetic).worldToImage flatEarth ⟨3.25, 0.15, 0⟩ = .ok (3250, 150) := by
  rw [easternModel_projects .geodetic _ ![3.25, 0.15, 0] rfl]
  norm_num

example : ((easternModel .geodetic).model flatEarth oneStep).imageToWorld (3250, 150) (some (constantElevation 5)) none =
    .ok ⟨3.3, 0.15, 5⟩ := by
  have h0 : (easternModel .geodetic).domain.vertices[0]? = some ⟨3.2, 0.1, 0⟩ := rfl
  have h3 : (easternModel .geodetic).domain.vertices[3]? = some ⟨3.4, 0.2, 0⟩ := rfl
  show (PolyModel.locate flatEarth oneStep (easternModel .geodetic) _ _ _).2 = _
  unfold PolyModel.locate
  rw [h0, h3]
  have hw : PolyModel.worldToImage flatEarth (easternModel .geodetic) ⟨(3.2 + 3.4) / 2, (0.1 + 0.2) / 2, 5⟩ = _ :=
    easternModel_projects .geodetic _ _ rfl
  simp only [searchImageToWorld, startFrom, hint, distanceFrom, oneStep, Search.run, objective, onSurface, constantElevation,
    withElevation, bind, Except.bind, hw, Except.map]
  norm_num

/-! ## C76 -/

/-- **C76**, the part that holds: without an elevation model that moves points, the result is inside
the box around the domain, and projecting does not distinguish longitudes a full turn apart in a
GEODETIC_2PI domain. -/
theorem rsm_result_in_domain_partial (earth : Earth) (minimise : Minimiser) (hmin : StaysInside minimise) (form : Form)
    (vs : List Vec) (origin : Option Vec) (units : Option Mat) (ref : Option Vec) (m : PolyModel)
    (hd : groundDomain earth form vs origin units ref = .ok m.domain) (p : ℝ × ℝ) (e : Option (Elev ℝ))
    (he : ∀ f g g', e = some f → f g = .ok g' → g'.longitude = g.longitude ∧ g'.latitude = g.latitude)
    (o : Option (Dict ℝ)) (g : Geo ℝ) (hg : (m.model earth minimise).imageToWorld p e o = .ok g) :
    (∃ v ∈ m.domain.vertices, v.longitude ≤ g.longitude) ∧ (∃ v ∈ m.domain.vertices, g.longitude ≤ v.longitude) ∧
    (∃ v ∈ m.domain.vertices, v.latitude ≤ g.latitude) ∧ (∃ v ∈ m.domain.vertices, g.latitude ≤ v.latitude) := by
  obtain ⟨-, -, ⟨w, s, ea, n, hbox, hin, ⟨v1, m1, e1⟩, ⟨v2, m2, e2⟩, ⟨v3, m3, e3⟩, ⟨v4, m4, e4⟩⟩, -, -⟩ :=
    ground_domain_summary earth form vs origin units ref m.domain hd
  obtain ⟨start, size, lon, lat, x1, x4, box, -, -, hb, -, -, hf, hgr⟩ :=
    (rsm_image_to_world earth minimise form vs origin units ref m hd p e o).2 g hg
  rw [hbox] at hb
  cases hb
  have hany : ∀ (s : Search) (q : ℝ × ℝ) A, Finds A s q → Finds (fun _ _ => True) s q := by
    intro s q A hf
    induction hf with
    | done p => exact .done p
    | ask q next v p _ _ ih => exact .ask _ _ _ _ trivial ih
  obtain ⟨b1, b2, b3, b4⟩ := hmin _ _ _ _ (le_trans (hin v1 m1).1 (hin v1 m1).2.1)
    (le_trans (hin v1 m1).2.2.1 (hin v1 m1).2.2.2) (hany _ _ _ hf)
  have hpos : g.longitude = lon ∧ g.latitude = lat := by
    cases e with
    | none => cases hgr; exact ⟨rfl, rfl⟩
    | some f => exact he f _ g rfl hgr
  rw [hpos.1, hpos.2]
  exact ⟨⟨v1, m1, e1 ▸ b1⟩, ⟨v3, m3, e3 ▸ b2⟩, ⟨v2, m2, e2 ▸ b3⟩, ⟨v4, m4, e4 ▸ b4⟩⟩

/-- **C76** as stated is false: for a GEODETIC_2PI domain (which is there for images near the
antimeridian) whose vertices are in the western hemisphere, every result has a longitude of
more than π. -/
theorem rsm_2pi_longitude_above_pi (earth : Earth) (minimise : Minimiser) (hmin : StaysInside minimise)
    (vs : List Vec) (hvs : ∀ v ∈ vs, Real.pi < v 0) (origin : Option Vec) (units : Option Mat) (ref : Option Vec)
    (m : PolyModel) (hd : groundDomain earth .geodetic2pi vs origin units ref = .ok m.domain) (p : ℝ × ℝ)
    (o : Option (Dict ℝ)) (g : Geo ℝ) (hg : (m.model earth minimise).imageToWorld p none o = .ok g) :
    Real.pi < g.longitude := by
  obtain ⟨⟨v, hv, hle⟩, -⟩ := rsm_result_in_domain_partial earth minimise hmin _ vs origin units ref m hd p none (by simp) o g hg
  obtain ⟨hall, -⟩ := ground_domain_summary earth _ vs origin units ref m.domain hd
  obtain ⟨-, hf, -⟩ := groundDomain_frame earth _ vs origin units ref m.domain hd
  have : ∀ l1 l2, List.Forall₂ (fun v g => m.domain.frame.toGeodetic earth v = .ok g) l1 l2 →
      (∀ v ∈ l1, Real.pi < v 0) → ∀ g ∈ l2, Real.pi < g.longitude := by
    intro l1 l2 h
    induction h with
    | nil => simp
    | cons h1 _ ih =>
      intro hv g hg
      rcases List.mem_cons.1 hg with rfl | hg
      · simp only [Frame.toGeodetic, hf, geoOf] at h1
        cases h1
        exact hv _ (by simp)
      · exact ih (fun v hv' => hv v (by simp [hv'])) g hg
  exact lt_of_lt_of_le (this _ _ hall hvs v hv) hle

/-- A minimiser that returns its start, moved into the bounds. -/
noncomputable def clipStart : Minimiser := fun start b _ => match b with
  | none => .done start
  | some b => .done (clip b start)

theorem clip_mem (b : (ℝ × ℝ) × ℝ × ℝ) (h1 : b.1.1 ≤ b.2.1) (h2 : b.1.2 ≤ b.2.2) (p : ℝ × ℝ) :
    b.1.1 ≤ (clip b p).1 ∧ (clip b p).1 ≤ b.2.1 ∧ b.1.2 ≤ (clip b p).2 ∧ (clip b p).2 ≤ b.2.2 :=
  ⟨le_min (le_max_right _ _) h1, min_le_right _ _, le_min (le_max_right _ _) h2, min_le_right _ _⟩

theorem clipStart_inside : StaysInside clipStart := by
  intro start b simplex p h1 h2 hf
  cases hf
  exact clip_mem b h1 h2 start

/-- The hypotheses can be met: the search of the middle of the domain returns the longitude 3.3. -/
example : Real.pi < 3.2 ∧ ((easternModel .geodetic2pi).model flatEarth clipStart).imageToWorld (3250, 150) none none =
    .ok ⟨3.3, 0.15, 7⟩ := by
  refine ⟨by have := Real.pi_lt_d2; norm_num at this ⊢; linarith, ?_⟩
  have h0 : (easternModel .geodetic2pi).domain.vertices[0]? = some ⟨3.2, 0.1, 0⟩ := rfl
  have h3 : (easternModel .geodetic2pi).domain.vertices[3]? = some ⟨3.4, 0.2, 0⟩ := rfl
  have hb : (easternModel .geodetic2pi).domain.bbox = some ((3.2, 0.1), 3.4, 0.2) := by
    show (easternVertices.map geoOf).foldl grow none = _
    simp only [easternVertices, List.map_cons, List.map_nil, geoOf, List.foldl_cons, List.foldl_nil, grow, Matrix.cons_val_zero,
      Matrix.cons_val_one, Matrix.cons_val]
    norm_num
  show (PolyModel.locate flatEarth clipStart (easternModel .geodetic2pi) _ _ _).2 = _
  unfold PolyModel.locate
  rw [h0, h3, hb]
  simp only [searchImageToWorld, startFrom, hint, distanceFrom, clipStart, Search.run, onSurface, constantElevation,
    withElevation, bind, Except.bind, clip, easternModel, easternDomain]
  norm_num

/-- **C76**: in a GEODETIC_2PI domain world coordinates a full turn apart have the same projection. -/
theorem rsm_2pi_projection_periodic (earth : Earth) (vs : List Vec) (origin : Option Vec) (units : Option Mat)
    (ref : Option Vec) (m : PolyModel) (hd : groundDomain earth .geodetic2pi vs origin units ref = .ok m.domain)
    (g g' : Geo ℝ) (h : SameLongitude g.longitude g'.longitude) (hlat : g.latitude = g'.latitude)
    (hz : g.elevation = g'.elevation) : m.worldToImage earth g = m.worldToImage earth g' := by
  obtain ⟨-, hf, -⟩ := groundDomain_frame earth _ vs origin units ref m.domain hd
  obtain ⟨k, hk⟩ := h
  have hpi : (2 * Real.pi) ≠ 0 := by have := Real.pi_pos; linarith
  have : pyMod (g.longitude + 2 * Real.pi) (2 * Real.pi) = pyMod (g'.longitude + 2 * Real.pi) (2 * Real.pi) := by
    unfold pyMod
    have e : (g.longitude + 2 * Real.pi) / (2 * Real.pi) = (g'.longitude + 2 * Real.pi) / (2 * Real.pi) + k := by
      rw [hk]
      field_simp
      ring
    rw [e, Int.floor_add_intCast, hk]
    push_cast
    ring
  unfold PolyModel.worldToImage
  simp only [Frame.toDomain, hf, this, hlat, hz]

/-- The same point, its longitude given as 3.25 and as 3.25 - 2π. -/
example : (easternModel .geodetic2pi).worldToImage flatEarth ⟨3.25, 0.15, 0⟩ =
    (easternModel .geodetic2pi).worldToImage flatEarth ⟨3.25 - 2 * Real.pi, 0.15, 0⟩ :=
  rsm_2pi_projection_periodic flatEarth easternVertices none none _ (easternModel .geodetic2pi) (easternDomain_ok .geodetic2pi (by simp))
    _ _ ⟨1, by push_cast; ring⟩ rfl rfl

/-! ## C77 -/

theorem affine_const (s : List (ℝ × ℝ)) (ws : List ℝ) (c : ℝ) (hl : ws.length = s.length) (hs : ∀ p ∈ s, p.1 = c) :
    (List.zipWith (fun w (p : ℝ × ℝ) => w * p.1) ws s).sum = c * ws.sum := by
  induction s generalizing ws with
  | nil => cases ws <;> simp_all
  | cons p s ih =>
    cases ws with
    | nil => simp at hl
    | cons w ws =>
      rw [List.zipWith_cons_cons, List.sum_cons, List.sum_cons,
        ih ws (by simpa using hl) (fun q hq => hs q (by simp [hq])), hs p (by simp)]
      ring

/-- **C77** is false: when the hinted longitude, plus half the size of the simplex, is at most the
western edge of the domain, every simplex search returns the western edge, whatever the pixel. -/
theorem hint_west_of_domain_sticks_to_edge (earth : Earth) (minimise : Minimiser) (hmin : SimplexSearch minimise)
    (form : Form) (vs : List Vec) (origin : Option Vec) (units : Option Mat) (ref : Option Vec) (m : PolyModel)
    (hd : groundDomain earth form vs origin units ref = .ok m.domain) (p : ℝ × ℝ) (d : Dict ℝ) (lon lat size w : ℝ)
    (s ea n : ℝ) (hbox : m.domain.bbox = some ((w, s), ea, n)) (hint1 : d "initial_guess" = some (.pair lon lat))
    (hint2 : d "initial_search_distance" = some (.num size)) (hsize : 0 ≤ size) (hwest : lon + size / 2 ≤ w)
    (g : Geo ℝ) (hg : (m.model earth minimise).imageToWorld p none (some d) = .ok g) : g.longitude = w := by
  obtain ⟨-, -, ⟨w', s', ea', n', hb', hin, ⟨v, hv, -⟩, -⟩, -, -⟩ :=
    ground_domain_summary earth form vs origin units ref m.domain hd
  rw [hbox] at hb'
  cases hb'
  have hwe : w ≤ ea := le_trans (hin v hv).1 (hin v hv).2.1
  obtain ⟨start, size', lon', lat', x1, x4, box, -, -, hb, h1, h2, hf, hgr⟩ :=
    (rsm_image_to_world earth minimise form vs origin units ref m hd p none (some d)).2 g hg
  rw [hbox] at hb
  cases hb
  simp only [Option.bind_some, hint1, hint2] at h1 h2
  have hstart : start = (lon, lat) := by
    rcases h1 with h1 | h1
    · simp only [Option.some.injEq, OptVal.pair.injEq] at h1
      exact Prod.ext h1.1.symm h1.2.symm
    · simp at h1
  have hsz : size' = size := by
    rcases h2 with h2 | h2
    · simp only [Option.some.injEq, OptVal.num.injEq] at h2
      exact h2.symm
    · simp at h2
  subst hstart hsz
  have hany : ∀ (s : Search) (q : ℝ × ℝ) A, Finds A s q → Finds (fun _ _ => True) s q := by
    intro s q A hf
    induction hf with
    | done p => exact .done p
    | ask q next v p _ _ ih => exact .ask _ _ _ _ trivial ih
  obtain ⟨t, hreach, hmem⟩ := hmin _ _ _ _ (by simp [equilateralTriangle]) (hany _ _ _ hf)
  have inv : ∀ a b, SimplexReach ((w, s), ea, n) a b → (∀ q ∈ a, q.1 = w) → ∀ q ∈ b, q.1 = w := by
    intro a b hr ha
    induction hr with
    | refl => exact ha
    | step t u _ hstep ih =>
      intro q hq
      rcases hstep q hq with hq' | ⟨r, ⟨ws, hl, hsum, hr1, -⟩, rfl⟩
      · exact ih q hq'
      · rw [affine_const t ws w hl ih, hsum, mul_one] at hr1
        show min (max r.1 w) ea = w
        rw [hr1, max_self, min_eq_left hwe]
  have h0 : ∀ q ∈ equilateralTriangle (lon, lat) size', q.1 ≤ w := by
    intro q hq
    simp only [equilateralTriangle, List.map_cons, List.map_nil, List.mem_cons, List.not_mem_nil, or_false] at hq
    rcases hq with rfl | rfl | rfl <;> simp only <;> linarith
  have hclip : ∀ q : ℝ × ℝ, q.1 ≤ w → (clip ((w, s), ea, n) q).1 = w := by
    intro q hq
    show min (max q.1 w) ea = w
    rw [max_eq_right hq, min_eq_left hwe]
  have := hreach.elim
    (fun h => inv _ _ h (by
      intro q hq
      obtain ⟨q', hq', rfl⟩ := List.mem_map.1 hq
      exact hclip _ (h0 _ hq')) _ hmem)
    (fun h => inv _ _ h (by
      intro q hq
      obtain ⟨q', hq', rfl⟩ := List.mem_map.1 hq
      refine hclip _ ?_
      have := h0 _ hq'
      show (if ea < q'.1 then 2 * ea - q'.1 else q'.1) ≤ w
      rw [if_neg (by linarith)]
      exact this) _ hmem)
  cases hgr
  exact this

/-- A simplex search that stops at once, at the first corner of the clipped simplex. -/
noncomputable def firstCorner : Minimiser := fun start b simplex => match b, simplex with
  | some b, p :: _ => .done (clip b p)
  | _, _ => .ask start (fun _ => .done start)

/-- It is a simplex search. -/
example : SimplexSearch firstCorner := by
  intro start b simplex p hne hf
  cases simplex with
  | nil => exact absurd rfl hne
  | cons c cs =>
    cases hf
    exact ⟨_, .inl (.refl _), by simp⟩

theorem affine_of_triangle (x0 x1 x2 yt yb : ℝ) (hx : x1 < x2) (hy : yb < yt) (q : ℝ × ℝ) : AffineOf [(x0, yt), (x1, yb), (x2, yb)] q := by
  have hy' : yt - yb ≠ 0 := by linarith
  have hx' : x2 - x1 ≠ 0 := by linarith
  set a := (q.2 - yb) / (yt - yb) with ha
  set c := (q.1 - a * x0 - (1 - a) * x1) / (x2 - x1) with hc
  refine ⟨[a, 1 - a - c, c], rfl, by simp, ?_, ?_⟩
  · simp only [List.zipWith_cons_cons, List.zipWith_nil_left, List.sum_cons, List.sum_nil]
    have : c * (x2 - x1) = q.1 - a * x0 - (1 - a) * x1 := by rw [hc]; field_simp
    linarith
  · simp only [List.zipWith_cons_cons, List.zipWith_nil_left, List.sum_cons, List.sum_nil]
    have : a * (yt - yb) = q.2 - yb := by rw [ha]; field_simp
    linarith

/-- **C77**, the part that holds: when the simplex around the hint overlaps the inside of the domain's bounds - as around every hint inside the domain - a simplex search
can reach every location within the bounds: some simplex search returns it, for every pixel.  Missing: hints whose simplex lies outside, for instance the standard
longitudes of a domain that is given in longitudes up to 2π (`hint_west_of_domain_sticks_to_edge`). -/
theorem hint_overlapping_domain_reaches_partial (earth : Earth) (m : PolyModel) (p : ℝ × ℝ) (d : Dict ℝ) (lon lat size w s ea n : ℝ)
    (v1 v4 : Geo ℝ) (hv1 : m.domain.vertices[0]? = some v1) (hv4 : m.domain.vertices[3]? = some v4)
    (hbox : m.domain.bbox = some ((w, s), ea, n)) (hint1 : d "initial_guess" = some (.pair lon lat))
    (hint2 : d "initial_search_distance" = some (.num size)) (hsize : 0 < size)
    (hw : w < lon + size / 2) (he : lon - size / 2 < ea) (hs : s < lat + size * Real.sqrt 3 / 3) (hn : lat - size * Real.sqrt 3 / 6 < n)
    (hwe : w < ea) (hsn : s < n) (tlon tlat : ℝ) (h1 : w ≤ tlon ∧ tlon ≤ ea) (h2 : s ≤ tlat ∧ tlat ≤ n) :
    ∃ minimise, SimplexSearch minimise ∧ (m.model earth minimise).imageToWorld p none (some d) = .ok ⟨tlon, tlat, m.domain.defaultHeight⟩ := by
  classical
  set b : (ℝ × ℝ) × ℝ × ℝ := ((w, s), ea, n) with hb
  have h3 : 0 < Real.sqrt 3 := Real.sqrt_pos.2 (by norm_num)
  have hsq : 0 < size * Real.sqrt 3 := by positivity
  have hreach : ∃ t, SimplexReach b ((equilateralTriangle (lon, lat) size).map (clip b)) t ∧ (tlon, tlat) ∈ t := by
    refine ⟨[(tlon, tlat)], .step _ _ _ (.refl _) ?_, by simp⟩
    intro q hq
    simp only [List.mem_cons, List.not_mem_nil, or_false] at hq
    subst hq
    refine .inr ⟨(tlon, tlat), ?_, ?_⟩
    · simp only [equilateralTriangle, List.map_cons, List.map_nil, clip, hb]
      apply affine_of_triangle
      · refine lt_min (lt_of_le_of_lt (min_le_left _ _) ?_) (lt_of_le_of_lt (min_le_left _ _) ?_)
        · exact max_lt (lt_max_of_lt_left (by linarith)) (lt_max_of_lt_left hw)
        · exact max_lt (by linarith) hwe
      · refine lt_min (lt_of_le_of_lt (min_le_left _ _) ?_) (lt_of_le_of_lt (min_le_left _ _) ?_)
        · exact max_lt (lt_max_of_lt_left (by linarith)) (lt_max_of_lt_left hs)
        · exact max_lt (by linarith) hsn
    · simp only [clip, hb]
      rw [max_eq_left h1.1, min_eq_left h1.2, max_eq_left h2.1, min_eq_left h2.2]
  let mini : Minimiser := fun start b' simplex => match b' with
    | none => .done start
    | some b' => if ∃ t, SimplexReach b' (simplex.map (clip b')) t ∧ (tlon, tlat) ∈ t then .done (tlon, tlat) else
      match simplex with
      | [] => .done start
      | c :: _ => .done (clip b' c)
  refine ⟨mini, ?_, ?_⟩
  · intro start b' simplex q hne hf
    simp only [mini] at hf
    by_cases hex : ∃ t, SimplexReach b' (simplex.map (clip b')) t ∧ (tlon, tlat) ∈ t
    · rw [if_pos hex] at hf
      cases hf
      exact hex.imp fun _ h => ⟨.inl h.1, h.2⟩
    · rw [if_neg hex] at hf
      cases simplex with
      | nil => exact absurd rfl hne
      | cons c cs =>
        cases hf
        exact ⟨_, .inl (.refl _), by simp⟩
  · show (PolyModel.locate earth mini m p none (some d)).2 = _
    unfold PolyModel.locate
    rw [hv1, hv4, hbox]
    simp only [searchImageToWorld, startFrom, hint, distanceFrom, hint1, hint2, Option.bind_some, mini]
    rw [if_pos hreach]
    rfl

/-- A hint in the middle of the domain of the example. -/
example : ∃ minimise, SimplexSearch minimise ∧ ((easternModel .geodetic2pi).model flatEarth minimise).imageToWorld (3300, 150) none
    (some (fun k => if k = "initial_guess" then some (.pair 3.25 0.12)
      else if k = "initial_search_distance" then some (.num 0.0001) else none)) = .ok ⟨3.3, 0.15, 7⟩ := by
  have hb : (easternModel .geodetic2pi).domain.bbox = some ((3.2, 0.1), 3.4, 0.2) := by
    show (easternVertices.map geoOf).foldl grow none = _
    simp only [easternVertices, List.map_cons, List.map_nil, geoOf, List.foldl_cons, List.foldl_nil, grow, Matrix.cons_val_zero,
      Matrix.cons_val_one, Matrix.cons_val]
    norm_num
  have h3 : 0 < Real.sqrt 3 := Real.sqrt_pos.2 (by norm_num)
  have hs : Real.sqrt 3 ≤ 2 := by
    rw [show (2 : ℝ) = Real.sqrt 4 by rw [show (4 : ℝ) = 2 ^ 2 by norm_num]; exact (Real.sqrt_sq (by norm_num)).symm]
    exact Real.sqrt_le_sqrt (by norm_num)
  exact hint_overlapping_domain_reaches_partial flatEarth (easternModel .geodetic2pi) (3300, 150) _ 3.25 0.12 0.0001
    3.2 0.1 3.4 0.2 ⟨3.2, 0.1, 0⟩ ⟨3.4, 0.2, 0⟩ rfl rfl hb rfl rfl (by norm_num) (by norm_num) (by norm_num) (by norm_num; linarith) (by norm_num; linarith) (by norm_num) (by norm_num)
    3.3 0.15 (by norm_num) (by norm_num)

/-- The hint of an approximate model for a pixel at longitude 3.3 is `3.3 - 2π`; the search then ends
at the western edge 3.2. -/
example : ((easternModel .geodetic2pi).model flatEarth firstCorner).imageToWorld (3300, 150) none
    (some (fun k => if k = "initial_guess" then some (.pair (3.3 - 2 * Real.pi) 0.15)
      else if k = "initial_search_distance" then some (.num 0.0001) else none)) = .ok ⟨3.2, 0.15 + 0.0001 * Real.sqrt 3 / 3, 7⟩ := by
  have h0 : (easternModel .geodetic2pi).domain.vertices[0]? = some ⟨3.2, 0.1, 0⟩ := rfl
  have h3 : (easternModel .geodetic2pi).domain.vertices[3]? = some ⟨3.4, 0.2, 0⟩ := rfl
  have hb : (easternModel .geodetic2pi).domain.bbox = some ((3.2, 0.1), 3.4, 0.2) := by
    show (easternVertices.map geoOf).foldl grow none = _
    simp only [easternVertices, List.map_cons, List.map_nil, geoOf, List.foldl_cons, List.foldl_nil, grow, Matrix.cons_val_zero,
      Matrix.cons_val_one, Matrix.cons_val]
    norm_num
  show (PolyModel.locate flatEarth firstCorner (easternModel .geodetic2pi) _ _ _).2 = _
  unfold PolyModel.locate
  rw [h0, h3, hb]
  have hs : Real.sqrt 3 ≤ 2 := by
    rw [show (2 : ℝ) = Real.sqrt 4 by rw [show (4 : ℝ) = 2 ^ 2 by norm_num]; exact (Real.sqrt_sq (by norm_num)).symm]
    exact Real.sqrt_le_sqrt (by norm_num)
  have hs0 := Real.sqrt_nonneg 3
  have hpi := Real.pi_gt_three
  simp only [searchImageToWorld, startFrom, hint, distanceFrom, if_true, show ("initial_search_distance" = "initial_guess") = False by decide,
    if_false, equilateralTriangle, List.map_cons, firstCorner, Search.run, onSurface, constantElevation, withElevation, bind,
    Except.bind, clip, easternModel, easternDomain]
  congr 2
  · rw [max_eq_right (by linarith), min_eq_left (by norm_num)]
  · rw [max_eq_left (by norm_num; linarith), min_eq_left (by norm_num; linarith)]

/-! ## C33 -/

theorem sectionIndex_responsible (v : ℝ) (start : Int) (size : ℝ) (n : Nat) (hs : 0 < size) (hn : 0 < n) :
    ∃ i : Nat, sectionIndex v start size n = .ok (i : Int) ∧ Responsible start size v n i := by
  unfold sectionIndex floorDiv
  rw [if_neg hs.ne']
  simp only [bind, Except.bind, pure, Except.pure]
  have hfl := Int.floor_le ((v - start) / size)
  have hlt := Int.lt_floor_add_one ((v - start) / size)
  rw [le_div_iff₀ hs] at hfl
  rw [div_lt_iff₀ hs] at hlt
  generalize ⌊(v - start) / size⌋ = k at hfl hlt
  by_cases hk : k < 0
  · rw [if_pos hk]
    refine ⟨0, rfl, hn, .inl rfl, ?_⟩
    right
    have : ((k : ℝ) + 1) ≤ 0 := by exact_mod_cast hk
    push_cast
    nlinarith
  rw [if_neg hk]
  by_cases hk2 : k ≥ (n : Int)
  · rw [if_pos hk2]
    refine ⟨n - 1, by rw [Nat.cast_sub hn]; rfl, by omega, ?_, .inl (by omega)⟩
    right
    have h1 : ((n : Int) : ℝ) ≤ k := by exact_mod_cast hk2
    have h2 : ((n - 1 : Nat) : ℝ) ≤ k := by
      rw [Nat.cast_sub hn]
      push_cast at h1 ⊢
      linarith
    nlinarith
  · rw [if_neg hk2]
    obtain ⟨i, rfl⟩ := Int.eq_ofNat_of_zero_le (by omega : 0 ≤ k)
    refine ⟨i, rfl, by omega, .inr ?_, .inr ?_⟩
    · push_cast at hfl
      linarith
    · push_cast at hlt
      linarith

/-- Exactly one section is responsible. -/
theorem responsible_unique (start size v : ℝ) (n i j : Nat) (hs : 0 < size) (hi : Responsible start size v n i)
    (hj : Responsible start size v n j) : i = j := by
  obtain ⟨i1, i2, i3⟩ := hi
  obtain ⟨j1, j2, j3⟩ := hj
  rcases Nat.lt_trichotomy i j with h | h | h
  · exfalso
    have hle : ((i : ℝ) + 1) ≤ j := by exact_mod_cast h
    rcases i3 with i3 | i3
    · omega
    · rcases j2 with j2 | j2
      · omega
      · nlinarith
  · exact h
  · exfalso
    have hle : ((j : ℝ) + 1) ≤ i := by exact_mod_cast h
    rcases j3 with j3 | j3
    · omega
    · rcases i2 with i2 | i2
      · omega
      · nlinarith

/-- Row 150 of sections of height 100 belongs to the second. -/
example : Responsible 0 100 150 2 1 := ⟨by norm_num, .inr (by norm_num), .inr (by norm_num)⟩

theorem select_spec (s : Sectioned) (nr nc : Nat) (hr : 0 < nr) (hc : 0 < nc) (h1 : s.rowSections = nr)
    (h2 : s.colSections = nc) (hrs : 0 < s.rowSize) (hcs : 0 < s.colSize) (hlen : s.sections.length = nr)
    (hrow : ∀ l ∈ s.sections, l.length = nc) (p : ℝ × ℝ) :
    ∃ i j strip m, Responsible s.minRow s.rowSize p.2 nr i ∧ Responsible s.minCol s.colSize p.1 nc j ∧
      s.sections[i]? = some strip ∧ strip[j]? = some m ∧ s.select p = .ok m := by
  obtain ⟨i, hi, ri⟩ := sectionIndex_responsible p.2 s.minRow s.rowSize nr hrs hr
  obtain ⟨j, hj, rj⟩ := sectionIndex_responsible p.1 s.minCol s.colSize nc hcs hc
  have hil : i < s.sections.length := hlen ▸ ri.1
  have hjl : j < (s.sections[i]).length := by rw [hrow _ (List.getElem_mem hil)]; exact rj.1
  refine ⟨i, j, s.sections[i], s.sections[i][j], ri, rj, List.getElem?_eq_getElem hil, List.getElem?_eq_getElem hjl, ?_⟩
  unfold Sectioned.select Sectioned.index
  rw [h1, h2, hi, hj]
  simp only [bind, Except.bind, pure, Except.pure]
  rw [pyGet_nat _ _ _ (List.getElem?_eq_getElem hil)]
  exact pyGet_nat _ _ _ (List.getElem?_eq_getElem hjl)

/-- **C33**: a sectioned model with a full grid serves every pixel by the section responsible for it,
and every ground point by the section responsible for its low order location. -/
theorem sectioned_model_delegates (earth : Earth) (s : Sectioned) (nr nc : Nat) (hr : 0 < nr) (hc : 0 < nc)
    (h1 : s.rowSections = nr) (h2 : s.colSections = nc) (hrs : 0 < s.rowSize) (hcs : 0 < s.colSize)
    (hlen : s.sections.length = nr) (hrow : ∀ l ∈ s.sections, l.length = nc) (hrp : s.rowPoly.length = 10)
    (hcp : s.colPoly.length = 10) :
    (∀ p e o, ∃ i j strip m, Responsible s.minRow s.rowSize p.2 nr i ∧ Responsible s.minCol s.colSize p.1 nc j ∧
      s.sections[i]? = some strip ∧ strip[j]? = some m ∧ (s.model earth).imageToWorld p e o = m.imageToWorld p e o) ∧
    (∀ g v, s.frame.toDomain earth g = .ok v → ∃ i j strip m,
      Responsible s.minRow s.rowSize (quadratic s.rowPoly (v 0) (v 1) (v 2)) nr i ∧
      Responsible s.minCol s.colSize (quadratic s.colPoly (v 0) (v 1) (v 2)) nc j ∧
      s.sections[i]? = some strip ∧ strip[j]? = some m ∧ (s.model earth).worldToImage g = m.worldToImage g) := by
  constructor
  · intro p e o
    obtain ⟨i, j, strip, m, ri, rj, hl, hm, hsel⟩ := select_spec s nr nc hr hc h1 h2 hrs hcs hlen hrow p
    refine ⟨i, j, strip, m, ri, rj, hl, hm, ?_⟩
    simp only [Sectioned.model, hsel, raise, bind, Except.bind]
  · intro g v hv
    obtain ⟨q, hq, hqe⟩ := (low_order_polynomial s.rowPoly).2 hrp
    obtain ⟨q', hq', hqe'⟩ := (low_order_polynomial s.colPoly).2 hcp
    have e1 : q = s.rowPoly := by unfold lowOrderPolynomial at hq; rw [if_neg (by simpa using hrp)] at hq; cases hq; rfl
    have e2 : q' = s.colPoly := by unfold lowOrderPolynomial at hq'; rw [if_neg (by simpa using hcp)] at hq'; cases hq'; rfl
    rw [e1] at hqe
    rw [e2] at hqe'
    obtain ⟨i, j, strip, m, ri, rj, hl, hm, hsel⟩ := select_spec s nr nc hr hc h1 h2 hrs hcs hlen hrow
      (quadratic s.colPoly (v 0) (v 1) (v 2), quadratic s.rowPoly (v 0) (v 1) (v 2))
    refine ⟨i, j, strip, m, ri, rj, hl, hm, ?_⟩
    simp only [Sectioned.model, hv, hqe, hqe', hsel, raise, bind, Except.bind]

/-- A constant sensor model, to tell sections apart. -/
def constModel (x : ℝ) : SensorModel ℝ (Dict ℝ) := ⟨fun _ _ _ => .ok ⟨x, x, x⟩, fun _ => .ok (x, x)⟩

/-- One row section, two column sections of width 100. -/
example : ∃ i j strip m, Responsible (0 : Int) 500 3 1 i ∧ Responsible (0 : Int) 100 150 2 j ∧
    [[constModel 1, constModel 2]][i]? = some strip ∧ strip[j]? = some m ∧
    (Sectioned.model flatEarth ⟨⟨.geodetic, none, none⟩, 0, 0, 1, 2, 500, 100, List.replicate 10 0, List.replicate 10 1,
      [[constModel 1, constModel 2]]⟩).imageToWorld (150, 3) none none = m.imageToWorld (150, 3) none none :=
  (sectioned_model_delegates flatEarth ⟨⟨.geodetic, none, none⟩, 0, 0, 1, 2, 500, 100, List.replicate 10 0,
    List.replicate 10 1, [[constModel 1, constModel 2]]⟩ 1 2 (by norm_num) (by norm_num) rfl rfl (by norm_num) (by norm_num)
    rfl (by simp) (by simp) (by simp)).1 (150, 3) none none

end Verif.Props.RsmModel
