import Verif.Props.Features

/-!
# Properties of the geolocator and the spatial index (C65–C68, C85)
-/

namespace Verif.Props.Geolocation

open Verif Verif.Features Verif.Spec.Features Verif.Props.Features

/-! ## C65 -/

/-- **C65** Whatever the geometry, nested collections included, its located form has the same type, the same parts and rings, and vertex for vertex
the located positions in the same order. -/
theorem shape_is_kept (loc : Pos → ℚ × ℚ × ℚ) (g : Geom Pos) (h : NoRing g) :
    ∃ r, geolocate loc g = .ok r ∧ r = relabel loc g ∧ typeName r = typeName g ∧ vertices r = (vertices g).map loc := by
  obtain ⟨r, hr, hv⟩ := geolocate_total loc g
  have := geolocate_relabel loc g h
  rw [hr] at this
  cases this
  exact ⟨_, hr, rfl, typeName_relabel loc g, hv⟩

example : ∃ r, geolocate (fun p => (p.1, p.2, 0)) (.collection [.point (1, 2), .multiPolygon [([(0, 0), (1, 0), (1, 1), (0, 0)], [])]]) = .ok r ∧
    vertices r = [(1, 2, 0), (0, 0, 0), (1, 0, 0), (1, 1, 0), (0, 0, 0)] := by
  obtain ⟨r, h, _, _, hv⟩ := shape_is_kept (fun p => (p.1, p.2, 0)) (.collection [.point (1, 2), .multiPolygon [([(0, 0), (1, 0), (1, 1), (0, 0)], [])]]) (by simp [NoRing, NoRingAll])
  exact ⟨r, h, by rw [hv]; rfl⟩

/-- **C65** (negation) A bare ring does not keep its type: it becomes a line. -/
theorem ring_becomes_line (loc : Pos → ℚ × ℚ × ℚ) (ps : List Pos) :
    ∃ r, geolocate loc (.linearRing ps) = .ok r ∧ typeName r = "LineString" ∧ typeName (Geom.linearRing ps) ≠ typeName r :=
  ⟨.lineString (ps.map loc), by simp only [geolocate], rfl, by simp [typeName]⟩

/-- The step of `foldBounds`. -/
def step (S : Shapely) (dep : Bool) (acc : Option Bounds) (f : Feature) : Except PyErr (Option Bounds) := do
    match ← findImageGeometry S dep f with
    | none => pure acc
    | some g =>
      match bounds g, acc with
      | none, _ => pure acc
      | some b, none => pure (some b)
      | some b, some a => pure (some ⟨min a.x0 b.x0, min a.y0 b.y0, max a.x1 b.x1, max a.y1 b.y1⟩)

theorem foldBounds_eq (S : Shapely) (dep : Bool) (fs : List Feature) : foldBounds S dep fs = fs.foldlM (step S dep) none := rfl

/-- All vertices of the image geometries in a list. -/
def Vertex (S : Shapely) (dep : Bool) (fs : List Feature) (v : Pos) : Prop :=
  ∃ f ∈ fs, ∃ g, findImageGeometry S dep f = .ok (some g) ∧ v ∈ vertices g

/-- The bounds are as tight as the vertices allow. -/
def Tight (b : Bounds) (V : Pos → Prop) : Prop :=
  (∃ v, V v ∧ v.1 = b.x0) ∧ (∃ v, V v ∧ v.2 = b.y0) ∧ (∃ v, V v ∧ v.1 = b.x1) ∧ (∃ v, V v ∧ v.2 = b.y1)

theorem foldl_tight (ps : List Pos) (b : Bounds) (V : Pos → Prop) (hb : Tight b V) (hp : ∀ p ∈ ps, V p) :
    Tight (ps.foldl (fun b q => (⟨min b.x0 q.1, min b.y0 q.2, max b.x1 q.1, max b.y1 q.2⟩ : Bounds)) b) V := by
  induction ps generalizing b with
  | nil => exact hb
  | cons p ps ih =>
    simp only [List.foldl_cons]
    refine ih _ ?_ (fun q hq => hp q (by simp [hq]))
    obtain ⟨h1, h2, h3, h4⟩ := hb
    have hv := hp p (by simp)
    refine ⟨?_, ?_, ?_, ?_⟩
    · rcases min_choice b.x0 p.1 with h | h
      · simpa only [h] using h1
      · exact ⟨p, hv, h.symm⟩
    · rcases min_choice b.y0 p.2 with h | h
      · simpa only [h] using h2
      · exact ⟨p, hv, h.symm⟩
    · rcases max_choice b.x1 p.1 with h | h
      · simpa only [h] using h3
      · exact ⟨p, hv, h.symm⟩
    · rcases max_choice b.y1 p.2 with h | h
      · simpa only [h] using h4
      · exact ⟨p, hv, h.symm⟩

theorem boundsOf_tight (ps : List Pos) (b : Bounds) (h : boundsOf ps = some b) : Tight b (· ∈ ps) := by
  cases ps with
  | nil => simp [boundsOf] at h
  | cons p ps =>
    simp only [boundsOf, Option.some.injEq] at h
    subst h
    refine foldl_tight ps _ _ ?_ (fun q hq => by simp [hq])
    exact ⟨⟨p, by simp, rfl⟩, ⟨p, by simp, rfl⟩, ⟨p, by simp, rfl⟩, ⟨p, by simp, rfl⟩⟩

theorem Tight.mono {b : Bounds} {V W : Pos → Prop} (h : Tight b V) (hvw : ∀ v, V v → W v) : Tight b W := by
  obtain ⟨⟨a, h1, h1'⟩, ⟨c, h2, h2'⟩, ⟨d, h3, h3'⟩, ⟨e, h4, h4'⟩⟩ := h
  exact ⟨⟨a, hvw _ h1, h1'⟩, ⟨c, hvw _ h2, h2'⟩, ⟨d, hvw _ h3, h3'⟩, ⟨e, hvw _ h4, h4'⟩⟩

/-- Joining two bounds. -/
theorem join_tight (a b : Bounds) (V W : Pos → Prop) (ha : Tight a V) (hb : Tight b W) :
    Tight ⟨min a.x0 b.x0, min a.y0 b.y0, max a.x1 b.x1, max a.y1 b.y1⟩ (fun v => V v ∨ W v) := by
  have ha := ha.mono (fun v h => (Or.inl h : V v ∨ W v))
  have hb := hb.mono (fun v h => (Or.inr h : V v ∨ W v))
  refine ⟨?_, ?_, ?_, ?_⟩
  · rcases min_choice a.x0 b.x0 with h | h
    · simpa only [h] using ha.1
    · simpa only [h] using hb.1
  · rcases min_choice a.y0 b.y0 with h | h
    · simpa only [h] using ha.2.1
    · simpa only [h] using hb.2.1
  · rcases max_choice a.x1 b.x1 with h | h
    · simpa only [h] using ha.2.2.1
    · simpa only [h] using hb.2.2.1
  · rcases max_choice a.y1 b.y1 with h | h
    · simpa only [h] using ha.2.2.2
    · simpa only [h] using hb.2.2.2

/-- What the bounds of the list mean for the vertices `V` seen so far. -/
def Good (r : Option Bounds) (V : Pos → Prop) : Prop :=
  match r with
  | none => ∀ v, ¬ V v
  | some b => (∀ v, V v → Inside b v) ∧ Tight b V

theorem good_congr {r : Option Bounds} {V W : Pos → Prop} (h : Good r V) (hvw : ∀ v, V v ↔ W v) : Good r W := by
  have : V = W := funext (fun v => propext (hvw v))
  exact this ▸ h

theorem step_good (S : Shapely) (dep : Bool) (acc : Option Bounds) (f : Feature) (r : Option (Geom Pos)) (hr : findImageGeometry S dep f = .ok r)
    (V : Pos → Prop) (h : Good acc V) :
    ∃ a, step S dep acc f = .ok a ∧ Good a (fun v => V v ∨ ∃ g, r = some g ∧ v ∈ vertices g) := by
  unfold step
  simp only [hr, bind, Except.bind]
  cases r with
  | none =>
    refine ⟨acc, rfl, good_congr h (fun v => ?_)⟩
    simp
  | some g =>
    cases hb : bounds g with
    | none =>
      refine ⟨acc, by simp only [hb, pure, Except.pure], good_congr h (fun v => ?_)⟩
      have : vertices g = [] := by
        unfold bounds at hb
        cases hv : vertices g with
        | nil => rfl
        | cons p ps => simp [hv, boundsOf] at hb
      simp [this]
    | some b =>
      have hin := boundsOf_inside _ b hb
      have ht := boundsOf_tight _ b hb
      cases acc with
      | none =>
        refine ⟨some b, by simp only [hb, pure, Except.pure], ?_⟩
        refine good_congr (V := (· ∈ vertices g)) ⟨hin, ht⟩ (fun v => ?_)
        have := h v
        simp [this]
      | some a =>
        refine ⟨some ⟨min a.x0 b.x0, min a.y0 b.y0, max a.x1 b.x1, max a.y1 b.y1⟩, by simp only [hb, pure, Except.pure], ?_⟩
        refine good_congr (V := fun v => V v ∨ v ∈ vertices g) ⟨?_, join_tight a b _ _ h.2 ht⟩ (fun v => by simp)
        intro v hv
        rcases hv with hv | hv
        · obtain ⟨h1, h2, h3, h4⟩ := h.1 v hv
          exact ⟨(min_le_left _ _).trans h1, h2.trans (le_max_left _ _), (min_le_left _ _).trans h3, h4.trans (le_max_left _ _)⟩
        · obtain ⟨h1, h2, h3, h4⟩ := hin v hv
          exact ⟨(min_le_right _ _).trans h1, h2.trans (le_max_right _ _), (min_le_right _ _).trans h3, h4.trans (le_max_right _ _)⟩

theorem foldlM_good (S : Shapely) (dep : Bool) (fs : List Feature) (h : ∀ f ∈ fs, ∃ r, findImageGeometry S dep f = .ok r) (acc : Option Bounds) (V : Pos → Prop)
    (hacc : Good acc V) : ∃ a, fs.foldlM (step S dep) acc = .ok a ∧ Good a (fun v => V v ∨ Vertex S dep fs v) := by
  induction fs generalizing acc V with
  | nil => exact ⟨acc, rfl, good_congr hacc (fun v => by simp [Vertex])⟩
  | cons f fs ih =>
    obtain ⟨r, hr⟩ := h f (by simp)
    obtain ⟨a, ha, hg⟩ := step_good S dep acc f r hr V hacc
    obtain ⟨b, hb, hgb⟩ := ih (fun f hf => h f (by simp [hf])) a _ hg
    refine ⟨b, ?_, good_congr hgb (fun v => ?_)⟩
    · rw [List.foldlM_cons, ha]
      exact hb
    · unfold Vertex
      constructor
      · rintro ((h | ⟨g, hg, hv⟩) | ⟨f', hf', hv⟩)
        · exact .inl h
        · exact .inr ⟨f, by simp, g, by rw [hr, hg], hv⟩
        · exact .inr ⟨f', by simp [hf'], hv⟩
      · rintro (h | ⟨f', hf', g, hg, hv⟩)
        · exact .inl (.inl h)
        · rcases List.mem_cons.mp hf' with rfl | hf'
          · rw [hr] at hg
            cases hg
            exact .inl (.inr ⟨g, rfl, hv⟩)
          · exact .inr ⟨f', hf', g, hg, hv⟩

theorem foldBounds_good (S : Shapely) (dep : Bool) (fs : List Feature) (h : ∀ f ∈ fs, ∃ r, findImageGeometry S dep f = .ok r) :
    ∃ a, foldBounds S dep fs = .ok a ∧ Good a (Vertex S dep fs) := by
  obtain ⟨a, ha, hg⟩ := foldlM_good S dep fs h none (fun _ => False) (fun v hv => hv)
  exact ⟨a, ha, good_congr hg (fun v => by simp)⟩

/-- A feature the accessor can read, without bare rings. -/
def Readable (S : Shapely) (dep : Bool) (f : Feature) : Prop :=
  (∃ r, findImageGeometry S dep f = .ok r ∧ ∀ g, r = some g → NoRing g) ∧ ∃ ib, imageBBox f = .ok ib

/-- What geolocation does to one feature. -/
def Located (S : Shapely) (dep : Bool) (loc : Pos → ℚ × ℚ × ℚ) (f f' : Feature) : Prop :=
  (∀ g, findImageGeometry S dep f = .ok (some g) → (f.props "imageGeometry").isSome ∨ f.props "imageBBox" = none →
    f'.geometry = some (relabel loc g)) ∧
  (f.props "imageGeometry" = none → f.props "imageBBox" ≠ none → f'.geometry = f.geometry ∧ f'.bbox ≠ none) ∧
  (findImageGeometry S dep f = .ok none → f' = f) ∧
  (f.props "imageBBox" = none → f'.bbox = f.bbox) ∧
  ∀ k, k ≠ "center_longitude" → k ≠ "center_latitude" → f'.props k = f.props k

theorem setCenter_props (loc : Pos → ℚ × ℚ × ℚ) (c : Pos) (f : Feature) (k : String) (h1 : k ≠ "center_longitude") (h2 : k ≠ "center_latitude") :
    (setCenter loc c f).props k = f.props k := by
  simp [setCenter, setProp_props, h1, h2]

theorem boundsOf_ne_none (p : Pos) (ps : List Pos) : boundsOf (p :: ps) ≠ none := by simp [boundsOf]

theorem locateFeature_spec (S : Shapely) (dep : Bool) (centroid : Geom Pos → Pos) (exact loc : Pos → ℚ × ℚ × ℚ) (f : Feature) (h : Readable S dep f) :
    ∃ f', locateFeature S dep centroid exact loc f = .ok f' ∧ Located S dep loc f f' := by
  obtain ⟨⟨r, hr, hnr⟩, ib, hib⟩ := h
  cases h1 : f.props "imageGeometry" with
  | some j =>
    have hfind : findImageGeometry S dep f = (S.shape j).map some := (lookup_precedence S dep f).1 j h1
    rw [hfind] at hr
    cases hs : S.shape j with
    | error e => simp [hs, Except.map] at hr
    | ok g =>
      have hr' : r = some g := by simpa [hs, Except.map] using hr.symm
      have hgeo := geolocate_relabel loc g (hnr g hr')
      have hg0 : imageGeometry S f = .ok (some g) := by simp only [imageGeometry, h1, hs]; rfl
      have hfind' : findImageGeometry S dep f = .ok (some g) := by rw [hfind, hs]; rfl
      cases ib with
      | none =>
        have h2 : f.props "imageBBox" = none := by
          cases h2 : f.props "imageBBox" with
          | none => rfl
          | some b =>
            unfold imageBBox at hib
            simp only [h2, bind, Except.bind] at hib
            cases hb : readBox b with
            | error e => simp [hb] at hib
            | ok bb => simp [hb, bounds, box, vertices, boundsOf, pure, Except.pure] at hib
        refine ⟨setCenter exact (centroid g) { f with geometry := some (relabel loc g) }, ?_, ?_, ?_, ?_, ?_, ?_⟩
        · simp only [locateFeature, hib, hg0, bind, Except.bind, locateGeometry, hgeo]
          rfl
        · intro g' hg' _
          rw [hfind'] at hg'
          cases hg'
          rfl
        · intro hc
          simp [h1] at hc
        · intro hc
          simp [hfind'] at hc
        · intro _
          rfl
        · intro k ha hb
          rw [setCenter_props _ _ _ _ ha hb]
      | some b =>
        refine ⟨setCenter exact (centroid g) { f with bbox := locateBox exact b, geometry := some (relabel loc g) }, ?_, ?_, ?_, ?_, ?_, ?_⟩
        · simp only [locateFeature, hib, hg0, bind, Except.bind, locateGeometry, hgeo]
          rfl
        · intro g' hg' _
          rw [hfind'] at hg'
          cases hg'
          rfl
        · intro hc
          simp [h1] at hc
        · intro hc
          simp [hfind'] at hc
        · intro hc
          unfold imageBBox at hib
          simp [hc] at hib
        · intro k ha hb
          rw [setCenter_props _ _ _ _ ha hb]
  | none =>
    have hg0 : imageGeometry S f = .ok none := by simp only [imageGeometry, h1]
    cases h2 : f.props "imageBBox" with
    | some j =>
      have hne : ∃ b, ib = some b := by
        unfold imageBBox at hib
        simp only [h2, bind, Except.bind] at hib
        cases hb : readBox j with
        | error e => simp [hb] at hib
        | ok bb =>
          simp only [hb, pure, Except.pure, Except.ok.injEq] at hib
          exact ⟨_, hib.symm.trans rfl⟩
      obtain ⟨b, rfl⟩ := hne
      have hfind : ∃ g, findImageGeometry S dep f = .ok (some g) := by
        unfold imageBBox at hib
        simp only [h2, bind, Except.bind] at hib
        cases hb : readBox j with
        | error e => simp [hb] at hib
        | ok bb => exact ⟨box bb, by simp only [findImageGeometry, h1, h2, hb]; rfl⟩
      obtain ⟨g, hg⟩ := hfind
      refine ⟨setCenter exact ((b.x0 + b.x1) / 2, (b.y0 + b.y1) / 2) { f with bbox := locateBox exact b }, ?_, ?_, ?_, ?_, ?_, ?_⟩
      · simp only [locateFeature, hib, hg0, bind, Except.bind, locateGeometry]
        rfl
      · intro g' _ hc
        simp [h1, h2] at hc
      · intro _ _
        exact ⟨rfl, boundsOf_ne_none _ _⟩
      · intro hc
        simp [hg] at hc
      · intro hc
        simp [h2] at hc
      · intro k ha hb
        rw [setCenter_props _ _ _ _ ha hb]
    | none =>
      have hib' : ib = none := by
        unfold imageBBox at hib
        simpa [h2] using hib.symm
      subst hib'
      cases r with
      | none =>
        refine ⟨f, ?_, ?_, ?_, fun _ => rfl, fun _ => rfl, fun _ _ _ => rfl⟩
        · simp only [locateFeature, hib, hg0, hr, bind, Except.bind, locateGeometry]
          rfl
        · intro g' hg'
          simp [hr] at hg'
        · intro _ hc
          exact absurd h2 hc
      | some g =>
        have hgeo := geolocate_relabel loc g (hnr g rfl)
        refine ⟨setCenter exact (centroid g) { f with geometry := some (relabel loc g) }, ?_, ?_, ?_, ?_, fun _ => rfl, ?_⟩
        · simp only [locateFeature, hib, hg0, hr, bind, Except.bind, locateGeometry, hgeo]
          rfl
        · intro g' hg' _
          rw [hr] at hg'
          cases hg'
          rfl
        · intro _ hc
          exact absurd h2 hc
        · intro hc
          simp [hr] at hc
        · intro k ha hb
          rw [setCenter_props _ _ _ _ ha hb]

theorem mapM_forall₂ {α β : Type} (f : α → Except PyErr β) (R : α → β → Prop) (l : List α) (h : ∀ a ∈ l, ∃ b, f a = .ok b ∧ R a b) :
    ∃ r, l.mapM f = .ok r ∧ List.Forall₂ R l r := by
  induction l with
  | nil => exact ⟨[], rfl, .nil⟩
  | cons a l ih =>
    obtain ⟨b, hb, hR⟩ := h a (by simp)
    obtain ⟨r, hr, hF⟩ := ih (fun c hc => h c (by simp [hc]))
    exact ⟨b :: r, by rw [List.mapM_cons, hb, hr]; rfl, .cons hR hF⟩

/-- **C65** (partial) For a list of readable features at least one of which has an image geometry with a vertex, every feature with an image geometry
(other than one given by `imageBBox` alone) gets a geometry of the same shape with its located vertices, every feature without is left as it is, and no other
property changes.  The order of the features is kept. -/
theorem list_of_features_partial (S : Shapely) (dep : Bool) (centroid : Geom Pos → Pos) (grid : Bounds → (Pos → ℚ × ℚ × ℚ) × (Pos → ℚ × ℚ × ℚ)) (fs : List Feature)
    (h : ∀ f ∈ fs, Readable S dep f) (v : Pos) (hv : Vertex S dep fs v) :
    ∃ area fs', geolocateFeatures S dep centroid grid fs = .ok fs' ∧ List.Forall₂ (Located S dep (grid area).2) fs fs' := by
  obtain ⟨a, ha, hg⟩ := foldBounds_good S dep fs (fun f hf => (h f hf).1.imp (fun r hr => hr.1))
  cases a with
  | none => exact absurd hv (hg v)
  | some b =>
    obtain ⟨fs', hm, hF⟩ := mapM_forall₂ (locateFeature S dep centroid (grid (gridArea b)).1 (grid (gridArea b)).2) (Located S dep (grid (gridArea b)).2) fs
      (fun f hf => locateFeature_spec S dep centroid _ _ f (h f hf))
    refine ⟨gridArea b, fs', ?_, hF⟩
    cases fs with
    | nil => obtain ⟨f, hf, _⟩ := hv; simp at hf
    | cons f fs =>
      simp only [geolocateFeatures, ha, bind, Except.bind]
      exact hm

/-- What geolocation writes about the box and the centre of one feature; `exact` locates a position. -/
def BoxAndCenter (S : Shapely) (dep : Bool) (centroid : Geom Pos → Pos) (exact : Pos → ℚ × ℚ × ℚ) (f f' : Feature) : Prop :=
  (∀ x0 y0 x1 y1, f.props "imageBBox" = some (.arr [.num x0, .num y0, .num x1, .num y1]) → x0 ≤ x1 → y0 ≤ y1 →
    (∃ b, f'.bbox = some b ∧
      let corner : Pos → Prop := fun v => ∃ x y, (x = x0 ∨ x = x1) ∧ (y = y0 ∨ y = y1) ∧ v = ((exact (x, y)).1, (exact (x, y)).2.1)
      (∀ v, corner v → Inside b v) ∧ Tight b corner) ∧
    (f.props "imageGeometry" = none →
      f'.props "center_longitude" = some (.num (exact ((x0 + x1) / 2, (y0 + y1) / 2)).1) ∧
      f'.props "center_latitude" = some (.num (exact ((x0 + x1) / 2, (y0 + y1) / 2)).2.1))) ∧
  ∀ g, findImageGeometry S dep f = .ok (some g) → (f.props "imageGeometry").isSome ∨ f.props "imageBBox" = none →
    f'.props "center_longitude" = some (.num (exact (centroid g)).1) ∧ f'.props "center_latitude" = some (.num (exact (centroid g)).2.1)

theorem setCenter_center (loc : Pos → ℚ × ℚ × ℚ) (c : Pos) (f : Feature) :
    (setCenter loc c f).props "center_longitude" = some (.num (loc c).1) ∧ (setCenter loc c f).props "center_latitude" = some (.num (loc c).2.1) := by
  simp [setCenter, setProp_props]

theorem locateGeometry_bbox (centroid : Geom Pos → Pos) (exact loc : Pos → ℚ × ℚ × ℚ) (ib : Option Bounds) (g : Option (Geom Pos)) (f f' : Feature)
    (h : locateGeometry centroid exact loc ib g f = .ok f') : f'.bbox = f.bbox ∧
      (∀ g', g = some g' → f'.props "center_longitude" = some (.num (exact (centroid g')).1) ∧ f'.props "center_latitude" = some (.num (exact (centroid g')).2.1)) ∧
      (∀ b, ib = some b → g = none → f'.props "center_longitude" = some (.num (exact ((b.x0 + b.x1) / 2, (b.y0 + b.y1) / 2)).1) ∧
        f'.props "center_latitude" = some (.num (exact ((b.x0 + b.x1) / 2, (b.y0 + b.y1) / 2)).2.1)) := by
  cases g with
  | some g =>
    simp only [locateGeometry, bind, Except.bind, pure, Except.pure] at h
    cases hg : geolocate loc g with
    | error e => simp [hg] at h
    | ok geo =>
      simp only [hg, Except.ok.injEq] at h
      subst h
      refine ⟨rfl, ?_, ?_⟩
      · rintro g' hg'
        cases hg'
        exact setCenter_center _ _ _
      · rintro _ _ hc
        cases hc
  | none =>
    cases ib with
    | some b =>
      simp only [locateGeometry, pure, Except.pure, Except.ok.injEq] at h
      subst h
      refine ⟨rfl, by simp, ?_⟩
      rintro b' hb' _
      cases hb'
      exact setCenter_center _ _ _
    | none =>
      simp only [locateGeometry, pure, Except.pure, Except.ok.injEq] at h
      subst h
      exact ⟨rfl, by simp, by simp⟩

theorem locateBox_corners (exact : Pos → ℚ × ℚ × ℚ) (x0 y0 x1 y1 : ℚ) :
    ∃ b, locateBox exact ⟨x0, y0, x1, y1⟩ = some b ∧
      let corner : Pos → Prop := fun v => ∃ x y, (x = x0 ∨ x = x1) ∧ (y = y0 ∨ y = y1) ∧ v = ((exact (x, y)).1, (exact (x, y)).2.1)
      (∀ v, corner v → Inside b v) ∧ Tight b corner := by
  have hm : ∀ v : Pos, v ∈ (([(x0, y0), (x0, y1), (x1, y1), (x1, y0)] : List Pos).map (fun p => ((exact p).1, (exact p).2.1))) ↔
      ∃ x y, (x = x0 ∨ x = x1) ∧ (y = y0 ∨ y = y1) ∧ v = ((exact (x, y)).1, (exact (x, y)).2.1) := by
    intro v
    simp only [List.mem_map, List.mem_cons, List.not_mem_nil, or_false]
    constructor
    · rintro ⟨p, (rfl | rfl | rfl | rfl), rfl⟩
      · exact ⟨_, _, .inl rfl, .inl rfl, rfl⟩
      · exact ⟨_, _, .inl rfl, .inr rfl, rfl⟩
      · exact ⟨_, _, .inr rfl, .inr rfl, rfl⟩
      · exact ⟨_, _, .inr rfl, .inl rfl, rfl⟩
    · rintro ⟨x, y, (rfl | rfl), (rfl | rfl), rfl⟩ <;> exact ⟨_, by simp, rfl⟩
  cases hb : locateBox exact ⟨x0, y0, x1, y1⟩ with
  | none => exact absurd hb (boundsOf_ne_none _ _)
  | some b =>
    refine ⟨b, rfl, fun v hv => boundsOf_inside _ b hb v ((hm v).2 hv), ?_⟩
    have ht := boundsOf_tight _ b hb
    obtain ⟨⟨a, ha, ha'⟩, ⟨c, hc, hc'⟩, ⟨d, hd, hd'⟩, ⟨e, he, he'⟩⟩ := ht
    exact ⟨⟨a, (hm a).1 ha, ha'⟩, ⟨c, (hm c).1 hc, hc'⟩, ⟨d, (hm d).1 hd, hd'⟩, ⟨e, (hm e).1 he, he'⟩⟩

theorem imageBBox_value (f : Feature) (x0 y0 x1 y1 : ℚ) (h : f.props "imageBBox" = some (.arr [.num x0, .num y0, .num x1, .num y1])) (hx : x0 ≤ x1) (hy : y0 ≤ y1) :
    imageBBox f = .ok (some ⟨x0, y0, x1, y1⟩) := by
  simp [imageBBox, h, readBox, bind, Except.bind, pure, Except.pure, bounds, box, vertices, boundsOf, hx, hy]

theorem imageBBox_none (f : Feature) (ib : Option Bounds) (h : imageBBox f = .ok ib) : ib = none ↔ f.props "imageBBox" = none := by
  constructor
  · rintro rfl
    cases h2 : f.props "imageBBox" with
    | none => rfl
    | some b =>
      unfold imageBBox at h
      simp only [h2, bind, Except.bind] at h
      cases hb : readBox b with
      | error e => simp [hb] at h
      | ok bb => simp [hb, bounds, box, vertices, boundsOf, pure, Except.pure] at h
  · intro h2
    simp only [imageBBox, h2, Except.ok.injEq] at h
    exact h.symm

theorem locateFeature_box_center (S : Shapely) (dep : Bool) (centroid : Geom Pos → Pos) (exact loc : Pos → ℚ × ℚ × ℚ) (f f' : Feature)
    (h : locateFeature S dep centroid exact loc f = .ok f') : BoxAndCenter S dep centroid exact f f' := by
  unfold locateFeature at h
  simp only [bind, Except.bind] at h
  cases hib : imageBBox f with
  | error e => simp [hib] at h
  | ok ib =>
    cases hg0 : imageGeometry S f with
    | error e => simp [hib, hg0] at h
    | ok g0 =>
      simp only [hib, hg0] at h
      have key : ∃ g f1, locateGeometry centroid exact loc ib g f1 = .ok f' ∧ (∀ b, ib = some b → f1.bbox = locateBox exact b) ∧
          (g0 = none → ib = none → findImageGeometry S dep f = .ok g) ∧ (g0 ≠ none ∨ ib ≠ none → g = g0) := by
        cases ib with
        | none =>
          cases g0 with
          | none =>
            simp only at h
            cases hr : findImageGeometry S dep f with
            | error e => simp [hr] at h
            | ok r => exact ⟨r, f, by simpa [hr] using h, by simp, fun _ _ => rfl, by simp⟩
          | some g => exact ⟨some g, f, h, by simp, by simp, fun _ => rfl⟩
        | some b => exact ⟨g0, _, h, by rintro b' hb'; cases hb'; rfl, by simp, fun _ => rfl⟩
      obtain ⟨g, f1, hl, hbox, hfind, hg⟩ := key
      obtain ⟨k1, k2, k3⟩ := locateGeometry_bbox centroid exact loc ib g f1 f' hl
      refine ⟨?_, ?_⟩
      · intro x0 y0 x1 y1 hp hx hy
        have hib' : ib = some ⟨x0, y0, x1, y1⟩ := by
          have := imageBBox_value f x0 y0 x1 y1 hp hx hy
          rw [hib] at this
          exact Except.ok.inj this
        refine ⟨?_, ?_⟩
        · obtain ⟨b, hb, hc⟩ := locateBox_corners exact x0 y0 x1 y1
          exact ⟨b, by rw [k1, hbox _ hib', hb], hc⟩
        · intro hig
          have : g0 = none := by simpa [imageGeometry, hig] using hg0.symm
          exact k3 _ hib' (by rw [hg (.inr (by simp [hib'])), this])
      · intro g' hg' hor
        refine k2 g' ?_
        cases h1 : f.props "imageGeometry" with
        | some j =>
          have hfind' : findImageGeometry S dep f = (S.shape j).map some := (lookup_precedence S dep f).1 j h1
          have e0 : (S.shape j).map some = .ok g0 := by rw [← hg0]; simp only [imageGeometry, h1]
          rw [hfind', e0] at hg'
          have e1 : g0 = some g' := Except.ok.inj hg'
          rw [hg (.inl (by simp [e1])), e1]
        | none =>
          have e0 : g0 = none := by simpa [imageGeometry, h1] using hg0.symm
          have e1 : ib = none := (imageBBox_none f ib hib).2 (by simpa [h1] using hor)
          rw [hfind e0 e1] at hg'
          exact Except.ok.inj hg'

theorem mapM_forall₂' {α β : Type} (f : α → Except PyErr β) (R : α → β → Prop) (l : List α) (r : List β) (hr : l.mapM f = .ok r) (h : ∀ a b, f a = .ok b → R a b) :
    List.Forall₂ R l r := by
  induction l generalizing r with
  | nil => simp [pure, Except.pure] at hr; subst hr; exact .nil
  | cons a l ih =>
    rw [List.mapM_cons] at hr
    simp only [bind, Except.bind, pure, Except.pure] at hr
    cases ha : f a with
    | error e => simp [ha] at hr
    | ok b =>
      cases hl : l.mapM f with
      | error e => simp [ha, hl] at hr
      | ok bs =>
        simp only [ha, hl, Except.ok.injEq] at hr
        subst hr
        exact .cons (h a b ha) (ih bs hl)

/-- **C65** The bounding box and the centre: a feature with an `imageBBox` gets the bounding box of the four located corners; the centre is the
located centroid of the image geometry, or the located middle of the `imageBBox` when there is no `imageGeometry`. -/
theorem boxes_and_centers (S : Shapely) (dep : Bool) (centroid : Geom Pos → Pos) (grid : Bounds → (Pos → ℚ × ℚ × ℚ) × (Pos → ℚ × ℚ × ℚ)) (fs fs' : List Feature)
    (h : geolocateFeatures S dep centroid grid fs = .ok fs') : ∃ area, List.Forall₂ (BoxAndCenter S dep centroid (grid area).1) fs fs' := by
  cases fs with
  | nil =>
    simp only [geolocateFeatures, Except.ok.injEq] at h
    subst h
    exact ⟨⟨0, 0, 0, 0⟩, .nil⟩
  | cons f fs =>
    simp only [geolocateFeatures, bind, Except.bind] at h
    cases hb : foldBounds S dep (f :: fs) with
    | error e => simp [hb] at h
    | ok o =>
      cases o with
      | none => simp [hb] at h
      | some b =>
        simp only [hb] at h
        exact ⟨gridArea b, mapM_forall₂' _ _ _ _ h (fun a c hac => locateFeature_box_center S dep centroid _ _ a c hac)⟩

/-- An example list: a point, a feature without a geometry. -/
def exampleFeatures : List Feature := [withProps [("imageGeometry", pointJson 5 6)], withProps [("name", .str "x")]]

theorem find_point (x y : ℚ) (dep : Bool) : findImageGeometry reader dep (withProps [("imageGeometry", pointJson x y)]) = .ok (some (.point (x, y))) := by
  rw [(lookup_precedence reader dep _).1 (pointJson x y) rfl, pointJson, (reader_readsBack (.point (x, y)) (by simp [NoRing])).geojson]
  rfl

example : ∃ area fs', geolocateFeatures reader true (fun _ => (0, 0)) (fun _ => (fun p => (p.1, p.2, 0), fun p => (p.1, p.2, 0))) exampleFeatures = .ok fs' ∧
    List.Forall₂ (Located reader true ((fun _ => (fun p => (p.1, p.2, 0), fun p => (p.1, p.2, 0)) : Bounds → (Pos → ℚ × ℚ × ℚ) × (Pos → ℚ × ℚ × ℚ)) area).2) exampleFeatures fs' := by
  refine list_of_features_partial reader true (fun _ => (0, 0)) (fun _ => (fun p => (p.1, p.2, 0), fun p => (p.1, p.2, 0))) exampleFeatures ?_ (5, 6) ⟨_, List.mem_cons_self, .point (5, 6), find_point 5 6 true, by simp [vertices]⟩
  intro f hf
  simp only [exampleFeatures, List.mem_cons, List.not_mem_nil, or_false] at hf
  rcases hf with rfl | rfl
  · exact ⟨⟨_, find_point 5 6 true, fun g hg => by cases hg; simp [NoRing]⟩, none, rfl⟩
  · exact ⟨⟨none, rfl, by simp⟩, none, rfl⟩

/-- A feature with a box. -/
example : ∃ fs', geolocateFeatures reader true (fun _ => (0, 0)) (fun _ => (fun p => (p.1, p.2, 0), fun p => (p.1, p.2, 0)))
    [withProps [("imageBBox", .arr [.num 1, .num 2, .num 3, .num 4])]] = .ok fs' := ⟨_, rfl⟩

/-- **C65** An empty list is a no-op. -/
theorem empty_list (S : Shapely) (dep : Bool) (centroid : Geom Pos → Pos) (grid : Bounds → (Pos → ℚ × ℚ × ℚ) × (Pos → ℚ × ℚ × ℚ)) :
    geolocateFeatures S dep centroid grid [] = .ok [] := rfl

/-- **C65** (negation) A list in which no feature has an image geometry is not left untouched: the call raises. -/
theorem no_geometry_raises (S : Shapely) (dep : Bool) (centroid : Geom Pos → Pos) (grid : Bounds → (Pos → ℚ × ℚ × ℚ) × (Pos → ℚ × ℚ × ℚ)) (f : Feature) (fs : List Feature)
    (h : ∀ g ∈ f :: fs, findImageGeometry S dep g = .ok none) : geolocateFeatures S dep centroid grid (f :: fs) = .error .valueError := by
  obtain ⟨a, ha, hg⟩ := foldBounds_good S dep (f :: fs) (fun g hg => ⟨none, h g hg⟩)
  cases a with
  | none => simp only [geolocateFeatures, ha, bind, Except.bind]
  | some b =>
    obtain ⟨v, ⟨f', hf', g, hg', _⟩, _⟩ := hg.2.1
    rw [h f' hf'] at hg'
    simp at hg'

example : geolocateFeatures reader true (fun _ => (0, 0)) (fun _ => (fun p => (p.1, p.2, 0), fun p => (p.1, p.2, 0))) [withProps [("name", .str "x")]] = .error .valueError :=
  no_geometry_raises _ _ _ _ _ _ (by intro g hg; simp at hg; subst hg; rfl)

/-- **C65** (negation) A feature whose image geometry is given by `imageBBox` alone gets no geometry. -/
theorem bbox_alone_gets_no_geometry (S : Shapely) (dep : Bool) (centroid : Geom Pos → Pos) (grid : Bounds → (Pos → ℚ × ℚ × ℚ) × (Pos → ℚ × ℚ × ℚ)) :
    ∃ f g f', findImageGeometry S dep f = .ok (some g) ∧ vertices g ≠ [] ∧
      geolocateFeatures S dep centroid grid [f] = .ok [f'] ∧ f'.geometry = none := by
  refine ⟨withProps [("imageBBox", .arr [.num 1, .num 2, .num 3, .num 4])], _, _, rfl, by simp [box, vertices], rfl, rfl⟩

/-! ## C66 -/

/-- **C66** (partial) The area of the grid is the bounding box of the vertices of all image geometries of the list, no larger and no smaller, with a margin
of ten pixels on each side. -/
theorem grid_covers_geometries_partial (S : Shapely) (dep : Bool) (fs : List Feature) (h : ∀ f ∈ fs, ∃ r, findImageGeometry S dep f = .ok r) (v : Pos) (hv : Vertex S dep fs v) :
    ∃ area, (∀ centroid grid, geolocateFeatures S dep centroid grid fs = fs.mapM (locateFeature S dep centroid (grid area).1 (grid area).2)) ∧
      (∀ v, Vertex S dep fs v → Inside ⟨area.x0 + 10, area.y0 + 10, area.x1 - 10, area.y1 - 10⟩ v) ∧
      Tight ⟨area.x0 + 10, area.y0 + 10, area.x1 - 10, area.y1 - 10⟩ (Vertex S dep fs) := by
  obtain ⟨a, ha, hg⟩ := foldBounds_good S dep fs h
  cases a with
  | none => exact absurd hv (hg v)
  | some b =>
    have e : (⟨(gridArea b).x0 + 10, (gridArea b).y0 + 10, (gridArea b).x1 - 10, (gridArea b).y1 - 10⟩ : Bounds) = b := by
      simp [gridArea]
    refine ⟨gridArea b, ?_, by rw [e]; exact hg.1, by rw [e]; exact hg.2⟩
    intro centroid grid
    cases fs with
    | nil => obtain ⟨f, hf, _⟩ := hv; simp at hf
    | cons f fs => simp only [geolocateFeatures, ha, bind, Except.bind]

example : Vertex reader true exampleFeatures (5, 6) :=
  ⟨_, List.mem_cons_self, .point (5, 6), find_point 5 6 true, by simp [vertices]⟩

/-- **C66** (negation) When a feature has both an `imageGeometry` and a larger `imageBBox`, the grid follows the geometry only: the corners of the box,
which are geolocated too, can lie outside the grid. -/
theorem bbox_can_be_outside : ∃ f : Feature, ∃ b area : Bounds, imageBBox f = .ok (some b) ∧
    (foldBounds reader true [f] = .ok (some ⟨area.x0 + 10, area.y0 + 10, area.x1 - 10, area.y1 - 10⟩)) ∧
    ¬ Inside area (b.x1, b.y1) := by
  refine ⟨withProps [("imageGeometry", pointJson 5 6), ("imageBBox", .arr [.num 0, .num 0, .num 100, .num 100])], ⟨0, 0, 100, 100⟩, ⟨-5, -4, 15, 16⟩, ?_, ?_, ?_⟩
  · show Except.ok (some _) = _
    rw [Except.ok.injEq]
    decide +kernel
  · show Except.ok (some _) = _
    rw [Except.ok.injEq]
    decide +kernel
  · simp [Inside]
    norm_num

/-! ## C67 -/

theorem step_pos (a b : ℚ) (n : Nat) (hn : 2 ≤ n) (h : a < b) : 0 < (b - a) / ((n : ℚ) - 1) := by
  have : (2 : ℚ) ≤ n := by exact_mod_cast hn
  exact div_pos (by linarith) (by linarith)

theorem last_node (a b : ℚ) (n : Nat) (hn : 2 ≤ n) : a + ((n - 1 : ℕ) : ℚ) * ((b - a) / ((n : ℚ) - 1)) = b := by
  have : (2 : ℚ) ≤ n := by exact_mod_cast hn
  have h1 : (n : ℚ) - 1 ≠ 0 := by linarith
  rw [Nat.cast_sub (by omega)]
  push_cast
  field_simp
  ring

theorem gridValue_eq (area : Bounds) (n : Nat) (hn : 2 ≤ n) (hx : area.x0 < area.x1) (hy : area.y0 < area.y1) (world : ℚ → ℚ → ℚ) (p : Pos) :
    gridValue area n world p = .ok (interp area.x0 ((area.x1 - area.x0) / ((n : ℚ) - 1)) (n - 1) (fun i =>
      interp area.y0 ((area.y1 - area.y0) / ((n : ℚ) - 1)) (n - 1) (fun j => world (node area.x0 area.x1 n i) (node area.y0 area.y1 n j)) p.2) p.1) := by
  unfold gridValue
  rw [if_neg (by push Not; exact ⟨by omega, hx, hy⟩)]
  rfl

/-- **C67** Inside the area of the grid the location of an affine sensor model is reproduced exactly, for every grid size of two or more. -/
theorem affine_is_exact (area : Bounds) (n : Nat) (hn : 2 ≤ n) (hx : area.x0 < area.x1) (hy : area.y0 < area.y1) (c d e : ℚ) (p : Pos) (hp : Inside area p) :
    gridValue area n (fun x y => c + d * x + e * y) p = .ok (c + d * p.1 + e * p.2) := by
  rw [gridValue_eq area n hn hx hy]
  obtain ⟨h1, h2, h3, h4⟩ := hp
  obtain ⟨k, t, hk, _, _, hxt, hf⟩ := interp_cell area.x0 _ (step_pos _ _ n hn hx) (n - 1) (by omega) p.1 h1 (by rw [last_node _ _ n hn]; exact h2)
  obtain ⟨k', t', hk', _, _, hyt, hf'⟩ := interp_cell area.y0 _ (step_pos _ _ n hn hy) (n - 1) (by omega) p.2 h3 (by rw [last_node _ _ n hn]; exact h4)
  rw [hf, hf', hf']
  congr 1
  unfold node
  rw [hxt, hyt]
  push_cast
  ring

example : gridValue ⟨0, 0, 10, 10⟩ 3 (fun x y => 1 + 2 * x + 3 * y) (7, 1) = .ok 18 := by
  rw [affine_is_exact ⟨0, 0, 10, 10⟩ 3 (by norm_num) (by norm_num) (by norm_num) 1 2 3 (7, 1) (by norm_num [Inside])]
  norm_num

/-- **C67** At the nodes of the grid every sensor model is reproduced exactly. -/
theorem exact_at_nodes (area : Bounds) (n : Nat) (hn : 2 ≤ n) (hx : area.x0 < area.x1) (hy : area.y0 < area.y1) (world : ℚ → ℚ → ℚ) (i j : Nat) (hi : i < n) (hj : j < n) :
    gridValue area n world (node area.x0 area.x1 n i, node area.y0 area.y1 n j) = .ok (world (node area.x0 area.x1 n i) (node area.y0 area.y1 n j)) := by
  rw [gridValue_eq area n hn hx hy]
  congr 1
  have := interp_node area.x0 _ (step_pos _ _ n hn hx) (n - 1) (fun i' => interp area.y0 ((area.y1 - area.y0) / ((n : ℚ) - 1)) (n - 1)
    (fun j => world (node area.x0 area.x1 n i') (node area.y0 area.y1 n j)) (node area.y0 area.y1 n j)) i (by omega)
  refine this.trans ?_
  exact interp_node area.y0 _ (step_pos _ _ n hn hy) (n - 1) (fun j => world (node area.x0 area.x1 n i) (node area.y0 area.y1 n j)) j (by omega)

example : gridValue ⟨0, 0, 10, 10⟩ 3 (fun x y => x * x * y) (5, 10) = .ok 250 := by
  have := exact_at_nodes ⟨0, 0, 10, 10⟩ 3 (by norm_num) (by norm_num) (by norm_num) (fun x y => x * x * y) 1 2 (by norm_num) (by norm_num)
  norm_num [node] at this
  exact this

/-- **C67** Everywhere in the area the value lies between the smallest and the largest of the four nodes of the cell around the position. -/
theorem between_neighbouring_nodes (area : Bounds) (n : Nat) (hn : 2 ≤ n) (hx : area.x0 < area.x1) (hy : area.y0 < area.y1) (world : ℚ → ℚ → ℚ) (p : Pos) (hp : Inside area p) :
    ∃ i j v, i + 1 < n ∧ j + 1 < n ∧ node area.x0 area.x1 n i ≤ p.1 ∧ p.1 ≤ node area.x0 area.x1 n (i + 1) ∧
      node area.y0 area.y1 n j ≤ p.2 ∧ p.2 ≤ node area.y0 area.y1 n (j + 1) ∧ gridValue area n world p = .ok v ∧
      ∀ lo hi, (∀ a ∈ [i, i + 1], ∀ b ∈ [j, j + 1], lo ≤ world (node area.x0 area.x1 n a) (node area.y0 area.y1 n b) ∧
        world (node area.x0 area.x1 n a) (node area.y0 area.y1 n b) ≤ hi) → lo ≤ v ∧ v ≤ hi := by
  rw [gridValue_eq area n hn hx hy]
  obtain ⟨h1, h2, h3, h4⟩ := hp
  have sx := step_pos _ _ n hn hx
  have sy := step_pos _ _ n hn hy
  obtain ⟨k, t, hk, ht0, ht1, hxt, hf⟩ := interp_cell area.x0 _ sx (n - 1) (by omega) p.1 h1 (by rw [last_node _ _ n hn]; exact h2)
  obtain ⟨k', t', hk', ht0', ht1', hyt, hf'⟩ := interp_cell area.y0 _ sy (n - 1) (by omega) p.2 h3 (by rw [last_node _ _ n hn]; exact h4)
  refine ⟨k, k', _, by omega, by omega, ?_, ?_, ?_, ?_, rfl, ?_⟩
  · rw [hxt, node]
    nlinarith
  · rw [hxt, node]
    push_cast
    nlinarith
  · rw [hyt, node]
    nlinarith
  · rw [hyt, node]
    push_cast
    nlinarith
  · intro lo hi hh
    rw [hf, hf', hf']
    refine combo_between _ _ _ _ _ ht0 ht1 ?_ ?_
    · exact combo_between _ _ _ _ _ ht0' ht1' (hh k (by simp) k' (by simp)) (hh k (by simp) (k' + 1) (by simp))
    · exact combo_between _ _ _ _ _ ht0' ht1' (hh (k + 1) (by simp) k' (by simp)) (hh (k + 1) (by simp) (k' + 1) (by simp))

example : Inside ⟨0, 0, 10, 10⟩ (7, 1) := by norm_num [Inside]

/-- **C67** (negation) Outside the area the value is held constant, so not even an affine sensor model is reproduced. -/
theorem not_exact_outside : ∃ (area : Bounds) (p : Pos) (v : ℚ), gridValue area 11 (fun x _ => x) p = .ok v ∧ v ≠ p.1 := by
  refine ⟨⟨0, 0, 10, 10⟩, (20, 5), 10, ?_, by norm_num⟩
  rw [gridValue_eq _ _ (by norm_num) (by norm_num) (by norm_num)]
  norm_num [interp, node]

/-! ## C85 -/

/-- **C85** (negation) The longitudes are interpolated as plain numbers: for an image across the antimeridian whose longitude, in degrees, runs from
179 over 180 to -179, a pixel next to the antimeridian is located near longitude 0, on the other side of the earth. -/
theorem antimeridian : ∃ (world : ℚ → ℚ → ℚ) (v : ℚ),
    (∀ x y, -180 ≤ world x y ∧ world x y < 180 ∧ ∃ k : ℤ, world x y = 179 + x / 10 + 360 * k ∨ x < 0 ∨ 20 < x) ∧
    gridValue ⟨0, 0, 20, 20⟩ 2 world (10, 0) = .ok v ∧ world 10 0 = -180 ∧ v = 0 := by
  refine ⟨fun x _ => if 0 ≤ x ∧ x < 10 then 179 + x / 10 else if 10 ≤ x ∧ x ≤ 20 then 179 + x / 10 - 360 else 0, 0, ?_, ?_, ?_, rfl⟩
  · intro x y
    dsimp only
    by_cases h1 : 0 ≤ x ∧ x < 10
    · rw [if_pos h1]
      exact ⟨by linarith, by linarith, 0, .inl (by simp)⟩
    · rw [if_neg h1]
      by_cases h2 : 10 ≤ x ∧ x ≤ 20
      · rw [if_pos h2]
        exact ⟨by linarith, by linarith, -1, .inl (by push_cast; ring)⟩
      · rw [if_neg h2]
        refine ⟨by norm_num, by norm_num, 0, .inr ?_⟩
        by_contra hc
        push Not at hc
        by_cases h3 : x < 10
        · exact h1 ⟨hc.1, h3⟩
        · exact h2 ⟨not_lt.mp h3, hc.2⟩
  · rw [gridValue_eq _ _ (by norm_num) (by norm_num) (by norm_num)]
    norm_num [interp, node]
  · norm_num

/-! ## C68 -/

theorem pick_perm {F : Type} (fs : List F) (is : List Nat) (p : Nat → F → Bool) (hn : is.Nodup)
    (h : ∀ i, i ∈ is ↔ ∃ f, fs[i]? = some f ∧ p i f = true) :
    ∃ r, pick fs is = .ok r ∧ r.Perm (((fs.zipIdx).filter (fun e => p e.2 e.1)).map (·.1)) := by
  have hget : ∀ i ∈ is, ∃ f, fs[i]? = some f := fun i hi => ((h i).mp hi).imp (fun f hf => hf.1)
  have hperm : is.Perm (((fs.zipIdx).filter (fun e => p e.2 e.1)).map (·.2)) := by
    refine (List.perm_ext_iff_of_nodup hn ?_).mpr ?_
    · have : ((fs.zipIdx).map (·.2)).Nodup := by
        rw [List.zipIdx_map_snd]
        exact List.nodup_range'
      exact this.sublist (List.Sublist.map _ List.filter_sublist)
    · intro i
      rw [h i]
      simp only [List.mem_map, List.mem_filter, List.mem_zipIdx_iff_getElem?]
      constructor
      · rintro ⟨f, hf, hp⟩
        exact ⟨(f, i), ⟨hf, hp⟩, rfl⟩
      · rintro ⟨⟨f, j⟩, ⟨hf, hp⟩, rfl⟩
        exact ⟨f, hf, hp⟩
  have hpick : ∀ is : List Nat, (∀ i ∈ is, ∃ f, fs[i]? = some f) → ∃ r, pick fs is = .ok r ∧ r = is.filterMap (fun i => fs[i]?) := by
    intro is hget
    induction is with
    | nil => exact ⟨[], rfl, rfl⟩
    | cons i is ih =>
      obtain ⟨f, hf⟩ := hget i (by simp)
      obtain ⟨r, hr, he⟩ := ih (fun j hj => hget j (by simp [hj]))
      refine ⟨f :: r, ?_, by simp [hf, he]⟩
      unfold pick at hr ⊢
      rw [List.mapM_cons, hr]
      simp only [hf]
      rfl
  obtain ⟨r, hr, he⟩ := hpick is hget
  refine ⟨r, hr, ?_⟩
  subst he
  refine (hperm.filterMap _).trans ?_
  rw [List.filterMap_map]
  have : ∀ l : List (F × Nat), (∀ e ∈ l, fs[e.2]? = some e.1) → l.filterMap ((fun i => fs[i]?) ∘ (·.2)) = l.map (·.1) := by
    intro l hl
    induction l with
    | nil => rfl
    | cons e l ih =>
      have h1 := hl e (by simp)
      simp only [List.filterMap_cons, Function.comp, h1, List.map_cons]
      rw [← ih (fun e he => hl e (by simp [he]))]
      rfl
  rw [this]
  intro e he
  have := (List.mem_filter.mp he).1
  exact List.mem_zipIdx_iff_getElem?.mp this

theorem filter_zipIdx {F : Type} (fs : List F) (q : F → Bool) (k : Nat) : (((fs.zipIdx k).filter (fun e => q e.1)).map (·.1)) = fs.filter q := by
  induction fs generalizing k with
  | nil => rfl
  | cons f fs ih =>
    simp only [List.zipIdx_cons, List.filter_cons]
    by_cases h : q f
    · simp [h, ih]
    · simp [h, ih]

/-- The index over image geometries has one entry for each feature. -/
theorem buildIndex_image {G F : Type} (find : F → Except PyErr (Option G)) (world : F → Except PyErr G) (fs : List F) (geo : F → Option G)
    (h : ∀ f ∈ fs, find f = .ok (geo f)) : buildIndex true (some find) world fs = .ok (fs.map geo) := by
  unfold buildIndex
  simp only [mapM_ok find geo fs h]
  show treeInput (F := F) ((fs.map geo).map .geometry) = _
  unfold treeInput
  rw [List.mapM_map]
  have := mapM_ok (fun g : Option G => (Except.ok g : Except PyErr (Option G))) id (fs.map geo) (fun _ _ => rfl)
  simpa [Function.comp_def] using this

/-- **C68** (partial) Over image geometries, with a tree that returns each intersecting entry once, `find_intersects` returns exactly the features of the collection
whose image geometry intersects the query, each as often as it occurs in the collection. -/
theorem intersects_exactly_partial {G F : Type} (T : StrTree G) (meets : G → G → Bool) (hT : ∀ index g, Returns index (fun h => meets h g = true) (T.intersecting index g))
    (find : F → Except PyErr (Option G)) (world : F → Except PyErr G) (fs : List F) (geo : F → Option G) (h : ∀ f ∈ fs, find f = .ok (geo f)) (g : G) :
    ∃ index r, buildIndex true (some find) world fs = .ok index ∧ findIntersects T fs index g = .ok r ∧
      r.Perm (fs.filter (fun f => (geo f).elim false (fun h => meets h g))) := by
  refine ⟨fs.map geo, ?_⟩
  obtain ⟨hn, hm⟩ := hT (fs.map geo) g
  obtain ⟨r, hr, hp⟩ := pick_perm fs (T.intersecting (fs.map geo) g) (fun _ f => (geo f).elim false (fun h => meets h g)) hn (by
    intro i
    rw [hm i]
    simp only [List.getElem?_map, Option.map_eq_some_iff]
    constructor
    · rintro ⟨h, ⟨f, hf, hg⟩, hq⟩
      exact ⟨f, hf, by simp [hg, hq]⟩
    · rintro ⟨f, hf, hq⟩
      cases hg : geo f with
      | none => simp [hg] at hq
      | some h => exact ⟨h, ⟨f, hf, hg⟩, by simpa [hg] using hq⟩)
  refine ⟨r, buildIndex_image find world fs geo h, hr, ?_⟩
  rw [filter_zipIdx fs (fun f => (geo f).elim false (fun h => meets h g))] at hp
  exact hp

/-- A tree over numbers in which equal numbers intersect: the contract can be met. -/
def demoTree : StrTree ℚ where
  intersecting index g := (List.range index.length).filter (fun i => index[i]? == some (some g))
  nearest index g d := (List.range index.length).filter (fun i => index[i]?.any (fun o => o.any (fun h =>
    decide (|h - g| ≤ d) && index.all (fun o' => o'.all (fun h' => decide (|h - g| ≤ |h' - g|))))))

theorem demoTree_returns (index : List (Option ℚ)) (g : ℚ) : Returns index (fun h => (decide (h = g)) = true) (demoTree.intersecting index g) := by
  refine ⟨List.Nodup.filter _ List.nodup_range, fun i => ?_⟩
  simp only [demoTree, List.mem_filter, List.mem_range, beq_iff_eq]
  constructor
  · rintro ⟨_, h⟩
    exact ⟨g, h, by simp⟩
  · rintro ⟨h, hi, hq⟩
    simp only [decide_eq_true_eq] at hq
    subst hq
    refine ⟨?_, hi⟩
    by_contra hc
    rw [List.getElem?_eq_none (by omega)] at hi
    simp at hi

/-- A collection for the example: numbers, some without a geometry. -/
def demoFeatures : List (ℚ × Bool) := [(1, true), (2, true), (1, false), (1, true)]

/-- The image geometry of an example feature. -/
def demoGeometry (f : ℚ × Bool) : Option ℚ := if f.2 then some f.1 else none

example : ∃ index r, buildIndex true (some (fun f => .ok (demoGeometry f))) (fun _ => .error .valueError) demoFeatures = .ok index ∧
    findIntersects demoTree demoFeatures index 1 = .ok r ∧ r.Perm [(1, true), (1, true)] :=
  intersects_exactly_partial demoTree (fun h g => decide (h = g)) (fun index g => demoTree_returns index g) _ _ demoFeatures demoGeometry (fun _ _ => rfl) 1

/-- **C68** (partial) `find_nearest` over image geometries returns exactly the features that are within the limit (50 pixels unless given) and no farther than any other. -/
theorem nearest_exactly_partial {G F : Type} (T : StrTree G) (dist : G → G → ℚ)
    (hT : ∀ index g d, 0 < d → Returns index (fun h => dist h g ≤ d ∧ ∀ h', some h' ∈ index → dist h g ≤ dist h' g) (T.nearest index g d))
    (find : F → Except PyErr (Option G)) (world : F → Except PyErr G) (fs : List F) (geo : F → Option G) (h : ∀ f ∈ fs, find f = .ok (geo f)) (g : G)
    (limit : Option ℚ) (hl : ∀ d ∈ limit, 0 < d) :
    ∃ index r, buildIndex true (some find) world fs = .ok index ∧ findNearest T true fs index g limit = .ok r ∧
      ∀ f, f ∈ r ↔ f ∈ fs ∧ ∃ h, geo f = some h ∧ (∀ d, limit = some d → dist h g ≤ d) ∧ (limit = none → dist h g ≤ 50) ∧
        ∀ f' ∈ fs, ∀ h', geo f' = some h' → dist h g ≤ dist h' g := by
  classical
  refine ⟨fs.map geo, ?_⟩
  have hd : 0 < limit.getD (if true then 50 else 1) := by
    cases limit with
    | none => norm_num
    | some d => exact hl d rfl
  obtain ⟨hn, hm⟩ := hT (fs.map geo) g _ hd
  have hlim : ∀ x : ℚ, x ≤ limit.getD (if true then 50 else 1) ↔ (∀ d, limit = some d → x ≤ d) ∧ (limit = none → x ≤ 50) := by
    intro x
    cases limit with
    | none => simp
    | some d => simp
  obtain ⟨r, hr, hp⟩ := pick_perm fs (T.nearest (fs.map geo) g (limit.getD (if true then 50 else 1)))
    (fun _ f => decide (∃ h, geo f = some h ∧ dist h g ≤ limit.getD (if true then 50 else 1) ∧ ∀ h', some h' ∈ fs.map geo → dist h g ≤ dist h' g)) hn (by
    intro i
    rw [hm i]
    simp only [List.getElem?_map, Option.map_eq_some_iff, decide_eq_true_eq]
    constructor
    · rintro ⟨h, ⟨f, hf, hg⟩, hq⟩
      exact ⟨f, hf, h, hg, hq⟩
    · rintro ⟨f, hf, h, hg, hq⟩
      exact ⟨h, ⟨f, hf, hg⟩, hq⟩)
  refine ⟨r, buildIndex_image find world fs geo h, hr, ?_⟩
  intro f
  rw [hp.mem_iff, filter_zipIdx fs (fun f => decide (∃ h, geo f = some h ∧ dist h g ≤ limit.getD (if true then 50 else 1) ∧ ∀ h', some h' ∈ fs.map geo → dist h g ≤ dist h' g)),
    List.mem_filter, decide_eq_true_eq]
  constructor
  · rintro ⟨hf, h, hg, h1, h2⟩
    exact ⟨hf, h, hg, ((hlim _).mp h1).1, ((hlim _).mp h1).2, fun f' hf' h' hg' => h2 h' (List.mem_map.mpr ⟨f', hf', hg'⟩)⟩
  · rintro ⟨hf, h, hg, h1, h1', h2⟩
    refine ⟨hf, h, hg, (hlim _).mpr ⟨h1, h1'⟩, fun h' hm => ?_⟩
    obtain ⟨f', hf', hg'⟩ := List.mem_map.mp hm
    exact h2 f' hf' h' hg'

theorem demoTree_nearest (index : List (Option ℚ)) (g d : ℚ) :
    Returns index (fun h => |h - g| ≤ d ∧ ∀ h', some h' ∈ index → |h - g| ≤ |h' - g|) (demoTree.nearest index g d) := by
  refine ⟨List.Nodup.filter _ List.nodup_range, fun i => ?_⟩
  simp only [demoTree, List.mem_filter, List.mem_range, Option.any_eq_true, Bool.and_eq_true, decide_eq_true_eq, List.all_eq_true]
  constructor
  · rintro ⟨_, o, ho, h, hh, hd, hall⟩
    subst hh
    refine ⟨h, ho, hd, fun h' hm => ?_⟩
    simpa using hall (some h') hm
  · rintro ⟨h, hi, hd, hall⟩
    refine ⟨?_, some h, hi, h, rfl, hd, ?_⟩
    · by_contra hc
      rw [List.getElem?_eq_none (by omega)] at hi
      simp at hi
    · intro o ho
      cases o with
      | none => rfl
      | some h' => simpa using hall h' ho

example : ∀ (index : List (Option ℚ)) (g d : ℚ), 0 < d → Returns index (fun h => |h - g| ≤ d ∧ ∀ h', some h' ∈ index → |h - g| ≤ |h' - g|) (demoTree.nearest index g d) :=
  fun index g d _ => demoTree_nearest index g d

/-- **C68** (negation) An index over world geometries (or without a property accessor) of a collection with features cannot be built: it raises `TypeError`. -/
theorem world_geometries_raise {G F : Type} (useImage : Bool) (find : Option (F → Except PyErr (Option G))) (hu : useImage = false ∨ find = none)
    (world : F → Except PyErr G) (f : F) (fs : List F) (geo : F → G) (h : ∀ f' ∈ f :: fs, world f' = .ok (geo f')) :
    buildIndex useImage find world (f :: fs) = .error .typeError := by
  have key : ((f :: fs).mapM (fun f => do
      let g ← world f
      pure (Entry.pair g f))) = (.ok ((f :: fs).map (fun f => Entry.pair (geo f) f)) : Except PyErr (List (Entry G F))) :=
    mapM_ok _ (fun f => Entry.pair (geo f) f) _ (by
      intro a ha
      rw [h a ha]
      rfl)
  have hb : buildIndex useImage find world (f :: fs) = ((f :: fs).mapM (fun f => do
      let g ← world f
      pure (Entry.pair g f)) >>= treeInput) := by
    unfold buildIndex
    rcases hu with rfl | rfl
    · rfl
    · cases useImage <;> rfl
  rw [hb, key]
  show treeInput _ = _
  unfold treeInput
  rw [List.map_cons, List.mapM_cons]
  rfl

example : buildIndex (G := ℚ) false none (fun f : ℚ => .ok f) [1, 2] = .error .typeError :=
  world_geometries_raise false none (.inl rfl) _ 1 [2] id (fun _ _ => rfl)

theorem pick_error_iff {F : Type} (fs : List F) (is : List Nat) (e : PyErr) : pick fs is = .error e ↔ e = .indexError ∧ ∃ i ∈ is, fs.length ≤ i := by
  induction is with
  | nil => simp [pick, pure, Except.pure]
  | cons i is ih =>
    unfold pick at ih ⊢
    rw [List.mapM_cons]
    cases hi : fs[i]? with
    | none =>
      have hl := List.getElem?_eq_none_iff.mp hi
      constructor
      · intro h; cases h; exact ⟨rfl, i, List.mem_cons_self, hl⟩
      · rintro ⟨rfl, _⟩; rfl
    | some f =>
      have hl := (List.getElem?_eq_some_iff.mp hi).1
      have tail : (∃ k ∈ i :: is, fs.length ≤ k) ↔ ∃ k ∈ is, fs.length ≤ k := by
        constructor
        · rintro ⟨k, hk, hle⟩
          rcases List.mem_cons.mp hk with rfl | hk
          · omega
          · exact ⟨k, hk, hle⟩
        · rintro ⟨k, hk, hle⟩; exact ⟨k, List.mem_cons_of_mem _ hk, hle⟩
      rw [tail, ← ih]
      cases hm : List.mapM (m := Except PyErr) (fun i => match fs[i]? with | some f => Except.ok f | none => .error .indexError) is with
      | error e' => simp [bind, Except.bind]
      | ok r => simp [bind, Except.bind, pure, Except.pure]

/-- **C68** A search raises exactly when the tree names a feature the list does not have, and then `IndexError`. -/
theorem search_raises_iff {G F : Type} (T : StrTree G) (useImage : Bool) (fs : List F) (index : List (Option G)) (g : G) (limit : Option ℚ) (e : PyErr) :
    (findIntersects T fs index g = .error e ↔ e = .indexError ∧ ∃ i ∈ T.intersecting index g, fs.length ≤ i) ∧
    (findNearest T useImage fs index g limit = .error e ↔
      e = .indexError ∧ ∃ i ∈ T.nearest index g (limit.getD (if useImage then 50 else 1)), fs.length ≤ i) :=
  ⟨pick_error_iff _ _ _, pick_error_iff _ _ _⟩

/-- A tree of one geometry over a list without features. -/
example : findIntersects (F := ℕ) ⟨fun _ _ => [0], fun _ _ _ => []⟩ [] [some 7] 7 = .error .indexError :=
  ((search_raises_iff ⟨fun _ _ => [0], fun _ _ _ => []⟩ true [] [some 7] 7 none _).1).mpr ⟨rfl, 0, by simp, by simp⟩

end Verif.Props.Geolocation
