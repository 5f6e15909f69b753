import Verif.Props.GeolocationRepeat
import Verif.Props.SicdFiles
import Verif.Spec.Detections

/-!
# Detections in a tile are located like the same detections in the image
-/

namespace Verif.Props.Detections

open Verif Verif.Features Verif.GeolocationGrid Verif.Spec.Features Verif.Spec.Detections

/-! ## Geometry -/

mutual
theorem vertices_relabel {P Q : Type} (f : P → Q) : ∀ g : Geom P, vertices (relabel f g) = (vertices g).map f
  | .point p => rfl
  | .lineString ps => rfl
  | .linearRing ps => rfl
  | .polygon s hs => by simp [relabel, vertices, List.map_flatten]
  | .multiPoint ps => rfl
  | .multiLineString ls => by simp [relabel, vertices, List.map_flatten]
  | .multiPolygon gs => by
    simp only [relabel, vertices, List.map_map, List.map_flatten]
    congr 1
    apply List.map_congr_left
    intro g _
    simp [Function.comp, List.map_flatten]
  | .collection gs => by simp only [relabel, vertices]; exact verticesAll_relabel f gs

theorem verticesAll_relabel {P Q : Type} (f : P → Q) : ∀ gs : List (Geom P), verticesAll (relabelAll f gs) = (verticesAll gs).map f
  | [] => rfl
  | g :: gs => by simp only [relabelAll, verticesAll, List.map_append, vertices_relabel f g, verticesAll_relabel f gs]
end

mutual
theorem noRing_relabel {P Q : Type} (f : P → Q) : ∀ g : Geom P, NoRing g → NoRing (relabel f g)
  | .point p, _ => trivial
  | .lineString ps, _ => trivial
  | .linearRing ps, h => h.elim
  | .polygon s hs, _ => trivial
  | .multiPoint ps, _ => trivial
  | .multiLineString ls, _ => trivial
  | .multiPolygon gs, _ => trivial
  | .collection gs, h => by simp only [relabel, NoRing]; exact noRingAll_relabel f gs h

theorem noRingAll_relabel {P Q : Type} (f : P → Q) : ∀ gs : List (Geom P), NoRingAll gs → NoRingAll (relabelAll f gs)
  | [], _ => trivial
  | g :: gs, h => ⟨noRing_relabel f g h.1, noRingAll_relabel f gs h.2⟩
end

/-- Bounds, moved. -/
def moveBounds (d : Pos) (b : Bounds) : Bounds := ⟨b.x0 + d.1, b.y0 + d.2, b.x1 + d.1, b.y1 + d.2⟩

theorem boundsOf_shift (d : Pos) (ps : List Pos) : boundsOf (ps.map (shift d)) = (boundsOf ps).map (moveBounds d) := by
  cases ps with
  | nil => rfl
  | cons p ps =>
    simp only [List.map_cons, boundsOf, Option.map_some, Option.some.injEq]
    suffices H : ∀ (ps : List Pos) (b : Bounds), (ps.map (shift d)).foldl (fun b q => (⟨min b.x0 q.1, min b.y0 q.2, max b.x1 q.1, max b.y1 q.2⟩ : Bounds)) (moveBounds d b) =
        moveBounds d (ps.foldl (fun b q => ⟨min b.x0 q.1, min b.y0 q.2, max b.x1 q.1, max b.y1 q.2⟩) b) from H ps ⟨p.1, p.2, p.1, p.2⟩
    intro ps
    induction ps with
    | nil => intro b; rfl
    | cons q ps ih =>
      intro b
      simp only [List.map_cons, List.foldl_cons]
      rw [← ih]
      congr 1
      simp only [moveBounds, shift, min_add_add_right, max_add_add_right]

theorem bounds_shift (d : Pos) (g : Geom Pos) : bounds (relabel (shift d) g) = (bounds g).map (moveBounds d) := by
  unfold bounds
  rw [vertices_relabel, boundsOf_shift]

theorem box_shift (d : Pos) (b : Bounds) : box (moveBounds d b) = relabel (shift d) (box b) := rfl

/-! ## Lookups -/

section
variable {S : Shapely} {dep : Bool} {d : Pos} {f f' : Feature}

theorem imageBBox_moved (h : Moved dep d f f') : ∃ r, imageBBox f = .ok r ∧ imageBBox f' = .ok (r.map (moveBounds d)) := by
  rcases h.box with ⟨h1, h2⟩ | ⟨x0, y0, x1, y1, h1, h2⟩
  · exact ⟨none, by simp [imageBBox, h1], by simp [imageBBox, h2]⟩
  · refine ⟨bounds (box ⟨x0, y0, x1, y1⟩), by simp only [imageBBox, h1]; rfl, ?_⟩
    rw [← bounds_shift, ← box_shift]
    simp only [imageBBox, h2]
    rfl

theorem imageGeometry_moved (hS : ∀ g, NoRing g → ReadsBack S g) (h : Moved dep d f f') :
    ∃ r, imageGeometry S f = .ok r ∧ imageGeometry S f' = .ok (r.map (relabel (shift d))) ∧ ∀ g, r = some g → vertices g ≠ [] := by
  rcases h.shape with ⟨h1, h2⟩ | ⟨g, hg, hv, h1, h2⟩
  · exact ⟨none, by simp [imageGeometry, h1], by simp [imageGeometry, h2]⟩
  · refine ⟨some g, ?_, ?_, ?_⟩
    · simp only [imageGeometry, h1, (hS g hg).geojson]; rfl
    · simp only [imageGeometry, h2, (hS _ (noRing_relabel _ g hg)).geojson]; rfl
    · rintro _ ⟨⟩; exact hv

theorem find_moved (hS : ∀ g, NoRing g → ReadsBack S g) (h : Moved dep d f f') :
    ∃ r, findImageGeometry S dep f = .ok r ∧ findImageGeometry S dep f' = .ok (r.map (relabel (shift d))) ∧ ∀ g, r = some g → vertices g ≠ [] := by
  rcases h.shape with ⟨h1, h2⟩ | ⟨g, hg, hv, h1, h2⟩
  · rcases h.box with ⟨k1, k2⟩ | ⟨x0, y0, x1, y1, k1, k2⟩
    · rcases h.current with rfl | hc
      · exact ⟨none, by simp [findImageGeometry, h1, k1], by simp [findImageGeometry, h2, k2], by simp⟩
      · have c1 := hc "geom_imcoords" (by simp)
        have c2 := hc "detection" (by simp)
        have c3 := hc "bounds_imcoords" (by simp)
        have c1' := (h.others "geom_imcoords" (by decide) (by decide)).trans c1
        have c2' := (h.others "detection" (by decide) (by decide)).trans c2
        have c3' := (h.others "bounds_imcoords" (by decide) (by decide)).trans c3
        refine ⟨none, ?_, ?_, ?_⟩
        · simp only [findImageGeometry, h1, k1, c1, detectionSource, c2, c3]
          cases dep <;> rfl
        · simp only [findImageGeometry, h2, k2, c1', detectionSource, c2', c3']
          cases dep <;> rfl
        · simp
    · refine ⟨some (box ⟨x0, y0, x1, y1⟩), ?_, ?_, ?_⟩
      · simp only [findImageGeometry, h1, k1]; rfl
      · simp only [findImageGeometry, h2, k2]; rfl
      · rintro _ ⟨⟩; simp [box, vertices]
  · refine ⟨some g, ?_, ?_, ?_⟩
    · simp only [findImageGeometry, h1, (hS g hg).geojson]; rfl
    · simp only [findImageGeometry, h2, (hS _ (noRing_relabel _ g hg)).geojson]; rfl
    · rintro _ ⟨⟩; exact hv

end

/-- The bounds of all features move with them. -/
theorem foldBounds_moved {S : Shapely} {dep : Bool} {d : Pos} (hS : ∀ g, NoRing g → ReadsBack S g) {fs fs' : List Feature} (h : List.Forall₂ (Moved dep d) fs fs') :
    ∃ r, foldBounds S dep fs = .ok r ∧ foldBounds S dep fs' = .ok (r.map (moveBounds d)) := by
  unfold foldBounds
  suffices H : ∀ acc : Option Bounds, ∃ r, fs.foldlM (Verif.Props.Geolocation.step S dep) acc = .ok r ∧
      fs'.foldlM (Verif.Props.Geolocation.step S dep) (acc.map (moveBounds d)) = .ok (r.map (moveBounds d)) from H none
  induction h with
  | nil => exact fun acc => ⟨acc, rfl, rfl⟩
  | @cons f f' _ _ hf _ ih =>
    intro acc
    obtain ⟨r, h1, h2, -⟩ := find_moved hS hf
    have key : ∃ acc', Verif.Props.Geolocation.step S dep acc f = .ok acc' ∧ Verif.Props.Geolocation.step S dep (acc.map (moveBounds d)) f' = .ok (acc'.map (moveBounds d)) := by
      simp only [Verif.Props.Geolocation.step, h1, h2, bind, Except.bind]
      cases r with
      | none => exact ⟨acc, rfl, rfl⟩
      | some g =>
        simp only [Option.map_some, bounds_shift]
        cases bounds g with
        | none => exact ⟨acc, rfl, rfl⟩
        | some b =>
          cases acc with
          | none => exact ⟨some b, rfl, rfl⟩
          | some a =>
            refine ⟨_, rfl, ?_⟩
            simp only [Option.map_some, moveBounds, min_add_add_right, max_add_add_right]
            rfl
    obtain ⟨acc', k1, k2⟩ := key
    obtain ⟨r', r1, r2⟩ := ih acc'
    refine ⟨r', ?_, ?_⟩
    · rw [List.foldlM_cons, k1]; exact r1
    · rw [List.foldlM_cons, k2]; exact r2

/-! ## The grid -/

theorem interp_shift (a step c : ℚ) (m : Nat) (f : Nat → ℚ) (x : ℚ) : interp (a + c) step m f (x + c) = interp a step m f x := by
  unfold interp
  rw [show x + c - (a + c) = x - a by ring]

theorem spline_shift (d : Pos) (area : Bounds) (n : Nat) (zs : List ℚ) (p : Pos) : spline (moveBounds d area) n zs (shift d p) = spline area n zs p := by
  simp only [spline, moveBounds, shift, interp_shift, show area.x1 + d.1 - (area.x0 + d.1) = area.x1 - area.x0 by ring,
    show area.y1 + d.2 - (area.y0 + d.2) = area.y1 - area.y0 by ring]

theorem nodes_shift (d : Pos) (area : Bounds) (n : Nat) : nodes (moveBounds d area) n = (nodes area n).map (shift d) := by
  have e : ∀ (a b c : ℚ) (k : Nat), linspace (a + c) (b + c) n k = linspace a b n k + c := by
    intro a b c k
    simp only [linspace, show b + c - (a + c) = b - a by ring]
    ring
  simp only [nodes, List.map_flatMap, List.map_map]
  simp only [moveBounds, e]
  rfl

/-- The same geolocator but for the sensor model, which is the one of the image for the moved pixel. -/
structure OfTile (d : Pos) (G G' : Geolocator) : Prop where
  world : ∀ p, G.toWorld p = G'.toWorld (shift d p)
  elevation : G.elevation = G'.elevation
  degrees : G.degrees = G'.degrees
  rounded : G.rounded = G'.rounded
  size : G.size = G'.size

theorem mapM_map {α β γ : Type} (f : α → β) (g : β → Except PyErr γ) (l : List α) : (l.map f).mapM g = l.mapM (fun a => g (f a)) := by
  induction l with
  | nil => rfl
  | cons a l ih => rw [List.map_cons, List.mapM_cons, List.mapM_cons, ih]

theorem nodeValues_shift {d : Pos} {G G' : Geolocator} (h : OfTile d G G') (area : Bounds) : nodeValues G' (moveBounds d area) = nodeValues G area := by
  unfold nodeValues
  rw [nodes_shift, mapM_map, h.size]
  congr 1
  funext p
  exact (h.world p).symm

theorem locate_shift {d : Pos} {G G' : Geolocator} (h : OfTile d G G') (area : Bounds) (zs : List (ℚ × ℚ × ℚ)) (p : Pos) :
    locate G' (moveBounds d area) zs (shift d p) = locate G area zs p := by
  simp only [locate, spline_shift, h.elevation, h.size]

theorem gridArea_shift (d : Pos) (b : Bounds) : gridArea (moveBounds d b) = moveBounds d (gridArea b) := by
  simp only [gridArea, moveBounds, Bounds.mk.injEq]
  refine ⟨?_, ?_, ?_, ?_⟩ <;> ring

/-! ## Features -/

mutual
theorem geolocate_shift {d : Pos} {loc loc' : Pos → ℚ × ℚ × ℚ} (h : ∀ p, loc' (shift d p) = loc p) : ∀ g : Geom Pos, geolocate loc' (relabel (shift d) g) = geolocate loc g
  | .point p => by simp [relabel, geolocate, h]
  | .lineString ps => by simp [relabel, geolocate, Function.comp_def, h]
  | .linearRing ps => by simp [relabel, geolocate, Function.comp_def, h]
  | .polygon s hs => by simp [relabel, geolocate, Function.comp_def, h]
  | .multiPoint ps => by simp [relabel, geolocate, Function.comp_def, h]
  | .multiLineString ls => by simp [relabel, geolocate, Function.comp_def, h]
  | .multiPolygon gs => by simp [relabel, geolocate, Function.comp_def, h]
  | .collection gs => by simp only [relabel, geolocate]; rw [geolocateAll_shift h gs]

theorem geolocateAll_shift {d : Pos} {loc loc' : Pos → ℚ × ℚ × ℚ} (h : ∀ p, loc' (shift d p) = loc p) :
    ∀ gs : List (Geom Pos), geolocateAll loc' (relabelAll (shift d) gs) = geolocateAll loc gs
  | [] => rfl
  | g :: gs => by simp only [relabelAll, geolocateAll]; rw [geolocate_shift h g, geolocateAll_shift h gs]
end

theorem locateBox_shift {d : Pos} {loc loc' : Pos → ℚ × ℚ × ℚ} (h : ∀ p, loc' (shift d p) = loc p) (b : Bounds) : locateBox loc' (moveBounds d b) = locateBox loc b := by
  have h' : ∀ x y, loc' (x + d.1, y + d.2) = loc (x, y) := fun x y => h (x, y)
  simp only [locateBox, moveBounds, List.map_cons, List.map_nil, h']

theorem moved_center {dep : Bool} {d : Pos} {loc loc' : Pos → ℚ × ℚ × ℚ} {f f' : Feature} (h : Moved dep d f f') {c c' : Pos} (hc : loc' c' = loc c) :
    Moved dep d (setCenter loc c f) (setCenter loc' c' f') := by
  unfold setCenter
  rw [hc]
  have keep : ∀ (k : String) (v : Json) (f f' : Feature), k ≠ "imageGeometry" → k ≠ "imageBBox" → k ∉ ["geom_imcoords", "detection", "bounds_imcoords"] →
      Moved dep d f f' → Moved dep d (setProp f k v) (setProp f' k v) := by
    intro k v f f' k1 k2 k3 h
    refine ⟨h.geometry, h.bbox, ?_, ?_, ?_, ?_⟩
    · intro j j1 j2
      simp only [setProp]
      split
      · rfl
      · exact h.others j j1 j2
    · simp only [setProp, if_neg (Ne.symm k1)]; exact h.shape
    · simp only [setProp, if_neg (Ne.symm k2)]; exact h.box
    · refine h.current.imp id fun hk j hj => ?_
      have : j ≠ k := fun e => k3 (e ▸ hj)
      simp only [setProp, if_neg this]
      exact hk j hj
  exact keep _ _ _ _ (by decide) (by decide) (by decide) (keep _ _ _ _ (by decide) (by decide) (by decide) h)

theorem locateFeature_moved {S : Shapely} {dep : Bool} {d : Pos} (hS : ∀ g, NoRing g → ReadsBack S g) {centroid : Geom Pos → Pos}
    (hc : ∀ g, vertices g ≠ [] → centroid (relabel (shift d) g) = shift d (centroid g)) {ex ex' loc loc' : Pos → ℚ × ℚ × ℚ}
    (he : ∀ p, ex' (shift d p) = ex p) (hl : ∀ p, loc' (shift d p) = loc p) {f f' : Feature} (h : Moved dep d f f') :
    Alike (Moved dep d) (locateFeature S dep centroid ex loc f) (locateFeature S dep centroid ex' loc' f') := by
  obtain ⟨ib, b1, b2⟩ := imageBBox_moved h
  obtain ⟨g0, g1, g2, hv0⟩ := imageGeometry_moved hS h
  obtain ⟨r, r1, r2, hvr⟩ := find_moved hS h
  have core : ∀ (g : Option (Geom Pos)) (F F' : Feature), (∀ x, g = some x → vertices x ≠ []) → Moved dep d F F' →
      Alike (Moved dep d) (locateGeometry centroid ex loc ib g F) (locateGeometry centroid ex' loc' (ib.map (moveBounds d)) (g.map (relabel (shift d))) F') := by
    intro g F F' hv hF
    cases g with
    | some g =>
      simp only [locateGeometry, Option.map_some, geolocate_shift hl]
      cases hg : geolocate loc g with
      | error e => exact .inl ⟨e, rfl, rfl⟩
      | ok geo =>
        refine .inr ⟨_, _, rfl, rfl, moved_center (f := { F with geometry := some geo }) (f' := { F' with geometry := some geo })
          ⟨rfl, hF.bbox, hF.others, hF.shape, hF.box, hF.current⟩ ?_⟩
        rw [hc _ (hv g rfl), he]
    | none =>
      cases ib with
      | none => exact .inr ⟨F, F', rfl, rfl, hF⟩
      | some b =>
        refine .inr ⟨_, _, rfl, rfl, moved_center hF ?_⟩
        rw [← he]
        congr 1
        simp only [shift, moveBounds, Prod.mk.injEq]
        constructor <;> ring
  have withBox : Moved dep d (match ib with | some b => { f with bbox := locateBox ex b } | none => f)
      (match ib.map (moveBounds d) with | some b => { f' with bbox := locateBox ex' b } | none => f') := by
    cases ib with
    | none => exact h
    | some b => exact ⟨h.geometry, locateBox_shift he b, h.others, h.shape, h.box, h.current⟩
  unfold locateFeature
  simp only [b1, b2, g1, g2, r1, r2, bind, Except.bind]
  cases ib with
  | none =>
    cases g0 with
    | none => exact core r _ _ hvr withBox
    | some g => exact core (some g) _ _ hv0 withBox
  | some b =>
    cases g0 with
    | none => exact core none _ _ (by simp) withBox
    | some g => exact core (some g) _ _ hv0 withBox

theorem mapM_alike {α : Type} {R Q : α → α → Prop} {f f' : α → Except PyErr α} (h : ∀ a b, R a b → Alike Q (f a) (f' b)) {l l' : List α} (hl : List.Forall₂ R l l') :
    Alike (List.Forall₂ Q) (l.mapM f) (l'.mapM f') := by
  induction hl with
  | nil => exact .inr ⟨[], [], rfl, rfl, .nil⟩
  | @cons a b l l' hab _ ih =>
    rw [List.mapM_cons, List.mapM_cons]
    rcases h a b hab with ⟨e, h1, h2⟩ | ⟨r, r', h1, h2, hr⟩
    · exact .inl ⟨e, by rw [h1]; rfl, by rw [h2]; rfl⟩
    · rcases ih with ⟨e, k1, k2⟩ | ⟨s, s', k1, k2, hs⟩
      · exact .inl ⟨e, by rw [h1, k1]; rfl, by rw [h2, k2]; rfl⟩
      · exact .inr ⟨r :: s, r' :: s', by rw [h1, k1]; rfl, by rw [h2, k2]; rfl, .cons hr hs⟩

/-- **C170**: detections in a tile, located with the tile's sensor model, get the same places as the same detections in the image located with the image's: geometry, bounding box and
center, or the same exception. -/
theorem tile_detections_located {S : Shapely} {dep : Bool} {d : Pos} (hS : ∀ g, NoRing g → ReadsBack S g) {centroid : Geom Pos → Pos}
    (hc : ∀ g, vertices g ≠ [] → centroid (relabel (shift d) g) = shift d (centroid g)) {G G' : Geolocator} (hG : OfTile d G G') {fs fs' : List Feature} (h : List.Forall₂ (Moved dep d) fs fs') :
    Alike (List.Forall₂ (Moved dep d)) (geolocateWith S dep centroid G fs) (geolocateWith S dep centroid G' fs') := by
  obtain ⟨r, r1, r2⟩ := foldBounds_moved hS h
  cases h with
  | nil => exact .inr ⟨[], [], rfl, rfl, .nil⟩
  | @cons f f' fs fs' hf hfs =>
    simp only [geolocateWith, r1, r2, bind, Except.bind]
    cases r with
    | none => exact .inl ⟨.valueError, rfl, rfl⟩
    | some b =>
      simp only [Option.map_some, gridArea_shift, nodeValues_shift hG, ← hG.size]
      cases nodeValues G (gridArea b) with
      | error e => exact .inl ⟨e, rfl, rfl⟩
      | ok zs =>
        simp only
        by_cases hn : G.size < 2
        · rw [if_pos hn, if_pos hn]; exact .inl ⟨.valueError, rfl, rfl⟩
        · rw [if_neg hn, if_neg hn]
          refine mapM_alike (fun a b hab => locateFeature_moved hS hc ?_ ?_ hab) (List.Forall₂.cons hf hfs)
          · intro p; simp only [inDegrees, locate_shift hG, hG.degrees]
          · intro p; simp only [inGeojson, locate_shift hG, hG.degrees, hG.rounded]

/-! ## Chips and tiles -/

/-- A geolocator with a sensor model over `K`; `convert` is what becomes of its coordinate, or of its failure. -/
def withModel {K O : Type} [Field K] (M : Verif.Sensors.SensorModel K O) (e : Option (Verif.Sensors.Elev K)) (convert : Except Verif.Sensors.Fail (Verif.Dem.Geo K) → Except PyErr (ℚ × ℚ × ℚ))
    (G : Geolocator) : Geolocator := { G with toWorld := fun p => convert (M.imageToWorld ((p.1 : K), (p.2 : K)) e none) }

/-- **C170** for the chip at `(x, y)` of an image. -/
theorem chip_detections_located {K O : Type} [Field K] [LinearOrder K] [IsStrictOrderedRing K] (lstsq : List (Verif.Transforms.Row K) → Verif.Transforms.Projective K)
    (hl : ∀ rows, Verif.Transforms.IsLstsq rows (lstsq rows)) (full : Verif.Sensors.SensorModel K O) (x y : ℚ) (w h : K) (hw : 0 < w) (hh : 0 < h)
    (e : Option (Verif.Sensors.Elev K)) (convert : Except Verif.Sensors.Fail (Verif.Dem.Geo K) → Except PyErr (ℚ × ℚ × ℚ)) (G : Geolocator)
    {S : Shapely} {dep : Bool} (hS : ∀ g, NoRing g → ReadsBack S g) {centroid : Geom Pos → Pos} (hc : ∀ g, vertices g ≠ [] → centroid (relabel (shift (x, y)) g) = shift (x, y) (centroid g))
    {fs fs' : List Feature} (hm : List.Forall₂ (Moved dep (x, y)) fs fs') :
    ∃ M, Verif.Sensors.chipped lstsq (Verif.Props.Sensors.corners (x : K) y w h) (Verif.Props.Sensors.corners 0 0 w h) full = .ok M ∧
      Alike (List.Forall₂ (Moved dep (x, y))) (geolocateWith S dep centroid (withModel M e convert G) fs) (geolocateWith S dep centroid (withModel full e convert G) fs') := by
  obtain ⟨M, h1, h2, _⟩ := Verif.Props.Sensors.crop_model_is_shifted_model lstsq hl full (x : K) y w h hw hh
  have hG : OfTile (x, y) (withModel M e convert G) (withModel full e convert G) := ⟨?_, rfl, rfl, rfl, rfl⟩
  · exact ⟨M, h1, tile_detections_located hS hc hG hm⟩
  intro p
  simp only [withModel, shift, h2]
  push_cast
  rw [add_comm (x : K), add_comm (y : K)]

section
open Verif.Loading Verif.SarTiles Verif.SicdFiles Verif.Props.SicdFiles
open Verif.TileFactory (Call Config State createEncodedTile serve)
open Verif.Updaters (Request Window)

/-- **C170** for tiles of SICD images: the detections are located with the model that the file of the tile loads with. -/
theorem sicd_tile_detections_located (env : Env) (x : Xsdata) (Gr : Ground) (henv : env.sicd = sicdBuilder x Gr) (parses : Product → String → Except PyErr Unit) (i : Image)
    (sel : Selected) (hsel : newFactory env.lib parses "NITF" (some i.dess) = .ok (some sel)) (hp : sel.product = .sicd) (doc : Doc)
    (hd : x.parse sel.xml = .ok doc) (hx : Renders x doc) (hb : doc.content.build Gr.geo ≠ none) (igeolo : Option (Window → Except PyErr String))
    (c : Config Updaters.Sicd) (s₀ : Updaters.Sicd) (hc : sicdTiles x sel .nitf igeolo = .ok (c, s₀)) (st : State Updaters.Sicd) (hst : st.sar = s₀) (base : List String)
    (hbase : st.heap[st.defaults.creationOptions]? = some base) (history : List (String × (Call → Bool × Except PyErr Bool) × Request))
    (translate : Call → Bool × Except PyErr Bool) (name : String) (q : Request) (hq : q.out = none ∨ q.out = some (q.win.w, q.win.h)) (call : Call)
    (hcall : (createEncodedTile c translate name q (serve c st history)).2.2 = some call) (t : Image) (ht : ReadBack env.lib x.parse (String.ofList sel.header) call t)
    (ri rt : Image × Option Model) (hi : load env (.image i) = .ok ri) (hload : load env (.image t) = .ok rt)
    (e : Option (Verif.Sensors.Elev ℝ)) (happ : ∀ im a, im = i ∨ im = t → IsApproximate env im a → ∀ p, Answers a p e none)
    (convert : Except Verif.Sensors.Fail (Verif.Dem.Geo ℝ) → Except PyErr (ℚ × ℚ × ℚ)) (G : Geolocator)
    {S : Shapely} {dep : Bool} (hS : ∀ g, NoRing g → ReadsBack S g) {centroid : Geom Pos → Pos}
    (hcen : ∀ g, vertices g ≠ [] → centroid (relabel (shift (q.win.x, q.win.y)) g) = shift (q.win.x, q.win.y) (centroid g))
    {fs fs' : List Feature} (hm : List.Forall₂ (Moved dep (q.win.x, q.win.y)) fs fs') :
    ∃ M M', ri = (i, some M) ∧ rt = (t, some M') ∧
      Alike (List.Forall₂ (Moved dep (q.win.x, q.win.y))) (geolocateWith S dep centroid (withModel M' e convert G) fs) (geolocateWith S dep centroid (withModel M e convert G) fs') := by
  obtain ⟨M, M', a, a', r1, r2, ha, ha', k1, _⟩ := sicd_tile_reloads env x Gr henv parses i sel hsel hp doc hd hx hb igeolo c s₀ hc st hst base hbase history translate name q hq call hcall t ht
    ri rt hi hload
  have hG : OfTile (q.win.x, q.win.y) (withModel M' e convert G) (withModel M e convert G) := ⟨?_, rfl, rfl, rfl, rfl⟩
  · exact ⟨M, M', r1, r2, tile_detections_located hS hcen hG hm⟩
  intro p
  simp only [withModel, shift]
  push_cast
  rw [k1 _ e none none (happ i a (.inl rfl) ha _) (happ t a' (.inr rfl) ha' _)]

/-! ## An example -/

/-- A detection at a point, and one that has only an image box, both moved by `d`. -/
def detections (d : Pos) : List Feature :=
  [⟨none, none, fun k => if k = "imageGeometry" then some (toGeoJson (relabel (shift d) (.point (2, 3)))) else if k = "name" then some (.str "ship") else none⟩,
   ⟨none, none, fun k => if k = "imageBBox" then some (.arr [.num (1 + d.1), .num (2 + d.2), .num (3 + d.1), .num (4 + d.2)]) else none⟩]

theorem detections_moved (d : Pos) : List.Forall₂ (Moved true d) (detections (0, 0)) (detections d) := by
  have none_of : ∀ k ∈ ["geom_imcoords", "detection", "bounds_imcoords"], k ≠ "imageGeometry" ∧ k ≠ "name" ∧ k ≠ "imageBBox" := by decide
  refine .cons ⟨rfl, rfl, ?_, .inr ⟨.point (2, 3), trivial, by simp [vertices], ?_, ?_⟩, .inl ⟨?_, ?_⟩, .inr ?_⟩ (.cons ⟨rfl, rfl, ?_, .inl ⟨?_, ?_⟩, .inr ⟨1, 2, 3, 4, ?_, ?_⟩, .inr ?_⟩ .nil)
  · intro k k1 k2; simp [k1]
  · simp [relabel, shift]
  · simp
  · simp
  · simp
  · intro k hk; obtain ⟨h1, h2, h3⟩ := none_of k hk; simp [h1, h2]
  · intro k k1 k2; simp [k2]
  · simp
  · simp
  · simp
  · simp
  · intro k hk; obtain ⟨h1, h2, h3⟩ := none_of k hk; simp [h3]

theorem firstVertex_shift (d : Pos) (g : Geom Pos) (h : vertices g ≠ []) :
    Verif.Props.GeolocationGrid.firstVertex (relabel (shift d) g) = shift d (Verif.Props.GeolocationGrid.firstVertex g) := by
  unfold Verif.Props.GeolocationGrid.firstVertex
  rw [vertices_relabel]
  cases hv : vertices g with
  | nil => exact absurd hv h
  | cons p ps => rfl

/-- A tile at (10, 20) of an image with a sensor model that is not affine. -/
example : Alike (List.Forall₂ (Moved true (10, 20)))
    (geolocateWith Verif.Features.reader true Verif.Props.GeolocationGrid.firstVertex
      (Verif.Props.GeolocationGrid.exampleGeolocator none (fun p => ((p.1 + 10) * (p.2 + 20), p.1 + 10, 0))) (detections (0, 0)))
    (geolocateWith Verif.Features.reader true Verif.Props.GeolocationGrid.firstVertex
      (Verif.Props.GeolocationGrid.exampleGeolocator none (fun p => (p.1 * p.2, p.1, 0))) (detections (10, 20))) :=
  have hG : OfTile (10, 20) (Verif.Props.GeolocationGrid.exampleGeolocator none (fun p => ((p.1 + 10) * (p.2 + 20), p.1 + 10, 0)))
      (Verif.Props.GeolocationGrid.exampleGeolocator none (fun p => (p.1 * p.2, p.1, 0))) :=
    ⟨fun _ => by simp only [Verif.Props.GeolocationGrid.exampleGeolocator, shift], rfl, rfl, rfl, rfl⟩
  tile_detections_located Verif.Features.reader_readsBack (firstVertex_shift _) hG (detections_moved _)

/-- A tile of 5 by 6 pixels at (10, 20) of a SICD image, after another request. -/
example (lstsq : List (Verif.Transforms.Row ℝ) → Verif.Transforms.Projective ℝ) (convert : Except Verif.Sensors.Fail (Verif.Dem.Geo ℝ) → Except PyErr (ℚ × ℚ × ℚ)) (G : Geolocator) :
    ∃ (env : Env) (i t : Image) (M M' : Model), load env (.image i) = .ok (i, some M) ∧ load env (.image t) = .ok (t, some M') ∧
      Alike (List.Forall₂ (Moved true (10, 20)))
        (geolocateWith Verif.Features.reader true Verif.Props.GeolocationGrid.firstVertex (withModel M' none convert G) (detections (0, 0)))
        (geolocateWith Verif.Features.reader true Verif.Props.GeolocationGrid.firstVertex (withModel M none convert G) (detections (10, 20))) := by
  obtain ⟨x, hx⟩ := demo_exists
  obtain ⟨h, ri, rt, h1, h2, h3, h4, h5, h6, h7, h8, h9, h10⟩ :=
    demo_premises x hx lstsq ⟨100, 200, 50, 60⟩ ⟨10, 20, 5, 6⟩ [("a", fun _ => (true, .ok true), ⟨⟨1, 2, 3, 4⟩, none⟩)]
  have happ : ∀ i' a, IsApproximate (demoEnv x lstsq) (demoImage x i') a → a = none := by
    rintro i' a ⟨tres, a₀, p, k1, k2, k3⟩
    cases k1
    cases k2
    cases k3
    rfl
  obtain ⟨M, M', rfl, rfl, k⟩ := sicd_tile_detections_located (demoEnv x lstsq) x demoGround rfl _ _ _ h1 rfl _ h2 h3 h4 none _ _ h5 _ rfl _ h6 _ _ _ _ (.inl rfl) _ h7 _ h8
    ri rt h9 h10 none (fun im a hi ha p m hm => by
      have : a = none := by rcases hi with rfl | rfl <;> exact happ _ a ha
      rw [this] at hm
      cases hm) convert G Verif.Features.reader_readsBack (firstVertex_shift _) (detections_moved _)
  refine ⟨demoEnv x lstsq, _, _, M, M', h9, h10, ?_⟩
  simpa using k

end

end Verif.Props.Detections
