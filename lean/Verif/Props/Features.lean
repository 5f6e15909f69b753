import Verif.Lemmas.Features
import Mathlib.Data.List.Perm.Basic

/-!
# Properties of the feature accessor, the geolocator and the spatial index (C63–C68, C85)
-/

namespace Verif.Props.Features

open Verif Verif.Features Verif.Spec.Features

/-! ## C63 -/

/-- **C63** The lookup takes `imageGeometry`, else `imageBBox` as the rectangle with those corners, else, only when deprecated names are
allowed, `geom_imcoords` as a ring, `detection` with `pixelCoordinates`, `bounds_imcoords` as a rectangle, else nothing. -/
theorem lookup_precedence (S : Shapely) (dep : Bool) (f : Feature) :
    (∀ j, f.props "imageGeometry" = some j → findImageGeometry S dep f = (S.shape j).map some) ∧
    (f.props "imageGeometry" = none →
      (∀ a b c d, f.props "imageBBox" = some (.arr [.num a, .num b, .num c, .num d]) →
        findImageGeometry S dep f = .ok (some (.polygon [(c, b), (c, d), (a, d), (a, b), (c, b)] []))) ∧
      (f.props "imageBBox" = none →
        (dep = false → findImageGeometry S dep f = .ok none) ∧
        (dep = true →
          (∀ j, f.props "geom_imcoords" = some j → findImageGeometry S dep f = (S.ring j).map some) ∧
          (f.props "geom_imcoords" = none →
            (∀ l t c, f.props "detection" = some (.obj l) → getKey (.obj l) "type" = .ok t → getKey (.obj l) "pixelCoordinates" = .ok c →
              findImageGeometry S dep f = (S.shape (.obj [("type", t), ("coordinates", c)])).map some) ∧
            ((f.props "detection" = none ∨ ∃ l, f.props "detection" = some (.obj l) ∧ ∀ e ∈ l, e.1 ≠ "pixelCoordinates") →
              (∀ a b c d, f.props "bounds_imcoords" = some (.arr [.num a, .num b, .num c, .num d]) →
                findImageGeometry S dep f = .ok (some (.polygon [(c, b), (c, d), (a, d), (a, b), (c, b)] []))) ∧
              (f.props "bounds_imcoords" = none → findImageGeometry S dep f = .ok none)))))) := by
  refine ⟨fun j h => by simp only [findImageGeometry, h], fun h1 => ⟨fun a b c d h2 => ?_, fun h2 => ⟨fun hd => ?_, fun hd => ⟨fun j h3 => ?_, fun h3 => ⟨fun l t c h4 ht hc => ?_, fun h4 => ?_⟩⟩⟩⟩⟩
  · simp only [findImageGeometry, h1, h2, readBox, box]
    rfl
  · simp only [findImageGeometry, h1, h2, hd]
    rfl
  · simp only [findImageGeometry, h1, h2, hd, h3]
    rfl
  · have hk : hasKey (.obj l) "pixelCoordinates" = .ok true := by
      simp only [getKey] at hc
      simp only [hasKey]
      cases hf : l.find? (fun e => decide (e.1 = "pixelCoordinates")) with
      | none => simp [hf] at hc
      | some e =>
        have := List.find?_some hf
        have hm := List.mem_of_find?_eq_some hf
        congr 1
        exact List.any_eq_true.mpr ⟨e, hm, this⟩
    have hs : detectionSource f = .ok (some (.obj l)) := by
      simp only [detectionSource, h4, hk]
      rfl
    simp only [findImageGeometry, h1, h2, hd, h3, hs, if_true]
    simp only [Except.map, bind, Except.bind, ht, hc, if_true]
  · have hk : detectionSource f = .ok none := by
      rcases h4 with h4 | ⟨l, h4, hl⟩
      · simp only [detectionSource, h4]
      · have : l.any (fun e => decide (e.1 = "pixelCoordinates")) = false := by
          rw [List.any_eq_false]
          intro e he
          simpa using hl e he
        simp only [detectionSource, h4, hasKey, this]
        rfl
    constructor
    · intro a b c d h5
      simp only [findImageGeometry, h1, h2, hd, h3, if_true, hk, h5, readBox, box]
      rfl
    · intro h5
      simp only [findImageGeometry, h1, h2, hd, h3, if_true, hk, h5]
      rfl

/-- The property table of an example feature. -/
def withProps (l : List (String × Json)) : Feature := ⟨none, none, fun k => (l.find? (fun e => decide (e.1 = k))).map (·.2)⟩

/-- A point as JSON. -/
def pointJson (x y : ℚ) : Json := toGeoJson (.point (x, y))

example : findImageGeometry reader true (withProps [("imageBBox", .arr [.num 1, .num 2, .num 3, .num 4]), ("geom_imcoords", .null)]) =
    .ok (some (.polygon [(3, 2), (3, 4), (1, 4), (1, 2), (3, 2)] [])) :=
  ((lookup_precedence reader true _).2 rfl).1 1 2 3 4 rfl

/-- **C63** Nothing else is looked at: two features with the same values of the properties in question give the same result. -/
theorem only_image_properties (S : Shapely) (dep : Bool) (f f' : Feature) (h : ∀ k ∈ imageProps dep, f.props k = f'.props k) :
    findImageGeometry S dep f = findImageGeometry S dep f' := by
  cases dep with
  | false =>
    have h1 := h "imageGeometry" (by simp [imageProps])
    have h2 := h "imageBBox" (by simp [imageProps])
    simp only [findImageGeometry, h1, h2]
    rfl
  | true =>
    have h1 := h "imageGeometry" (by simp [imageProps])
    have h2 := h "imageBBox" (by simp [imageProps])
    have h3 := h "geom_imcoords" (by simp [imageProps])
    have h4 := h "detection" (by simp [imageProps])
    have h5 := h "bounds_imcoords" (by simp [imageProps])
    simp only [findImageGeometry, detectionSource, h1, h2, h3, h4, h5]

example : findImageGeometry reader false (withProps [("imageGeometry", pointJson 1 2), ("detection", .null)]) =
    findImageGeometry reader false (withProps [("imageGeometry", pointJson 1 2)]) :=
  only_image_properties _ _ _ _ (by simp [imageProps, withProps])

/-! ## C64 -/

theorem updateIf_props (f : Feature) (k : String) (v : Json) (k' : String) :
    (updateIf f k v).props k' = if k' = k then (f.props k).map (fun _ => v) else f.props k' := by
  unfold updateIf
  cases h : f.props k with
  | none =>
    by_cases hk : k' = k
    · subst hk; simp [h]
    · simp [hk]
  | some _ => simp [setProp]

theorem updateIf_rest (f : Feature) (k : String) (v : Json) : (updateIf f k v).geometry = f.geometry ∧ (updateIf f k v).bbox = f.bbox := by
  unfold updateIf
  cases f.props k <;> exact ⟨rfl, rfl⟩

/-- What is stored as a ring. -/
def ringValue (g : Geom Pos) (c : Json) : Json :=
  match g with
  | .polygon shell _ => lineJson shell
  | _ => c

theorem updateRing_spec (f f' : Feature) (g : Geom Pos) (h : updateRing f g = .ok f') :
    (f'.geometry = f.geometry ∧ f'.bbox = f.bbox) ∧
    ((f.props "geom_imcoords" = none ∧ f' = f) ∨
     ∃ c j, f.props "geom_imcoords" = some j ∧ coordinates g = .ok c ∧ f' = setProp f "geom_imcoords" (ringValue g c)) := by
  unfold updateRing at h
  cases hp : f.props "geom_imcoords" with
  | none =>
    simp only [hp] at h
    cases h
    exact ⟨⟨rfl, rfl⟩, .inl ⟨rfl, rfl⟩⟩
  | some j =>
    simp only [hp] at h
    cases hc : coordinates g with
    | error e => simp [hc, bind, Except.bind] at h
    | ok c =>
      simp only [hc, bind, Except.bind] at h
      have : f' = setProp f "geom_imcoords" (ringValue g c) := by
        cases g <;> simp only [pure, Except.pure, Except.ok.injEq] at h <;> exact h.symm
      subst this
      exact ⟨⟨rfl, rfl⟩, .inr ⟨c, j, rfl, rfl, rfl⟩⟩

theorem updateDetection_spec (f f' : Feature) (g : Geom Pos) (h : updateDetection f g = .ok f') :
    (f'.geometry = f.geometry ∧ f'.bbox = f.bbox) ∧
    ((f' = f ∧ (f.props "detection" = none ∨ ∃ d, f.props "detection" = some d ∧ hasKey d "pixelCoordinates" = .ok false)) ∨
     ∃ c l, f.props "detection" = some (.obj l) ∧ hasKey (.obj l) "pixelCoordinates" = .ok true ∧ coordinates g = .ok c ∧
      f' = setProp f "detection" (.obj (setKey (setKey l "type" (.str (typeName g))) "pixelCoordinates" c))) := by
  unfold updateDetection at h
  cases hp : f.props "detection" with
  | none =>
    simp only [hp] at h
    cases h
    exact ⟨⟨rfl, rfl⟩, .inl ⟨rfl, .inl rfl⟩⟩
  | some d =>
    simp only [hp] at h
    cases hk : hasKey d "pixelCoordinates" with
    | error e => simp [hk, bind, Except.bind] at h
    | ok b =>
      cases b with
      | false =>
        simp only [hk, bind, Except.bind] at h
        cases h
        exact ⟨⟨rfl, rfl⟩, .inl ⟨rfl, .inr ⟨d, rfl, hk⟩⟩⟩
      | true =>
        simp only [hk, bind, Except.bind, if_true] at h
        cases d with
        | obj l =>
          simp only [] at h
          cases hc : coordinates g with
          | error e => simp [hc] at h
          | ok c =>
            simp only [hc, pure, Except.pure, Except.ok.injEq] at h
            subst h
            exact ⟨⟨rfl, rfl⟩, .inr ⟨c, l, rfl, hk, rfl, rfl⟩⟩
        | _ => simp at h

/-- The steps of a successful update. -/
theorem update_steps (dep : Bool) (f f' : Feature) (g : Geom Pos) (h : updateExisting dep f g = .ok f') :
    (dep = false ∧ f' = updateIf (updateIf f "imageGeometry" (toGeoJson g)) "imageBBox" (boundsJson g)) ∨
    (dep = true ∧ ∃ a b, updateRing (updateIf (updateIf f "imageGeometry" (toGeoJson g)) "imageBBox" (boundsJson g)) g = .ok a ∧
      updateDetection a g = .ok b ∧ f' = updateIf b "bounds_imcoords" (boundsJson g)) := by
  unfold updateExisting at h
  cases dep with
  | false =>
    simp only [pure, Except.pure] at h
    cases h
    exact .inl ⟨rfl, rfl⟩
  | true =>
    simp only [if_true, bind, Except.bind] at h
    cases ha : updateRing (updateIf (updateIf f "imageGeometry" (toGeoJson g)) "imageBBox" (boundsJson g)) g with
    | error e => simp [ha] at h
    | ok a =>
      cases hb : updateDetection a g with
      | error e => simp [ha, hb] at h
      | ok b =>
        simp only [ha, hb, pure, Except.pure, Except.ok.injEq] at h
        exact .inr ⟨rfl, a, b, rfl, hb, h.symm⟩

theorem setProp_props (f : Feature) (k : String) (v : Json) (k' : String) : (setProp f k v).props k' = if k' = k then some v else f.props k' := rfl

theorem update_ring_props (f f' : Feature) (g : Geom Pos) (h : updateRing f g = .ok f') (k : String) (hk : k ≠ "geom_imcoords") :
    f'.props k = f.props k := by
  rcases (updateRing_spec f f' g h).2 with ⟨_, rfl⟩ | ⟨c, j, _, _, rfl⟩
  · rfl
  · rw [setProp_props, if_neg hk]

theorem update_detection_props (f f' : Feature) (g : Geom Pos) (h : updateDetection f g = .ok f') (k : String) (hk : k ≠ "detection") :
    f'.props k = f.props k := by
  rcases (updateDetection_spec f f' g h).2 with ⟨rfl, _⟩ | ⟨c, l, _, _, _, rfl⟩
  · rfl
  · rw [setProp_props, if_neg hk]

theorem update_ring_some (f f' : Feature) (g : Geom Pos) (h : updateRing f g = .ok f') : (f'.props "geom_imcoords").isSome = (f.props "geom_imcoords").isSome := by
  rcases (updateRing_spec f f' g h).2 with ⟨_, rfl⟩ | ⟨c, j, hj, _, rfl⟩
  · rfl
  · simp [setProp_props, hj]

theorem update_detection_some (f f' : Feature) (g : Geom Pos) (h : updateDetection f g = .ok f') : (f'.props "detection").isSome = (f.props "detection").isSome := by
  rcases (updateDetection_spec f f' g h).2 with ⟨rfl, _⟩ | ⟨c, l, hl, _, _, rfl⟩
  · rfl
  · simp [setProp_props, hl]

/-- **C64** An update leaves the feature's geometry, its bbox and every property that is not an image property unchanged, and neither adds nor
removes a property. -/
theorem touches_only_existing (dep : Bool) (f f' : Feature) (g : Geom Pos) (h : updateExisting dep f g = .ok f') :
    f'.geometry = f.geometry ∧ f'.bbox = f.bbox ∧ (∀ k, k ∉ imageProps dep → f'.props k = f.props k) ∧
    ∀ k, (f'.props k).isSome = (f.props k).isSome := by
  have base : ∀ k, ((updateIf (updateIf f "imageGeometry" (toGeoJson g)) "imageBBox" (boundsJson g)).props k).isSome = (f.props k).isSome := by
    intro k
    simp only [updateIf_props]
    by_cases h1 : k = "imageBBox"
    · subst h1; simp
    · by_cases h2 : k = "imageGeometry"
      · subst h2; simp
      · simp [h1, h2]
  have base2 : ∀ k, k ≠ "imageGeometry" → k ≠ "imageBBox" →
      (updateIf (updateIf f "imageGeometry" (toGeoJson g)) "imageBBox" (boundsJson g)).props k = f.props k := by
    intro k h1 h2
    simp [updateIf_props, h1, h2]
  rcases update_steps dep f f' g h with ⟨hd, rfl⟩ | ⟨hd, a, b, ha, hb, rfl⟩
  · refine ⟨?_, ?_, ?_, base⟩
    · rw [(updateIf_rest _ _ _).1, (updateIf_rest _ _ _).1]
    · rw [(updateIf_rest _ _ _).2, (updateIf_rest _ _ _).2]
    · intro k hk
      exact base2 k (fun h => hk (by simp [imageProps, h])) (fun h => hk (by simp [imageProps, h]))
  · have ra := (updateRing_spec _ _ _ ha).1
    have rb := (updateDetection_spec _ _ _ hb).1
    refine ⟨?_, ?_, ?_, ?_⟩
    · rw [(updateIf_rest _ _ _).1, rb.1, ra.1, (updateIf_rest _ _ _).1, (updateIf_rest _ _ _).1]
    · rw [(updateIf_rest _ _ _).2, rb.2, ra.2, (updateIf_rest _ _ _).2, (updateIf_rest _ _ _).2]
    · intro k hk
      simp only [imageProps, hd, if_true, List.mem_append, List.mem_cons, List.not_mem_nil, or_false, not_or] at hk
      rw [updateIf_props, if_neg hk.2.2.2, update_detection_props _ _ _ hb k hk.2.2.1, update_ring_props _ _ _ ha k hk.2.1, base2 k hk.1.1 hk.1.2]
    · intro k
      rw [updateIf_props]
      by_cases h5 : k = "bounds_imcoords"
      · subst h5
        rw [if_pos rfl, Option.isSome_map, update_detection_props _ _ _ hb _ (by decide), update_ring_props _ _ _ ha _ (by decide)]
        exact base _
      · rw [if_neg h5]
        by_cases h4 : k = "detection"
        · subst h4
          rw [update_detection_some _ _ _ hb, update_ring_props _ _ _ ha _ (by decide)]
          exact base _
        · rw [update_detection_props _ _ _ hb k h4]
          by_cases h3 : k = "geom_imcoords"
          · subst h3
            rw [update_ring_some _ _ _ ha]
            exact base _
          · rw [update_ring_props _ _ _ ha k h3]
            exact base _

example : ∃ f', updateExisting true (withProps [("imageGeometry", .null), ("name", .str "a")]) (.point (1, 2)) = .ok f' ∧ f'.props "name" = some (.str "a") := by
  refine ⟨_, rfl, ?_⟩
  exact (touches_only_existing true (withProps [("imageGeometry", .null), ("name", .str "a")]) _ (.point (1, 2)) rfl).2.2.1 "name" (by decide)

theorem find_setKey_self (l : List (String × Json)) (k : String) (v : Json) : getKey (.obj (setKey l k v)) k = .ok v := by
  unfold setKey getKey
  by_cases h : l.any (fun e => decide (e.1 = k))
  · rw [if_pos h]
    induction l with
    | nil => simp at h
    | cons e l ih =>
      by_cases he : e.1 = k
      · simp [he]
      · have : l.any (fun e => decide (e.1 = k)) := by simpa [he] using h
        simpa [he] using ih this
  · rw [if_neg h]
    have : l.find? (fun e => decide (e.1 = k)) = none := by
      rw [List.find?_eq_none]
      intro e he hc
      exact h (List.any_eq_true.mpr ⟨e, he, hc⟩)
    simp [List.find?_append, this]

theorem find_setKey_ne (l : List (String × Json)) (k k' : String) (v : Json) (hk : k' ≠ k) : getKey (.obj (setKey l k v)) k' = getKey (.obj l) k' := by
  unfold setKey
  by_cases h : l.any (fun e => decide (e.1 = k))
  · rw [if_pos h]
    clear h
    unfold getKey
    simp only []
    have : (l.map (fun e => if e.1 = k then (k, v) else e)).find? (fun e => decide (e.1 = k')) = l.find? (fun e => decide (e.1 = k')) := by
      induction l with
      | nil => rfl
      | cons e l ih =>
        by_cases he : e.1 = k
        · have h2 : ¬ (e.1 = k') := fun h => hk (h.symm.trans he)
          simp only [List.map_cons, if_pos he, List.find?_cons, decide_eq_false (Ne.symm hk : ¬ k = k'), decide_eq_false h2]
          exact ih
        · simp only [List.map_cons, if_neg he, List.find?_cons]
          by_cases h2 : e.1 = k'
          · simp [h2]
          · simp only [decide_eq_false h2]
            exact ih
    rw [this]
  · rw [if_neg h]
    unfold getKey
    simp only [List.find?_append]
    have : ([(k, v)] : List (String × Json)).find? (fun e => decide (e.1 = k')) = none := by simp [Ne.symm hk]
    rw [this]
    simp

theorem hasKey_setKey_self (l : List (String × Json)) (k : String) (v : Json) : hasKey (.obj (setKey l k v)) k = .ok true := by
  have := find_setKey_self l k v
  unfold getKey at this
  simp only [] at this
  cases hf : (setKey l k v).find? (fun e => decide (e.1 = k)) with
  | none => simp [hf] at this
  | some e =>
    simp only [hasKey]
    have hdec := List.find?_some hf
    congr 1
    exact List.any_eq_true.mpr ⟨e, List.mem_of_find?_eq_some hf, hdec⟩

/-- **C64** Every image property that exists is overwritten: `imageGeometry` with the geometry, the two box properties with its bounds, the ring with
the outer ring of a polygon, the detection with type and coordinates and nothing else in it changed. -/
theorem existing_are_rewritten (dep : Bool) (f f' : Feature) (g : Geom Pos) (b : Bounds) (hb : bounds g = some b)
    (h : updateExisting dep f g = .ok f') :
    (∀ j, f.props "imageGeometry" = some j → f'.props "imageGeometry" = some (toGeoJson g)) ∧
    (∀ j, f.props "imageBBox" = some j → f'.props "imageBBox" = some (.arr [.num b.x0, .num b.y0, .num b.x1, .num b.y1])) ∧
    (dep = true →
      (∀ j shell holes, f.props "geom_imcoords" = some j → g = .polygon shell holes → f'.props "geom_imcoords" = some (lineJson shell)) ∧
      (∀ l j, f.props "detection" = some (.obj l) → getKey (.obj l) "pixelCoordinates" = .ok j →
        ∃ l', f'.props "detection" = some (.obj l') ∧ getKey (.obj l') "type" = .ok (.str (typeName g)) ∧
          getKey (.obj l') "pixelCoordinates" = coordinates g ∧
          ∀ k, k ≠ "type" → k ≠ "pixelCoordinates" → getKey (.obj l') k = getKey (.obj l) k) ∧
      (∀ j, f.props "bounds_imcoords" = some j → f'.props "bounds_imcoords" = some (.arr [.num b.x0, .num b.y0, .num b.x1, .num b.y1]))) := by
  have hbj : boundsJson g = .arr [.num b.x0, .num b.y0, .num b.x1, .num b.y1] := by simp only [boundsJson, hb]
  rcases update_steps dep f f' g h with ⟨hd, rfl⟩ | ⟨hd, a, c, ha, hc, rfl⟩
  · refine ⟨fun j hj => ?_, fun j hj => ?_, fun hd' => by simp [hd] at hd'⟩
    · simp [updateIf_props, hj]
    · simp [updateIf_props, hj, hbj]
  · have e1 : ∀ k, k ≠ "bounds_imcoords" → k ≠ "detection" → k ≠ "geom_imcoords" →
        (updateIf c "bounds_imcoords" (boundsJson g)).props k = (updateIf (updateIf f "imageGeometry" (toGeoJson g)) "imageBBox" (boundsJson g)).props k := by
      intro k h1 h2 h3
      rw [updateIf_props, if_neg h1, update_detection_props _ _ _ hc k h2, update_ring_props _ _ _ ha k h3]
    refine ⟨fun j hj => ?_, fun j hj => ?_, fun _ => ⟨?_, ?_, ?_⟩⟩
    · rw [e1 _ (by decide) (by decide) (by decide)]
      simp [updateIf_props, hj]
    · rw [e1 _ (by decide) (by decide) (by decide)]
      simp [updateIf_props, hj, hbj]
    · intro j shell holes hj hg
      rw [updateIf_props, if_neg (by decide), update_detection_props _ _ _ hc _ (by decide)]
      rcases (updateRing_spec _ _ _ ha).2 with ⟨hn, _⟩ | ⟨cc, j', hj', hcc, rfl⟩
      · simp [updateIf_props, hj] at hn
      · subst hg
        simp [setProp_props, ringValue]
    · intro l j hl hj
      have hl' : a.props "detection" = some (.obj l) := by
        rw [update_ring_props _ _ _ ha _ (by decide)]
        simp [updateIf_props, hl]
      rw [updateIf_props, if_neg (by decide)]
      have hk : hasKey (.obj l) "pixelCoordinates" = .ok true := by
        unfold getKey at hj
        simp only [] at hj
        cases hf : l.find? (fun e => decide (e.1 = "pixelCoordinates")) with
        | none => simp [hf] at hj
        | some e =>
          simp only [hasKey]
          have hdec := List.find?_some hf
          congr 1
          exact List.any_eq_true.mpr ⟨e, List.mem_of_find?_eq_some hf, hdec⟩
      rcases (updateDetection_spec _ _ _ hc).2 with ⟨_, hn | ⟨d, hd', hf⟩⟩ | ⟨cc, l2, hl2, _, hcc, rfl⟩
      · simp [hl'] at hn
      · rw [hl'] at hd'
        cases hd'
        rw [hk] at hf
        simp at hf
      · rw [hl'] at hl2
        cases hl2
        refine ⟨_, by simp only [setProp_props, if_true]; rfl, ?_, ?_, ?_⟩
        · rw [find_setKey_ne _ _ _ _ (by decide), find_setKey_self]
        · rw [find_setKey_self, hcc]
        · intro k h1 h2
          rw [find_setKey_ne _ _ _ _ h2, find_setKey_ne _ _ _ _ h1]
    · intro j hj
      rw [updateIf_props, if_pos rfl, update_detection_props _ _ _ hc _ (by decide), update_ring_props _ _ _ ha _ (by decide)]
      simp [updateIf_props, hj, hbj]

example : ∃ f', updateExisting true (withProps [("imageBBox", .null), ("detection", .obj [("pixelCoordinates", .null), ("id", .num 5)])]) (.point (1, 2)) = .ok f' ∧
    f'.props "imageBBox" = some (.arr [.num 1, .num 2, .num 1, .num 2]) :=
  ⟨_, rfl, (existing_are_rewritten true (withProps [("imageBBox", .null), ("detection", .obj [("pixelCoordinates", .null), ("id", .num 5)])]) _
    (.point (1, 2)) ⟨1, 2, 1, 2⟩ rfl rfl).2.1 .null rfl⟩

theorem readBox_bounds (b : Bounds) : readBox (.arr [.num b.x0, .num b.y0, .num b.x1, .num b.y1]) = .ok b := rfl

/-- **C64** (partial) After an update the lookup gives the new geometry or the rectangle of its bounds, or nothing when the feature has no image
property.  Excluded are the features whose only source is `geom_imcoords` and geometries that are not polygons without holes. -/
theorem later_lookup_partial (S : Shapely) (dep : Bool) (f f' : Feature) (g : Geom Pos) (b : Bounds) (hb : bounds g = some b)
    (hS : ReadsBack S g) (h : updateExisting dep f g = .ok f')
    (hring : f.props "imageGeometry" = none → f.props "imageBBox" = none → dep = true → ∀ j, f.props "geom_imcoords" = some j → ∃ shell, g = .polygon shell []) :
    findImageGeometry S dep f' = .ok (some g) ∨ findImageGeometry S dep f' = .ok (some (box b)) ∨
    (findImageGeometry S dep f' = .ok none ∧ findImageGeometry S dep f = .ok none) := by
  obtain ⟨w1, w2, w3⟩ := existing_are_rewritten dep f f' g b hb h
  have hsome := (touches_only_existing dep f f' g h).2.2.2
  have none_of : ∀ k, f.props k = none → f'.props k = none := by
    intro k hk
    have := hsome k
    rw [hk] at this
    simpa using this
  obtain ⟨p1, p2⟩ := lookup_precedence S dep f'
  cases h1 : f.props "imageGeometry" with
  | some j =>
    left
    rw [p1 _ (w1 j h1), hS.geojson]
    rfl
  | none =>
    have h1' := none_of _ h1
    obtain ⟨p2, p3⟩ := p2 h1'
    cases h2 : f.props "imageBBox" with
    | some j =>
      right; left
      exact p2 _ _ _ _ (w2 j h2)
    | none =>
      have h2' := none_of _ h2
      obtain ⟨p3, p4⟩ := p3 h2'
      cases hd : dep with
      | false =>
        right; right
        subst hd
        refine ⟨p3 rfl, ?_⟩
        exact (((lookup_precedence S false f).2 h1).2 h2).1 rfl
      | true =>
        subst hd
        obtain ⟨w3, w4, w5⟩ := w3 rfl
        obtain ⟨p4, p5⟩ := p4 rfl
        cases h3 : f.props "geom_imcoords" with
        | some j =>
          obtain ⟨shell, rfl⟩ := hring h1 h2 rfl j h3
          left
          rw [p4 _ (w3 j shell [] h3 rfl), hS.ring shell [] rfl]
          rfl
        | none =>
          have h3' := none_of _ h3
          obtain ⟨p5, p6⟩ := p5 h3'
          have hbounds : (∀ j, f.props "bounds_imcoords" = some j → f'.props "bounds_imcoords" = some (.arr [.num b.x0, .num b.y0, .num b.x1, .num b.y1])) := w5
          rcases update_steps true f f' g h with ⟨hd, _⟩ | ⟨_, a, c, ha, hc, rfl⟩
          · simp at hd
          · have hda : a.props "detection" = f.props "detection" := by
              rw [update_ring_props _ _ _ ha _ (by decide)]
              simp [updateIf_props]
            have hdf : (updateIf c "bounds_imcoords" (boundsJson g)).props "detection" = c.props "detection" := by
              rw [updateIf_props, if_neg (by decide)]
            rcases (updateDetection_spec _ _ _ hc).2 with ⟨rfl, hn⟩ | ⟨cc, l, hl, _, hcc, rfl⟩
            · -- the detection is not a source
              have src : ∀ F : Feature, F.props "imageGeometry" = none → F.props "imageBBox" = none → F.props "geom_imcoords" = none →
                  F.props "detection" = f.props "detection" →
                  findImageGeometry S true F = (match F.props "bounds_imcoords" with
                    | some j => (readBox j).map (fun b => some (box b))
                    | none => .ok none) := by
                intro F g1 g2 g3 g4
                rw [hda] at hn
                simp only [findImageGeometry, detectionSource, g1, g2, g3, g4, if_true]
                rcases hn with hn | ⟨d, hd, hk⟩
                · simp only [hn]
                  rfl
                · simp only [hd, hk]
                  rfl
              rw [src _ h1' h2' h3' (by rw [hdf, hda]), src f h1 h2 h3 rfl]
              cases h5 : f.props "bounds_imcoords" with
              | some j =>
                right; left
                rw [w5 j h5]
                rfl
              | none =>
                right; right
                rw [none_of _ h5]
                exact ⟨rfl, rfl⟩
            · left
              have := p5 (setKey (setKey l "type" (.str (typeName g))) "pixelCoordinates" cc) (.str (typeName g)) cc
                (by rw [hdf]; simp [setProp_props]) (by rw [find_setKey_ne _ _ _ _ (by decide), find_setKey_self]) (find_setKey_self _ _ _)
              rw [this, hS.mapping cc hcc]
              rfl

example : ∃ f', updateExisting true (withProps [("geom_imcoords", .null), ("bounds_imcoords", .null)]) (.polygon [(0, 0), (4, 0), (4, 4), (0, 0)] []) = .ok f' ∧
    findImageGeometry reader true f' = .ok (some (.polygon [(0, 0), (4, 0), (4, 4), (0, 0)] [])) := ⟨_, rfl, rfl⟩

/-- **C64** The contract `ReadsBack` is met by a reader that follows the GeoJSON standard (x before y, shell before holes, the type names): what is written for a
geometry without linear rings reads back as that geometry. -/
theorem written_geojson_reads_back (g : Geom Pos) (h : NoRing g) : ReadsBack reader g := reader_readsBack g h

example : ReadsBack reader (.polygon [(0, 0), (4, 0), (4, 4), (0, 0)] []) := written_geojson_reads_back _ (by simp [NoRing])

/-- **C64** (negation) A feature that has only `geom_imcoords` loses the holes of a polygon: the later lookup gives neither the geometry nor the
rectangle of its bounds. -/
theorem holes_are_lost : ∃ (f f' : Feature) (g : Geom Pos) (b : Bounds), bounds g = some b ∧ updateExisting true f g = .ok f' ∧
    ∀ S : Shapely, ReadsBack S g →
      ∃ g', findImageGeometry S true f' = .ok (some g') ∧ g' ≠ g ∧ g' ≠ box b := by
  refine ⟨withProps [("geom_imcoords", .null)], _, .polygon [(0, 0), (9, 0), (9, 9), (0, 9), (0, 0)] [[(1, 1), (2, 1), (2, 2), (1, 1)]], ⟨0, 0, 9, 9⟩, by
    decide +kernel, rfl, ?_⟩
  intro S hS
  refine ⟨.polygon [(0, 0), (9, 0), (9, 9), (0, 9), (0, 0)] [], ?_, by simp, by simp [box]⟩
  have := (((lookup_precedence S true (setProp (withProps [("geom_imcoords", .null)]) "geom_imcoords" (lineJson [(0, 0), (9, 0), (9, 9), (0, 9), (0, 0)]))).2 rfl).2 rfl).2 rfl
  have h := this.1 _ rfl
  rw [hS.ring _ _ rfl] at h
  exact h

/-- **C64** (negation) Updating a feature that has a deprecated property with a geometry collection raises `KeyError`. -/
theorem collection_raises (f : Feature) (gs : List (Geom Pos)) (j : Json) (hj : f.props "geom_imcoords" = some j) :
    updateExisting true f (.collection gs) = .error .keyError := by
  have h : (updateIf (updateIf f "imageGeometry" (toGeoJson (.collection gs))) "imageBBox" (boundsJson (.collection gs))).props "geom_imcoords" = some j := by
    simp [updateIf_props, hj]
  unfold updateExisting
  simp only [if_true, updateRing, h, coordinates, bind, Except.bind]

example : updateExisting true (withProps [("geom_imcoords", .null)]) (.collection [.point (1, 2)]) = .error .keyError :=
  collection_raises _ _ .null rfl

/-- A JSON value that is not a collection or a string. -/
def Plain : Json → Prop
  | .null => True
  | .bool _ => True
  | .num _ => True
  | _ => False

/-- **C63** (negation) A `detection` that is a number, a truth value or null makes the lookup raise `TypeError` where it reaches it, and the update always, if deprecated names are allowed. -/
theorem plain_detection_raises (S : Shapely) (f : Feature) (d : Json) (hd : f.props "detection" = some d) (hp : Plain d) (hr : f.props "geom_imcoords" = none) :
    (f.props "imageGeometry" = none → f.props "imageBBox" = none → findImageGeometry S true f = .error .typeError) ∧
    ∀ g, updateExisting true f g = .error .typeError := by
  have hk : hasKey d "pixelCoordinates" = .error .typeError := by
    cases d <;> first | rfl | exact absurd hp (by simp [Plain])
  refine ⟨?_, ?_⟩
  · intro h1 h2
    simp only [findImageGeometry, h1, h2, hr, detectionSource, hd, hk, if_true]
    rfl
  · intro g
    have e1 : (updateIf (updateIf f "imageGeometry" (toGeoJson g)) "imageBBox" (boundsJson g)).props "geom_imcoords" = none := by
      simp [updateIf_props, hr]
    have e2 : (updateIf (updateIf f "imageGeometry" (toGeoJson g)) "imageBBox" (boundsJson g)).props "detection" = some d := by
      simp [updateIf_props, hd]
    unfold updateExisting
    simp only [if_true, updateRing, e1, updateDetection, e2, hk, bind, Except.bind]

example (S : Shapely) : findImageGeometry S true (withProps [("detection", .num 7)]) = .error .typeError :=
  (plain_detection_raises S _ (.num 7) rfl trivial rfl).1 rfl rfl

end Verif.Props.Features
