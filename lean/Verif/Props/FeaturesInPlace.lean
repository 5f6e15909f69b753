import Verif.Model.FeaturesInPlace
import Verif.Props.GeolocationRepeat

/-!
# Calls that raise, calls after them, and features that are named twice
-/

namespace Verif.Props.FeaturesInPlace

open Verif Verif.Features Verif.Spec.Features Verif.Props.Features Verif.Props.GeolocationGrid Verif.Props.GeolocationRepeat

variable {S : Shapely} {dep : Bool} {centroid : Geom Pos → Pos} {at' : Locate} {round : ℚ × ℚ × ℚ → ℚ × ℚ × ℚ}

/-! ## One feature -/

/-- What any number of geolocations can have changed. -/
structure Later (S : Shapely) (dep : Bool) (f f' : Feature) : Prop where
  props : ∀ k, k ≠ "center_longitude" → k ≠ "center_latitude" → f'.props k = f.props k
  bbox : imageBBox f = .ok none → f'.bbox = f.bbox
  geometry : ∀ ib, imageBBox f = .ok ib → shapeToLocate S dep ib f = .ok none → f'.geometry = f.geometry
  rest : imageBBox f = .ok none → shapeToLocate S dep none f = .ok none → f' = f

theorem Later.refl (f : Feature) : Later S dep f f := ⟨fun _ _ _ => rfl, fun _ => rfl, fun _ _ _ => rfl, fun _ _ => rfl⟩

theorem shape_unchanged (f f' : Feature) (h : ∀ k, k ≠ "center_longitude" → k ≠ "center_latitude" → f'.props k = f.props k) (ib : Option Bounds) :
    shapeToLocate S dep ib f' = shapeToLocate S dep ib f := by
  obtain ⟨e1, -, e3⟩ := find_unchanged S dep f f' h
  simp only [shapeToLocate, e1, e3]

theorem Later.trans {f f' f'' : Feature} (h : Later S dep f f') (h' : Later S dep f' f'') : Later S dep f f'' := by
  have e2 := (find_unchanged S dep f f' h.props).2.1
  have es := fun ib => shape_unchanged (S := S) (dep := dep) f f' h.props ib
  refine ⟨fun k h1 h2 => (h'.props k h1 h2).trans (h.props k h1 h2), ?_, ?_, ?_⟩
  · intro hb
    rw [h'.bbox (e2.trans hb), h.bbox hb]
  · intro ib hb hs
    rw [h'.geometry ib (e2.trans hb) ((es ib).trans hs), h.geometry ib hb hs]
  · intro hb hs
    rw [h'.rest (e2.trans hb) ((es none).trans hs), h.rest hb hs]

theorem center_props (c : Pos) (f : Feature) (k : String) (h1 : k ≠ "center_longitude") (h2 : k ≠ "center_latitude") : (centerInPlace at' c f).1.props k = f.props k := by
  unfold centerInPlace
  cases at' c with
  | error e => rfl
  | ok l => simp [setProp, h1, h2]

theorem center_rest (c : Pos) (f : Feature) : (centerInPlace at' c f).1.geometry = f.geometry ∧ (centerInPlace at' c f).1.bbox = f.bbox := by
  unfold centerInPlace
  cases at' c with
  | error e => exact ⟨rfl, rfl⟩
  | ok l => exact ⟨rfl, rfl⟩

theorem center_same (c : Pos) (f f' : Feature) (hg : f'.geometry = f.geometry) (hb : f'.bbox = f.bbox)
    (h : ∀ k, k ≠ "center_longitude" → k ≠ "center_latitude" → f'.props k = f.props k) :
    (centerInPlace at' c f').2 = (centerInPlace at' c f).2 ∧ ((centerInPlace at' c f).2 = none → (centerInPlace at' c f').1 = (centerInPlace at' c f).1) := by
  unfold centerInPlace
  cases at' c with
  | error e => exact ⟨rfl, fun h => by cases h⟩
  | ok l =>
    refine ⟨rfl, fun _ => ?_⟩
    simp only [setProp, hg, hb, Feature.mk.injEq, true_and]
    funext k
    by_cases h1 : k = "center_latitude"
    · simp [h1]
    · by_cases h2 : k = "center_longitude"
      · simp [h2]
      · simp [h1, h2, h k h2 h1]

theorem locate_later (f : Feature) : Later S dep f (locateInPlace S dep centroid at' round f).1 := by
  unfold locateInPlace
  cases hib : imageBBox f with
  | error e => exact .refl f
  | ok ib =>
    cases ib with
    | none =>
      simp only [boxInPlace]
      cases hs : shapeToLocate S dep none f with
      | error e => exact .refl f
      | ok g =>
        cases g with
        | none => exact .refl f
        | some g =>
          simp only [geometryInPlace]
          cases geolocateOr at' round g with
          | error e => exact .refl f
          | ok geo =>
            refine ⟨fun k h1 h2 => by rw [center_props _ _ k h1 h2], fun _ => (center_rest ..).2, fun ib h1 h2 => ?_, fun h1 h2 => ?_⟩
            · rw [hib] at h1
              cases h1
              rw [hs] at h2
              cases h2
            · rw [hs] at h2
              cases h2
    | some b =>
      simp only [boxInPlace]
      have hn : imageBBox f ≠ .ok none := by simp [hib]
      cases cornersOr at' b with
      | error e => exact .refl f
      | ok bb =>
        simp only
        have hs' : shapeToLocate S dep (some b) { f with bbox := bb } = shapeToLocate S dep (some b) f := rfl
        cases hs : shapeToLocate S dep (some b) f with
        | error e =>
          rw [hs] at hs'
          rw [hs']
          exact ⟨fun _ _ _ => rfl, fun h => absurd h hn, fun _ _ _ => rfl, fun h => absurd h hn⟩
        | ok g =>
          rw [hs] at hs'
          rw [hs']
          cases g with
          | none => exact ⟨fun k h1 h2 => center_props _ _ k h1 h2, fun h => absurd h hn, fun _ _ _ => (center_rest ..).1, fun h => absurd h hn⟩
          | some g =>
            simp only [geometryInPlace]
            cases geolocateOr at' round g with
            | error e => exact ⟨fun _ _ _ => rfl, fun h => absurd h hn, fun _ _ _ => rfl, fun h => absurd h hn⟩
            | ok geo =>
              refine ⟨fun k h1 h2 => by rw [center_props _ _ k h1 h2], fun h => absurd h hn, fun ib h1 h2 => ?_, fun h => absurd h hn⟩
              rw [hib] at h1
              cases h1
              rw [hs] at h2
              cases h2

theorem locate_same (f f' : Feature) (h : Later S dep f f') :
    (locateInPlace S dep centroid at' round f').2 = (locateInPlace S dep centroid at' round f).2 ∧
    ((locateInPlace S dep centroid at' round f).2 = none → (locateInPlace S dep centroid at' round f').1 = (locateInPlace S dep centroid at' round f).1) := by
  have e2 := (find_unchanged S dep f f' h.props).2.1
  have es := fun ib => shape_unchanged (S := S) (dep := dep) f f' h.props ib
  unfold locateInPlace
  rw [e2]
  cases hib : imageBBox f with
  | error e => exact ⟨rfl, fun h => by cases h⟩
  | ok ib =>
    cases ib with
    | none =>
      simp only [boxInPlace]
      rw [es]
      cases hs : shapeToLocate S dep none f with
      | error e => exact ⟨rfl, fun h => by cases h⟩
      | ok g =>
        cases g with
        | none => rw [h.rest hib hs]; exact ⟨rfl, fun _ => rfl⟩
        | some g =>
          simp only [geometryInPlace]
          cases geolocateOr at' round g with
          | error e => exact ⟨rfl, fun h => by cases h⟩
          | ok geo => exact center_same _ _ _ rfl (h.bbox hib) h.props
    | some b =>
      simp only [boxInPlace]
      cases cornersOr at' b with
      | error e => exact ⟨rfl, fun h => by cases h⟩
      | ok bb =>
        simp only
        have hs' : ∀ f : Feature, shapeToLocate S dep (some b) { f with bbox := bb } = shapeToLocate S dep (some b) f := fun _ => rfl
        rw [hs', hs', es]
        cases hs : shapeToLocate S dep (some b) f with
        | error e => exact ⟨rfl, fun h => by cases h⟩
        | ok g =>
          cases g with
          | none => exact center_same _ _ _ (h.geometry _ hib hs) rfl h.props
          | some g =>
            simp only [geometryInPlace]
            cases geolocateOr at' round g with
            | error e => exact ⟨rfl, fun h => by cases h⟩
            | ok geo => exact center_same _ _ _ rfl rfl h.props

/-! ## Lists of features -/

section
variable {locate : Feature → Feature × Option PyErr}

theorem loop_outside (refs : List Nat) (h : Heap) (r : Nat) (hr : r ∉ refs) : (loopInPlace locate refs h).1 r = h r := by
  induction refs generalizing h with
  | nil => rfl
  | cons a refs ih =>
    simp only [List.mem_cons, not_or] at hr
    simp only [loopInPlace]
    rcases hl : locate (h a) with ⟨f, _ | e⟩
    · simp only
      rw [ih _ hr.2, Function.update_of_ne hr.1]
    · simp only
      rw [Function.update_of_ne hr.1]

theorem loop_later (hl : ∀ f, Later S dep f (locate f).1) (refs : List Nat) (h : Heap) (r : Nat) : Later S dep (h r) ((loopInPlace locate refs h).1 r) := by
  induction refs generalizing h with
  | nil => exact .refl _
  | cons a refs ih =>
    have step : ∀ f, (locate (h a)).1 = f → Later S dep (h r) (Function.update h a f r) := by
      rintro f rfl
      by_cases hr : r = a
      · subst hr
        rw [Function.update_self]
        exact hl _
      · rw [Function.update_of_ne hr]
        exact .refl _
    simp only [loopInPlace]
    rcases hla : locate (h a) with ⟨f, _ | e⟩
    · simp only
      exact (step f (by rw [hla])).trans (ih _)
    · simp only
      exact step f (by rw [hla])

theorem loop_same (hs : ∀ f f', Later S dep f f' → (locate f').2 = (locate f).2 ∧ ((locate f).2 = none → (locate f').1 = (locate f).1))
    (refs : List Nat) (h h' : Heap) (hh : ∀ r, Later S dep (h r) (h' r)) :
    (loopInPlace locate refs h').2 = (loopInPlace locate refs h).2 ∧
    ((loopInPlace locate refs h).2 = none → ∀ r ∈ refs, (loopInPlace locate refs h').1 r = (loopInPlace locate refs h).1 r) := by
  induction refs generalizing h h' with
  | nil => exact ⟨rfl, fun _ => by simp⟩
  | cons a refs ih =>
    obtain ⟨e1, e2⟩ := hs _ _ (hh a)
    simp only [loopInPlace]
    rcases hl : locate (h a) with ⟨f, _ | e⟩ <;> rcases hl' : locate (h' a) with ⟨f', _ | e'⟩ <;> rw [hl, hl'] at e1 <;> simp only at e1
    · rw [hl, hl'] at e2
      obtain rfl : f' = f := e2 rfl
      have hh' : ∀ r, Later S dep (Function.update h a f' r) (Function.update h' a f' r) := by
        intro r
        by_cases hr : r = a
        · subst hr
          simp only [Function.update_self]
          exact .refl _
        · simp only [Function.update_of_ne hr]
          exact hh r
      obtain ⟨k1, k2⟩ := ih _ _ hh'
      refine ⟨k1, fun hn r hr => ?_⟩
      by_cases hr' : r ∈ refs
      · exact k2 hn r hr'
      · simp only [List.mem_cons, hr', or_false] at hr
        subst hr
        rw [loop_outside _ _ _ hr', loop_outside _ _ _ hr', Function.update_self, Function.update_self]
    · cases e1
    · cases e1
    · cases e1
      exact ⟨rfl, fun h => by cases h⟩

/-- How a loop stops. -/
theorem loop_stops (hl : ∀ f, Later S dep f (locate f).1)
    (hs : ∀ f f', Later S dep f f' → (locate f').2 = (locate f).2 ∧ ((locate f).2 = none → (locate f').1 = (locate f).1))
    (refs : List Nat) (h : Heap) (e : PyErr) (he : (loopInPlace locate refs h).2 = some e) :
    ∃ done r rest, refs = done ++ r :: rest ∧ r ∉ done ∧ (∀ q ∈ done, (locate (h q)).2 = none ∧ (loopInPlace locate refs h).1 q = (locate (h q)).1) ∧
      (locate (h r)).2 = some e ∧ (loopInPlace locate refs h).1 r = (locate (h r)).1 ∧ ∀ q, q ∉ done → q ≠ r → (loopInPlace locate refs h).1 q = h q := by
  induction refs generalizing h with
  | nil => cases he
  | cons a refs ih =>
    simp only [loopInPlace] at he ⊢
    rcases hla : locate (h a) with ⟨f, _ | e'⟩
    · simp only [hla] at he ⊢
      obtain ⟨done, r, rest, rfl, hr, hdone, h1, h2, h3⟩ := ih _ he
      have hfix : (locate f).2 = none ∧ (locate f).1 = f := by
        have := hs (h a) f (by have := hl (h a); rw [hla] at this; exact this)
        rw [hla] at this
        exact ⟨this.1, this.2 rfl⟩
      have hra : r ≠ a := by
        rintro rfl
        rw [Function.update_self, hfix.1] at h1
        cases h1
      refine ⟨a :: done, r, rest, rfl, by simp [hra, hr], ?_, ?_, ?_, ?_⟩
      · intro q hq
        by_cases hqa : q = a
        · subst hqa
          rw [hla]
          refine ⟨rfl, ?_⟩
          by_cases hq' : q ∈ done
          · rw [(hdone q hq').2, Function.update_self, hfix.2]
          · rw [h3 q hq' (Ne.symm hra), Function.update_self]
        · have hq' : q ∈ done := by simpa [hqa] using hq
          have := hdone q hq'
          rw [Function.update_of_ne hqa] at this
          exact this
      · rw [← h1, Function.update_of_ne hra]
      · rw [h2, Function.update_of_ne hra]
      · intro q hq hqr
        simp only [List.mem_cons, not_or] at hq
        rw [h3 q hq.2 hqr, Function.update_of_ne hq.1]
    · simp only [hla] at he ⊢
      cases he
      refine ⟨[], a, refs, rfl, by simp, by simp, by rw [hla], by rw [Function.update_self, hla], ?_⟩
      intro q _ hq
      rw [Function.update_of_ne hq]

end

theorem call_later (L : InPlace) (refs : List Nat) (h : Heap) (r : Nat) : Later L.shapely L.deprecated (h r) ((L.call refs h).1 r) := by
  unfold InPlace.call
  cases refs with
  | nil => exact .refl _
  | cons a refs =>
    simp only
    cases foldBounds L.shapely L.deprecated ((a :: refs).map h) with
    | error e => exact .refl _
    | ok b =>
      cases b with
      | none => exact .refl _
      | some b =>
        simp only
        cases L.grid (gridArea b) with
        | error e => exact .refl _
        | ok at' => exact loop_later locate_later _ _ _

theorem bounds_unchanged (refs : List Nat) (h h' : Heap) (hh : ∀ r, Later S dep (h r) (h' r)) : foldBounds S dep (refs.map h') = foldBounds S dep (refs.map h) := by
  apply foldBounds_congr
  induction refs with
  | nil => exact .nil
  | cons a refs ih => exact .cons (find_unchanged S dep _ _ (hh a).props).1 ih

/-- **C158** The last call decides: whatever was geolocated before, with any sensor and elevation model and whether or not it raised, a call raises exactly if it would have raised on
the original features, with the same exception, and if it does not raise, its features become what they would have become without the earlier call.  Features that it does not name stay as
the earlier call left them. -/
theorem last_call_decides (L₁ L₂ : InPlace) (hS : L₁.shapely = L₂.shapely) (hd : L₁.deprecated = L₂.deprecated) (refs₁ refs₂ : List Nat) (h : Heap) :
    (L₂.call refs₂ (L₁.call refs₁ h).1).2 = (L₂.call refs₂ h).2 ∧
    ((L₂.call refs₂ h).2 = none → ∀ r ∈ refs₂, (L₂.call refs₂ (L₁.call refs₁ h).1).1 r = (L₂.call refs₂ h).1 r) ∧
    ∀ r, r ∉ refs₂ → (L₂.call refs₂ (L₁.call refs₁ h).1).1 r = (L₁.call refs₁ h).1 r := by
  have hh : ∀ r, Later L₂.shapely L₂.deprecated (h r) ((L₁.call refs₁ h).1 r) := by
    intro r
    have := call_later L₁ refs₁ h r
    rwa [hS, hd] at this
  generalize (L₁.call refs₁ h).1 = h' at hh ⊢
  unfold InPlace.call
  cases refs₂ with
  | nil => exact ⟨rfl, fun _ => by simp, fun _ _ => rfl⟩
  | cons a refs =>
    simp only
    rw [bounds_unchanged (a :: refs) h h' hh]
    cases foldBounds L₂.shapely L₂.deprecated ((a :: refs).map h) with
    | error e => exact ⟨rfl, by intro hn; simp at hn, fun _ _ => rfl⟩
    | ok b =>
      cases b with
      | none => exact ⟨rfl, by intro hn; simp at hn, fun _ _ => rfl⟩
      | some b =>
        simp only
        cases L₂.grid (gridArea b) with
        | error e => exact ⟨rfl, by intro hn; simp at hn, fun _ _ => rfl⟩
        | ok at' =>
          obtain ⟨h1, h2⟩ := loop_same (S := L₂.shapely) (dep := L₂.deprecated) (fun f f' => locate_same f f') (a :: refs) h h' hh
          exact ⟨h1, h2, fun r hr => loop_outside _ _ _ hr⟩

/-! ## Where nothing raises, this is the model of the other theorems -/

theorem mapM_total {α β : Type} (f : α → β) (l : List α) : l.mapM (m := Except PyErr) (fun a => .ok (f a)) = .ok (l.map f) :=
  ok_mapM _ _ _ (by rw [List.forall₂_map_right_iff, List.forall₂_same]; exact fun _ _ => rfl)

mutual
theorem geolocateOr_total (exact : Pos → ℚ × ℚ × ℚ) (g : Geom Pos) : geolocateOr (fun p => .ok (exact p)) round g = geolocate (fun p => round (exact p)) g := by
  cases g with
  | point p => rfl
  | lineString ps => simp [geolocateOr, geolocate, mapM_total, bind, Except.bind, pure, Except.pure, Function.comp_def]
  | linearRing ps => simp [geolocateOr, geolocate, mapM_total, bind, Except.bind, pure, Except.pure, Function.comp_def]
  | polygon s hs => simp [geolocateOr, geolocate, mapM_total, bind, Except.bind, pure, Except.pure, Function.comp_def]
  | multiPoint ps => simp [geolocateOr, geolocate, mapM_total, bind, Except.bind, Function.comp_def]
  | multiLineString ls => simp [geolocateOr, geolocate, mapM_total, bind, Except.bind, Function.comp_def]
  | multiPolygon gs => simp [geolocateOr, geolocate, mapM_total, bind, Except.bind, pure, Except.pure, Function.comp_def]
  | collection gs =>
    simp only [geolocateOr, geolocate]
    rw [geolocateOrAll_total exact gs]

theorem geolocateOrAll_total (exact : Pos → ℚ × ℚ × ℚ) (gs : List (Geom Pos)) : geolocateOrAll (fun p => .ok (exact p)) round gs = geolocateAll (fun p => round (exact p)) gs := by
  cases gs with
  | nil => rfl
  | cons g gs =>
    simp only [geolocateOrAll, geolocateAll]
    rw [geolocateOr_total exact g, geolocateOrAll_total exact gs]
end

/-- The outcome of a feature that was changed in place. -/
def outcome {α : Type} (r : α × Option PyErr) : Except PyErr α :=
  match r.2 with
  | some e => .error e
  | none => .ok r.1

theorem locate_total (exact : Pos → ℚ × ℚ × ℚ) (f : Feature) :
    outcome (locateInPlace S dep centroid (fun p => .ok (exact p)) round f) = locateFeature S dep centroid exact (fun p => round (exact p)) f := by
  unfold locateInPlace locateFeature
  cases imageBBox f with
  | error e => rfl
  | ok ib =>
    have key : ∀ f1 : Feature, shapeToLocate S dep ib f1 = shapeToLocate S dep ib f →
        outcome (match shapeToLocate S dep ib f1 with
          | .error e => (f1, some e)
          | .ok g => geometryInPlace centroid (fun p => .ok (exact p)) round ib g f1) = (do
            let g0 ← imageGeometry S f
            let g ← (match ib, g0 with
              | none, none => findImageGeometry S dep f
              | _, _ => .ok g0)
            locateGeometry centroid exact (fun p => round (exact p)) ib g f1) := by
      intro f1 hsh
      have hgeo : ∀ g, outcome (geometryInPlace centroid (fun p => .ok (exact p)) round ib g f1) = locateGeometry centroid exact (fun p => round (exact p)) ib g f1 := by
        intro g
        cases g with
        | none => cases ib <;> rfl
        | some g =>
          simp only [geometryInPlace, locateGeometry, geolocateOr_total]
          cases geolocate (fun p => round (exact p)) g <;> rfl
      rw [hsh]
      unfold shapeToLocate
      simp only [bind, Except.bind, pure, Except.pure]
      cases imageGeometry S f with
      | error e => rfl
      | ok g0 =>
        cases ib <;> cases g0 <;> simp only <;> try exact hgeo _
        cases findImageGeometry S dep f with
        | error e => rfl
        | ok g => exact hgeo _
    cases ib with
    | none => exact key f rfl
    | some b =>
      have hc : cornersOr (fun p => .ok (exact p)) b = .ok (locateBox exact b) := by
        simp [cornersOr, bind, Except.bind, pure, Except.pure, locateBox]
      simp only [boxInPlace, hc]
      exact key { f with bbox := locateBox exact b } rfl

/-- What a loop that ends has done, whether or not a feature is named twice. -/
theorem loop_ends {locate : Feature → Feature × Option PyErr} (hl : ∀ f, Later S dep f (locate f).1)
    (hs : ∀ f f', Later S dep f f' → (locate f').2 = (locate f).2 ∧ ((locate f).2 = none → (locate f').1 = (locate f).1))
    (refs : List Nat) (h : Heap) (he : (loopInPlace locate refs h).2 = none) (r : Nat) (hr : r ∈ refs) :
    (locate (h r)).2 = none ∧ (loopInPlace locate refs h).1 r = (locate (h r)).1 := by
  induction refs generalizing h with
  | nil => cases hr
  | cons a refs ih =>
    simp only [loopInPlace] at he ⊢
    rcases hla : locate (h a) with ⟨f, _ | e'⟩
    · simp only [hla] at he ⊢
      have hfix : (locate f).2 = none ∧ (locate f).1 = f := by
        have := hs (h a) f (by have := hl (h a); rw [hla] at this; exact this)
        rw [hla] at this
        exact ⟨this.1, this.2 rfl⟩
      by_cases hra : r = a
      · subst hra
        rw [hla]
        refine ⟨rfl, ?_⟩
        by_cases hr' : r ∈ refs
        · have := (ih _ he hr').2
          rw [Function.update_self, hfix.2] at this
          exact this
        · rw [loop_outside _ _ _ hr', Function.update_self]
      · have := ih _ he (by simpa [hra] using hr)
        rw [Function.update_of_ne hra] at this
        exact this
    · simp only [hla] at he
      cases he

theorem loop_total (exact : Pos → ℚ × ℚ × ℚ) (refs : List Nat) (h : Heap) :
    (match loopInPlace (locateInPlace S dep centroid (fun p => .ok (exact p)) round) refs h with
      | (_, some e) => Except.error e
      | (h', none) => .ok (refs.map h')) = (refs.map h).mapM (locateFeature S dep centroid exact (fun p => round (exact p))) := by
  rcases hloop : loopInPlace (locateInPlace S dep centroid (fun p => .ok (exact p)) round) refs h with ⟨h', _ | e⟩
  · simp only
    symm
    apply ok_mapM
    rw [List.forall₂_map_left_iff, List.forall₂_map_right_iff, List.forall₂_same]
    intro r hr
    obtain ⟨h1, h2⟩ := loop_ends (S := S) (dep := dep) (fun f => locate_later f) (fun f f' => locate_same f f') refs h (by rw [hloop]) r hr
    rw [hloop] at h2
    rw [← locate_total, outcome, h1, ← h2]
  · simp only
    obtain ⟨done, r, rest, rfl, -, hd, h1, -, -⟩ := loop_stops (S := S) (dep := dep) (fun f => locate_later f) (fun f f' => locate_same f f') refs h e (by rw [hloop])
    have hd' : ∀ q ∈ done, (locateInPlace S dep centroid (fun p => .ok (exact p)) round (h q)).2 = none := fun q hq => (hd q hq).1
    clear hloop hd
    induction done with
    | nil =>
      simp only [List.nil_append, List.map_cons, List.mapM_cons]
      rw [← locate_total, outcome, h1]
      rfl
    | cons a done ih =>
      simp only [List.cons_append, List.map_cons, List.mapM_cons]
      rw [← locate_total, outcome, hd' a (by simp)]
      simp only [bind, Except.bind]
      rw [← ih (fun q hq => hd' q (by simp [hq]))]

/-- **C158** With a grid that does not raise, the features in place become what `geolocateFeatures` returns, and the exceptions are the same; also when the list names a feature twice. -/
theorem in_place_refines (S : Shapely) (dep : Bool) (centroid : Geom Pos → Pos) (exact : Bounds → Pos → ℚ × ℚ × ℚ) (round : ℚ × ℚ × ℚ → ℚ × ℚ × ℚ) (refs : List Nat) (h : Heap) :
    (match InPlace.call ⟨S, dep, centroid, fun b => .ok (fun p => .ok (exact b p)), round⟩ refs h with
      | (_, some e) => Except.error e
      | (h', none) => .ok (refs.map h')) =
    geolocateFeatures S dep centroid (fun b => (exact b, fun p => round (exact b p))) (refs.map h) := by
  cases refs with
  | nil => rfl
  | cons a refs =>
    simp only [InPlace.call, geolocateFeatures, bind, Except.bind]
    rw [List.map_cons]
    simp only
    rw [← List.map_cons]
    cases foldBounds S dep ((a :: refs).map h) with
    | error e => rfl
    | ok b =>
      cases b with
      | none => rfl
      | some b => exact loop_total _ _ _

/-! ## What a call that raises leaves behind -/

theorem center_error (c : Pos) (f : Feature) (e : PyErr) (h : (centerInPlace at' c f).2 = some e) : (centerInPlace at' c f).1 = f := by
  unfold centerInPlace at h ⊢
  cases hc : at' c with
  | error e => rfl
  | ok l => rw [hc] at h; cases h

theorem locate_error (f : Feature) (e : PyErr) (h : (locateInPlace S dep centroid at' round f).2 = some e) : (locateInPlace S dep centroid at' round f).1.props = f.props := by
  unfold locateInPlace at h ⊢
  cases hib : imageBBox f with
  | error e => rfl
  | ok ib =>
    simp only [hib] at h ⊢
    have hbox : (boxInPlace at' ib f).1.props = f.props := by
      unfold boxInPlace
      cases ib with
      | none => rfl
      | some b =>
        simp only
        cases cornersOr at' b <;> rfl
    rcases hb : boxInPlace at' ib f with ⟨f1, _ | e'⟩ <;> rw [hb] at hbox <;> simp only [hb] at h hbox ⊢
    · rw [← hbox]
      cases hs : shapeToLocate S dep ib f1 with
      | error e => rfl
      | ok g =>
        simp only [hs] at h ⊢
        unfold geometryInPlace at h ⊢
        cases g with
        | none =>
          cases ib with
          | none => rfl
          | some b => simp only at h ⊢; rw [center_error _ _ _ h]
        | some g =>
          simp only at h ⊢
          cases hg : geolocateOr at' round g with
          | error e => rfl
          | ok geo =>
            simp only [hg] at h ⊢
            rw [center_error _ _ _ h]
    · exact hbox

/-- **C159** (what holds): when a call raises, nothing has changed, or the features up to one have become what the call makes of them, that one has kept all its properties (only its
bbox and its geometry may have changed), and all other features are as they were.  In no case a property but `center_longitude` and `center_latitude` changes.  Missing: all features as they
were, see `failed_call_keeps_changes`. -/
theorem failed_call_partial (L : InPlace) (refs : List Nat) (h : Heap) (e : PyErr) (he : (L.call refs h).2 = some e) :
    (∀ r k, k ≠ "center_longitude" → k ≠ "center_latitude" → ((L.call refs h).1 r).props k = (h r).props k) ∧
    ((L.call refs h).1 = h ∨
      ∃ b at', foldBounds L.shapely L.deprecated (refs.map h) = .ok (some b) ∧ L.grid (gridArea b) = .ok at' ∧
        ∃ done r rest, refs = done ++ r :: rest ∧ r ∉ done ∧
          (∀ q ∈ done, (L.call refs h).1 q = (locateInPlace L.shapely L.deprecated L.centroid at' L.round (h q)).1 ∧ (locateInPlace L.shapely L.deprecated L.centroid at' L.round (h q)).2 = none) ∧
          ((L.call refs h).1 r).props = (h r).props ∧ (locateInPlace L.shapely L.deprecated L.centroid at' L.round (h r)).2 = some e ∧
          ∀ q, q ∉ done → q ≠ r → (L.call refs h).1 q = h q) := by
  refine ⟨fun r => (call_later L refs h r).props, ?_⟩
  cases refs with
  | nil => exact .inl rfl
  | cons a refs =>
    simp only [InPlace.call] at he ⊢
    cases hb : foldBounds L.shapely L.deprecated ((a :: refs).map h) with
    | error e => exact .inl rfl
    | ok b =>
      cases b with
      | none => exact .inl rfl
      | some b =>
        simp only [hb] at he ⊢
        cases hg : L.grid (gridArea b) with
        | error e => exact .inl rfl
        | ok at' =>
          simp only [hg] at he ⊢
          obtain ⟨done, r, rest, h1, h2, h3, h4, h5, h6⟩ := loop_stops (S := L.shapely) (dep := L.deprecated) (fun f => locate_later f) (fun f f' => locate_same f f') _ h e he
          refine .inr ⟨b, at', rfl, hg, done, r, rest, h1, h2, fun q hq => ⟨(h3 q hq).2, (h3 q hq).1⟩, ?_, h4, h6⟩
          rw [h5, locate_error _ _ h4]

/-! ## The property accessor -/

theorem any_setKey (l : List (String × Json)) (k k' : String) (v : Json) :
    (setKey l k v).any (fun e => decide (e.1 = k')) = (decide (k = k') || l.any (fun e => decide (e.1 = k'))) := by
  unfold setKey
  by_cases h : l.any (fun e => decide (e.1 = k))
  · rw [if_pos h]
    by_cases hk : k = k'
    · subst hk
      simp only [decide_true, Bool.true_or, List.any_map]
      rw [List.any_eq_true] at h ⊢
      obtain ⟨e, he, h⟩ := h
      refine ⟨e, he, ?_⟩
      simp only [decide_eq_true_eq] at h
      simp [h]
    · simp only [hk, decide_false, Bool.false_or, List.any_map]
      congr 1
      funext e
      by_cases he : e.1 = k
      · simp [he, hk]
      · simp [he]
  · rw [if_neg h]
    rw [List.any_append]
    simp [Bool.or_comm]

theorem setKey_present (l : List (String × Json)) (k : String) (v : Json) (h : l.any (fun e => decide (e.1 = k)) = true) : setKey l k v = l.map (fun e => if e.1 = k then (k, v) else e) := by
  rw [setKey, if_pos h]

theorem setKey_setKey (l : List (String × Json)) (k : String) (v w : Json) : setKey (setKey l k v) k w = setKey l k w := by
  rw [setKey_present (setKey l k v) k w (by rw [any_setKey]; simp)]
  unfold setKey
  by_cases h : l.any (fun e => decide (e.1 = k))
  · rw [if_pos h, if_pos h, List.map_map]
    congr 1
    funext e
    by_cases he : e.1 = k <;> simp [he]
  · rw [if_neg h, if_neg h, List.map_append]
    congr 1
    · rw [List.map_congr_left (g := id)]
      · simp
      · intro e he
        have : e.1 ≠ k := fun hk => h (List.any_eq_true.mpr ⟨e, he, by simpa using hk⟩)
        simp [this]
    · simp

theorem setKey_comm (l : List (String × Json)) (k k' : String) (v w : Json) (hk : k ≠ k') (h : l.any (fun e => decide (e.1 = k)) = true) :
    setKey (setKey l k v) k' w = setKey (setKey l k' w) k v := by
  rw [setKey_present l k v h, setKey_present (setKey l k' w) k v (by rw [any_setKey, h]; simp), ← setKey_present l k v h]
  unfold setKey
  rw [if_pos h]
  have hany : (l.map (fun e => if e.1 = k then (k, v) else e)).any (fun e => decide (e.1 = k')) = l.any (fun e => decide (e.1 = k')) := by
    rw [← setKey_present l k v h, any_setKey]
    simp [hk]
  rw [hany]
  by_cases h' : l.any (fun e => decide (e.1 = k'))
  · rw [if_pos h', if_pos h', List.map_map, List.map_map]
    congr 1
    funext e
    by_cases h1 : e.1 = k
    · simp [h1, hk]
    · by_cases h2 : e.1 = k'
      · simp [h2, Ne.symm hk]
      · simp [h1, h2]
  · rw [if_neg h', if_neg h', List.map_append]
    simp [Ne.symm hk]

/-- A value of `detection` that updates may have left behind for `d`. -/
def SameDetection (d d' : Json) : Prop :=
  d' = d ∨ ∃ l l', d = .obj l ∧ d' = .obj l' ∧ hasKey d "pixelCoordinates" = .ok true ∧ hasKey d' "pixelCoordinates" = .ok true ∧
    ∀ v w, setKey (setKey l' "type" v) "pixelCoordinates" w = setKey (setKey l "type" v) "pixelCoordinates" w

/-- What an update can have changed, whether or not it raised. -/
structure Updated (dep : Bool) (f f' : Feature) : Prop where
  geometry : f'.geometry = f.geometry
  bbox : f'.bbox = f.bbox
  other : ∀ k, k ∉ imageProps dep → f'.props k = f.props k
  present : ∀ k, (f'.props k).isSome = (f.props k).isSome
  detection : ∀ d, f.props "detection" = some d → ∃ d', f'.props "detection" = some d' ∧ SameDetection d d'

theorem updateRing_eq (f : Feature) (g : Geom Pos) :
    updateRing f g = match f.props "geom_imcoords" with
      | none => .ok f
      | some _ => (coordinates g).map (fun c => setProp f "geom_imcoords" (ringValue g c)) := by
  unfold updateRing
  cases f.props "geom_imcoords" with
  | none => rfl
  | some j => cases g <;> rfl

/-- **C159** Updating in place raises what `updateExisting` raises and otherwise leaves what it returns. -/
theorem update_refines (dep : Bool) (f : Feature) (g : Geom Pos) : outcome (updateInPlace dep f g) = updateExisting dep f g := by
  unfold updateInPlace updateExisting
  cases dep with
  | false => rfl
  | true =>
    simp only [if_true, bind, Except.bind]
    cases updateRing (updateIf (updateIf f "imageGeometry" (toGeoJson g)) "imageBBox" (boundsJson g)) g with
    | error e => rfl
    | ok a =>
      simp only
      have : outcome (detectionInPlace a g) = updateDetection a g := by
        unfold detectionInPlace updateDetection
        cases a.props "detection" with
        | none => rfl
        | some d =>
          simp only [bind, Except.bind]
          cases hasKey d "pixelCoordinates" with
          | error e => rfl
          | ok b =>
            cases b with
            | false => rfl
            | true =>
              cases d <;> try rfl
              simp only
              cases coordinates g <;> rfl
      rw [← this]
      rcases detectionInPlace a g with ⟨b, _ | e⟩ <;> rfl

theorem SameDetection.trans {a b c : Json} (h : SameDetection a b) (h' : SameDetection b c) : SameDetection a c := by
  rcases h with rfl | ⟨l, l', rfl, rfl, h1, h2, h3⟩
  · exact h'
  · rcases h' with rfl | ⟨m, m', hm, rfl, k1, k2, k3⟩
    · exact .inr ⟨l, l', rfl, rfl, h1, h2, h3⟩
    · cases hm
      exact .inr ⟨l, m', rfl, rfl, h1, k2, fun v w => (k3 v w).trans (h3 v w)⟩

theorem Updated.refl (f : Feature) : Updated dep f f := ⟨rfl, rfl, fun _ _ => rfl, fun _ => rfl, fun d h => ⟨d, h, .inl rfl⟩⟩

theorem Updated.trans {f f' f'' : Feature} (h : Updated dep f f') (h' : Updated dep f' f'') : Updated dep f f'' := by
  refine ⟨h'.geometry.trans h.geometry, h'.bbox.trans h.bbox, fun k hk => (h'.other k hk).trans (h.other k hk), fun k => (h'.present k).trans (h.present k), fun d hd => ?_⟩
  obtain ⟨d', e1, e2⟩ := h.detection d hd
  obtain ⟨d'', e3, e4⟩ := h'.detection d' e1
  exact ⟨d'', e3, e2.trans e4⟩

theorem updated_set (f : Feature) (k : String) (v : Json) (hk : k ∈ imageProps dep) (hd : k ≠ "detection") (hs : (f.props k).isSome) : Updated dep f (setProp f k v) := by
  refine ⟨rfl, rfl, fun q hq => ?_, fun q => ?_, fun d hd' => ⟨d, ?_, .inl rfl⟩⟩
  · rw [setProp_props, if_neg (by rintro rfl; exact hq hk)]
  · rw [setProp_props]
    by_cases h : q = k
    · subst h; simp [hs]
    · simp [h]
  · rw [setProp_props, if_neg (Ne.symm hd), hd']

theorem updated_if (f : Feature) (k : String) (v : Json) (hk : k ∈ imageProps dep) (hd : k ≠ "detection") : Updated dep f (updateIf f k v) := by
  unfold updateIf
  cases h : f.props k with
  | none => exact .refl f
  | some j => exact updated_set f k v hk hd (by simp [h])

theorem updated_ring (f a : Feature) (g : Geom Pos) (h : updateRing f g = .ok a) : Updated true f a := by
  rcases (updateRing_spec f a g h).2 with ⟨-, rfl⟩ | ⟨c, j, hj, -, rfl⟩
  · exact .refl _
  · exact updated_set f _ _ (by simp [imageProps]) (by decide) (by simp [hj])

theorem updated_obj (f : Feature) (l l' : List (String × Json)) (h : f.props "detection" = some (.obj l)) (hk : hasKey (.obj l) "pixelCoordinates" = .ok true)
    (hk' : hasKey (.obj l') "pixelCoordinates" = .ok true) (hl : ∀ v w, setKey (setKey l' "type" v) "pixelCoordinates" w = setKey (setKey l "type" v) "pixelCoordinates" w) :
    Updated true f (setProp f "detection" (.obj l')) := by
  refine ⟨rfl, rfl, fun q hq => ?_, fun q => ?_, fun d hd => ⟨_, by rw [setProp_props, if_pos rfl], .inr ⟨l, l', ?_, rfl, ?_, hk', hl⟩⟩⟩
  · rw [setProp_props, if_neg (by rintro rfl; exact hq (by simp [imageProps]))]
  · rw [setProp_props]
    by_cases h' : q = "detection"
    · subst h'; simp [h]
    · simp [h']
  · rw [h] at hd; cases hd; rfl
  · rw [h] at hd; cases hd; exact hk

theorem hasKey_any (l : List (String × Json)) (k : String) : hasKey (.obj l) k = .ok (l.any (fun e => decide (e.1 = k))) := rfl

theorem updated_detection (f : Feature) (g : Geom Pos) : Updated true f (detectionInPlace f g).1 := by
  unfold detectionInPlace
  cases hd : f.props "detection" with
  | none => exact .refl f
  | some d =>
    simp only
    cases hk : hasKey d "pixelCoordinates" with
    | error e => exact .refl f
    | ok b =>
      cases b with
      | false => exact .refl f
      | true =>
        cases d with
        | obj l =>
          rw [hasKey_any] at hk
          have hk2 : l.any (fun e => decide (e.1 = "pixelCoordinates")) = true := by injection hk
          simp only
          cases coordinates g with
          | error e =>
            refine updated_obj f l _ hd hk ?_ (fun v w => by rw [setKey_setKey])
            rw [hasKey_any, any_setKey, hk2]
            simp
          | ok c =>
            refine updated_obj f l _ hd hk (hasKey_setKey_self _ _ _) (fun v w => ?_)
            rw [setKey_comm _ "pixelCoordinates" "type" _ _ (by decide) (by rw [any_setKey, hk2]; simp), setKey_setKey, setKey_setKey]
        | _ => exact .refl f

theorem updated_update (f : Feature) (g : Geom Pos) : Updated dep f (updateInPlace dep f g).1 := by
  have base : Updated dep f (updateIf (updateIf f "imageGeometry" (toGeoJson g)) "imageBBox" (boundsJson g)) :=
    (updated_if f _ _ (by simp [imageProps]) (by decide)).trans (updated_if _ _ _ (by simp [imageProps]) (by decide))
  unfold updateInPlace
  cases dep with
  | false => exact base
  | true =>
    simp only [if_true]
    cases ha : updateRing (updateIf (updateIf f "imageGeometry" (toGeoJson g)) "imageBBox" (boundsJson g)) g with
    | error e => exact base
    | ok a =>
      simp only
      have hb := updated_detection a g
      have h1 := (base.trans (updated_ring _ _ _ ha)).trans hb
      rcases hdet : detectionInPlace a g with ⟨b, _ | e⟩ <;> rw [hdet] at h1
      · exact h1.trans (updated_if _ _ _ (by simp [imageProps]) (by decide))
      · exact h1

/-- What an update raises for the value of `detection`. -/
def detectionError (d : Json) (g : Geom Pos) : Option PyErr :=
  match hasKey d "pixelCoordinates" with
  | .error e => some e
  | .ok false => none
  | .ok true =>
    match d with
    | .obj _ => match coordinates g with
      | .error e => some e
      | .ok _ => none
    | _ => some .typeError

theorem detection_error (f : Feature) (g : Geom Pos) : (detectionInPlace f g).2 = (f.props "detection").bind (fun d => detectionError d g) := by
  unfold detectionInPlace detectionError
  cases f.props "detection" with
  | none => rfl
  | some d =>
    simp only [Option.bind]
    cases hasKey d "pixelCoordinates" with
    | error e => rfl
    | ok b =>
      cases b with
      | false => rfl
      | true =>
        cases d <;> try rfl
        simp only
        cases coordinates g <;> rfl

/-- What an update raises. -/
theorem update_error (f : Feature) (g : Geom Pos) :
    (updateInPlace dep f g).2 =
      if dep then
        if (f.props "geom_imcoords").isSome then
          match coordinates g with
          | .error e => some e
          | .ok _ => (f.props "detection").bind (fun d => detectionError d g)
        else (f.props "detection").bind (fun d => detectionError d g)
      else none := by
  unfold updateInPlace
  cases dep with
  | false => rfl
  | true =>
    simp only [if_true]
    have hr := updateRing_eq (updateIf (updateIf f "imageGeometry" (toGeoJson g)) "imageBBox" (boundsJson g)) g
    have hp : (updateIf (updateIf f "imageGeometry" (toGeoJson g)) "imageBBox" (boundsJson g)).props "geom_imcoords" = f.props "geom_imcoords" := by
      simp [updateIf_props]
    rw [hp] at hr
    have key : ∀ a : Feature, a.props "detection" = f.props "detection" →
        (match detectionInPlace a g with
          | (b, some e) => (b, some e)
          | (b, none) => (updateIf b "bounds_imcoords" (boundsJson g), none)).2 = (f.props "detection").bind (fun d => detectionError d g) := by
      intro a ha
      rw [← ha, ← detection_error]
      rcases detectionInPlace a g with ⟨b, _ | e⟩ <;> rfl
    rw [hr]
    cases hgeom : f.props "geom_imcoords" with
    | none => exact key _ (by simp [updateIf_props])
    | some j =>
      simp only [Option.isSome_some, if_true]
      cases coordinates g with
      | error e => rfl
      | ok c => exact key _ (by simp [updateIf_props, setProp_props])

theorem detectionError_same (d d' : Json) (h : SameDetection d d') (g : Geom Pos) : detectionError d' g = detectionError d g := by
  rcases h with rfl | ⟨l, l', rfl, rfl, h1, h2, -⟩
  · rfl
  · simp only [detectionError, h1, h2]

theorem update_same (f f' : Feature) (h : Updated dep f f') (g : Geom Pos) :
    (updateInPlace dep f' g).2 = (updateInPlace dep f g).2 ∧ ((updateInPlace dep f g).2 = none → (updateInPlace dep f' g).1 = (updateInPlace dep f g).1) := by
  have hdet : ∀ g, (f'.props "detection").bind (fun d => detectionError d g) = (f.props "detection").bind (fun d => detectionError d g) := by
    intro g
    cases hd : f.props "detection" with
    | none =>
      have := h.present "detection"
      rw [hd] at this
      simp only [Option.isSome_none, Option.isSome_eq_false_iff, Option.isNone_iff_eq_none] at this
      rw [this]
    | some d =>
      obtain ⟨d', h1, h2⟩ := h.detection d hd
      rw [h1]
      exact detectionError_same d d' h2 g
  have herr : (updateInPlace dep f' g).2 = (updateInPlace dep f g).2 := by
    rw [update_error, update_error, h.present, hdet]
  refine ⟨herr, fun hn => ?_⟩
  have hs : ∀ x : Feature, (updateInPlace dep x g).2 = none → updateExisting dep x g = .ok (updateInPlace dep x g).1 := by
    intro x hx
    rw [← update_refines, outcome, hx]
  have e1 := hs f hn
  have e2 := hs f' (herr.trans hn)
  have u1 := updated_update (dep := dep) f g
  have u2 := updated_update (dep := dep) f' g
  generalize (updateInPlace dep f g).1 = r at e1 u1
  generalize (updateInPlace dep f' g).1 = r' at e2 u2
  have hmap : ∀ (k : String) (v : Json), (f'.props k).map (fun _ => v) = (f.props k).map (fun _ => v) := by
    intro k v
    have := h.present k
    cases hk : f.props k <;> cases hk' : f'.props k <;> simp_all
  have ext : (∀ k ∈ imageProps dep, r'.props k = r.props k) → r' = r := by
    intro hp
    have hg : r'.geometry = r.geometry := by rw [u2.geometry, h.geometry, u1.geometry]
    have hb : r'.bbox = r.bbox := by rw [u2.bbox, h.bbox, u1.bbox]
    have hk : r'.props = r.props := by
      funext k
      by_cases hk : k ∈ imageProps dep
      · exact hp k hk
      · rw [u2.other k hk, h.other k hk, u1.other k hk]
    cases r; cases r'
    simp only at hg hb hk
    rw [hg, hb, hk]
  apply ext
  rcases update_steps dep f r g e1 with ⟨hdep, rfl⟩ | ⟨hdep, a, b, ha, hb, rfl⟩
  · rcases update_steps dep f' r' g e2 with ⟨-, rfl⟩ | ⟨hdep', -⟩
    · intro k hk
      simp only [imageProps, hdep, List.mem_cons, Bool.false_eq_true, if_false, List.append_nil, List.not_mem_nil, or_false] at hk
      rcases hk with rfl | rfl <;> simp [updateIf_props, hmap]
    · rw [hdep] at hdep'; cases hdep'
  · rcases update_steps dep f' r' g e2 with ⟨hdep', -⟩ | ⟨-, a', b', ha', hb', rfl⟩
    · rw [hdep] at hdep'; cases hdep'
    · have hring : ∀ (x y : Feature), updateRing (updateIf (updateIf x "imageGeometry" (toGeoJson g)) "imageBBox" (boundsJson g)) g = .ok y →
          ∃ v, y.props "geom_imcoords" = (x.props "geom_imcoords").map (fun _ => v) ∧ (coordinates g).toOption.map (ringValue g) = some v ∨ y.props "geom_imcoords" = none ∧ x.props "geom_imcoords" = none := by
        intro x y hy
        rcases (updateRing_spec _ _ _ hy).2 with ⟨hn, rfl⟩ | ⟨c, j, hj, hc, rfl⟩
        · refine ⟨.null, .inr ⟨hn, ?_⟩⟩
          simpa [updateIf_props] using hn
        · refine ⟨ringValue g c, .inl ⟨?_, by simp [hc, Except.toOption]⟩⟩
          simp only [updateIf_props] at hj
          simp [setProp_props] at hj ⊢
          exact ⟨j, hj⟩
      intro k hk
      simp only [imageProps, hdep, List.mem_append, List.mem_cons, if_true, List.not_mem_nil, or_false] at hk
      rcases hk with (rfl | rfl) | rfl | rfl | rfl
      · simp [updateIf_props, update_detection_props _ _ _ hb, update_detection_props _ _ _ hb', update_ring_props _ _ _ ha, update_ring_props _ _ _ ha', hmap]
      · simp [updateIf_props, update_detection_props _ _ _ hb, update_detection_props _ _ _ hb', update_ring_props _ _ _ ha, update_ring_props _ _ _ ha', hmap]
      · simp only [updateIf_props, update_detection_props _ _ _ hb _ (show "geom_imcoords" ≠ "detection" by decide), update_detection_props _ _ _ hb' _ (show "geom_imcoords" ≠ "detection" by decide)]
        simp only [show ("geom_imcoords" = "bounds_imcoords") = False by decide, if_false]
        have hp := h.present "geom_imcoords"
        obtain ⟨v, ⟨p1, p2⟩ | ⟨p1, p2⟩⟩ := hring f a ha <;> obtain ⟨w, ⟨q1, q2⟩ | ⟨q1, q2⟩⟩ := hring f' a' ha'
        · rw [p2] at q2
          cases q2
          rw [p1, q1, hmap]
        · rw [q2] at hp
          rw [q1, p1]
          cases hf : f.props "geom_imcoords" <;> simp_all
        · rw [p2] at hp
          rw [q1, p1]
          cases hf : f'.props "geom_imcoords" <;> simp_all
        · rw [p1, q1]
      · have hda : a.props "detection" = f.props "detection" := by rw [update_ring_props _ _ _ ha _ (by decide)]; simp [updateIf_props]
        have hda' : a'.props "detection" = f'.props "detection" := by rw [update_ring_props _ _ _ ha' _ (by decide)]; simp [updateIf_props]
        simp only [updateIf_props, show ("detection" = "bounds_imcoords") = False by decide, if_false]
        rcases (updateDetection_spec _ _ _ hb).2 with ⟨rfl, hn | ⟨d, hd, hk⟩⟩ | ⟨c, l, hl, hk, hc, rfl⟩
        · rw [hda] at hn
          have hn' : f'.props "detection" = none := by
            have := h.present "detection"
            rw [hn] at this
            simpa using this
          rcases (updateDetection_spec _ _ _ hb').2 with ⟨rfl, -⟩ | ⟨c, l, hl, -, -, -⟩
          · rw [hda, hda', hn, hn']
          · rw [hda', hn'] at hl; cases hl
        · rw [hda] at hd
          obtain ⟨d', h1, h2⟩ := h.detection d hd
          obtain rfl : d' = d := by
            rcases h2 with rfl | ⟨l, l', rfl, rfl, k1, -⟩
            · rfl
            · rw [hk] at k1; cases k1
          rcases (updateDetection_spec _ _ _ hb').2 with ⟨rfl, -⟩ | ⟨c, l, hl, hk', -, -⟩
          · rw [hda, hda', hd, h1]
          · rw [hda', h1] at hl; cases hl; rw [hk] at hk'; cases hk'
        · rw [hda] at hl
          obtain ⟨d', h1, h2⟩ := h.detection _ hl
          rcases (updateDetection_spec _ _ _ hb').2 with ⟨rfl, hn | ⟨d, hd, hk'⟩⟩ | ⟨c', l', hl', hk', hc', rfl⟩
          · rw [hda', h1] at hn; cases hn
          · rw [hda', h1] at hd
            cases hd
            rcases h2 with rfl | ⟨m, m', -, rfl, -, k2, -⟩
            · rw [hk] at hk'; cases hk'
            · rw [k2] at hk'; cases hk'
          · rw [hda', h1] at hl'
            cases hl'
            rw [hc] at hc'
            cases hc'
            simp only [setProp_props, if_true, Option.some.injEq, Json.obj.injEq]
            rcases h2 with h2 | ⟨m, m', hm, hm', -, -, k3⟩
            · cases h2; rfl
            · cases hm; cases hm'
              exact k3 _ _
      · simp [updateIf_props, update_detection_props _ _ _ hb, update_detection_props _ _ _ hb', update_ring_props _ _ _ ha, update_ring_props _ _ _ ha', hmap]

/-- **C158** The last update decides: whatever geometry was written before, and whether or not that raised, an update raises exactly if it would have raised on the original feature,
and otherwise leaves the same feature. -/
theorem last_update_decides (dep : Bool) (f : Feature) (g₁ g₂ : Geom Pos) :
    (updateInPlace dep (updateInPlace dep f g₁).1 g₂).2 = (updateInPlace dep f g₂).2 ∧
    ((updateInPlace dep f g₂).2 = none → (updateInPlace dep (updateInPlace dep f g₁).1 g₂).1 = (updateInPlace dep f g₂).1) :=
  update_same f _ (updated_update f g₁) g₂

/-- **C159** (what holds): an update that raises keeps the feature's geometry, its bbox, every property that is not an image property, and which properties there are.  It raises only for a
collection or a `detection` that is not an object, and only when deprecated properties are allowed.  Missing: all properties as they were, see `failed_update_keeps_changes`. -/
theorem failed_update_partial (dep : Bool) (f : Feature) (g : Geom Pos) (e : PyErr) (h : (updateInPlace dep f g).2 = some e) :
    (updateInPlace dep f g).1.geometry = f.geometry ∧ (updateInPlace dep f g).1.bbox = f.bbox ∧
    (∀ k, k ∉ imageProps dep → (updateInPlace dep f g).1.props k = f.props k) ∧ (∀ k, ((updateInPlace dep f g).1.props k).isSome = (f.props k).isSome) ∧
    dep = true ∧ ((∃ gs, g = .collection gs) ∨ ∃ d, f.props "detection" = some d ∧ ∀ l, d ≠ .obj l) := by
  have u := updated_update (dep := dep) f g
  refine ⟨u.geometry, u.bbox, u.other, u.present, ?_⟩
  rw [update_error] at h
  cases dep with
  | false => cases h
  | true =>
    refine ⟨rfl, ?_⟩
    by_cases hg : ∃ gs, g = .collection gs
    · exact .inl hg
    · obtain ⟨c, hc⟩ : ∃ c, coordinates g = .ok c := by
        cases g <;> first | exact ⟨_, rfl⟩ | exact absurd ⟨_, rfl⟩ hg
      simp only [if_true, hc, ite_self] at h
      cases hd : f.props "detection" with
      | none => rw [hd] at h; cases h
      | some d =>
        rw [hd] at h
        refine .inr ⟨d, rfl, ?_⟩
        rintro l rfl
        simp only [Option.bind, detectionError, hasKey_any, hc] at h
        cases hl : l.any (fun e => decide (e.1 = "pixelCoordinates")) <;> simp [hl] at h

/-! ## Examples -/

/-- Two features that both have an image geometry; the box of the second one is not a box. -/
def twoFeatures : Heap := fun r =>
  if r = 0 then pointFeature 3 4 else withProps [("imageGeometry", pointJson 5 6), ("imageBBox", .arr [])]

/-- A geolocator whose positions are the image coordinates, times `s`. -/
def scaled (s : ℚ) : InPlace := ⟨reader, true, firstVertex, fun _ => .ok (fun p => .ok (s * p.1, s * p.2, 0)), id⟩

/-- The places and the centers of features. -/
def shown (f : Feature) : Option (List (ℚ × ℚ × ℚ)) × Option ℚ :=
  (f.geometry.map vertices, match f.props "center_longitude" with | some (.num q) => some q | _ => none)

/-- **C159** (negation): a call that raises for its second feature has located the first one. -/
theorem failed_call_keeps_changes :
    ∃ (L : InPlace) (refs : List Nat) (h : Heap), (L.call refs h).2 = some .indexError ∧ (h 0).geometry = none ∧ (((L.call refs h).1 0).geometry.map vertices) = some [(6, 8, 0)] ∧
      (h 0).props "center_longitude" = none ∧ shown ((L.call refs h).1 0) = (some [(6, 8, 0)], some 6) :=
  ⟨scaled 2, [0, 1], twoFeatures, by decide +kernel, rfl, by decide +kernel, by decide +kernel, by decide +kernel⟩

/-- A detection of the deprecated kind, with a current one beside it. -/
def bothKinds : Feature := withProps [("imageGeometry", pointJson 1 2), ("detection", .obj [("type", .str "Point"), ("pixelCoordinates", posJson (1, 2))])]

/-- **C159** (negation): an update that raises has replaced `imageGeometry` and the type of the detection, but not its coordinates, which are not those of a collection. -/
theorem failed_update_keeps_changes :
    (updateInPlace true bothKinds (.collection [.point (7, 8)])).2 = some .keyError ∧
    (updateInPlace true bothKinds (.collection [.point (7, 8)])).1.props "imageGeometry" = some (toGeoJson (.collection [.point (7, 8)])) ∧
    (updateInPlace true bothKinds (.collection [.point (7, 8)])).1.props "detection" = some (.obj [("type", .str "GeometryCollection"), ("pixelCoordinates", posJson (1, 2))]) := by
  refine ⟨rfl, rfl, rfl⟩

/-- The theorems of C158 are not about nothing: a call that fails midway, and then one for the first feature only, with another sensor model, which names it twice. -/
example : ((scaled 3).call [0, 0] ((scaled 2).call [0, 1] twoFeatures).1).2 = none ∧ shown (((scaled 3).call [0, 0] ((scaled 2).call [0, 1] twoFeatures).1).1 0) = (some [(9, 12, 0)], some 9) ∧
    shown (((scaled 3).call [0, 0] twoFeatures).1 0) = (some [(9, 12, 0)], some 9) := by
  decide +kernel

example := (last_call_decides (scaled 2) (scaled 3) rfl rfl [0, 1] [0, 0] twoFeatures).2.1 (by decide +kernel) 0 (by simp)

example := in_place_refines reader true firstVertex (fun _ p => (p.1, p.2, 0)) id [0, 0] twoFeatures

example := failed_call_partial (scaled 2) [0, 1] twoFeatures .indexError (by decide +kernel)

example : (updateInPlace true (updateInPlace true bothKinds (.collection [.point (7, 8)])).1 (.point (5, 6))).1 = (updateInPlace true bothKinds (.point (5, 6))).1 :=
  (last_update_decides true bothKinds (.collection [.point (7, 8)]) (.point (5, 6))).2 rfl

example := failed_update_partial true bothKinds (.collection [.point (7, 8)]) .keyError rfl

example : outcome (updateInPlace true bothKinds (.point (5, 6))) = updateExisting true bothKinds (.point (5, 6)) := update_refines true bothKinds (.point (5, 6))

end Verif.Props.FeaturesInPlace
