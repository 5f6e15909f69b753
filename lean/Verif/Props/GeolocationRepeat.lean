import Verif.Props.GeolocationGrid

/-!
# Geolocating again, in another order, alone or together
-/

namespace Verif.Props.GeolocationRepeat

open Verif Verif.Features Verif.GeolocationGrid Verif.Spec.Features Verif.Props.Geolocation Verif.Props.Features Verif.Props.GeolocationGrid

/-! ## One feature -/

/-- Geolocation writes two properties only, and reads neither. -/
theorem locateFeature_props (S : Shapely) (dep : Bool) (centroid : Geom Pos → Pos) (exact loc : Pos → ℚ × ℚ × ℚ) (f f' : Feature)
    (h : locateFeature S dep centroid exact loc f = .ok f') (k : String) (h1 : k ≠ "center_longitude") (h2 : k ≠ "center_latitude") :
    f'.props k = f.props k := by
  unfold locateFeature at h
  cases hib : imageBBox f with
  | error e => simp [hib, bind, Except.bind] at h
  | ok ib =>
    cases hg0 : imageGeometry S f with
    | error e => simp [hib, hg0, bind, Except.bind] at h
    | ok g0 =>
      simp only [hib, hg0, bind, Except.bind] at h
      have key : ∀ (f1 : Feature) (g : Option (Geom Pos)), f1.props = f.props → locateGeometry centroid exact loc ib g f1 = .ok f' → f'.props k = f.props k := by
        intro f1 g hf1 hl
        unfold locateGeometry at hl
        cases g with
        | some g =>
          simp only [bind, Except.bind] at hl
          cases hgeo : geolocate loc g with
          | error e => simp [hgeo] at hl
          | ok geo =>
            simp only [hgeo, pure, Except.pure, Except.ok.injEq] at hl
            rw [← hl, setCenter_props _ _ _ _ h1 h2]
            exact congrFun hf1 k
        | none =>
          cases ib with
          | some b =>
            simp only [pure, Except.pure, Except.ok.injEq] at hl
            rw [← hl, setCenter_props _ _ _ _ h1 h2]
            exact congrFun hf1 k
          | none =>
            simp only [pure, Except.pure, Except.ok.injEq] at hl
            rw [← hl]
            exact congrFun hf1 k
      cases ib <;> cases g0 <;> simp only at h
      · cases hf : findImageGeometry S dep f with
        | error e => simp [hf] at h
        | ok g => simp only [hf] at h; exact key _ _ (by rfl) h
      · exact key _ _ (by rfl) h
      · exact key _ _ (by rfl) h
      · exact key _ _ (by rfl) h

/-- The accessor sees no difference. -/
theorem find_unchanged (S : Shapely) (dep : Bool) (f f' : Feature) (h : ∀ k, k ≠ "center_longitude" → k ≠ "center_latitude" → f'.props k = f.props k) :
    findImageGeometry S dep f' = findImageGeometry S dep f ∧ imageBBox f' = imageBBox f ∧ imageGeometry S f' = imageGeometry S f := by
  have h1 := h "imageGeometry" (by decide) (by decide)
  have h2 := h "imageBBox" (by decide) (by decide)
  have h3 := h "geom_imcoords" (by decide) (by decide)
  have h4 := h "detection" (by decide) (by decide)
  have h5 := h "bounds_imcoords" (by decide) (by decide)
  refine ⟨?_, ?_, ?_⟩
  · simp only [findImageGeometry, detectionSource, h1, h2, h3, h4, h5]
  · simp only [imageBBox, h2]
  · simp only [imageGeometry, h1]

/-- L187-198: the feature with its box. -/
def withBox (exact : Pos → ℚ × ℚ × ℚ) (ib : Option Bounds) (f : Feature) : Feature :=
  match ib with
  | some b => { f with bbox := locateBox exact b }
  | none => f

theorem setCenter_again (loc : Pos → ℚ × ℚ × ℚ) (c : Pos) (f : Feature) (g : Option Geo) (b : Option Bounds) :
    setCenter loc c { setCenter loc c f with geometry := g, bbox := b } = setCenter loc c { f with geometry := g, bbox := b } := by
  simp only [setCenter, setProp, Feature.mk.injEq, true_and]
  funext k
  by_cases h1 : k = "center_latitude"
  · simp [h1]
  · by_cases h2 : k = "center_longitude" <;> simp [h1, h2]

theorem locateFeature_again (S : Shapely) (dep : Bool) (centroid : Geom Pos → Pos) (exact loc : Pos → ℚ × ℚ × ℚ) (f f' : Feature)
    (h : locateFeature S dep centroid exact loc f = .ok f') : locateFeature S dep centroid exact loc f' = .ok f' := by
  obtain ⟨e1, e2, e3⟩ := find_unchanged S dep f f' (locateFeature_props S dep centroid exact loc f f' h)
  unfold locateFeature at h ⊢
  rw [e1, e2, e3]
  cases hib : imageBBox f with
  | error e => simp [hib, bind, Except.bind] at h
  | ok ib =>
    cases hg0 : imageGeometry S f with
    | error e => simp [hib, hg0, bind, Except.bind] at h
    | ok g0 =>
      simp only [hib, hg0, bind, Except.bind] at h ⊢
      have key : ∀ (g : Option (Geom Pos)), locateGeometry centroid exact loc ib g (withBox exact ib f) = .ok f' →
          locateGeometry centroid exact loc ib g (withBox exact ib f') = .ok f' := by
        clear h hib
        intro g hl
        unfold locateGeometry at hl ⊢
        cases g with
        | some g =>
          simp only [bind, Except.bind] at hl ⊢
          cases hgeo : geolocate loc g with
          | error e => simp [hgeo] at hl
          | ok geo =>
            simp only [hgeo, pure, Except.pure, Except.ok.injEq] at hl ⊢
            subst hl
            cases ib with
            | some b => exact setCenter_again exact (centroid g) { f with bbox := locateBox exact b, geometry := some geo } (some geo) (locateBox exact b)
            | none => exact setCenter_again exact (centroid g) { f with geometry := some geo } (some geo) f.bbox
        | none =>
          cases ib with
          | some b =>
            simp only [pure, Except.pure, Except.ok.injEq] at hl ⊢
            subst hl
            exact setCenter_again exact _ { f with bbox := locateBox exact b } f.geometry (locateBox exact b)
          | none => rfl
      cases ib <;> cases g0 <;> simp only at h ⊢
      · cases hf : findImageGeometry S dep f with
        | error e => simp [hf] at h
        | ok g => simp only [hf] at h ⊢; exact key _ h
      · exact key _ h
      · exact key _ h
      · exact key _ h

/-! ## Lists of features -/

theorem mapM_ok {α β : Type} (f : α → Except PyErr β) (l : List α) (r : List β) (h : l.mapM f = .ok r) : List.Forall₂ (fun a b => f a = .ok b) l r := by
  induction l generalizing r with
  | nil => simp only [List.mapM_nil, pure, Except.pure, Except.ok.injEq] at h; subst h; exact .nil
  | cons a l ih =>
    rw [List.mapM_cons] at h
    cases ha : f a with
    | error e => simp [ha, bind, Except.bind] at h
    | ok b =>
      cases hl : l.mapM f with
      | error e => simp [ha, hl, bind, Except.bind] at h
      | ok r' =>
        simp only [ha, hl, bind, Except.bind, pure, Except.pure, Except.ok.injEq] at h
        subst h
        exact .cons ha (ih r' hl)

theorem ok_mapM {α β : Type} (f : α → Except PyErr β) (l : List α) (r : List β) (h : List.Forall₂ (fun a b => f a = .ok b) l r) : l.mapM f = .ok r := by
  induction h with
  | nil => rfl
  | cons ha _ ih => rw [List.mapM_cons, ha, ih]; rfl

theorem foldBounds_congr (S : Shapely) (dep : Bool) (fs fs' : List Feature) (h : List.Forall₂ (fun f f' => findImageGeometry S dep f' = findImageGeometry S dep f) fs fs') :
    foldBounds S dep fs' = foldBounds S dep fs := by
  rw [foldBounds_eq, foldBounds_eq]
  generalize (none : Option Bounds) = acc
  induction h generalizing acc with
  | nil => rfl
  | cons h _ ih =>
    rw [List.foldlM_cons, List.foldlM_cons]
    have : ∀ a b, findImageGeometry S dep a = findImageGeometry S dep b → step S dep acc a = step S dep acc b := by
      intro a b hab; unfold step; rw [hab]
    rw [this _ _ h]
    congr 1
    funext a
    exact ih a

/-- What a successful call has done. -/
theorem call_inv {S : Shapely} {dep : Bool} {centroid : Geom Pos → Pos} {G : Geolocator} {fs fs' : List Feature}
    (h : geolocateWith S dep centroid G fs = .ok fs') (hne : fs ≠ []) :
    ∃ b zs, foldBounds S dep fs = .ok (some b) ∧ nodeValues G (gridArea b) = .ok zs ∧ ¬ G.size < 2 ∧
      List.Forall₂ (fun f f' => locateFeature S dep centroid (fun p => inDegrees G (locate G (gridArea b) zs p)) (fun p => inGeojson G (locate G (gridArea b) zs p)) f = .ok f') fs fs' := by
  cases fs with
  | nil => exact absurd rfl hne
  | cons f fs =>
    simp only [geolocateWith, bind, Except.bind] at h
    cases hb : foldBounds S dep (f :: fs) with
    | error e => simp [hb] at h
    | ok o =>
      cases o with
      | none => simp [hb] at h
      | some b =>
        cases hz : nodeValues G (gridArea b) with
        | error e => simp [hb, hz] at h
        | ok zs =>
          simp only [hb, hz] at h
          by_cases hs : G.size < 2
          · rw [if_pos hs] at h; cases h
          · rw [if_neg hs] at h
            exact ⟨b, zs, rfl, hz, hs, mapM_ok _ _ _ h⟩

theorem call_intro {S : Shapely} {dep : Bool} {centroid : Geom Pos → Pos} {G : Geolocator} {fs fs' : List Feature} (hne : fs ≠ []) (b : Bounds) (zs : List (ℚ × ℚ × ℚ))
    (hb : foldBounds S dep fs = .ok (some b)) (hz : nodeValues G (gridArea b) = .ok zs) (hs : ¬ G.size < 2)
    (h : List.Forall₂ (fun f f' => locateFeature S dep centroid (fun p => inDegrees G (locate G (gridArea b) zs p)) (fun p => inGeojson G (locate G (gridArea b) zs p)) f = .ok f') fs fs') :
    geolocateWith S dep centroid G fs = .ok fs' := by
  cases fs with
  | nil => exact absurd rfl hne
  | cons f fs =>
    simp only [geolocateWith, bind, Except.bind, hb, hz]
    rw [if_neg hs]
    exact ok_mapM _ _ _ h

/-- **C138** Geolocating features that have been geolocated changes nothing. -/
theorem geolocate_again (S : Shapely) (dep : Bool) (centroid : Geom Pos → Pos) (G : Geolocator) (fs fs' : List Feature)
    (h : geolocateWith S dep centroid G fs = .ok fs') : geolocateWith S dep centroid G fs' = .ok fs' := by
  by_cases hne : fs = []
  · subst hne
    simp only [geolocateWith, Except.ok.injEq] at h
    subst h
    rfl
  · obtain ⟨b, zs, hb, hz, hs, hF⟩ := call_inv h hne
    refine call_intro ?_ b zs ?_ hz hs ?_
    · rintro rfl; exact hne (List.forall₂_nil_right_iff.mp hF)
    · rw [foldBounds_congr S dep fs fs' (hF.imp (fun f f' hf => (find_unchanged S dep f f' (locateFeature_props S dep centroid _ _ f f' hf)).1)), hb]
    · clear h hne hb
      induction hF with
      | nil => exact .nil
      | cons hf _ ih => exact .cons (locateFeature_again S dep centroid _ _ _ _ hf) ih

/-- The boxes around all vertices are the same. -/
def SameBoxes (S : Shapely) (dep : Bool) (fs gs : List Feature) : Prop :=
  ∀ b : Bounds, (∀ v, Vertex S dep fs v → Inside b v) ↔ ∀ v, Vertex S dep gs v → Inside b v

theorem foldBounds_ok (S : Shapely) (dep : Bool) (fs : List Feature) (b : Option Bounds) (h : foldBounds S dep fs = .ok b) : ∀ f ∈ fs, ∃ r, findImageGeometry S dep f = .ok r := by
  rw [foldBounds_eq] at h
  generalize (none : Option Bounds) = acc at h
  induction fs generalizing acc with
  | nil => simp
  | cons f fs ih =>
    rw [List.foldlM_cons] at h
    cases hf : findImageGeometry S dep f with
    | error e => simp [step, hf, bind, Except.bind] at h
    | ok r =>
      cases hst : step S dep acc f with
      | error e => simp [hst, bind, Except.bind] at h
      | ok a =>
        rw [hst] at h
        intro f' hf'
        rcases List.mem_cons.mp hf' with rfl | hf'
        · exact ⟨r, hf⟩
        · exact ih a h f' hf'

theorem foldBounds_same (S : Shapely) (dep : Bool) (fs gs : List Feature) (b : Bounds) (hb : foldBounds S dep fs = .ok (some b)) (hsub : ∀ g ∈ gs, g ∈ fs)
    (hbox : SameBoxes S dep fs gs) : foldBounds S dep gs = .ok (some b) := by
  have hok := foldBounds_ok S dep fs _ hb
  obtain ⟨a, ha, hg⟩ := foldBounds_good S dep fs hok
  rw [hb] at ha
  cases ha
  obtain ⟨a', ha', hg'⟩ := foldBounds_good S dep gs (fun g hg => hok g (hsub g hg))
  cases a' with
  | none =>
    obtain ⟨v, hv, -⟩ := hg.2.1
    have := (hbox ⟨1, 0, 0, 0⟩).mpr (fun w hw => absurd hw (hg' w)) v hv
    have := this.1.trans this.2.1
    simp only at this
    norm_num at this
  | some b' =>
    rw [ha']
    have i1 := (hbox b).mp hg.1
    have i2 := (hbox b').mpr hg'.1
    obtain ⟨-, ⟨v1, p1, q1⟩, ⟨v2, p2, q2⟩, ⟨v3, p3, q3⟩, ⟨v4, p4, q4⟩⟩ := hg
    obtain ⟨-, ⟨w1, r1, s1⟩, ⟨w2, r2, s2⟩, ⟨w3, r3, s3⟩, ⟨w4, r4, s4⟩⟩ := hg'
    have j1 := i2 v1 p1; have j2 := i2 v2 p2; have j3 := i2 v3 p3; have j4 := i2 v4 p4
    have k1 := i1 w1 r1; have k2 := i1 w2 r2; have k3 := i1 w3 r3; have k4 := i1 w4 r4
    unfold Inside at *
    have : b' = b := by
      cases b; cases b'
      simp only at *
      simp only [Bounds.mk.injEq]
      refine ⟨le_antisymm ?_ ?_, le_antisymm ?_ ?_, le_antisymm ?_ ?_, le_antisymm ?_ ?_⟩ <;> linarith [j1.1, j1.2.1, j2.2.2.1, j2.2.2.2, j3.1, j3.2.1, j4.2.2.1, j4.2.2.2,
        k1.1, k1.2.1, k2.2.2.1, k2.2.2.2, k3.1, k3.2.1, k4.2.2.1, k4.2.2.2]
    rw [this]

/-- **C138** What a feature becomes depends on the other features only through the box around all of them: with one function `place`, the features of the
list become `place f`, and so do those of any list of some of them with the same box. -/
theorem only_the_box_matters (S : Shapely) (dep : Bool) (centroid : Geom Pos → Pos) (G : Geolocator) (fs fs' : List Feature)
    (h : geolocateWith S dep centroid G fs = .ok fs') :
    ∃ place : Feature → Feature, fs' = fs.map place ∧
      ∀ gs : List Feature, (∀ g ∈ gs, g ∈ fs) → SameBoxes S dep fs gs → geolocateWith S dep centroid G gs = .ok (gs.map place) := by
  by_cases hne : fs = []
  · subst hne
    simp only [geolocateWith, Except.ok.injEq] at h
    subst h
    refine ⟨id, rfl, fun gs hsub _ => ?_⟩
    cases gs with
    | nil => rfl
    | cons g gs => exact absurd (hsub g (by simp)) (by simp)
  · obtain ⟨b, zs, hb, hz, hs, hF⟩ := call_inv h hne
    set F := locateFeature S dep centroid (fun p => inDegrees G (locate G (gridArea b) zs p)) (fun p => inGeojson G (locate G (gridArea b) zs p)) with hFdef
    have hmap : fs' = fs.map (fun f => (F f).toOption.getD f) ∧ ∀ f ∈ fs, F f = .ok ((F f).toOption.getD f) := by
      clear h hne hb
      induction hF with
      | nil => simp
      | cons hf _ ih =>
        obtain ⟨i1, i2⟩ := ih
        refine ⟨?_, ?_⟩
        · rw [List.map_cons, ← i1]
          simp [hf, Except.toOption]
        · intro f hf'
          rcases List.mem_cons.mp hf' with rfl | hf'
          · simp [hf, Except.toOption]
          · exact i2 f hf'
    refine ⟨_, hmap.1, fun gs hsub hbox => ?_⟩
    have hgs := foldBounds_same S dep fs gs b hb hsub hbox
    refine call_intro ?_ b zs hgs hz hs ?_
    · rintro rfl
      rw [foldBounds_eq] at hgs
      cases hgs
    · rw [List.forall₂_map_right_iff, List.forall₂_same]
      exact fun g hg => hmap.2 g (hsub g hg)

/-- **C138** The order of the features does not matter, nor does a feature that occurs twice: lists of the same features give every feature the same result. -/
theorem order_does_not_matter (S : Shapely) (dep : Bool) (centroid : Geom Pos → Pos) (G : Geolocator) (fs fs' : List Feature)
    (h : geolocateWith S dep centroid G fs = .ok fs') :
    ∃ place : Feature → Feature, fs' = fs.map place ∧ ∀ gs : List Feature, (∀ g, g ∈ gs ↔ g ∈ fs) → geolocateWith S dep centroid G gs = .ok (gs.map place) := by
  obtain ⟨place, h1, h2⟩ := only_the_box_matters S dep centroid G fs fs' h
  refine ⟨place, h1, fun gs hgs => h2 gs (fun g hg => (hgs g).mp hg) (fun b => ?_)⟩
  have : ∀ v, Vertex S dep fs v ↔ Vertex S dep gs v := by
    intro v
    unfold Vertex
    simp only [hgs]
  simp only [this]

/-- A point feature. -/
def pointFeature (x y : ℚ) : Feature := withProps [("imageGeometry", pointJson x y)]

/-- A sensor model that is not affine, and the default size of the grid. -/
def curved : Geolocator := ⟨fun p => .ok (p.1 * p.1, p.2, 0), none, id, id, 11⟩

/-- Where the vertices of the features are. -/
def places (r : Except PyErr (List Feature)) : List (Option (List (ℚ × ℚ × ℚ))) :=
  match r with
  | .ok l => l.map (fun f => f.geometry.map vertices)
  | .error _ => []

/-- The premises of the theorems of C138 are met, and the result is not trivial: three points, in two orders, the inner one of which does not matter to the others. -/
example : places (geolocateWith reader true firstVertex curved [pointFeature 0 0, pointFeature 10 5, pointFeature 5 5]) =
      [some [(2, 0, 0)], some [(102, 5, 0)], some [(25, 5, 0)]] ∧
    places (geolocateWith reader true firstVertex curved [pointFeature 5 5, pointFeature 10 5, pointFeature 0 0]) =
      [some [(25, 5, 0)], some [(102, 5, 0)], some [(2, 0, 0)]] ∧
    places (geolocateWith reader true firstVertex curved [pointFeature 0 0, pointFeature 10 5]) = [some [(2, 0, 0)], some [(102, 5, 0)]] := by
  decide +kernel

/-! ## Alone or together -/

/-- **C139** (what holds): a feature that is geolocated with other features gets a place that differs from the one it gets with yet others, or alone, by at most
`4 ε`, when the sensor model is within `ε` of an affine one around all of them; by nothing when it is affine.  Missing: for other sensor models the place depends on
the company, see `company_matters`. -/
theorem company_partial {S : Shapely} {dep : Bool} {fs gs : List Feature} {B : Bounds} {G : Geolocator} {direct : Pos → ℚ × ℚ × ℚ}
    (h : Situation S dep fs B G direct) (h' : Situation S dep gs B G direct) (centroid : Geom Pos → Pos) (hc : Centroid centroid) (ε c d e c' d' e' : ℚ)
    (hlon : ∀ p, Inside (margin B) p → |(direct p).1 - (c + d * p.1 + e * p.2)| ≤ ε)
    (hlat : ∀ p, Inside (margin B) p → |(direct p).2.1 - (c' + d' * p.1 + e' * p.2)| ≤ ε) :
    ∃ fs' w gs' w', geolocateWith S dep centroid G fs = .ok fs' ∧ List.Forall₂ (Placed S dep centroid G w) fs fs' ∧
      geolocateWith S dep centroid G gs = .ok gs' ∧ List.Forall₂ (Placed S dep centroid G w') gs gs' ∧
      ∀ p, Between S dep fs p → Between S dep gs p → |(w p).1 - (w' p).1| ≤ 4 * ε ∧ |(w p).2.1 - (w' p).2.1| ≤ 4 * ε := by
  obtain ⟨fs', w, a1, a2, a3⟩ := near_affine_error h centroid hc ε c d e c' d' e' hlon hlat
  obtain ⟨gs', w', b1, b2, b3⟩ := near_affine_error h' centroid hc ε c d e c' d' e' hlon hlat
  refine ⟨fs', w, gs', w', a1, a2, b1, b2, fun p hp hp' => ?_⟩
  obtain ⟨u1, u2, -⟩ := a3 p hp
  obtain ⟨v1, v2, -⟩ := b3 p hp'
  rw [abs_le] at u1 u2 v1 v2 ⊢
  refine ⟨⟨by linarith [u1.1, v1.2], by linarith [u1.2, v1.1]⟩, ?_⟩
  rw [abs_le]
  exact ⟨by linarith [u2.1, v2.2], by linarith [u2.2, v2.1]⟩

/-- **C139** (what holds): all that a feature gets is the same in any company when the sensor model is affine around the features. -/
theorem company_of_affine_partial {S : Shapely} {dep : Bool} {fs gs : List Feature} {B : Bounds} {G : Geolocator} {direct : Pos → ℚ × ℚ × ℚ}
    (h : Situation S dep fs B G direct) (h' : Situation S dep gs B G direct) (centroid : Geom Pos → Pos) (hc : Centroid centroid)
    (haff : ∃ c d e c' d' e' c'' d'' e'', ∀ p, Inside (margin B) p → direct p = (c + d * p.1 + e * p.2, c' + d' * p.1 + e' * p.2, c'' + d'' * p.1 + e'' * p.2))
    (hel : G.elevation = none) (f : Feature) (i j : Nat) (hf : fs[i]? = some f) (hf' : gs[j]? = some f) (g : Geom Pos) (hg : findImageGeometry S dep f = .ok (some g))
    (hsrc : (f.props "imageGeometry").isSome ∨ f.props "imageBBox" = none) :
    ∃ fs' gs' f1 f2, geolocateWith S dep centroid G fs = .ok fs' ∧ geolocateWith S dep centroid G gs = .ok gs' ∧ fs'[i]? = some f1 ∧ gs'[j]? = some f2 ∧
      f1.geometry = f2.geometry ∧
      f1.geometry = some (relabel (fun p => (G.rounded (G.degrees (direct p).1), G.rounded (G.degrees (direct p).2.1), G.rounded (direct p).2.2)) g) := by
  obtain ⟨c, d, e, c', d', e', c'', d'', e'', haff⟩ := haff
  have key : ∀ (l : List Feature) (i : Nat), Situation S dep l B G direct → l[i]? = some f → ∃ l' f1, geolocateWith S dep centroid G l = .ok l' ∧ l'[i]? = some f1 ∧
      f1.geometry = some (relabel (fun p => (G.rounded (G.degrees (direct p).1), G.rounded (G.degrees (direct p).2.1), G.rounded (direct p).2.2)) g) := by
    intro l i hl hfl
    obtain ⟨l', r1, r2⟩ := affine_located_exactly hl centroid hc ⟨c, d, e, fun p hp => by simp only [haff p hp]⟩ ⟨c', d', e', fun p hp => by simp only [haff p hp]⟩
      (.inl ⟨fun E hE => absurd (hel.symm.trans hE) (by simp), c'', d'', e'', fun p hp => by simp only [haff p hp]⟩)
    obtain ⟨hi, rfl⟩ := List.getElem?_eq_some_iff.mp hfl
    have hlen := r2.length_eq
    exact ⟨l', l'[i]'(by omega), r1, List.getElem?_eq_getElem _, ((List.forall₂_iff_get.mp r2).2 i hi (by omega)).1.1 g hg hsrc⟩
  obtain ⟨fs', f1, q1, q2, q3⟩ := key fs i h hf
  obtain ⟨gs', f2, s1, s2, s3⟩ := key gs j h' hf'
  exact ⟨fs', gs', f1, f2, q1, s1, q2, s2, by rw [q3, s3], q3⟩

/-- Points in a box are a situation. -/
theorem points_situation (l : List Pos) (hl : l ≠ []) (B : Bounds) (hB : ∀ p ∈ l, Inside B p) (direct : Pos → ℚ × ℚ × ℚ) :
    Situation reader true (l.map (fun p => pointFeature p.1 p.2)) B (exampleGeolocator none direct) direct where
  readable := by
    intro f hf
    obtain ⟨p, -, rfl⟩ := List.mem_map.mp hf
    exact ⟨⟨_, find_point p.1 p.2 true, fun g hg => by cases hg; simp [NoRing]⟩, none, rfl⟩
  vertex := by
    cases l with
    | nil => exact absurd rfl hl
    | cons p l => exact ⟨(p.1, p.2), _, List.mem_cons_self, .point (p.1, p.2), find_point p.1 p.2 true, by simp [vertices]⟩
  inside := by
    rintro v ⟨f, hf, g, hg, hv⟩
    obtain ⟨p, hp, rfl⟩ := List.mem_map.mp hf
    rw [pointFeature, find_point p.1 p.2 true] at hg
    cases hg
    simp only [vertices, List.mem_singleton] at hv
    rw [hv]
    exact hB p hp
  size := by simp [exampleGeolocator]
  world := fun p _ => rfl

/-- The premises of `company_partial` are met: a point alone and with another one. -/
example := company_partial (points_situation [(5, 6)] (by simp) ⟨0, 0, 100, 100⟩ (by simp [Inside]; norm_num) (fun p => (p.1 + (if p.1 < 7 then 1 / 10 else 0), p.2, 0)))
  (points_situation [(5, 6), (20, 30)] (by simp) ⟨0, 0, 100, 100⟩ (by simp [Inside]; norm_num) _) firstVertex firstVertex_centroid (1 / 10) 0 1 0 0 0 1
  (fun p _ => by
    simp only
    by_cases h : p.1 < 7
    · rw [if_pos h, show p.1 + 1 / 10 - (0 + 1 * p.1 + 0 * p.2) = 1 / 10 by ring]; norm_num
    · rw [if_neg h, show p.1 + 0 - (0 + 1 * p.1 + 0 * p.2) = 0 by ring]; norm_num)
  (fun p _ => by
    simp only
    rw [show p.2 - (0 + 0 * p.1 + 1 * p.2) = 0 by ring]
    norm_num)

/-- The premises of `company_of_affine_partial` are met. -/
example := company_of_affine_partial (points_situation [(5, 6)] (by simp) ⟨0, 0, 100, 100⟩ (by simp [Inside]; norm_num) (fun p => (1 + 2 * p.1, 3 * p.2, p.1 + p.2)))
  (points_situation [(20, 30), (5, 6)] (by simp) ⟨0, 0, 100, 100⟩ (by simp [Inside]; norm_num) _) firstVertex firstVertex_centroid
  ⟨1, 2, 0, 0, 0, 3, 0, 1, 1, fun p _ => by simp⟩ rfl (pointFeature 5 6) 0 1 rfl rfl _ (find_point 5 6 true) (.inl rfl)

/-- **C139** is false: a point gets another longitude when another point is geolocated with it. -/
theorem company_matters :
    places (geolocateWith reader true firstVertex curved [pointFeature 0 0]) = [some [(0, 0, 0)]] ∧
    places (geolocateWith reader true firstVertex curved [pointFeature 0 0, pointFeature 10 0]) = [some [(2, 0, 0)], some [(102, 0, 0)]] := by
  decide +kernel

end Verif.Props.GeolocationRepeat
