import Verif.Model.IndexInPlace
import Verif.Props.FeaturesInPlace
import Verif.Props.Geolocation

/-!
# A spatial index after its features have changed
-/

namespace Verif.Props.IndexInPlace

open Verif Verif.Features Verif.Spec.Features Verif.Props.Features Verif.Props.GeolocationGrid Verif.Props.GeolocationRepeat Verif.Props.FeaturesInPlace Verif.Props.Geolocation

variable {S : Shapely} {dep : Bool}

/-- The image geometry that a feature has now. -/
def geometryNow (S : Shapely) (dep : Bool) (w : World) (r : Nat) : Option (Geom Pos) :=
  match findImageGeometry S dep (w.heap r) with
  | .ok g => g
  | .error _ => none

/-- Nothing that bears on the image geometries of the features of the list: geolocation of any features by any geolocator, whether it raises or not; updates and assignments of other
features; changes of other lists; another list for the collection. -/
def Harmless (w : World) : Event → Prop
  | .geolocate _ _ => True
  | .update _ r _ => r ∉ w.lists w.collection
  | .assign r _ => r ∉ w.lists w.collection
  | .edit i _ => i ≠ w.collection
  | .rebind _ => True

theorem mapM_mem {α β : Type} (f : α → Except PyErr β) : ∀ (l : List α) (m : List β), l.mapM f = .ok m → ∀ a ∈ l, ∃ b, f a = .ok b
  | [], _, _, a, ha => by cases ha
  | x :: l, m, h, a, ha => by
    rw [List.mapM_cons] at h
    cases h1 : f x with
    | error e => rw [h1] at h; cases h
    | ok b =>
      rw [h1] at h
      cases h2 : l.mapM f with
      | error e => rw [h2] at h; cases h
      | ok bs =>
        rcases List.mem_cons.1 ha with rfl | ha
        · exact ⟨b, h1⟩
        · exact mapM_mem f l bs h2 a ha

/-- What has been put into the tree. -/
theorem made (w : World) (ix : Index) (h : makeIndex S dep w = .ok ix) :
    (∀ r ∈ w.lists w.collection, findImageGeometry S dep (w.heap r) = .ok (geometryNow S dep w r)) ∧ ix = ⟨w.collection, (w.lists w.collection).map (geometryNow S dep w)⟩ := by
  have hall : ∀ r ∈ w.lists w.collection, findImageGeometry S dep (w.heap r) = .ok (geometryNow S dep w r) := by
    intro r hr
    unfold makeIndex buildIndex at h
    cases hm : (w.lists w.collection).mapM (fun r => findImageGeometry S dep (w.heap r)) with
    | error e => simp only [hm] at h; cases h
    | ok m =>
      obtain ⟨b, hb⟩ := mapM_mem _ _ _ hm r hr
      unfold geometryNow
      simp only [hb]
  refine ⟨hall, ?_⟩
  unfold makeIndex at h
  rw [buildIndex_image _ _ _ (geometryNow S dep w) hall] at h
  cases h
  rfl

/-- Harmless events change neither the list of the index nor the geometries of its features. -/
theorem run_harmless (w : World) (l : Nat) (hl : l = w.collection) : ∀ (es : List Event) (v : World), v.lists l = w.lists l →
    (∀ r ∈ w.lists l, findImageGeometry S dep (v.heap r) = findImageGeometry S dep (w.heap r)) → (∀ e ∈ es, Harmless w e) →
    (v.run es).lists l = w.lists l ∧ ∀ r ∈ w.lists l, findImageGeometry S dep ((v.run es).heap r) = findImageGeometry S dep (w.heap r)
  | [], v, h1, h2, _ => ⟨h1, h2⟩
  | e :: es, v, h1, h2, he => by
    subst hl
    refine run_harmless w _ rfl es (v.step e) ?_ ?_ (fun e' h' => he e' (List.mem_cons_of_mem _ h'))
    · have := he e (by simp)
      cases e with
      | edit i l =>
        show Function.update v.lists i l w.collection = _
        rw [Function.update_of_ne (fun h => this h.symm), h1]
      | geolocate L refs => exact h1
      | update d r g => exact h1
      | assign r f => exact h1
      | rebind i => exact h1
    · intro r hr
      have := he e (by simp)
      cases e with
      | edit i l => exact h2 r hr
      | rebind i => exact h2 r hr
      | geolocate L refs =>
        rw [← h2 r hr]
        exact (find_unchanged S dep (v.heap r) _ (call_later L refs v.heap r).props).1
      | update d r' g =>
        show findImageGeometry S dep (Function.update v.heap r' _ r) = _
        rw [Function.update_of_ne (fun h : r = r' => this (by rw [← h]; exact hr)), h2 r hr]
      | assign r' f =>
        show findImageGeometry S dep (Function.update v.heap r' _ r) = _
        rw [Function.update_of_ne (fun h : r = r' => this (by rw [← h]; exact hr)), h2 r hr]

theorem now_harmless (w : World) (es : List Event) (he : ∀ e ∈ es, Harmless w e) :
    (w.run es).lists w.collection = w.lists w.collection ∧ ∀ r ∈ w.lists w.collection, geometryNow S dep (w.run es) r = geometryNow S dep w r := by
  obtain ⟨h1, h2⟩ := run_harmless (S := S) (dep := dep) w w.collection rfl es w rfl (fun _ _ => rfl) he
  refine ⟨h1, fun r hr => ?_⟩
  unfold geometryNow
  rw [h2 r hr]

/-- **C166** (partial): after geolocation, and whatever happens to other features and lists, the index returns exactly the features whose present image geometry intersects. -/
theorem intersects_later_partial (T : StrTree (Geom Pos)) (meets : Geom Pos → Geom Pos → Bool) (hT : ∀ index g, Returns index (fun h => meets h g = true) (T.intersecting index g))
    (w : World) (ix : Index) (h : makeIndex S dep w = .ok ix) (es : List Event) (he : ∀ e ∈ es, Harmless w e) (g : Geom Pos) :
    ∃ r, ix.intersects T (w.run es) g = .ok r ∧ r.Perm ((w.lists w.collection).filter (fun x => (geometryNow S dep (w.run es) x).elim false (fun h => meets h g))) := by
  obtain ⟨hall, rfl⟩ := made w ix h
  obtain ⟨e1, e2⟩ := now_harmless (S := S) (dep := dep) w es he
  obtain ⟨index, r, h1, h2, h3⟩ := intersects_exactly_partial T meets hT (fun r => findImageGeometry S dep (w.heap r)) (fun _ => .error .typeError) (w.lists w.collection)
    (geometryNow S dep w) hall g
  rw [buildIndex_image _ _ _ (geometryNow S dep w) hall] at h1
  cases h1
  refine ⟨r, ?_, ?_⟩
  · unfold Index.intersects
    rw [e1]
    exact h2
  · rw [List.filter_congr (fun x hx => by rw [e2 x hx])]
    exact h3

/-- **C166** (partial): and the nearest ones. -/
theorem nearest_later_partial (T : StrTree (Geom Pos)) (dist : Geom Pos → Geom Pos → ℚ)
    (hT : ∀ index g d, 0 < d → Returns index (fun h => dist h g ≤ d ∧ ∀ h', some h' ∈ index → dist h g ≤ dist h' g) (T.nearest index g d))
    (w : World) (ix : Index) (h : makeIndex S dep w = .ok ix) (es : List Event) (he : ∀ e ∈ es, Harmless w e) (g : Geom Pos) (limit : Option ℚ) (hl : ∀ d ∈ limit, 0 < d) :
    ∃ r, ix.nearest T (w.run es) g limit = .ok r ∧ ∀ f, f ∈ r ↔ f ∈ w.lists w.collection ∧ ∃ h, geometryNow S dep (w.run es) f = some h ∧
      (∀ d, limit = some d → dist h g ≤ d) ∧ (limit = none → dist h g ≤ 50) ∧
      ∀ f' ∈ w.lists w.collection, ∀ h', geometryNow S dep (w.run es) f' = some h' → dist h g ≤ dist h' g := by
  obtain ⟨hall, rfl⟩ := made w ix h
  obtain ⟨e1, e2⟩ := now_harmless (S := S) (dep := dep) w es he
  obtain ⟨index, r, h1, h2, h3⟩ := nearest_exactly_partial T dist hT (fun r => findImageGeometry S dep (w.heap r)) (fun _ => .error .typeError) (w.lists w.collection)
    (geometryNow S dep w) hall g limit hl
  rw [buildIndex_image _ _ _ (geometryNow S dep w) hall] at h1
  cases h1
  refine ⟨r, ?_, fun f => ?_⟩
  · unfold Index.nearest
    rw [e1]
    exact h2
  · rw [h3 f]
    constructor
    · rintro ⟨hf, h, q1, q2, q3, q4⟩
      exact ⟨hf, h, by rw [e2 f hf]; exact q1, q2, q3, fun f' hf' h' q => q4 f' hf' h' (by rw [← e2 f' hf']; exact q)⟩
    · rintro ⟨hf, h, q1, q2, q3, q4⟩
      exact ⟨hf, h, by rw [← e2 f hf]; exact q1, q2, q3, fun f' hf' h' q => q4 f' hf' h' (by rw [e2 f' hf']; exact q)⟩

theorem pick_cons {F : Type} (fs : List F) (i : Nat) (is : List Nat) :
    pick fs (i :: is) = (match fs[i]? with | some f => (match pick fs is with | .ok r => .ok (f :: r) | .error e => .error e) | none => .error .indexError) := by
  unfold pick
  rw [List.mapM_cons]
  cases fs[i]? with
  | none => rfl
  | some f =>
    simp only [pure, Except.pure, bind, Except.bind]
    split <;> simp_all

theorem pick_append {F : Type} (fs more : List F) : ∀ (is : List Nat) (r : List F), pick fs is = .ok r → pick (fs ++ more) is = .ok r
  | [], r, h => h
  | i :: is, r, h => by
    rw [pick_cons] at h ⊢
    cases hi : fs[i]? with
    | none => simp only [hi] at h; cases h
    | some f =>
      have hlt : i < fs.length := by
        by_contra hc
        rw [List.getElem?_eq_none (by omega)] at hi
        cases hi
      rw [List.getElem?_append_left hlt]
      simp only [hi] at h ⊢
      cases hr : pick fs is with
      | error e => rw [hr] at h; cases h
      | ok rs =>
        rw [hr] at h
        rw [pick_append fs more is rs hr]
        exact h

/-- **C166** (partial): whatever happens to features, and when the list has only grown, the index returns the features of the collection at the time it was made whose image geometry
intersected then; features that came later are not found. -/
theorem index_is_a_snapshot_partial (T : StrTree (Geom Pos)) (meets : Geom Pos → Geom Pos → Bool)
    (hT : ∀ index g, Returns index (fun h => meets h g = true) (T.intersecting index g)) (w : World) (ix : Index) (h : makeIndex S dep w = .ok ix) (es : List Event)
    (more : List Nat) (hl : (w.run es).lists w.collection = w.lists w.collection ++ more) (g : Geom Pos) :
    ∃ r, ix.intersects T (w.run es) g = .ok r ∧ r.Perm ((w.lists w.collection).filter (fun x => (geometryNow S dep w x).elim false (fun h => meets h g))) := by
  obtain ⟨r, h1, h2⟩ := intersects_later_partial T meets hT w ix h [] (fun e he => by cases he) g
  refine ⟨r, ?_, h2⟩
  obtain ⟨hall, rfl⟩ := made w ix h
  unfold Index.intersects findIntersects at h1 ⊢
  rw [hl]
  exact pick_append _ _ _ _ h1

/-- **C166** (partial): an index that is made again knows all of this. -/
theorem made_again_partial (T : StrTree (Geom Pos)) (meets : Geom Pos → Geom Pos → Bool) (hT : ∀ index g, Returns index (fun h => meets h g = true) (T.intersecting index g))
    (w : World) (es : List Event) (ix : Index) (h : makeIndex S dep (w.run es) = .ok ix) (g : Geom Pos) :
    ∃ r, ix.intersects T (w.run es) g = .ok r ∧
      r.Perm (((w.run es).lists (w.run es).collection).filter (fun x => (geometryNow S dep (w.run es) x).elim false (fun h => meets h g))) :=
  intersects_later_partial T meets hT (w.run es) ix h [] (fun e he => by cases he) g

/-! ## What goes wrong -/

/-- Geometries that start at the same place. -/
def together (h g : Geom Pos) : Bool := decide (firstVertex h = firstVertex g)

/-- A tree in which geometries that start at the same place intersect. -/
def startTree : StrTree (Geom Pos) where
  intersecting index g := (List.range index.length).filter (fun i => index[i]?.any (fun o => o.any (fun h => together h g)))
  nearest index g d := (List.range index.length).filter (fun i => index[i]?.any (fun o => o.any (fun h =>
    decide (|(firstVertex h).1 - (firstVertex g).1| ≤ d) &&
      index.all (fun o' => o'.all (fun h' => decide (|(firstVertex h).1 - (firstVertex g).1| ≤ |(firstVertex h').1 - (firstVertex g).1|))))))

theorem startTree_returns (index : List (Option (Geom Pos))) (g : Geom Pos) : Returns index (fun h => together h g = true) (startTree.intersecting index g) := by
  refine ⟨List.Nodup.filter _ List.nodup_range, fun i => ?_⟩
  simp only [startTree, List.mem_filter, List.mem_range, Option.any_eq_true]
  constructor
  · rintro ⟨_, o, ho, h, rfl, hq⟩
    exact ⟨h, ho, hq⟩
  · rintro ⟨h, hi, hq⟩
    refine ⟨?_, some h, hi, h, rfl, hq⟩
    by_contra hc
    rw [List.getElem?_eq_none (by omega)] at hi
    cases hi

theorem startTree_nearest (index : List (Option (Geom Pos))) (g : Geom Pos) (d : ℚ) :
    Returns index (fun h => |(firstVertex h).1 - (firstVertex g).1| ≤ d ∧ ∀ h', some h' ∈ index → |(firstVertex h).1 - (firstVertex g).1| ≤ |(firstVertex h').1 - (firstVertex g).1|)
      (startTree.nearest index g d) := by
  refine ⟨List.Nodup.filter _ List.nodup_range, fun i => ?_⟩
  simp only [startTree, List.mem_filter, List.mem_range, Option.any_eq_true, Bool.and_eq_true, decide_eq_true_eq, List.all_eq_true]
  constructor
  · rintro ⟨_, o, ho, h, hh, hd, hall⟩
    subst hh
    refine ⟨h, ho, hd, fun h' hm => ?_⟩
    simpa using hall (some h') hm
  · rintro ⟨h, hi, hd, hall⟩
    refine ⟨?_, some h, hi, h, rfl, hd, ?_⟩
    · by_contra hc
      rw [List.getElem?_eq_none (by omega)] at hi
      cases hi
    · intro o ho
      cases o with
      | none => rfl
      | some h' => simpa using hall h' ho

/-- Three features, of which the first two are in the collection. -/
def threePoints : World where
  heap := fun r => if r = 0 then pointFeature 3 4 else if r = 1 then pointFeature 5 6 else pointFeature 7 8
  lists := fun i => if i = 0 then [0, 1] else []
  collection := 0

/-- What the index over the collection answers afterwards. -/
def asked (es : List Event) (g : Geom Pos) : Option (List Nat) :=
  match makeIndex reader true threePoints with
  | .ok ix => (ix.intersects startTree (threePoints.run es) g).toOption
  | .error _ => some [99]

/-- **C166** (negation): a feature whose image geometry has been updated is found where it was, not where it is. -/
theorem moved_feature_is_found_where_it_was :
    asked [.update true 0 (.point (9, 9))] (.point (3, 4)) = some [0] ∧ asked [.update true 0 (.point (9, 9))] (.point (9, 9)) = some [] ∧
      geometryNow reader true (threePoints.run [.update true 0 (.point (9, 9))]) 0 = some (.point (9, 9)) := by
  refine ⟨by decide +kernel, by decide +kernel, rfl⟩

/-- **C166** (negation): after the removal of a feature from the list another feature is returned, or the query raises. -/
theorem removed_feature_shifts :
    asked [.edit 0 [1]] (.point (3, 4)) = some [1] ∧ asked [.edit 0 [1]] (.point (5, 6)) = none ∧
      geometryNow reader true (threePoints.run [.edit 0 [1]]) 1 = some (.point (5, 6)) := by
  refine ⟨by decide +kernel, by decide +kernel, rfl⟩

/-- **C166** (negation): a feature that is appended to the list is not found, and a collection with another list is still answered from the first. -/
theorem appended_feature_is_not_found :
    asked [.edit 0 [0, 1, 2]] (.point (7, 8)) = some [] ∧ geometryNow reader true (threePoints.run [.edit 0 [0, 1, 2]]) 2 = some (.point (7, 8)) ∧
      asked [.edit 1 [2], .rebind 1] (.point (3, 4)) = some [0] := by
  refine ⟨by decide +kernel, rfl, by decide +kernel⟩

/-- The index over the collection of the example. -/
theorem three_made : makeIndex reader true threePoints = .ok ⟨0, [some (.point (3, 4)), some (.point (5, 6))]⟩ := by rfl

example := intersects_later_partial startTree together startTree_returns threePoints _ three_made [.geolocate (scaled 2) [0, 1], .update true 2 (.point (3, 4)), .rebind 1]
  (by intro e he; simp only [List.mem_cons, List.not_mem_nil, or_false] at he; rcases he with rfl | rfl | rfl <;> simp [Harmless, threePoints]) (.point (3, 4))

example : asked [.geolocate (scaled 2) [0, 1], .update true 2 (.point (3, 4)), .rebind 1] (.point (3, 4)) = some [0] := by decide +kernel

example := nearest_later_partial startTree _ (fun index g d _ => startTree_nearest index g d) threePoints _ three_made [.geolocate (scaled 2) [0, 1]]
  (by intro e he; simp only [List.mem_cons, List.not_mem_nil, or_false] at he; subst he; trivial) (.point (4, 4)) (some 2) (by intro d hd; cases hd; norm_num)

example := index_is_a_snapshot_partial startTree together startTree_returns threePoints _ three_made [.update true 0 (.point (9, 9)), .edit 0 [0, 1, 2]] [2] (by rfl) (.point (3, 4))

end Verif.Props.IndexInPlace
