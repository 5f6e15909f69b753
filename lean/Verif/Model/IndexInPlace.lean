import Verif.Model.FeaturesInPlace

/-!
# The spatial index and what happens to its features afterwards

The index keeps the list object of the collection and a tree of the geometries that the features had when it was made.  Features and lists are objects that can be changed in place.
-/

namespace Verif.Features

/-- The objects: features, lists of features, and which list is the collection's `features`.  `feature_index.py` L50 -/
structure World where
  heap : Heap
  lists : Nat → List Nat
  collection : Nat

/-- An index over image geometries: the list object and the tree.  `feature_index.py` L49-56 -/
structure Index where
  list : Nat
  geometries : List (Option (Geom Pos))

/-- feature_index.py L43-56 with image geometries; the tree keeps the geometries that the accessor makes now. -/
def makeIndex (S : Shapely) (dep : Bool) (w : World) : Except PyErr Index := do
  let gs ← buildIndex true (some (fun r => findImageGeometry S dep (w.heap r))) (fun _ => .error .typeError) (w.lists w.collection)
  pure ⟨w.collection, gs⟩

/-- feature_index.py L58-60: the positions that the tree finds, in the list as it is now. -/
def Index.intersects (T : StrTree (Geom Pos)) (ix : Index) (w : World) (g : Geom Pos) : Except PyErr (List Nat) := findIntersects T (w.lists ix.list) ix.geometries g

/-- feature_index.py L62-69 -/
def Index.nearest (T : StrTree (Geom Pos)) (ix : Index) (w : World) (g : Geom Pos) (limit : Option ℚ) : Except PyErr (List Nat) :=
  findNearest T true (w.lists ix.list) ix.geometries g limit

/-- What can happen between two queries: geolocation and updates by the accessor (that may raise), any other assignment to a feature, a change of a list in place (append, remove, sort),
and another list for the collection.  `geolocation.py` L116-220, `imaged_feature_property_accessor.py` L87-117, `feature_index.py` L50. -/
inductive Event where
  | geolocate (L : InPlace) (refs : List Nat)
  | update (dep : Bool) (r : Nat) (g : Geom Pos)
  | assign (r : Nat) (f : Feature)
  | edit (i : Nat) (l : List Nat)
  | rebind (i : Nat)

/-- The objects after an event.  `geolocation.py` L116-220, `imaged_feature_property_accessor.py` L87-117. -/
def World.step (w : World) : Event → World
  | .geolocate L refs => { w with heap := (L.call refs w.heap).1 }
  | .update dep r g => { w with heap := Function.update w.heap r (updateInPlace dep (w.heap r) g).1 }
  | .assign r f => { w with heap := Function.update w.heap r f }
  | .edit i l => { w with lists := Function.update w.lists i l }
  | .rebind i => { w with collection := i }

/-- The objects after events, one after the other.  `feature_index.py` L58-69. -/
def World.run (w : World) (es : List Event) : World := es.foldl World.step w

end Verif.Features
