import Verif.Model.Features

/-!
# Features as objects that are changed in place

`Verif.Model.Features` gives the outcome of a call that does not raise.  Here features are objects on a heap, calls change them step by step, and when a step raises the changes before
it stay.  Locating a position may raise as well (the elevation model reads files).
-/

namespace Verif.Features

/-! ## The property accessor -/

/-- imaged_feature_property_accessor.py L111-114: the feature afterwards, and the exception.  The type is assigned before the coordinates are looked up. -/
def detectionInPlace (f : Feature) (g : Geom Pos) : Feature × Option PyErr :=
  match f.props "detection" with
  | none => (f, none)
  | some d =>
    match hasKey d "pixelCoordinates" with
    | .error e => (f, some e)
    | .ok false => (f, none)
    | .ok true =>
      match d with
      | .obj l =>
        let l := setKey l "type" (.str (typeName g))
        match coordinates g with
        | .error e => (setProp f "detection" (.obj l), some e)
        | .ok c => (setProp f "detection" (.obj (setKey l "pixelCoordinates" c)), none)
      | _ => (f, some .typeError)

/-- imaged_feature_property_accessor.py L87-117: the feature afterwards, and the exception. -/
def updateInPlace (allowDeprecated : Bool) (f : Feature) (g : Geom Pos) : Feature × Option PyErr :=
  let f := updateIf f "imageGeometry" (toGeoJson g)
  let f := updateIf f "imageBBox" (boundsJson g)
  if allowDeprecated then
    match updateRing f g with
    | .error e => (f, some e)
    | .ok f =>
      match detectionInPlace f g with
      | (f, some e) => (f, some e)
      | (f, none) => (updateIf f "bounds_imcoords" (boundsJson g), none)
  else (f, none)

/-! ## Geolocation -/

/-- The interpolation grid with the conversion to degrees (geolocation.py L68-85, L268-285).  `set_elevation` may raise. -/
abbrev Locate := Pos → Except PyErr (ℚ × ℚ × ℚ)

mutual
/-- geolocation.py L222-266.  `at` is the grid, `round` is the rounding of geojson. -/
def geolocateOr (at' : Locate) (round : ℚ × ℚ × ℚ → ℚ × ℚ × ℚ) : Geom Pos → Except PyErr Geo
  | .point p => do pure (.point (round (← at' p)))
  | .lineString ps => do pure (.lineString ((← ps.mapM at').map round))
  | .linearRing ps => do pure (.lineString ((← ps.mapM at').map round))
  | .polygon shell holes => do
    let s ← shell.mapM at'
    let hs ← holes.mapM (fun h => h.mapM at')
    pure (.polygon (s.map round) (hs.map (fun h => h.map round)))
  | .multiPoint ps => do
    let qs ← ps.mapM at'
    construct "MultiPoint" (qs.map (fun q => .point (round q)))
  | .multiLineString ls => do
    let qs ← ls.mapM (fun l => l.mapM at')
    construct "MultiLineString" (qs.map (fun q => .lineString (q.map round)))
  | .multiPolygon gs => do
    let qs ← gs.mapM (fun g => do
      let s ← g.1.mapM at'
      let hs ← g.2.mapM (fun h => h.mapM at')
      pure (s, hs))
    construct "MultiPolygon" (qs.map (fun q => .polygon (q.1.map round) (q.2.map (fun h => h.map round))))
  | .collection gs => do
    let parts ← geolocateOrAll at' round gs
    construct "GeometryCollection" parts

/-- geolocation.py L262 -/
def geolocateOrAll (at' : Locate) (round : ℚ × ℚ × ℚ → ℚ × ℚ × ℚ) : List (Geom Pos) → Except PyErr (List Geo)
  | [] => .ok []
  | g :: gs => do
    let a ← geolocateOr at' round g
    let b ← geolocateOrAll at' round gs
    pure (a :: b)
end

/-- geolocation.py L187-198: the bounds of the four located corners. -/
def cornersOr (at' : Locate) (b : Bounds) : Except PyErr (Option Bounds) := do
  let ps ← ([(b.x0, b.y0), (b.x0, b.y1), (b.x1, b.y1), (b.x1, b.y0)] : List Pos).mapM at'
  pure (boundsOf (ps.map (fun p => (p.1, p.2.1))))

/-- geolocation.py L218-220 -/
def centerInPlace (at' : Locate) (c : Pos) (f : Feature) : Feature × Option PyErr :=
  match at' c with
  | .error e => (f, some e)
  | .ok l => (setProp (setProp f "center_longitude" (.num l.1)) "center_latitude" (.num l.2.1), none)

/-- geolocation.py L180-198: `bbox` is assigned when all four corners have been located. -/
def boxInPlace (at' : Locate) (ib : Option Bounds) (f : Feature) : Feature × Option PyErr :=
  match ib with
  | none => (f, none)
  | some b =>
    match cornersOr at' b with
    | .error e => (f, some e)
    | .ok bb => ({ f with bbox := bb }, none)

/-- geolocation.py L204-210: the geometry that is located. -/
def shapeToLocate (S : Shapely) (dep : Bool) (ib : Option Bounds) (f : Feature) : Except PyErr (Option (Geom Pos)) := do
  let g0 ← imageGeometry S f
  match ib, g0 with
  | none, none => findImageGeometry S dep f
  | _, _ => pure g0

/-- geolocation.py L212-220: `geometry` is assigned when all of it has been located, then the center. -/
def geometryInPlace (centroid : Geom Pos → Pos) (at' : Locate) (round : ℚ × ℚ × ℚ → ℚ × ℚ × ℚ) (ib : Option Bounds) (g : Option (Geom Pos)) (f : Feature) : Feature × Option PyErr :=
  match g, ib with
  | some g, _ =>
    match geolocateOr at' round g with
    | .error e => (f, some e)
    | .ok geo => centerInPlace at' (centroid g) { f with geometry := some geo }
  | none, some b => centerInPlace at' ((b.x0 + b.x1) / 2, (b.y0 + b.y1) / 2) f
  | none, none => (f, none)

/-- geolocation.py L176-220 for one feature: the feature afterwards, and the exception. -/
def locateInPlace (S : Shapely) (dep : Bool) (centroid : Geom Pos → Pos) (at' : Locate) (round : ℚ × ℚ × ℚ → ℚ × ℚ × ℚ) (f : Feature) : Feature × Option PyErr :=
  match imageBBox f with
  | .error e => (f, some e)
  | .ok ib =>
    match boxInPlace at' ib f with
    | (f, some e) => (f, some e)
    | (f, none) =>
      match shapeToLocate S dep ib f with
      | .error e => (f, some e)
      | .ok g => geometryInPlace centroid at' round ib g f

/-- The features that exist; a list of features is a list of references and may name one twice.  `geolocation.py` L116-220. -/
abbrev Heap := Nat → Feature

/-- geolocation.py L176-220: the loop over the features. -/
def loopInPlace (locate : Feature → Feature × Option PyErr) : List Nat → Heap → Heap × Option PyErr
  | [], h => (h, none)
  | r :: rs, h =>
    match locate (h r) with
    | (f, some e) => (Function.update h r f, some e)
    | (f, none) => loopInPlace locate rs (Function.update h r f)

/-- A geolocator: its accessor, shapely, and the interpolation grid it makes for an area, which may raise.  `geolocation.py` L94-114, L161-174. -/
structure InPlace where
  shapely : Shapely
  deprecated : Bool
  centroid : Geom Pos → Pos
  grid : Bounds → Except PyErr Locate
  round : ℚ × ℚ × ℚ → ℚ × ℚ × ℚ

/-- geolocation.py L116-220: the features afterwards, and the exception.  Without any geometry the area is infinite, see `geolocateFeatures`. -/
def InPlace.call (L : InPlace) (refs : List Nat) (h : Heap) : Heap × Option PyErr :=
  match refs with
  | [] => (h, none)
  | _ =>
    match foldBounds L.shapely L.deprecated (refs.map h) with
    | .error e => (h, some e)
    | .ok none => (h, some .valueError)
    | .ok (some b) =>
      match L.grid (gridArea b) with
      | .error e => (h, some e)
      | .ok at' => loopInPlace (locateInPlace L.shapely L.deprecated L.centroid at' L.round) refs h

end Verif.Features
