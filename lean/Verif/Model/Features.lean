import Verif.Model.Py
import Mathlib.Data.Rat.Floor

/-!
# Model of `features/`: property accessor, geolocation, spatial index

Shapely, geojson and SciPy are third-party.  Geometries are modelled by their vertices; JSON values as a tree.
Numbers are exact.  Empty points are not modelled; other geometries may be empty lists.
-/

namespace Verif.Features

/-- JSON values.  Values of `properties` in `imaged_feature_property_accessor.py`. -/
inductive Json where
  | null
  | bool (b : Bool)
  | num (q : ℚ)
  | str (s : String)
  | arr (l : List Json)
  | obj (l : List (String × Json))

/-- Shapely geometries (and, with positions of three numbers, GeoJSON geometries) over positions `P`.
Made in `imaged_feature_property_accessor.py` L51-83 and `geolocation.py` L222-266. -/
inductive Geom (P : Type) where
  | point (p : P)
  | lineString (ps : List P)
  | linearRing (ps : List P)
  | polygon (shell : List P) (holes : List (List P))
  | multiPoint (ps : List P)
  | multiLineString (ls : List (List P))
  | multiPolygon (gs : List (List P × List (List P)))
  | collection (gs : List (Geom P))

/-- A position in an image: x, y (`imaged_feature_property_accessor.py` L51-83). -/
abbrev Pos := ℚ × ℚ

/-- minx, miny, maxx, maxy (`geometry.bounds` in `imaged_feature_property_accessor.py` L87-117, L144-151) -/
structure Bounds where
  x0 : ℚ
  y0 : ℚ
  x1 : ℚ
  y1 : ℚ
deriving DecidableEq

/-! ## Third-party functions on geometries -/

mutual
/-- All vertices in order.  Used for `geometry.bounds` in `geolocation.py` L146-153. -/
def vertices {P : Type} : Geom P → List P
  | .point p => [p]
  | .lineString ps => ps
  | .linearRing ps => ps
  | .polygon shell holes => shell ++ holes.flatten
  | .multiPoint ps => ps
  | .multiLineString ls => ls.flatten
  | .multiPolygon gs => (gs.map (fun g => g.1 ++ g.2.flatten)).flatten
  | .collection gs => verticesAll gs

/-- The vertices of several geometries.  Used for `geometry.bounds` in `geolocation.py` L146-153. -/
def verticesAll {P : Type} : List (Geom P) → List P
  | [] => []
  | g :: gs => vertices g ++ verticesAll gs
end

/-- The bounds of a list of positions; `none` when there are none (shapely: NaN).  Used for `geometry.bounds` in `geolocation.py` L146-153. -/
def boundsOf : List Pos → Option Bounds
  | [] => none
  | p :: ps => some (ps.foldl (fun b q => ⟨min b.x0 q.1, min b.y0 q.2, max b.x1 q.1, max b.y1 q.2⟩) ⟨p.1, p.2, p.1, p.2⟩)

/-- `geometry.bounds` (`imaged_feature_property_accessor.py` L87-117, `geolocation.py` L146-153) -/
def bounds (g : Geom Pos) : Option Bounds := boundsOf (vertices g)

/-- `shapely.geometry.box(minx, miny, maxx, maxy)`: counter-clockwise from the lower right corner.  Called in `imaged_feature_property_accessor.py` L59. -/
def box (b : Bounds) : Geom Pos := .polygon [(b.x1, b.y0), (b.x1, b.y1), (b.x0, b.y1), (b.x0, b.y0), (b.x1, b.y0)] []

/-- Coordinates as JSON (`shapely.to_geojson` in `imaged_feature_property_accessor.py` L141). -/
def posJson (p : Pos) : Json := .arr [.num p.1, .num p.2]

/-- A list of positions as JSON (`shapely.to_geojson` in `imaged_feature_property_accessor.py` L141). -/
def lineJson (ps : List Pos) : Json := .arr (ps.map posJson)

mutual
/-- `json.loads(shapely.to_geojson(geometry))`; a ring is written as a line.  `imaged_feature_property_accessor.py` L141. -/
def toGeoJson : Geom Pos → Json
  | .point p => .obj [("type", .str "Point"), ("coordinates", posJson p)]
  | .lineString ps => .obj [("type", .str "LineString"), ("coordinates", lineJson ps)]
  | .linearRing ps => .obj [("type", .str "LineString"), ("coordinates", lineJson ps)]
  | .polygon shell holes => .obj [("type", .str "Polygon"), ("coordinates", .arr ((shell :: holes).map lineJson))]
  | .multiPoint ps => .obj [("type", .str "MultiPoint"), ("coordinates", lineJson ps)]
  | .multiLineString ls => .obj [("type", .str "MultiLineString"), ("coordinates", .arr (ls.map lineJson))]
  | .multiPolygon gs => .obj [("type", .str "MultiPolygon"), ("coordinates", .arr (gs.map (fun g => .arr ((g.1 :: g.2).map lineJson))))]
  | .collection gs => .obj [("type", .str "GeometryCollection"), ("geometries", .arr (toGeoJsonAll gs))]

/-- The members of a collection (`shapely.to_geojson` in `imaged_feature_property_accessor.py` L141). -/
def toGeoJsonAll : List (Geom Pos) → List Json
  | [] => []
  | g :: gs => toGeoJson g :: toGeoJsonAll gs
end

/-- `shapely.geometry.mapping(geometry)["type"]` (`imaged_feature_property_accessor.py` L87-117) -/
def typeName {P : Type} : Geom P → String
  | .point _ => "Point"
  | .lineString _ => "LineString"
  | .linearRing _ => "LinearRing"
  | .polygon _ _ => "Polygon"
  | .multiPoint _ => "MultiPoint"
  | .multiLineString _ => "MultiLineString"
  | .multiPolygon _ => "MultiPolygon"
  | .collection _ => "GeometryCollection"

/-- `shapely.geometry.mapping(geometry)["coordinates"]`; a collection has no such key (`imaged_feature_property_accessor.py` L87-117). -/
def coordinates : Geom Pos → Except PyErr Json
  | .point p => .ok (posJson p)
  | .lineString ps => .ok (lineJson ps)
  | .linearRing ps => .ok (lineJson ps)
  | .polygon shell holes => .ok (.arr ((shell :: holes).map lineJson))
  | .multiPoint ps => .ok (lineJson ps)
  | .multiLineString ls => .ok (.arr (ls.map lineJson))
  | .multiPolygon gs => .ok (.arr (gs.map (fun g => .arr ((g.1 :: g.2).map lineJson))))
  | .collection _ => .error .keyError

/-! ## The property accessor -/

/-- A feature: its geometry (longitude, latitude, elevation), its bbox, its properties.
Read and written by `imaged_feature_property_accessor.py` L36-151 and `geolocation.py` L116-220. -/
structure Feature where
  geometry : Option (Geom (ℚ × ℚ × ℚ))
  bbox : Option Bounds
  props : String → Option Json

/-- `feature.properties[k] = v`.  `imaged_feature_property_accessor.py` L87-151. -/
def setProp (f : Feature) (k : String) (v : Json) : Feature := { f with props := fun k' => if k' = k then some v else f.props k' }

/-- `key in value` for a JSON value (`"pixelCoordinates" in feature.properties["detection"]`).  `imaged_feature_property_accessor.py` L62-83. -/
def hasKey (j : Json) (k : String) : Except PyErr Bool :=
  match j with
  | .obj l => .ok (l.any (fun e => decide (e.1 = k)))
  | .arr l => .ok (l.any (fun e => match e with
    | .str s => decide (s = k)
    | _ => false))
  | .str s => .ok (decide (k.toList <:+: s.toList))
  | _ => .error .typeError

/-- `value[key]` for a string key.  `imaged_feature_property_accessor.py` L36-85. -/
def getKey (j : Json) (k : String) : Except PyErr Json :=
  match j with
  | .obj l => match l.find? (fun e => decide (e.1 = k)) with
    | some e => .ok e.2
    | none => .error .keyError
  | _ => .error .typeError

/-- `value[key] = v` on a dictionary.  `imaged_feature_property_accessor.py` L87-117. -/
def setKey (l : List (String × Json)) (k : String) (v : Json) : List (String × Json) :=
  if l.any (fun e => decide (e.1 = k)) then l.map (fun e => if e.1 = k then (k, v) else e) else l ++ [(k, v)]

/-- `bbox[0]` … `bbox[3]` (imaged_feature_property_accessor.py L58-59, L80-81, L128-129) for a list of numbers. -/
def readBox (j : Json) : Except PyErr Bounds :=
  match j with
  | .arr (.num a :: .num b :: .num c :: .num d :: _) => .ok ⟨a, b, c, d⟩
  | .arr l => if l.length < 4 then .error .indexError else .error .typeError
  | _ => .error .typeError

/-- The parts of shapely that read JSON: `shape` and `Polygon(shell=…)`.  Called in `imaged_feature_property_accessor.py` L52-83. -/
structure Shapely where
  shape : Json → Except PyErr (Geom Pos)
  ring : Json → Except PyErr (Geom Pos)

/-- imaged_feature_property_accessor.py L70: the `detection` property when it has `pixelCoordinates`. -/
def detectionSource (f : Feature) : Except PyErr (Option Json) :=
  match f.props "detection" with
  | some d => (hasKey d "pixelCoordinates").map (fun h => if h then some d else none)
  | none => .ok none

/-- imaged_feature_property_accessor.py L36-85 -/
def findImageGeometry (S : Shapely) (allowDeprecated : Bool) (f : Feature) : Except PyErr (Option (Geom Pos)) :=
  match f.props "imageGeometry" with
  | some j => (S.shape j).map some
  | none =>
    match f.props "imageBBox" with
    | some j => (readBox j).map (fun b => some (box b))
    | none =>
      if allowDeprecated then
        match f.props "geom_imcoords" with
        | some j => (S.ring j).map some
        | none => do
          match ← detectionSource f with
          | some d => do
            let t ← getKey d "type"
            let c ← getKey d "pixelCoordinates"
            (S.shape (.obj [("type", t), ("coordinates", c)])).map some
          | none =>
            match f.props "bounds_imcoords" with
            | some j => (readBox j).map (fun b => some (box b))
            | none => .ok none
      else .ok none

/-- `list(geometry.bounds)`; bounds of an empty geometry are NaN, written as null here.  `imaged_feature_property_accessor.py` L87-117, L144-151. -/
def boundsJson (g : Geom Pos) : Json :=
  match bounds g with
  | some b => .arr [.num b.x0, .num b.y0, .num b.x1, .num b.y1]
  | none => .arr [.null, .null, .null, .null]

/-- imaged_feature_property_accessor.py L96-97, L99-100, L116-117: set when present. -/
def updateIf (f : Feature) (k : String) (v : Json) : Feature :=
  match f.props k with
  | some _ => setProp f k v
  | none => f

/-- imaged_feature_property_accessor.py L104-109 -/
def updateRing (f : Feature) (g : Geom Pos) : Except PyErr Feature :=
  match f.props "geom_imcoords" with
  | none => .ok f
  | some _ => do
    let c ← coordinates g
    match g with
    | .polygon shell _ => pure (setProp f "geom_imcoords" (lineJson shell))
    | _ => pure (setProp f "geom_imcoords" c)

/-- imaged_feature_property_accessor.py L111-114 -/
def updateDetection (f : Feature) (g : Geom Pos) : Except PyErr Feature :=
  match f.props "detection" with
  | none => .ok f
  | some d => do
    if ← hasKey d "pixelCoordinates" then
      match d with
      | .obj l => do
        let l := setKey l "type" (.str (typeName g))
        let c ← coordinates g
        pure (setProp f "detection" (.obj (setKey l "pixelCoordinates" c)))
      | _ => .error .typeError
    else pure f

/-- imaged_feature_property_accessor.py L87-117.  When a step raises, the changes before it stay in the feature; only the
outcome without an error is kept here. -/
def updateExisting (allowDeprecated : Bool) (f : Feature) (g : Geom Pos) : Except PyErr Feature := do
  let f := updateIf f "imageGeometry" (toGeoJson g)
  let f := updateIf f "imageBBox" (boundsJson g)
  if allowDeprecated then do
    let f ← updateRing f g
    let f ← updateDetection f g
    pure (updateIf f "bounds_imcoords" (boundsJson g))
  else pure f

/-! ## Geolocation -/

/-- geojson geometries.  Made in `geolocation.py` L222-266. -/
abbrev Geo := Geom (ℚ × ℚ × ℚ)

/-- The `coordinates` of a point that a geojson `MultiPoint` takes over.  `geolocation.py` L262-264. -/
def asPoint : Geo → Except PyErr (ℚ × ℚ × ℚ)
  | .point p => .ok p
  | _ => .error .valueError

/-- The same for `MultiLineString`.  `geolocation.py` L262-264. -/
def asLine : Geo → Except PyErr (List (ℚ × ℚ × ℚ))
  | .lineString l => .ok l
  | _ => .error .valueError

/-- The same for `MultiPolygon`.  `geolocation.py` L262-264. -/
def asPolygon : Geo → Except PyErr (List (ℚ × ℚ × ℚ) × List (List (ℚ × ℚ × ℚ)))
  | .polygon s h => .ok (s, h)
  | _ => .error .valueError

/-- `getattr(geojson, name)(geometry_list)` (geolocation.py L262-264).  geojson takes the coordinates of geometries in the
list. -/
def construct (name : String) (parts : List Geo) : Except PyErr Geo :=
  if name = "MultiPoint" then (parts.mapM asPoint).map .multiPoint
  else if name = "MultiLineString" then (parts.mapM asLine).map .multiLineString
  else if name = "MultiPolygon" then (parts.mapM asPolygon).map .multiPolygon
  else if name = "GeometryCollection" then .ok (.collection parts)
  else .error .attributeError

mutual
/-- geolocation.py L222-266.  `loc` is the interpolation grid followed by the conversion to degrees and the rounding of geojson. -/
def geolocate (loc : Pos → ℚ × ℚ × ℚ) : Geom Pos → Except PyErr Geo
  | .point p => .ok (.point (loc p))
  | .lineString ps => .ok (.lineString (ps.map loc))
  | .linearRing ps => .ok (.lineString (ps.map loc))
  | .polygon shell holes => .ok (.polygon (shell.map loc) (holes.map (fun h => h.map loc)))
  | .multiPoint ps => construct "MultiPoint" (ps.map (fun p => .point (loc p)))
  | .multiLineString ls => construct "MultiLineString" (ls.map (fun l => .lineString (l.map loc)))
  | .multiPolygon gs => construct "MultiPolygon" (gs.map (fun g => .polygon (g.1.map loc) (g.2.map (fun h => h.map loc))))
  | .collection gs => do
    let parts ← geolocateAll loc gs
    construct "GeometryCollection" parts

/-- geolocation.py L262 -/
def geolocateAll (loc : Pos → ℚ × ℚ × ℚ) : List (Geom Pos) → Except PyErr (List Geo)
  | [] => .ok []
  | g :: gs => do
    let a ← geolocate loc g
    let b ← geolocateAll loc gs
    pure (a :: b)
end

/-- geolocation.py L144-153: the bounds of all image geometries; `none` while they are infinite. -/
def foldBounds (S : Shapely) (dep : Bool) (fs : List Feature) : Except PyErr (Option Bounds) :=
  fs.foldlM (fun acc f => do
    match ← findImageGeometry S dep f with
    | none => pure acc
    | some g =>
      match bounds g, acc with
      | none, _ => pure acc
      | some b, none => pure (some b)
      | some b, some a => pure (some ⟨min a.x0 b.x0, min a.y0 b.y0, max a.x1 b.x1, max a.y1 b.y1⟩)) none

/-- geolocation.py L155-165: margin, then corner and size of the grid. -/
def gridArea (b : Bounds) : Bounds := ⟨b.x0 - 10, b.y0 - 10, b.x1 + 10, b.y1 + 10⟩

/-- `get_image_bbox` (imaged_feature_property_accessor.py L125-130) followed by `.bounds`. -/
def imageBBox (f : Feature) : Except PyErr (Option Bounds) :=
  match f.props "imageBBox" with
  | some j => do
    let b ← readBox j
    pure (bounds (box b))
  | none => .ok none

/-- `get_image_geometry` (imaged_feature_property_accessor.py L119-123). -/
def imageGeometry (S : Shapely) (f : Feature) : Except PyErr (Option (Geom Pos)) :=
  match f.props "imageGeometry" with
  | some j => (S.shape j).map some
  | none => .ok none

/-- geolocation.py L187-198: the bounds of the four located corners. -/
def locateBox (loc : Pos → ℚ × ℚ × ℚ) (b : Bounds) : Option Bounds :=
  boundsOf (([(b.x0, b.y0), (b.x0, b.y1), (b.x1, b.y1), (b.x1, b.y0)] : List Pos).map (fun p => ((loc p).1, (loc p).2.1)))

/-- geolocation.py L218-220 -/
def setCenter (loc : Pos → ℚ × ℚ × ℚ) (c : Pos) (f : Feature) : Feature :=
  setProp (setProp f "center_longitude" (.num (loc c).1)) "center_latitude" (.num (loc c).2.1)

/-- geolocation.py L204-220 for a feature whose `imageBBox` was read (`ib`) and whose image geometry is `g`.  `exact` is the grid without the
rounding of geojson, `loc` with it; `centroid` is shapely's. -/
def locateGeometry (centroid : Geom Pos → Pos) (exact loc : Pos → ℚ × ℚ × ℚ) (ib : Option Bounds) (g : Option (Geom Pos)) (f : Feature) :
    Except PyErr Feature :=
  match g, ib with
  | some g, _ => do
    let geo ← geolocate loc g
    pure (setCenter exact (centroid g) { f with geometry := some geo })
  | none, some b => pure (setCenter exact ((b.x0 + b.x1) / 2, (b.y0 + b.y1) / 2) f)
  | none, none => pure f

/-- geolocation.py L176-220 for one feature -/
def locateFeature (S : Shapely) (dep : Bool) (centroid : Geom Pos → Pos) (exact loc : Pos → ℚ × ℚ × ℚ) (f : Feature) : Except PyErr Feature := do
  let ib ← imageBBox f
  let f1 := match ib with
    | some b => { f with bbox := locateBox exact b }
    | none => f
  let g0 ← imageGeometry S f
  let g ← (match ib, g0 with
    | none, none => findImageGeometry S dep f
    | _, _ => .ok g0)
  locateGeometry centroid exact loc ib g f1

/-- geolocation.py L116-220.  `grid` builds the interpolation grid for an area.  Without any geometry the area is infinite or NaN, which
RectBivariateSpline rejects with `ValueError` (unless the sensor model fails before). -/
def geolocateFeatures (S : Shapely) (dep : Bool) (centroid : Geom Pos → Pos) (grid : Bounds → (Pos → ℚ × ℚ × ℚ) × (Pos → ℚ × ℚ × ℚ))
    (fs : List Feature) : Except PyErr (List Feature) :=
  match fs with
  | [] => .ok []
  | _ => do
    match ← foldBounds S dep fs with
    | none => .error .valueError
    | some b =>
      let g := grid (gridArea b)
      fs.mapM (locateFeature S dep centroid g.1 g.2)

/-! ## The interpolation grid -/

/-- `RectBivariateSpline(…, kx=1, ky=1)` in one direction: linear between the nodes `a + k * step` for `k ≤ m`, constant outside.  `geolocation.py` L46-81. -/
def interp (a step : ℚ) (m : Nat) (f : Nat → ℚ) (x : ℚ) : ℚ :=
  let u := (x - a) / step
  if u ≤ 0 then f 0
  else if (m : ℚ) ≤ u then f m
  else f ⌊u⌋.toNat + (f (⌊u⌋.toNat + 1) - f ⌊u⌋.toNat) * (u - ⌊u⌋)

/-- geolocation.py L46-65 and L76-81 for one of the three values: `n` nodes in each direction, `world` the value of the sensor model.  The spline
needs at least two nodes and a non-empty area. -/
def gridValue (area : Bounds) (n : Nat) (world : ℚ → ℚ → ℚ) (p : Pos) : Except PyErr ℚ :=
  if n < 2 ∨ area.x1 ≤ area.x0 ∨ area.y1 ≤ area.y0 then .error .valueError
  else
    let sx := (area.x1 - area.x0) / ((n : ℚ) - 1)
    let sy := (area.y1 - area.y0) / ((n : ℚ) - 1)
    .ok (interp area.x0 sx (n - 1) (fun i => interp area.y0 sy (n - 1) (fun j => world (area.x0 + i * sx) (area.y0 + j * sy)) p.2) p.1)

/-! ## The spatial index -/

/-- Shapely's `STRtree` of possibly missing geometries: what its queries return.  `feature_index.py` L43-69. -/
structure StrTree (G : Type) where
  intersecting : List (Option G) → G → List Nat
  nearest : List (Option G) → G → ℚ → List Nat

/-- What is put into the tree (feature_index.py L51-54). -/
inductive Entry (G F : Type) where
  | geometry (g : Option G)
  | pair (g : G) (f : F)

/-- `STRtree(geometries)`: an array of pairs is two-dimensional and rejected with `TypeError`.  `feature_index.py` L43-56. -/
def treeInput {G F : Type} (es : List (Entry G F)) : Except PyErr (List (Option G)) :=
  es.mapM (fun e => match e with
    | .geometry g => .ok g
    | .pair _ _ => .error .typeError)

/-- feature_index.py L43-56 (the tuples are built in L54); `find` is the property accessor, if any, `world` the feature's own geometry. -/
def buildIndex {G F : Type} (useImage : Bool) (find : Option (F → Except PyErr (Option G))) (world : F → Except PyErr G) (fs : List F) :
    Except PyErr (List (Option G)) :=
  match useImage, find with
  | true, some find => do
    let gs ← fs.mapM find
    treeInput (F := F) (gs.map .geometry)
  | _, _ => do
    let es ← fs.mapM (fun f => do
      let g ← world f
      pure (Entry.pair g f))
    treeInput es

/-- `self.features[i]` for every index.  `feature_index.py` L58-69. -/
def pick {F : Type} (fs : List F) (is : List Nat) : Except PyErr (List F) :=
  is.mapM (fun i => match fs[i]? with
    | some f => .ok f
    | none => .error .indexError)

/-- feature_index.py L58-60 -/
def findIntersects {G F : Type} (T : StrTree G) (fs : List F) (index : List (Option G)) (g : G) : Except PyErr (List F) :=
  pick fs (T.intersecting index g)

/-- feature_index.py L62-69 -/
def findNearest {G F : Type} (T : StrTree G) (useImage : Bool) (fs : List F) (index : List (Option G)) (g : G) (maxDistance : Option ℚ) :
    Except PyErr (List F) :=
  pick fs (T.nearest index g (maxDistance.getD (if useImage then 50 else 1)))

end Verif.Features
