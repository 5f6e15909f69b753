import Verif.Model.Features

/-!
# Geolocation with the grid that is computed from the sensor model

`/repo/src/aws/osml/features/geolocation.py` from end to end: `Verif.Features.geolocateFeatures` has the grid as a parameter, here it is
computed.  Numbers are exact.  Simplified: an elevation model does not raise.
-/

namespace Verif.GeolocationGrid

open Verif Verif.Features

/-- geolocation.py L94-114: the attributes of a `Geolocator`.  `toWorld` is `sensor_model.image_to_world(…, elevation_model=…)` (longitude and
latitude in radians, elevation), `elevation` the elevation that the elevation model sets at a longitude and latitude, if it has one there,
`degrees` is `math.degrees`, `rounded` the rounding to six digits of a `geojson` geometry. -/
structure Geolocator where
  toWorld : Pos → Except PyErr (ℚ × ℚ × ℚ)
  elevation : Option (ℚ → ℚ → Option ℚ)
  degrees : ℚ → ℚ
  rounded : ℚ → ℚ
  size : Nat

/-- geolocation.py L46-47 (`np.linspace`): node `k` of `n`. -/
def linspace (a b : ℚ) (n : Nat) (k : Nat) : ℚ := a + k * ((b - a) / ((n : ℚ) - 1))

/-- geolocation.py L52-53: the nodes in the order of the two loops. -/
def nodes (area : Bounds) (n : Nat) : List Pos :=
  (List.range n).flatMap (fun i => (List.range n).map (fun j => (linspace area.x0 area.x1 n i, linspace area.y0 area.y1 n j)))

/-- geolocation.py L48-58: the sensor model at the nodes. -/
def nodeValues (G : Geolocator) (area : Bounds) : Except PyErr (List (ℚ × ℚ × ℚ)) := (nodes area G.size).mapM G.toWorld

/-- geolocation.py L59-65 and L77-81 for one of the three values: the values as an array with a row per x, and the spline. -/
def spline (area : Bounds) (n : Nat) (zs : List ℚ) (p : Pos) : ℚ :=
  interp area.x0 ((area.x1 - area.x0) / ((n : ℚ) - 1)) (n - 1) (fun i =>
    interp area.y0 ((area.y1 - area.y0) / ((n : ℚ) - 1)) (n - 1) (fun j => (zs[i * n + j]?).getD 0) p.2) p.1

/-- geolocation.py L68-85: `LocationGridInterpolator.__call__`. -/
def locate (G : Geolocator) (area : Bounds) (zs : List (ℚ × ℚ × ℚ)) (p : Pos) : ℚ × ℚ × ℚ :=
  let lon := spline area G.size (zs.map (fun z => z.1)) p
  let lat := spline area G.size (zs.map (fun z => z.2.1)) p
  let h := spline area G.size (zs.map (fun z => z.2.2)) p
  match G.elevation with
  | none => (lon, lat, h)
  | some e => (lon, lat, (e lon lat).getD h)

/-- geolocation.py L268-285: `radians_coordinate_to_degrees`. -/
def inDegrees (G : Geolocator) (w : ℚ × ℚ × ℚ) : ℚ × ℚ × ℚ := (G.degrees w.1, G.degrees w.2.1, w.2.2)

/-- The position as a `geojson` geometry keeps it.  `geolocation.py` L222-266. -/
def inGeojson (G : Geolocator) (w : ℚ × ℚ × ℚ) : ℚ × ℚ × ℚ :=
  (G.rounded (G.degrees w.1), G.rounded (G.degrees w.2.1), G.rounded w.2.2)

/-- geolocation.py L116-220: `geolocate_features`.  The spline needs two nodes in each direction. -/
def geolocateWith (S : Shapely) (dep : Bool) (centroid : Geom Pos → Pos) (G : Geolocator) (fs : List Feature) : Except PyErr (List Feature) :=
  match fs with
  | [] => .ok []
  | _ => do
    match ← foldBounds S dep fs with
    | none => .error .valueError
    | some b =>
      let zs ← nodeValues G (gridArea b)
      if G.size < 2 then .error .valueError
      else fs.mapM (locateFeature S dep centroid (fun p => inDegrees G (locate G (gridArea b) zs p)) (fun p => inGeojson G (locate G (gridArea b) zs p)))

end Verif.GeolocationGrid
