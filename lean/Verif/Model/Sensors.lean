import Verif.Model.Transforms
import Verif.Model.Dem

/-!
# Model of the simple sensor models

`chipped_image_sensor_model.py`, `gdal_sensor_model.py`, `projective_sensor_model.py`
and `composite_sensor_model.py`, in exact arithmetic.
-/

namespace Verif.Sensors

open Verif.Transforms
open Verif.Dem (Geo)

/-- Why there is no coordinate: an exception, or infinities/NaN from a division by zero
(NumPy returns those; what later code makes of them is not modelled).  `transforms.py` L39-40, L55-60. -/
inductive Fail
  | raised (e : PyErr)
  | notFinite
deriving DecidableEq

/-- `ElevationModel.set_elevation` (elevation_model.py L33-41) as a function of the coordinate. -/
abbrev Elev (K : Type) := Geo K → Except Fail (Geo K)

/-- `if elevation_model: elevation_model.set_elevation(...)`.  `gdal_sensor_model.py` L94-95, `projective_sensor_model.py` L57-58. -/
def withElevation {K : Type} (e : Option (Elev K)) (g : Geo K) : Except Fail (Geo K) :=
  match e with
  | none => .ok g
  | some f => f g

/-- elevation_model.py L53-77: `ConstantElevationModel`. -/
def constantElevation {K : Type} (z : K) : Elev K := fun g => .ok { g with elevation := z }

/-- sensor_model.py L14-52: the interface; `O` is the type of option dictionaries. -/
structure SensorModel (K O : Type) where
  imageToWorld : K × K → Option (Elev K) → Option O → Except Fail (Geo K)
  worldToImage : Geo K → Except Fail (K × K)

section
variable {K O : Type} [Field K] [LinearOrder K]

/-- A point that may be at infinity.  `transforms.py` L39-40, L55-60. -/
def finite {α : Type} : Option α → Except Fail α
  | none => .error .notFinite
  | some a => .ok a

/-- `ProjectiveTransform.estimate(np.vstack(src), np.vstack(dst))`: `vstack` of nothing and lists
of different lengths raise `ValueError` (different lengths at the latest when the columns of
the coefficient matrix are multiplied; a single destination would be broadcast, which is
not modelled).  `projective_sensor_model.py` L37, `chipped_image_sensor_model.py` L43. -/
def estimateStacked (lstsq : List (Row K) → Projective K) (src dst : List (K × K)) : Except PyErr (Projective K) :=
  if src = [] ∨ dst = [] ∨ src.length ≠ dst.length then .error .valueError
  else .ok (estimate lstsq (src.zip dst))

/-- chipped_image_sensor_model.py L20-79. -/
def chipped (lstsq : List (Row K) → Projective K) (original chip : List (K × K)) (full : SensorModel K O) :
    Except PyErr (SensorModel K O) :=
  match estimateStacked lstsq original chip with
  | .error e => .error e
  | .ok t => .ok {
      imageToWorld := fun p e o => do
        let q ← finite (t.inverse p)
        full.imageToWorld q e o
      worldToImage := fun g => do
        let q ← full.worldToImage g
        finite (t.forward q) }

/-- projective_sensor_model.py L19-72. -/
def projective (lstsq : List (Row K) → Projective K) (world : List (Geo K)) (image : List (K × K)) :
    Except PyErr (SensorModel K O) :=
  match estimateStacked lstsq (world.map (fun g => (g.longitude, g.latitude))) image with
  | .error e => .error e
  | .ok t => .ok {
      imageToWorld := fun p e _ => do
        let q ← finite (t.inverse p)
        withElevation e ⟨q.1, q.2, 0⟩
      worldToImage := fun g => finite (t.forward (g.longitude, g.latitude)) }

/-- A `pyproj.Transformer` (external): forward and inverse on triples.  `gdal_sensor_model.py` L57-59. -/
structure Crs (K : Type) where
  fwd : K × K × K → Except Fail (K × K × K)
  inv : K × K × K → Except Fail (K × K × K)

/-- The first two rows of a 3×3 matrix with last row `(0, 0, 1)`.  `gdal_sensor_model.py` L45-51. -/
structure Affine (K : Type) where
  m00 : K
  m01 : K
  m02 : K
  m10 : K
  m11 : K
  m12 : K

/-- `np.matmul(m, (x, y, z))`, first two components; the third one is `z`.  `gdal_sensor_model.py` L82, L122. -/
def Affine.apply (m : Affine K) (x y z : K) : K × K :=
  (m.m00 * x + m.m01 * y + m.m02 * z, m.m10 * x + m.m11 * y + m.m12 * z)

/-- `np.linalg.inv`: in exact arithmetic it raises `LinAlgError` exactly for a singular matrix.  `gdal_sensor_model.py` L53. -/
def Affine.inv (m : Affine K) : Except PyErr (Affine K) :=
  let d := m.m00 * m.m11 - m.m01 * m.m10
  if d = 0 then .error .linAlgError
  else .ok ⟨m.m11 / d, -m.m01 / d, (m.m01 * m.m12 - m.m02 * m.m11) / d,
    -m.m10 / d, m.m00 / d, (m.m02 * m.m10 - m.m00 * m.m12) / d⟩

/-- `math.degrees` and `math.radians`.  `gdal_sensor_model.py` L93, L113-121. -/
structure Angles (K : Type) where
  deg : K → K
  rad : K → K

/-- gdal_sensor_model.py L30-62: fewer than six coefficients raise
`IndexError`, a singular matrix `ValueError`. -/
def affineMatrix (geo : List K) : Except PyErr (Affine K × Affine K) :=
  match geo with
  | g0 :: g1 :: g2 :: g3 :: g4 :: g5 :: _ =>
    let m : Affine K := ⟨g1, g2, g0, g4, g5, g3⟩
    match m.inv with
    | .error .linAlgError => .error .valueError
    | .error e => .error e
    | .ok i => .ok (m, i)
  | _ => .error .indexError

/-- gdal_sensor_model.py L64-123: `GDALAffineSensorModel`.  The third component that is
passed through the CRS transform is the homogeneous 1.0. -/
def gdalAffine (an : Angles K) (geo : List K) (crs : Option (Crs K)) : Except PyErr (SensorModel K O) :=
  match affineMatrix geo with
  | .error e => .error e
  | .ok (m, i) => .ok {
      imageToWorld := fun p e _ => do
        let (x, y) := m.apply p.1 p.2 1
        let (lon, lat, _) ← (match crs with
          | none => Except.ok (x, y, 1)
          | some c => c.fwd (x, y, 1))
        withElevation e ⟨an.rad lon, an.rad lat, 0⟩
      worldToImage := fun g => do
        let (x, y, z) ← (match crs with
          | none => Except.ok (an.deg g.longitude, an.deg g.latitude, (1 : K))
          | some c => c.inv (an.deg g.longitude, an.deg g.latitude, 1))
        pure (i.apply x y z) }

end

/-! ## The composite model, with dictionaries as objects that can be shared -/

/-- Option values: a list of two numbers, a number, or anything else.  `composite_sensor_model.py` L51-55. -/
inductive OptVal (K : Type)
  | pair (a b : K)
  | num (x : K)
  | other (n : Nat)
deriving DecidableEq

/-- A dictionary.  `composite_sensor_model.py` L50. -/
abbrev Dict (K : Type) := String → Option (OptVal K)

/-- The dictionaries in memory; a reference is an index (`composite_sensor_model.py` L50-57). -/
abbrev Heap (K : Type) := List (Dict K)

/-- `d[key] = v` on the dictionary with reference `r`.  `composite_sensor_model.py` L51-55. -/
def Heap.put {K : Type} (h : Heap K) (r : Nat) (key : String) (v : OptVal K) : Heap K :=
  h.modify r (fun d => fun k => if k = key then some v else d k)

/-- A sensor model that gets its options by reference and may write to memory.  `sensor_model.py` L25-52. -/
structure HeapModel (K : Type) where
  imageToWorld : K × K → Option (Elev K) → Option Nat → Heap K → Except Fail (Geo K) × Heap K
  worldToImage : Geo K → Except Fail (K × K)

/-- composite_sensor_model.py L50-55: the options object for the precision model. -/
def updatedOptions {K : Type} (rad0005 : K) (g : Geo K) (options : Option Nat) (h : Heap K) : Option (Nat × Heap K) :=
  let copied : Option (Dict K) :=
    match options with
    | none => some (fun _ => none)
    | some r => h[r]?
  match copied with
  | none => none
  | some d =>
    let ref := h.length
    let h := h ++ [d]
    let h := h.put ref "initial_guess" (.pair g.longitude g.latitude)
    let h := h.put ref "initial_search_distance" (.num rad0005)
    some (ref, h)

/-- composite_sensor_model.py L17-69.  (A dangling reference cannot occur in Python.) -/
def composite {K : Type} (rad0005 : K) (approximate precision : HeapModel K) : HeapModel K where
  imageToWorld := fun p e options h =>
    match approximate.imageToWorld p e options h with
    | (.error f, h) => (.error f, h)
    | (.ok g, h) =>
      match updatedOptions rad0005 g options h with
      | none => (.error (.raised .attributeError), h)
      | some (ref, h) => precision.imageToWorld p e (some ref) h
  worldToImage := precision.worldToImage

end Verif.Sensors
