import Mathlib.LinearAlgebra.Matrix.NonsingularInverse
import Mathlib.Algebra.Order.Floor.Ring
import Verif.Model.Rpc
import Verif.Model.PyList

/-!
# Model of `replacement_sensor_model.py`

Exact real arithmetic; the conversion between geodetic and geocentric coordinates (pyproj) and the
minimiser are parameters.
-/

namespace Verif.Rsm

open Verif.Sensors Verif.Rpc
open Verif.Dem (Geo)

/-- replacement_sensor_model.py L59-77 -/
inductive Form
  | geodetic
  | geodetic2pi
  | rectangular
deriving DecidableEq

/-- Three numbers: the `coordinate` of `coordinates.py` L9-55. -/
abbrev Vec := Fin 3 → ℝ
/-- `rectangular_coordinate_unit_vectors` (`replacement_sensor_model.py` L125) -/
abbrev Mat := Matrix (Fin 3) (Fin 3) ℝ

/-- The components of a `GeodeticWorldCoordinate` as a vector and back.  `replacement_sensor_model.py` L175-182, L217-224. -/
def vecOf (g : Geo ℝ) : Vec := ![g.longitude, g.latitude, g.elevation]
/-- A vector as coordinate (`replacement_sensor_model.py` L217-228). -/
def geoOf (v : Vec) : Geo ℝ := ⟨v 0, v 1, v 2⟩

/-- coordinates.py L233-275: `geodetic_to_geocentric` and `geocentric_to_geodetic` (pyproj). -/
structure Earth where
  toEcef : Geo ℝ → Vec
  ofEcef : Vec → Geo ℝ

/-- `np.linalg.inv`.  `replacement_sensor_model.py` L126. -/
noncomputable def matInv (m : Mat) : Except PyErr Mat := if m.det = 0 then .error .linAlgError else .ok m⁻¹

/-- replacement_sensor_model.py L121-127: the attributes of a ground domain that the conversions
use; the two matrices are there together or not at all. -/
structure Frame where
  form : Form
  origin : Option Vec
  axes : Option (Mat × Mat)

/-- Python's `x % m` for a positive `m`.  `replacement_sensor_model.py` L188. -/
noncomputable def pyMod (x m : ℝ) : ℝ := x - m * ⌊x / m⌋

/-- replacement_sensor_model.py L153-197 -/
noncomputable def Frame.toDomain (earth : Earth) (f : Frame) (g : Geo ℝ) : Except PyErr Vec :=
  match f.form with
  | .rectangular =>
    match f.origin, f.axes with
    | some o, some (m, _) => .ok (m.mulVec (fun i => earth.toEcef g i - o i))
    | _, _ => .error .typeError
  | .geodetic2pi => .ok ![pyMod (g.longitude + 2 * Real.pi) (2 * Real.pi), g.latitude, g.elevation]
  | .geodetic => .ok (vecOf g)

/-- replacement_sensor_model.py L199-230 -/
noncomputable def Frame.toGeodetic (earth : Earth) (f : Frame) (v : Vec) : Except PyErr (Geo ℝ) :=
  match f.form with
  | .rectangular =>
    match f.origin, f.axes with
    | some o, some (_, mi) => .ok (earth.ofEcef (fun i => mi.mulVec v i + o i))
    | _, _ => .error .typeError
  | _ => .ok (geoOf v)

/-- The corners of the bounding box: lower left, upper right.  `replacement_sensor_model.py` L135-141. -/
abbrev Box := (ℝ × ℝ) × ℝ × ℝ

/-- replacement_sensor_model.py L136-141, one vertex; `none` is the box of infinities. -/
def grow (b : Option Box) (g : Geo ℝ) : Option Box :=
  match b with
  | none => some ((g.longitude, g.latitude), g.longitude, g.latitude)
  | some b => some ((min b.1.1 g.longitude, min b.1.2 g.latitude), max b.2.1 g.longitude, max b.2.2 g.latitude)

/-- A constructed `RSMGroundDomain`.  `replacement_sensor_model.py` L80-151. -/
structure GroundDomain where
  frame : Frame
  vertices : List (Geo ℝ)
  bbox : Option Box
  defaultHeight : ℝ

/-- replacement_sensor_model.py L129-151 -/
noncomputable def describeDomain (earth : Earth) (frame : Frame) (vertices : List Vec) (reference : Option Vec) :
    Except PyErr GroundDomain := do
  let geodetic ← vertices.mapM (frame.toGeodetic earth)
  let sum := geodetic.foldl (fun s g => s + g.elevation) 0
  let bbox := geodetic.foldl grow none
  match reference with
  | some v => do
    let g ← frame.toGeodetic earth v
    return ⟨frame, geodetic, bbox, g.elevation⟩
  | none => return ⟨frame, geodetic, bbox, sum / geodetic.length⟩

/-- replacement_sensor_model.py L111-151 -/
noncomputable def groundDomain (earth : Earth) (form : Form) (vertices : List Vec) (origin : Option Vec) (units : Option Mat)
    (reference : Option Vec) : Except PyErr GroundDomain := do
  if vertices.length ≠ 8 then throw .valueError
  if form = .rectangular ∧ (origin = none ∨ units.isNone) then throw .valueError
  let axes ← (match units with
    | none => Except.ok none
    | some m => (matInv m).map (fun mi => some (m, mi)))
  describeDomain earth ⟨form, origin, axes⟩ vertices reference

/-! ## Polynomials -/

/-- `RSMPolynomial`.  `replacement_sensor_model.py` L258-293. -/
structure RsmPoly (K : Type) where
  px : Int
  py : Int
  pz : Int
  coefficients : List K

section
variable {K : Type} [Field K]

/-- replacement_sensor_model.py L265-293 -/
def polynomial (px py pz : Int) (coefficients : List K) : Except PyErr (RsmPoly K) :=
  if (coefficients.length : Int) ≠ (px + 1) * (py + 1) * (pz + 1) then .error .valueError
  else .ok ⟨px, py, pz, coefficients⟩

/-- `range(n)`.  `replacement_sensor_model.py` L309-311. -/
def range (n : Int) : List Nat := List.range n.toNat

/-- replacement_sensor_model.py L305-320: three nested loops over a running index. -/
def RsmPoly.evaluate (p : RsmPoly K) (x y z : K) : Except PyErr K := do
  let r ← (range (p.pz + 1)).foldlM (fun st k =>
    (range (p.py + 1)).foldlM (fun st j =>
      (range (p.px + 1)).foldlM (fun st i => do
        let a ← pyGet p.coefficients (st.2 : Nat)
        pure (st.1 + a * x ^ i * y ^ j * z ^ k, st.2 + 1)) st) st) ((0 : K), (0 : Nat))
  pure r.1

/-- replacement_sensor_model.py L340-352 -/
def lowOrderPolynomial (c : List K) : Except PyErr (List K) :=
  if c.length ≠ 10 then .error .valueError else .ok c

/-- replacement_sensor_model.py L354-374 -/
def lowOrder (c : List K) (x y z : K) : Except PyErr K :=
  match c with
  | c0 :: c1 :: c2 :: c3 :: c4 :: c5 :: c6 :: c7 :: c8 :: c9 :: _ =>
    .ok (0 + c0 + c1 * x + c2 * y + c3 * z + c4 * x * x + c5 * x * y + c6 * x * z + c7 * y * y + c8 * y * z + c9 * z * z)
  | _ => .error .indexError

end

/-! ## The polynomial sensor model -/

/-- replacement_sensor_model.py L411-470 -/
structure PolyModel where
  domain : GroundDomain
  rowSection : Int
  colSection : Int
  rowOff : ℝ
  colOff : ℝ
  xOff : ℝ
  yOff : ℝ
  zOff : ℝ
  rowScale : ℝ
  colScale : ℝ
  xScale : ℝ
  yScale : ℝ
  zScale : ℝ
  rowNum : RsmPoly ℝ
  rowDen : RsmPoly ℝ
  colNum : RsmPoly ℝ
  colDen : RsmPoly ℝ

/-- replacement_sensor_model.py L640-652 -/
noncomputable def norm1 (value offset scale : ℝ) : Except Fail ℝ := npDiv (value - offset) scale

/-- replacement_sensor_model.py L654-666 -/
def denorm1 (value offset scale : ℝ) : ℝ := value * scale + offset

/-- replacement_sensor_model.py L586-598 -/
noncomputable def PolyModel.normalizeWorld (m : PolyModel) (v : Vec) : Except Fail Vec := do
  let x ← norm1 (v 0) m.xOff m.xScale
  let y ← norm1 (v 1) m.yOff m.yScale
  let z ← norm1 (v 2) m.zOff m.zScale
  pure ![x, y, z]

/-- replacement_sensor_model.py L600-612 -/
def PolyModel.denormalizeWorld (m : PolyModel) (v : Vec) : Vec :=
  ![denorm1 (v 0) m.xOff m.xScale, denorm1 (v 1) m.yOff m.yScale, denorm1 (v 2) m.zOff m.zScale]

/-- replacement_sensor_model.py L614-624; image coordinates are (column, row). -/
noncomputable def PolyModel.normalizeImage (m : PolyModel) (p : ℝ × ℝ) : Except Fail (ℝ × ℝ) := do
  let line ← norm1 p.2 m.rowOff m.rowScale
  let samp ← norm1 p.1 m.colOff m.colScale
  pure (samp, line)

/-- replacement_sensor_model.py L626-638 -/
def PolyModel.denormalizeImage (m : PolyModel) (p : ℝ × ℝ) : ℝ × ℝ :=
  (denorm1 p.1 m.colOff m.colScale, denorm1 p.2 m.rowOff m.rowScale)

/-- replacement_sensor_model.py L568-584.  (A polynomial without terms has the Python value 0.0
instead of a NumPy one, so 0/0 of two of these would raise `ZeroDivisionError`; not modelled.) -/
noncomputable def PolyModel.domainToImage (m : PolyModel) (v : Vec) : Except Fail (ℝ × ℝ) := do
  let n ← m.normalizeWorld v
  let row ← npDiv (← raise (m.rowNum.evaluate (n 0) (n 1) (n 2))) (← raise (m.rowDen.evaluate (n 0) (n 1) (n 2)))
  let col ← npDiv (← raise (m.colNum.evaluate (n 0) (n 1) (n 2))) (← raise (m.colDen.evaluate (n 0) (n 1) (n 2)))
  pure (m.denormalizeImage (col, row))

/-- replacement_sensor_model.py L472-485 -/
noncomputable def PolyModel.worldToImage (earth : Earth) (m : PolyModel) (g : Geo ℝ) : Except Fail (ℝ × ℝ) := do
  let v ← raise (m.domain.frame.toDomain earth g)
  m.domainToImage v

/-- replacement_sensor_model.py L487-566, with the log of the search. -/
noncomputable def PolyModel.locate (earth : Earth) (minimise : Minimiser) (m : PolyModel) (p : ℝ × ℝ) (e : Option (Elev ℝ))
    (o : Option (Dict ℝ)) : List (Geo ℝ) × Except Fail (Geo ℝ) :=
  match m.domain.vertices[0]?, m.domain.vertices[3]? with
  | some v1, some v4 =>
    searchImageToWorld minimise m.domain.bbox (m.worldToImage earth) (constantElevation m.domain.defaultHeight)
      ((v1.longitude + v4.longitude) / 2, (v1.latitude + v4.latitude) / 2)
      (Real.sqrt ((v1.longitude - v4.longitude) ^ 2 + (v1.latitude - v4.latitude) ^ 2)) p e o
  | _, _ => ([], .error (.raised .indexError))

/-- `RSMPolynomialSensorModel` (`replacement_sensor_model.py` L405-566) -/
noncomputable def PolyModel.model (earth : Earth) (minimise : Minimiser) (m : PolyModel) : SensorModel ℝ (Dict ℝ) where
  imageToWorld := fun p e o => (m.locate earth minimise p e o).2
  worldToImage := m.worldToImage earth

/-! ## The sectioned model -/

/-- replacement_sensor_model.py L677-710 -/
structure Sectioned where
  frame : Frame
  minRow : Int
  minCol : Int
  rowSections : Int
  colSections : Int
  rowSize : ℝ
  colSize : ℝ
  rowPoly : List ℝ
  colPoly : List ℝ
  sections : List (List (SensorModel ℝ (Dict ℝ)))

/-- `floor` of a quotient of NumPy floats: `floor(inf)` raises `OverflowError`, `floor(nan)`
`ValueError`.  `replacement_sensor_model.py` L772, L778. -/
noncomputable def floorDiv (a b : ℝ) : Except PyErr Int :=
  if b = 0 then (if a = 0 then .error .valueError else .error .overflowError) else .ok ⌊a / b⌋

/-- replacement_sensor_model.py L772-776, L778-782 -/
noncomputable def sectionIndex (v : ℝ) (start : Int) (size : ℝ) (count : Int) : Except PyErr Int := do
  let i ← floorDiv (v - start) size
  if i < 0 then pure 0
  else if i ≥ count then pure (count - 1)
  else pure i

/-- replacement_sensor_model.py L760-784: (column, row) -/
noncomputable def Sectioned.index (s : Sectioned) (p : ℝ × ℝ) : Except PyErr (Int × Int) := do
  let row ← sectionIndex p.2 s.minRow s.rowSize s.rowSections
  let col ← sectionIndex p.1 s.minCol s.colSize s.colSections
  pure (col, row)

/-- `self.section_sensor_models[row][column]`.  `replacement_sensor_model.py` L731, L755. -/
noncomputable def Sectioned.select (s : Sectioned) (p : ℝ × ℝ) : Except PyErr (SensorModel ℝ (Dict ℝ)) := do
  let (col, row) ← s.index p
  let line ← pyGet s.sections row
  pyGet line col

/-- replacement_sensor_model.py L712-758 -/
noncomputable def Sectioned.model (earth : Earth) (s : Sectioned) : SensorModel ℝ (Dict ℝ) where
  worldToImage := fun g => do
    let v ← raise (s.frame.toDomain earth g)
    let row ← raise (lowOrder s.rowPoly (v 0) (v 1) (v 2))
    let col ← raise (lowOrder s.colPoly (v 0) (v 1) (v 2))
    let m ← raise (s.select (col, row))
    m.worldToImage g
  imageToWorld := fun p e o => do
    let m ← raise (s.select p)
    m.imageToWorld p e o

end Verif.Rsm
