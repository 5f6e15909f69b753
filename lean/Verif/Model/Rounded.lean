import Mathlib.Data.Int.Log
import Verif.Model.Rsm
import Verif.Model.Float64

/-!
# RPC and RSM models in double arithmetic

Model/Rpc.lean and Model/Rsm.lean describe the code over the real numbers.  Here each arithmetic operation is the
exact operation followed by a rounding function `rnd`, in the order of the code.  Overflow is not modelled.
The power function is a parameter `pow`.
-/

namespace Verif.Rounded

open Verif.Sensors Verif.Rpc
open Verif.Dem (Geo)

/-- C `rint` on the real numbers: nearest integer, ties to even.  Part of every float operation in `rpc_sensor_model.py` and `replacement_sensor_model.py`. -/
noncomputable def rint (x : ℝ) : Int :=
  let f := ⌊x⌋
  if x - f < 1 / 2 then f
  else if 1 / 2 < x - f then f + 1
  else if f % 2 = 0 then f else f + 1

/-- The exponent of the last bit of the binary64 number nearest to `x ≠ 0`.
Part of every float operation in `rpc_sensor_model.py` and `replacement_sensor_model.py`. -/
noncomputable def ulpExp (x : ℝ) : Int := max (Int.log 2 |x| - 52) (-1074)

/-- IEEE-754 binary64 rounding of a real number to nearest, ties to even, for values below the overflow
threshold.  (On rational numbers this is `Float64.rne64`.)  Part of every float operation in `rpc_sensor_model.py` and `replacement_sensor_model.py`. -/
noncomputable def double (x : ℝ) : ℝ := if x = 0 then 0 else rint (x / 2 ^ ulpExp x) * 2 ^ ulpExp x

/-- C-Python `math.degrees`: multiplication by the double `180.0 / pi`.  `rpc_sensor_model.py` L165-166. -/
noncomputable def degrees (rnd : ℝ → ℝ) (x : ℝ) : ℝ := rnd (x * rnd (180 / (Verif.Float64.piDouble : ℝ)))

/-- Division of Python floats.  `rpc_sensor_model.py` L165-166. -/
noncomputable def pyDiv (rnd : ℝ → ℝ) (a b : ℝ) : Except Fail ℝ :=
  if b = 0 then .error (.raised .zeroDivisionError) else .ok (rnd (a / b))

/-- Division of NumPy floats.  `rpc_sensor_model.py` L167-172, `replacement_sensor_model.py` L652. -/
noncomputable def npDiv (rnd : ℝ → ℝ) (a b : ℝ) : Except Fail ℝ := if b = 0 then .error .notFinite else .ok (rnd (a / b))

/-- rpc_sensor_model.py L38-64: the terms one after the other are multiplied from left to right and
added to the result. -/
def rpcPolynomial (rnd : ℝ → ℝ) (coefficients : List ℝ) (l p h : ℝ) : Except PyErr ℝ :=
  let m1 := fun a b => rnd (a * b)
  let m2 := fun a b c => m1 (m1 a b) c
  let m3 := fun a b c d => m1 (m2 a b c) d
  match coefficients with
  | c0 :: c1 :: c2 :: c3 :: c4 :: c5 :: c6 :: c7 :: c8 :: c9 :: c10 :: c11 :: c12 :: c13 :: c14 :: c15 :: c16 :: c17 ::
      c18 :: c19 :: _ =>
    .ok ([c0, m1 c1 l, m1 c2 p, m1 c3 h, m2 c4 l p, m2 c5 l h, m2 c6 p h, m2 c7 l l, m2 c8 p p, m2 c9 h h, m3 c10 l p h,
      m3 c11 l l l, m3 c12 l p p, m3 c13 l h h, m3 c14 l l p, m3 c15 p p p, m3 c16 p h h, m3 c17 l l h, m3 c18 p p h,
      m3 c19 h h h].foldl (fun result term => rnd (result + term)) 0)
  | _ => .error .indexError

/-- rpc_sensor_model.py L151-177 -/
noncomputable def rpcWorldToImage (rnd : ℝ → ℝ) (r : RpcModel) (g : Geo ℝ) : Except Fail (ℝ × ℝ) := do
  let l ← pyDiv rnd (rnd (degrees rnd g.longitude - r.longOff)) r.longScale
  let p ← pyDiv rnd (rnd (degrees rnd g.latitude - r.latOff)) r.latScale
  let h ← npDiv rnd (rnd (g.elevation - r.heightOff)) r.heightScale
  let cn ← npDiv rnd (← raise (rpcPolynomial rnd r.sampNum l p h)) (← raise (rpcPolynomial rnd r.sampDen l p h))
  let rn ← npDiv rnd (← raise (rpcPolynomial rnd r.lineNum l p h)) (← raise (rpcPolynomial rnd r.lineDen l p h))
  .ok (rnd (rnd (cn * r.sampScale) + r.sampOff), rnd (rnd (rn * r.lineScale) + r.lineOff))

open Verif.Rsm

/-- replacement_sensor_model.py L305-320: each term is multiplied from left to right and added to the result. -/
def rsmEvaluate (rnd : ℝ → ℝ) (pow : ℝ → Nat → ℝ) (p : RsmPoly ℝ) (x y z : ℝ) : Except PyErr ℝ := do
  let r ← (range (p.pz + 1)).foldlM (fun st k =>
    (range (p.py + 1)).foldlM (fun st j =>
      (range (p.px + 1)).foldlM (fun st i => do
        let a ← pyGet p.coefficients (st.2 : Nat)
        pure (rnd (st.1 + rnd (rnd (rnd (a * pow x i) * pow y j) * pow z k)), st.2 + 1)) st) st) ((0 : ℝ), (0 : Nat))
  pure r.1

/-- replacement_sensor_model.py L640-652 -/
noncomputable def norm1 (rnd : ℝ → ℝ) (value offset scale : ℝ) : Except Fail ℝ := npDiv rnd (rnd (value - offset)) scale

/-- replacement_sensor_model.py L654-666 -/
def denorm1 (rnd : ℝ → ℝ) (value offset scale : ℝ) : ℝ := rnd (rnd (value * scale) + offset)

/-- replacement_sensor_model.py L568-598, L626-638: `ground_domain_to_image`; (column, row). -/
noncomputable def rsmDomainToImage (rnd : ℝ → ℝ) (pow : ℝ → Nat → ℝ) (m : PolyModel) (v : Vec) : Except Fail (ℝ × ℝ) := do
  let x ← norm1 rnd (v 0) m.xOff m.xScale
  let y ← norm1 rnd (v 1) m.yOff m.yScale
  let z ← norm1 rnd (v 2) m.zOff m.zScale
  let row ← npDiv rnd (← raise (rsmEvaluate rnd pow m.rowNum x y z)) (← raise (rsmEvaluate rnd pow m.rowDen x y z))
  let col ← npDiv rnd (← raise (rsmEvaluate rnd pow m.colNum x y z)) (← raise (rsmEvaluate rnd pow m.colDen x y z))
  pure (denorm1 rnd col m.colOff m.colScale, denorm1 rnd row m.rowOff m.rowScale)

/-! ## Affine models -/

/-- C-Python `math.radians`: multiplication by the double `pi / 180.0`.  `rpc_sensor_model.py` L215-221. -/
noncomputable def radians (rnd : ℝ → ℝ) (x : ℝ) : ℝ := rnd (x * rnd ((Verif.Float64.piDouble : ℝ) / 180))

/-- gdal_sensor_model.py L45-53: the first two rows of `transform`, and those of the matrix that `np.linalg.inv` returns for it. -/
structure Affine where
  row0 : ℝ × ℝ × ℝ
  row1 : ℝ × ℝ × ℝ
  inv0 : ℝ × ℝ × ℝ
  inv1 : ℝ × ℝ × ℝ

/-- gdal_sensor_model.py L81-93 without a projection: (longitude, latitude).  A component of `np.matmul` is an inner product `dot`; the order of
its operations is not known. -/
noncomputable def Affine.imageToWorld (rnd : ℝ → ℝ) (dot : ℝ × ℝ × ℝ → ℝ × ℝ × ℝ → ℝ) (A : Affine) (p : ℝ × ℝ) : ℝ × ℝ :=
  (radians rnd (dot A.row0 (p.1, p.2, 1)), radians rnd (dot A.row1 (p.1, p.2, 1)))

/-- gdal_sensor_model.py L120-123 without a projection. -/
noncomputable def Affine.worldToImage (rnd : ℝ → ℝ) (dot : ℝ × ℝ × ℝ → ℝ × ℝ × ℝ → ℝ) (A : Affine) (g : ℝ × ℝ) : ℝ × ℝ :=
  (dot A.inv0 (degrees rnd g.1, degrees rnd g.2, 1), dot A.inv1 (degrees rnd g.1, degrees rnd g.2, 1))

/-! ## Elevations -/

open Verif.Dem (Posts clamp cell)

/-- digital_elevation_model.py L124, L161-164: `RectBivariateSpline(..., kx=1, ky=1)` as FITPACK (`fpbspl`, `fpbisp`) evaluates it.  The
coefficients of a spline of degree 1 are the posts, the weight of a post is the distance to its neighbour, and the four products are added to 0 one after the other. -/
noncomputable def spline (rnd : ℝ → ℝ) (p : Posts ℝ) (x y : ℝ) : ℝ :=
  let x := clamp x p.width
  let y := clamp y p.height
  let i := cell x p.width
  let j := cell y p.height
  let u0 := rnd (i + 1 - x)
  let u1 := rnd (x - i)
  let v0 := rnd (j + 1 - y)
  let v1 := rnd (y - j)
  [rnd (rnd (p.z i j * u0) * v0), rnd (rnd (p.z i (j + 1) * u0) * v1), rnd (rnd (p.z (i + 1) j * u1) * v0),
    rnd (rnd (p.z (i + 1) (j + 1) * u1) * v1)].foldl (fun r t => rnd (r + t)) 0

/-- digital_elevation_model.py L122-124 for a tile without a projection: the elevation that `set_elevation` sets at (longitude, latitude). -/
noncomputable def demElevation (rnd : ℝ → ℝ) (dot : ℝ × ℝ × ℝ → ℝ × ℝ × ℝ → ℝ) (A : Affine) (p : Posts ℝ) (g : ℝ × ℝ) : ℝ :=
  let q := A.worldToImage rnd dot g
  spline rnd p q.1 q.2

end Verif.Rounded
