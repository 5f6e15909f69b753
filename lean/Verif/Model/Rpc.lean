import Mathlib.Analysis.Real.Sqrt
import Mathlib.Analysis.Real.Pi.Bounds
import Verif.Model.Sensors

/-!
# Model of `rpc_sensor_model.py` and `math_utils.py`

Exact real arithmetic.  The minimiser (`scipy.optimize.minimize`, Nelder-Mead) is external: an
arbitrary strategy that asks for values of the objective and finally returns a point.
-/

namespace Verif.Rpc

open Verif.Sensors
open Verif.Dem (Geo)

/-- math_utils.py L19-25 -/
noncomputable def equilateralTriangle (c : ℝ × ℝ) (size : ℝ) : List (ℝ × ℝ) :=
  let atOrigin : List (ℝ × ℝ) := [(0, size * Real.sqrt 3 / 3), (-1 * size / 2, -1 * Real.sqrt 3 / 6 * size),
    (size / 2, -1 * Real.sqrt 3 / 6 * size)]
  atOrigin.map (fun v => (c.1 + v.1, c.2 + v.2))

/-- The minimiser at work: it has finished, or it asks for the value of the objective at a
point and goes on with the answer; `none` stands for NaN or infinity.  (Finite: `maxiter` has a
default.)  `rpc_sensor_model.py` L226-235, `replacement_sensor_model.py` L538-557. -/
inductive Search
  | done (p : ℝ × ℝ)
  | ask (p : ℝ × ℝ) (next : Option ℝ → Search)

/-- `minimize(…, x0, bounds=…, options={"initial_simplex": …})`: bounds are the lower left and
the upper right corner.  `rpc_sensor_model.py` L226-235, `replacement_sensor_model.py` L538-557. -/
abbrev Minimiser := (start : ℝ × ℝ) → (bounds : Option ((ℝ × ℝ) × ℝ × ℝ)) → (simplex : List (ℝ × ℝ)) → Search

/-- Run the minimiser; the objective also reports at which world coordinates it evaluated
`world_to_image`.  An exception in the objective ends the search.  `rpc_sensor_model.py` L226-235, `replacement_sensor_model.py` L538-557. -/
def Search.run (f : ℝ × ℝ → List (Geo ℝ) × Except Fail ℝ) : Search → List (Geo ℝ) × Except Fail (ℝ × ℝ)
  | .done p => ([], .ok p)
  | .ask p next =>
    match f p with
    | (l, .error (.raised e)) => (l, .error (.raised e))
    | (l, .error .notFinite) =>
      let r := (next none).run f
      (l ++ r.1, r.2)
    | (l, .ok v) =>
      let r := (next (some v)).run f
      (l ++ r.1, r.2)

/-- rpc_sensor_model.py L202-205, L239-242; replacement_sensor_model.py L511-514, L561-564: the
default elevation, then the elevation model. -/
def onSurface (dflt : Elev ℝ) (e : Option (Elev ℝ)) (p : ℝ × ℝ) : Except Fail (Geo ℝ) := do
  let g ← dflt ⟨p.1, p.2, 0⟩
  withElevation e g

/-- rpc_sensor_model.py L201-209, replacement_sensor_model.py L510-518 -/
noncomputable def objective (worldToImage : Geo ℝ → Except Fail (ℝ × ℝ)) (dflt : Elev ℝ) (e : Option (Elev ℝ))
    (target : ℝ × ℝ) (p : ℝ × ℝ) : List (Geo ℝ) × Except Fail ℝ :=
  match onSurface dflt e p with
  | .error f => ([], .error f)
  | .ok g => ([g], (worldToImage g).map (fun q => Real.sqrt ((target.1 - q.1) ^ 2 + (target.2 - q.2) ^ 2)))

/-- `options.get(key) if options is not None else None`.  `rpc_sensor_model.py` L213, L219. -/
def hint (o : Option (Dict ℝ)) (key : String) : Option (OptVal ℝ) :=
  match o with
  | none => none
  | some d => d key

/-- rpc_sensor_model.py L213-217 (`tolist` on the value): the hint or the default; values that are
neither lists nor arrays have no `tolist`. -/
def startFrom (o : Option (Dict ℝ)) (dflt : ℝ × ℝ) : Except PyErr (ℝ × ℝ) :=
  match hint o "initial_guess" with
  | none => .ok dflt
  | some (.pair a b) => .ok (a, b)
  | some _ => .error .attributeError

/-- rpc_sensor_model.py L219-221 -/
def distanceFrom (o : Option (Dict ℝ)) (dflt : ℝ) : Except PyErr ℝ :=
  match hint o "initial_search_distance" with
  | none => .ok dflt
  | some (.num x) => .ok x
  | some _ => .error .typeError

/-- An exception of a function that gives no infinities (`rpc_sensor_model.py` L27-64). -/
def raise {α : Type} : Except PyErr α → Except Fail α
  | .error e => .error (.raised e)
  | .ok a => .ok a

/-- rpc_sensor_model.py L213-244, replacement_sensor_model.py L525-566: the whole search; also
returns the arguments of `world_to_image`. -/
noncomputable def searchImageToWorld (minimise : Minimiser) (bounds : Option ((ℝ × ℝ) × ℝ × ℝ))
    (worldToImage : Geo ℝ → Except Fail (ℝ × ℝ)) (dflt : Elev ℝ) (defaultStart : ℝ × ℝ) (defaultDistance : ℝ)
    (p : ℝ × ℝ) (e : Option (Elev ℝ)) (o : Option (Dict ℝ)) : List (Geo ℝ) × Except Fail (Geo ℝ) :=
  match startFrom o defaultStart, distanceFrom o defaultDistance with
  | .error x, _ => ([], .error (.raised x))
  | _, .error x => ([], .error (.raised x))
  | .ok start, .ok size =>
    match (minimise start bounds (equilateralTriangle start size)).run (objective worldToImage dflt e p) with
    | (l, .error f) => (l, .error f)
    | (l, .ok x) => (l, onSurface dflt e x)

/-! ## RPC -/

/-- rpc_sensor_model.py L38-64: term by term; fewer than 20 coefficients raise `IndexError`. -/
def rpcPolynomial {K : Type} [Field K] (coefficients : List K) (l p h : K) : Except PyErr K :=
  match coefficients with
  | c0 :: c1 :: c2 :: c3 :: c4 :: c5 :: c6 :: c7 :: c8 :: c9 :: c10 :: c11 :: c12 :: c13 :: c14 :: c15 :: c16 :: c17 ::
      c18 :: c19 :: _ =>
    .ok (0 + c0 + c1 * l + c2 * p + c3 * h + c4 * l * p + c5 * l * h + c6 * p * h + c7 * l * l + c8 * p * p + c9 * h * h
      + c10 * l * p * h + c11 * l * l * l + c12 * l * p * p + c13 * l * h * h + c14 * l * l * p + c15 * p * p * p
      + c16 * p * h * h + c17 * l * l * h + c18 * p * p * h + c19 * h * h * h)
  | _ => .error .indexError

/-- rpc_sensor_model.py L89-149 (without the error estimates, which nothing reads). -/
structure RpcModel where
  lineOff : ℝ
  sampOff : ℝ
  latOff : ℝ
  longOff : ℝ
  heightOff : ℝ
  lineScale : ℝ
  sampScale : ℝ
  latScale : ℝ
  longScale : ℝ
  heightScale : ℝ
  lineNum : List ℝ
  lineDen : List ℝ
  sampNum : List ℝ
  sampDen : List ℝ

/-- `math.degrees` and `math.radians`.  `rpc_sensor_model.py` L165-166. -/
noncomputable def degrees (x : ℝ) : ℝ := x * 180 / Real.pi
/-- `math.radians` in `rpc_sensor_model.py` L215, L221 -/
noncomputable def radians (x : ℝ) : ℝ := x * Real.pi / 180

/-- Division of Python floats.  `rpc_sensor_model.py` L165-166. -/
noncomputable def pyDiv (a b : ℝ) : Except Fail ℝ := if b = 0 then .error (.raised .zeroDivisionError) else .ok (a / b)

/-- Division of NumPy floats.  `rpc_sensor_model.py` L167, L171-172. -/
noncomputable def npDiv (a b : ℝ) : Except Fail ℝ := if b = 0 then .error .notFinite else .ok (a / b)

/-- rpc_sensor_model.py L151-177.  `degrees` gives Python floats, the height and the values of the
polynomials are NumPy floats. -/
noncomputable def RpcModel.worldToImage (r : RpcModel) (g : Geo ℝ) : Except Fail (ℝ × ℝ) := do
  let l ← pyDiv (degrees g.longitude - r.longOff) r.longScale
  let p ← pyDiv (degrees g.latitude - r.latOff) r.latScale
  let h ← npDiv (g.elevation - r.heightOff) r.heightScale
  let cn ← npDiv (← raise (rpcPolynomial r.sampNum l p h)) (← raise (rpcPolynomial r.sampDen l p h))
  let rn ← npDiv (← raise (rpcPolynomial r.lineNum l p h)) (← raise (rpcPolynomial r.lineDen l p h))
  .ok (cn * r.sampScale + r.sampOff, rn * r.lineScale + r.lineOff)

/-- rpc_sensor_model.py L179-244, with the log of the search. -/
noncomputable def RpcModel.locate (minimise : Minimiser) (r : RpcModel) (p : ℝ × ℝ) (e : Option (Elev ℝ)) (o : Option (Dict ℝ)) :
    List (Geo ℝ) × Except Fail (Geo ℝ) :=
  searchImageToWorld minimise none r.worldToImage (constantElevation r.heightOff) (radians r.longOff, radians r.latOff)
    (radians 0.5) p e o

/-- The RPC sensor model.  `rpc_sensor_model.py` L78-244. -/
noncomputable def RpcModel.model (minimise : Minimiser) (r : RpcModel) : SensorModel ℝ (Dict ℝ) where
  imageToWorld := fun p e o => (r.locate minimise p e o).2
  worldToImage := r.worldToImage

end Verif.Rpc
