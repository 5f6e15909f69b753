import Verif.Model.Sicd
import Verif.Model.PyList

/-!
# Model of `gdal/sicd_sensor_model_builder.py`

The state is the dataclass content; XML parsing (xsdata) is not modelled.
-/

namespace Verif.Sicd

noncomputable section

/-- `Poly1DType`: order and coefficients (exponent, value).  Read by `sicd_sensor_model_builder.py` L40-50. -/
structure Poly1 where
  order : Int
  coef : List (Int × ℝ)

/-- `Poly2DType`: orders and coefficients (exponent1, exponent2, value).  Read by `sicd_sensor_model_builder.py` L53-65. -/
structure Poly2 where
  order1 : Int
  order2 : Int
  coef : List (Int × Int × ℝ)

/-- sicd_sensor_model_builder.py L40-50 -/
def Poly1.native (p : Poly1) : Except PyErr (List ℝ) :=
  p.coef.foldlM (fun l e => pySet l e.1 e.2) (List.replicate (p.order + 1).toNat 0)

/-- `coefficients[exponent1][exponent2] = value` (L64) -/
def setCell (t : List (List ℝ)) (e : Int × Int × ℝ) : Except PyErr (List (List ℝ)) := do
  let row ← pyGet t e.1
  let row' ← pySet row e.2.1 e.2.2
  pySet t e.1 row'

/-- sicd_sensor_model_builder.py L53-65.  `np.array` of no rows has one dimension and raises in `Polynomial2D` (sicd_sensor_model.py L37-41); rows without
entries give an array of two dimensions. -/
def Poly2.native (p : Poly2) : Except PyErr (List (List ℝ)) := do
  let t ← p.coef.foldlM setCell (List.replicate (p.order1 + 1).toNat (List.replicate (p.order2 + 1).toNat 0))
  if t.isEmpty then .error .valueError else pure t

/-- `XYZPolyType`.  Read by `sicd_sensor_model_builder.py` L68-79. -/
structure XyzPoly where
  x : Poly1
  y : Poly1
  z : Poly1

/-- sicd_sensor_model_builder.py L68-79 -/
def XyzPoly.native (p : XyzPoly) : Except PyErr PolyXYZ := do
  pure ⟨← p.x.native, ← p.y.native, ← p.z.native⟩

/-- `ImageGridType`.  Compared in `sicd_sensor_model_builder.py` L141-167. -/
inductive GridType where
  | rgazim | rgzero | xrgycr | xctyat | plane
  /-- any other value -/
  | other
deriving DecidableEq

/-- `ImageFormAlgo`.  Compared in `sicd_sensor_model_builder.py` L142-151. -/
inductive Algo where
  | pfa | rma | rgazcomp | other
deriving DecidableEq

/-- The part of the `SICD` dataclass that the builder reads.  Read by `sicd_sensor_model_builder.py` L115-192. -/
structure Meta where
  scp : V3
  scpRow : ℝ
  scpCol : ℝ
  firstRow : ℝ
  firstCol : ℝ
  uRow : V3
  uCol : V3
  rowSS : ℝ
  colSS : ℝ
  timeCoa : Poly2
  arp : XyzPoly
  gridType : GridType
  algo : Algo
  /-- focus plane normal, polar angle, spatial frequency -/
  pfa : Option (V3 × Poly1 × Poly1)
  rgAzComp : Option ℝ
  /-- range at closest approach, its time, Doppler rate scale -/
  inca : Option (ℝ × Poly1 × Poly2)
  arpPos : V3
  arpVel : V3
  right : Bool

/-- The grid part and the ground plane normal (L141-177): `none` for an unknown grid type; the inner `none` is a projection set that is not there. -/
def Meta.grid (m : Meta) : Except PyErr (Option (Option Grid × Option V3)) :=
  match m.gridType with
  | .rgazim =>
    match m.algo with
    | .pfa =>
      match m.pfa with
      | none => .error .attributeError
      | some (fpn, ang, sf) => do pure (some (some (.pfa m.scp (← ang.native) (← sf.native)), some fpn))
    | .rgazcomp =>
      match m.rgAzComp with
      | none => .error .attributeError
      | some az => pure (some (some (.rgazcomp m.scp az), none))
    | _ => pure (some (none, none))
  | .rgzero =>
    match m.inca with
    | none => .error .attributeError
    | some (r, t, d) => do pure (some (some (.inca r (← t.native) (← d.native)), none))
  | .plane | .xctyat | .xrgycr => pure (some (some (.plane m.scp m.uRow m.uCol), none))
  | .other => pure none

/-- The sensor model, or the object without projection set that the code builds all the same.  `sicd_sensor_model_builder.py` L139-192. -/
inductive Built where
  | model (M : Model)
  | noProjection (conv : Converter)

/-- `from_dataclass` (L115-192) -/
def Meta.fromDataclass (G : Geo) (m : Meta) : Except PyErr (Option Built) := do
  let time ← m.timeCoa.native
  let arp ← m.arp.native
  let conv : Converter := ⟨m.scpRow, m.scpCol, m.scp, m.uRow, m.uCol, m.rowSS, m.colSS, m.firstRow, m.firstCol⟩
  match ← m.grid with
  | none => pure none
  | some (none, _) => pure (some (.noProjection conv))
  | some (some g, gpn) =>
    pure (some (.model (Model.new G conv ⟨time, arp, g, ⟨0, 0, 0⟩, ⟨0, 0, 0⟩, 0⟩ (slantNormal m.scp m.arpPos m.arpVel m.right) gpn)))

/-- `build` (L98-113): every exception gives no model. -/
def Meta.build (G : Geo) (m : Meta) : Option Built :=
  match m.fromDataclass G with
  | .ok b => b
  | .error _ => none

/-- `image_to_world` of what the builder returned: without projection set `None.precise_rrdot_computation` raises.  `sicd_sensor_model.py` L1027-1065. -/
def Built.toWorld (b : Built) (G : Geo) (rc : ℝ × ℝ) : Except PyErr (Option Lle) :=
  match b with
  | .model M => M.toWorld G rc
  | .noProjection _ => .error .attributeError

/-- `world_to_image` of what the builder returned.  `sicd_sensor_model.py` L1067-1128. -/
def Built.toImage (b : Built) (G : Geo) (l : Lle) : Except PyErr (ℝ × ℝ) :=
  match b with
  | .model M => M.toImage G l
  | .noProjection _ => .error .attributeError

end

end Verif.Sicd
