import Verif.Model.SicdBuilder

/-!
# Model of `DEMRRDotSurfaceProjection` from end to end (`photogrammetry/sicd_sensor_model.py` L797-967) and of `image_to_world` with an elevation model
-/

namespace Verif.Sicd

noncomputable section

open V3

/-- What `DEMRRDotSurfaceProjection` uses of `ElevationRegionSummary`.  `sicd_sensor_model.py` L831-840, `elevation_model.py` L10-19. -/
structure DemSummary where
  lowest : ℝ
  highest : ℝ
  postSpacing : ℝ

/-- An elevation model: `describe_region`, and the elevation that `set_elevation` sets, if any.  Elevation models that raise are not modelled.
`sicd_sensor_model.py` L831, L936. -/
structure DemModel where
  summary : Lle → Option DemSummary
  terrain : ℝ → ℝ → Option ℝ

/-- L873-875, L881-883: the cosine of the contour angle of a point, for a contour of radius not 0. -/
def Circle.cosine (C : Circle) (p : V3) : ℝ := dot (sub p C.ctr) C.ex / C.radius

/-- L886-896: the step of the cosine.  A quotient by a cosine of 0 is infinite and does not bound the step. -/
def demStep (maxAdjacent postSpacing radius cosB : ℝ) : ℝ :=
  if cosB = 0 then -1 * (maxAdjacent * |√(1 - cosB * cosB)| / radius) else stepOf maxAdjacent (1 / 2 * postSpacing) radius cosB

/-- `DEMRRDotSurfaceProjection(scp, side, elevation_model, maxAdjacent, lim).rrdot_to_ground` (L803-967).  Where a NaN reaches `int(np.floor(...))` (L899) a ValueError is
raised, an infinity raises an OverflowError.  Sampled cosines outside of [-1, 1] give NaN points; the theorems ask for cosines. -/
def demToGround (G : Geo) (scp : V3) (right : Bool) (dem : DemModel) (maxAdjacent lim : ℝ) (k : Contour) : Except PyErr (List V3) := do
  match dem.summary (G.toLle scp) with
  | none => .error .attributeError
  | some s =>
    let a ← haeToGround G scp right s.highest 1 3 k
    let b ← haeToGround G scp right s.lowest 1 3 k
    match a, b with
    | some (a, _), some (b, _) =>
      let C := circleOf k
      let cosA := C.cosine a
      let cosB := C.cosine b
      let step := demStep maxAdjacent s.postSpacing C.radius cosB
      if dot k.V k.V < k.rdot * k.rdot ∨ dot (cross k.P k.V) (cross k.P k.V) = 0 ∨ C.radius = 0 ∨ 1 < |cosB| then .error .valueError
      else if step = 0 then .error (if cosA = cosB then .valueError else .overflowError)
      else .ok (demPoints C (if right then -1 else 1) cosA cosB step lim (heightAbove G dem.terrain))
    | _, _ => .error .valueError

/-- `image_to_world` with an elevation model (L1044-1065): the first point; the defaults of L808-809. -/
def Model.toWorldDem (M : Model) (G : Geo) (right : Bool) (dem : DemModel) (rc : ℝ × ℝ) : Except PyErr Lle := do
  match ← demToGround G M.conv.scp right dem 10 (1 / 1000) (M.coa.contour (M.conv.toGrid (rc.1 + M.conv.firstRow, rc.2 + M.conv.firstCol))) with
  | [] => .error .indexError
  | p :: _ => .ok (G.toLle p)

/-- `image_to_world` with an elevation model of the model built from SICD metadata: the side of track is the one of the metadata (sicd_sensor_model_builder.py L179-190).
The builder gives `None`, or a model without projection set: an attribute is missing. -/
def Meta.toWorldDem (m : Meta) (G : Geo) (dem : DemModel) (rc : ℝ × ℝ) : Except PyErr Lle :=
  match m.build G with
  | some (.model M) => M.toWorldDem G m.right dem rc
  | _ => .error .attributeError

/-- The same for SIDD metadata without a chip: the builder gives no side of track (sidd_sensor_model_builder.py L102-107), so the default "L" is used
(sicd_sensor_model.py L981). -/
def Sidd.toWorldDem (s : Sidd) (G : Geo) (dem : DemModel) (rc : ℝ × ℝ) : Except PyErr Lle := (s.model G).toWorldDem G false dem rc

end

end Verif.Sicd
