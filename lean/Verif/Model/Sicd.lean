import Verif.Model.Py
import Mathlib.Analysis.SpecialFunctions.Trigonometric.Basic
import Mathlib.Analysis.Real.Sqrt

/-!
# Model of `photogrammetry/sicd_sensor_model.py`

Exact real arithmetic instead of binary64.  A NaN result is `none`.  Conversions between geocentric and geodetic coordinates
(`coordinates.py`, pyproj) are parameters.
-/

namespace Verif.Sicd

noncomputable section

/-- A vector of three numbers (`np.ndarray` of length 3).  `sicd_sensor_model.py` L24-1128. -/
@[ext] structure V3 where
  x : ℝ
  y : ℝ
  z : ℝ

namespace V3

/-- Sum.  `sicd_sensor_model.py` L188, L679. -/
def add (a b : V3) : V3 := ⟨a.x + b.x, a.y + b.y, a.z + b.z⟩

/-- Difference.  `sicd_sensor_model.py` L198, L646. -/
def sub (a b : V3) : V3 := ⟨a.x - b.x, a.y - b.y, a.z - b.z⟩

/-- Multiple.  `sicd_sensor_model.py` L187, L665. -/
def smul (k : ℝ) (a : V3) : V3 := ⟨k * a.x, k * a.y, k * a.z⟩

/-- `np.dot`.  `sicd_sensor_model.py` L144, L659. -/
def dot (a b : V3) : ℝ := a.x * b.x + a.y * b.y + a.z * b.z

/-- `np.cross`.  `sicd_sensor_model.py` L140, L666. -/
def cross (a b : V3) : V3 := ⟨a.y * b.z - a.z * b.y, a.z * b.x - a.x * b.z, a.x * b.y - a.y * b.x⟩

/-- `np.linalg.norm`.  `sicd_sensor_model.py` L141, L660. -/
def norm (a : V3) : ℝ := √(dot a a)

/-- `a / np.linalg.norm(a)` for a vector that is not zero.  `sicd_sensor_model.py` L141, L617, L643. -/
def unit (a : V3) : V3 := smul (1 / norm a) a

end V3

open V3

/-! ## Polynomials -/

/-- `np.polynomial.Polynomial(c)(t)` (Horner's rule)  `sicd_sensor_model.py` L84-86, L343-349. -/
def polyval (c : List ℝ) (t : ℝ) : ℝ :=
  match c with
  | [] => 0
  | a :: c => a + t * polyval c t

/-- The coefficients of the derivative from index `n` on.  `sicd_sensor_model.py` L97-99, L317-318. -/
def polyderFrom (n : Nat) (c : List ℝ) : List ℝ :=
  match c with
  | [] => []
  | a :: c => ((n : ℝ) * a) :: polyderFrom (n + 1) c

/-- `Polynomial(c).deriv(m=1)`; the derivative of a constant is written as no coefficients instead of a single 0.  `sicd_sensor_model.py` L97-99, L317-318. -/
def polyder (c : List ℝ) : List ℝ :=
  match c with
  | [] => []
  | _ :: c => polyderFrom 1 c

/-- `np.polynomial.polynomial.polyval2d(x, y, c)` (sicd_sensor_model.py L43-51) -/
def polyval2d (c : List (List ℝ)) (x y : ℝ) : ℝ :=
  match c with
  | [] => 0
  | r :: c => polyval r y + x * polyval2d c x y

/-- `PolynomialXYZ` (sicd_sensor_model.py L54-101) -/
structure PolyXYZ where
  px : List ℝ
  py : List ℝ
  pz : List ℝ

/-- sicd_sensor_model.py L77-88 -/
def PolyXYZ.at (p : PolyXYZ) (t : ℝ) : V3 := ⟨polyval p.px t, polyval p.py t, polyval p.pz t⟩

/-- sicd_sensor_model.py L90-101 -/
def PolyXYZ.deriv (p : PolyXYZ) : PolyXYZ := ⟨polyder p.px, polyder p.py, polyder p.pz⟩

/-! ## Image coordinates -/

/-- `SARImageCoordConverter` (sicd_sensor_model.py L110-138) -/
structure Converter where
  scpRow : ℝ
  scpCol : ℝ
  scp : V3
  uRow : V3
  uCol : V3
  rowSS : ℝ
  colSS : ℝ
  firstRow : ℝ
  firstCol : ℝ

namespace Converter

/-- sicd_sensor_model.py L140-141 -/
def uIpn (c : Converter) : V3 := unit (cross c.uRow c.uCol)

/-- sicd_sensor_model.py L152-164 -/
def toGrid (c : Converter) (rc : ℝ × ℝ) : ℝ × ℝ := ((rc.1 - c.scpRow) * c.rowSS, (rc.2 - c.scpCol) * c.colSS)

/-- sicd_sensor_model.py L166-177; spacings that are not 0. -/
def toPixel (c : Converter) (xy : ℝ × ℝ) : ℝ × ℝ := (xy.1 / c.rowSS + c.scpRow, xy.2 / c.colSS + c.scpCol)

/-- sicd_sensor_model.py L179-188 -/
def toPlane (c : Converter) (xy : ℝ × ℝ) : V3 := add c.scp (add (smul xy.1 c.uRow) (smul xy.2 c.uCol))

/-- sicd_sensor_model.py L144-150 and L190-200: the product with the 3 by 2 matrix; `sin_theta` not 0. -/
def ofPlane (c : Converter) (p : V3) : ℝ × ℝ :=
  let d := sub p c.scp
  let cosT := dot c.uRow c.uCol
  let sinT := √(1 - cosT * cosT)
  let s := sinT * sinT
  (dot d (add (smul (1 / s) c.uRow) (smul (-cosT / s) c.uCol)), dot d (add (smul (-cosT / s) c.uRow) (smul (1 / s) c.uCol)))

end Converter

/-! ## Projection sets -/

/-- The four kinds of `_grid_specific_projection`.  `sicd_sensor_model.py` L266-564. -/
inductive Grid where
  /-- `PFAProjectionSet` (L284-372) -/
  | pfa (scp : V3) (polarAng spatialFreq : List ℝ)
  /-- `RGAZCOMPProjectionSet` (L375-432) -/
  | rgazcomp (scp : V3) (azSf : ℝ)
  /-- `INCAProjectionSet` (L435-501) -/
  | inca (rCaScp : ℝ) (timeCa : List ℝ) (drateSf : List (List ℝ))
  /-- `PlaneProjectionSet` (L504-564) -/
  | plane (scp uRow uCol : V3)

/-- `COAProjectionSet` (L209-233) -/
structure Coa where
  time : List (List ℝ)
  arp : PolyXYZ
  grid : Grid
  deltaArp : V3
  deltaVarp : V3
  bias : ℝ

/-- Range and range rate at time `t`, platform position `P`, platform velocity `V` (L320-372, L401-432, L464-501, L533-564).  Divisions by a
range of 0 are not modelled as NaN: the theorems ask for a range that is not 0. -/
def Coa.specific (s : Coa) (xy : ℝ × ℝ) (t : ℝ) (P V : V3) : ℝ × ℝ :=
  match s.grid with
  | .pfa scp polarAng spatialFreq =>
    let d := sub P scp
    let range := norm d
    let rdot := dot V d / range
    let theta := polyval polarAng t
    let dtheta := polyval (polyder polarAng) t
    let ksf := polyval spatialFreq theta
    let dksf := polyval (polyder spatialFreq) theta
    let ka := xy.1 * Real.cos theta + xy.2 * Real.sin theta
    let kc := -xy.1 * Real.sin theta + xy.2 * Real.cos theta
    (range + ksf * ka, rdot + (dksf * ka + ksf * kc) * dtheta)
  | .rgazcomp scp azSf =>
    let d := sub P scp
    let range := norm d
    let rdot := dot V d / range
    (range + xy.1, rdot + -norm V * (azSf * xy.2))
  | .inca rCaScp timeCa drateSf =>
    let rca := rCaScp + xy.1
    let tca := polyval timeCa xy.2
    let v := norm (s.arp.deriv.at tca)
    let sf := polyval2d drateSf xy.1 xy.2
    let dt := t - tca
    let r := √(rca ^ 2 + sf * v ^ 2 * dt ^ 2)
    (r, sf / r * v ^ 2 * dt)
  | .plane scp uRow uCol =>
    let d := sub P (add scp (add (smul xy.1 uRow) (smul xy.2 uCol)))
    let r := norm d
    (r, dot V d / r)

/-- The center of aperture time of a grid position (L248). -/
def Coa.timeAt (s : Coa) (xy : ℝ × ℝ) : ℝ := polyval2d s.time xy.1 xy.2

/-- What `precise_rrdot_computation` returns without the time (L235-264). -/
structure Contour where
  r : ℝ
  rdot : ℝ
  P : V3
  V : V3

/-- sicd_sensor_model.py L235-264 -/
def Coa.contour (s : Coa) (xy : ℝ × ℝ) : Contour :=
  let t := s.timeAt xy
  let P := s.arp.at t
  let V := s.arp.deriv.at t
  let rr := s.specific xy t P V
  ⟨rr.1 + s.bias, rr.2, add P s.deltaArp, add V s.deltaVarp⟩

/-! ## Ground plane -/

/-- `GroundPlaneRRDotSurfaceProjection`: reference point and normal (L597-617). -/
structure Plane where
  ref : V3
  u : V3

/-- sicd_sensor_model.py L632-679.  `none` is NaN: the platform is farther below the plane than the range, the range is 0, or 0/0 in the cosine of
the azimuth.  A quotient of another number by 0 is infinite and raises. -/
def Plane.toGround (pl : Plane) (k : Contour) : Except PyErr (Option V3) :=
  let uz := unit pl.u
  let z := dot (sub k.P pl.ref) uz
  if k.r < z then .error .valueError
  else if k.r = 0 ∨ k.r * k.r < z * z then .ok none
  else
    let g := √(k.r * k.r - z * z)
    let vz := dot k.V uz
    let vx := √(norm k.V * norm k.V - vz * vz)
    let num := -k.rdot + vz * (z / k.r)
    let den := vx * (g / k.r)
    if den = 0 then (if num = 0 then .ok none else .error .valueError)
    else
      let ca := num / den
      if 1 < |ca| then .error .valueError
      else
        let ux := smul (1 / vx) (sub k.V (smul vz uz))
        let uy := cross uz ux
        let look := SignType.sign (dot (cross (sub k.P pl.ref) k.V) uz)
        let sa := (look : ℝ) * √(1 - ca * ca)
        .ok (some (add (sub k.P (smul z uz)) (add (smul (g * ca) ux) (smul (g * sa) uy))))

/-- A longitude, a latitude (radians) and a height.  `coordinates.py` L61-137. -/
structure Lle where
  lon : ℝ
  lat : ℝ
  h : ℝ

/-- The geodetic normal at a location (L622-628, L738-744, L758-764). -/
def upAt (lon lat : ℝ) : V3 := ⟨Real.cos lat * Real.cos lon, Real.cos lat * Real.sin lon, Real.sin lat⟩

/-- The coordinate conversions of `coordinates.py`. -/
structure Geo where
  toLle : V3 → Lle
  toEcf : Lle → V3

/-- The three ways to get the normal of a ground plane (sicd_sensor_model.py L616-628). -/
inductive Normal where
  | given (n : V3)
  | spherical
  | geodetic

/-- sicd_sensor_model.py L597-628 -/
def Plane.new (G : Geo) (ref : V3) (n : Normal) : Plane :=
  match n with
  | .given n => ⟨ref, unit n⟩
  | .spherical => ⟨ref, unit ref⟩
  | .geodetic => ⟨ref, upAt (G.toLle ref).lon (G.toLle ref).lat⟩

/-! ## Constant height -/

/-- The state after a projection to a ground plane: point, up direction there, height above the surface, number of projections.
`sicd_sensor_model.py` L747-775. -/
structure HaeState where
  p : V3
  up : V3
  dh : ℝ
  n : Nat

/-- sicd_sensor_model.py L747-775 with `left` more iterations allowed; `none` when a projection gives NaN. -/
def haeLoop (G : Geo) (hae dhMax : ℝ) (k : Contour) (left n : Nat) (pl : Plane) : Except PyErr (Option HaeState) := do
  match ← pl.toGround k with
  | none => pure none
  | some p =>
    let l := G.toLle p
    let up := upAt l.lon l.lat
    let dh := l.h - hae
    match left with
    | 0 => pure (some ⟨p, up, dh, n⟩)
    | left + 1 =>
      if dh ≤ dhMax then pure (some ⟨p, up, dh, n⟩)
      else haeLoop G hae dhMax k left (n + 1) (Plane.new G (sub p (smul dh up)) (.given up))

/-- `HAERRDotSurfaceProjection.rrdot_to_ground` (L719-794); `right` is the side of track "R" (L712-714), `nlim` the limit of iterations.  The
number of iterations is returned too.  Vectors of length 0 in the normalisation and a normal across the up direction are not modelled as NaN. -/
def haeToGround (G : Geo) (scp : V3) (right : Bool) (hae dhMax : ℝ) (nlim : Nat) (k : Contour) : Except PyErr (Option (V3 × Nat)) := do
  let s := G.toLle scp
  let u := upAt s.lon s.lat
  match ← haeLoop G hae dhMax k (nlim - 1) 1 (Plane.new G (add scp (smul (hae - s.h) u)) (.given u)) with
  | none => pure none
  | some st =>
    let look : ℝ := if right then -1 else 1
    let spn := unit (cross (smul look k.V) (sub st.p k.P))
    let sf := dot st.up spn
    let slp := sub st.p (smul (st.dh / sf) spn)
    let l := G.toLle slp
    pure (some (G.toEcf ⟨l.lon, l.lat, hae⟩, st.n))

/-! ## Terrain -/

/-- The circle of a contour: center, radius, two directions (L862-875). -/
structure Circle where
  ctr : V3
  radius : ℝ
  ex : V3
  ey : V3

/-- sicd_sensor_model.py L862-875; platform position and velocity independent. -/
def circleOf (k : Contour) : Circle :=
  let v := norm k.V
  let uv := smul (1 / v) k.V
  let c := -1 * k.rdot / v
  let s := √(1 - c * c)
  let ey := unit (cross (unit k.P) uv)
  ⟨add k.P (smul (k.r * c) uv), k.r * s, cross ey uv, ey⟩

/-- The point of the circle with cosine `c` on the side `look` (L915-917, L957-958). -/
def Circle.point (C : Circle) (look c : ℝ) : V3 := add C.ctr (smul C.radius (add (smul c C.ex) (smul (look * √(1 - c * c)) C.ey)))

/-- The sign of a height difference against the tolerance (L940-949). -/
def indicator (lim d : ℝ) : Int := if |d| < lim then 0 else if lim < d then 1 else -1

/-- sicd_sensor_model.py L930-963: the positions, in units of samples, at which an intersection is reported.  `n` is the index of the next sample,
`prev` indicator and height difference of the sample before. -/
def scan (lim : ℝ) (n : Nat) (prev : Option (Int × ℝ)) : List ℝ → List ℝ
  | [] => []
  | d :: ds =>
    let i := indicator lim d
    let on := if |d| < lim then [(n : ℝ)] else []
    let cross := match prev with
      | none => []
      | some (pi, pd) => if pi * i = -1 then [(n : ℝ) - 1 + pd / (pd - d)] else []
    on ++ cross ++ scan lim (n + 1) (some (i, d)) ds

/-- sicd_sensor_model.py L892-907: step of the cosine and number of samples, for a positive cosine at the lower end and a step that is not 0. -/
def stepOf (distRrc distDem radius cosB : ℝ) : ℝ :=
  -1 * min (distRrc * |√(1 - cosB * cosB)| / radius) (distDem * (|√(1 - cosB * cosB)| / cosB) / radius)

/-- L907 -/
def samples (cosA cosB step : ℝ) : Int := ⌊(cosA - cosB) / step⌋ + 2

/-- `DEMRRDotSurfaceProjection.rrdot_to_ground` (L845-967) from the two cosines on; `height` is the height of a point above the ellipsoid minus the height of the
terrain there (L934-937). -/
def demPoints (C : Circle) (look cosA cosB step lim : ℝ) (height : V3 → ℝ) : List V3 :=
  let pts := (List.range (samples cosA cosB step).toNat).map (fun (n : Nat) => C.point look (cosB + n * step))
  (scan lim 0 none (pts.map height)).map (fun u => C.point look (cosB + u * step))

/-- The height difference of L934-937: `set_elevation` leaves the coordinate unchanged where it has no terrain (`none`). -/
def heightAbove (G : Geo) (terrain : ℝ → ℝ → Option ℝ) (p : V3) : ℝ :=
  let l := G.toLle p
  l.h - (terrain l.lon l.lat).getD l.h

/-! ## The sensor model -/

/-- `SICDSensorModel` (L976-1000) without the slant plane side, which only the terrain projection uses. -/
structure Model where
  conv : Converter
  coa : Coa
  spn : V3
  plane : Plane

/-- sicd_sensor_model.py L1002-1017 -/
def slantNormal (scp P V : V3) (right : Bool) : V3 :=
  let n := cross V (sub scp P)
  unit (if right then smul (-1) n else n)

/-- sicd_sensor_model.py L1019-1025 -/
def groundNormal (scp uRow uCol : V3) : V3 :=
  let n := unit (cross uRow uCol)
  if dot n scp < 0 then smul (-1) n else n

/-- The projection of a grid position to the default plane (L1106-1109). -/
def Model.project (M : Model) (xy : ℝ × ℝ) : Except PyErr (Option V3) := M.plane.toGround (M.coa.contour xy)

/-- `image_to_world` on a surface (L1044-1065); the pixel is (row, column).  The surface projection stands for the first point that
`rrdot_to_ground` returns. -/
def Model.toWorldOn (M : Model) (surface : Contour → Except PyErr (Option V3)) (G : Geo) (rc : ℝ × ℝ) : Except PyErr (Option Lle) := do
  let p ← surface (M.coa.contour (M.conv.toGrid (rc.1 + M.conv.firstRow, rc.2 + M.conv.firstCol)))
  pure (p.map G.toLle)

/-- `image_to_world` without an elevation model.  `sicd_sensor_model.py` L1027-1065. -/
def Model.toWorld (M : Model) (G : Geo) (rc : ℝ × ℝ) : Except PyErr (Option Lle) := M.toWorldOn M.plane.toGround G rc

/-- The image plane position of a ground point (L1096-1100). -/
def Model.gridOf (M : Model) (g : V3) : ℝ × ℝ :=
  let d := dot (sub M.conv.scp g) M.conv.uIpn / dot M.spn M.conv.uIpn
  M.conv.ofPlane (add g (smul d M.spn))

/-- The loop of `world_to_image` (L1086-1119) with `left` more iterations allowed after this one, the `n`th.  Returns the grid position and the number of
iterations.  A NaN displacement is not greater than the tolerance and ends the loop. -/
def Model.search (M : Model) (S : V3) (left n : Nat) (g : V3) : Except PyErr ((ℝ × ℝ) × Nat) := do
  let xy := M.gridOf g
  match ← M.project xy with
  | none => pure (xy, n)
  | some p =>
    match left with
    | 0 => pure (xy, n)
    | left + 1 => if 1 / 100 < norm (sub S p) then M.search S left (n + 1) (add g (sub S p)) else pure (xy, n)

/-- `world_to_image` (L1067-1128): the pixel as (row, column). -/
def Model.toImage (M : Model) (G : Geo) (l : Lle) : Except PyErr (ℝ × ℝ) := do
  let S := G.toEcf l
  let r ← M.search S 9 1 S
  let rc := M.conv.toPixel r.1
  pure (rc.1 - M.conv.firstRow, rc.2 - M.conv.firstCol)

/-- `SICDSensorModel.__init__` (L976-1000): the default plane is the tangent plane when no normal is given. -/
def Model.new (G : Geo) (conv : Converter) (coa : Coa) (spn : V3) (gpn : Option V3) : Model :=
  ⟨conv, coa, spn, Plane.new G conv.scp (match gpn with | some n => .given n | none => .geodetic)⟩

/-- What the SIDD builder reads (gdal/sidd_sensor_model_builder.py L74-90). -/
structure Sidd where
  scp : V3
  scpRow : ℝ
  scpCol : ℝ
  time : List (List ℝ)
  arp : PolyXYZ
  uRow : V3
  uCol : V3
  rowSS : ℝ
  colSS : ℝ

/-- gdal/sidd_sensor_model_builder.py L74-107, without the chip. -/
def Sidd.model (G : Geo) (s : Sidd) : Model :=
  let gpn := groundNormal s.scp s.uRow s.uCol
  Model.new G ⟨s.scpRow, s.scpCol, s.scp, s.uRow, s.uCol, s.rowSS, s.colSS, 0, 0⟩
    ⟨s.time, s.arp, .plane s.scp s.uRow s.uCol, ⟨0, 0, 0⟩, ⟨0, 0, 0⟩, 0⟩ gpn (some gpn)

end

end Verif.Sicd
