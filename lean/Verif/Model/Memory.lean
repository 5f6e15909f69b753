import Verif.Model.SicdFiles

/-!
# Coordinate objects in memory

`coordinates.py` L9-137 and L278-340, `elevation_model.py`, and the sensor models again, this time with coordinates as objects that are passed by reference and can be written
to.  The other models have coordinates as values; that this makes no difference is proved in `Verif.Props.Memory`.

The memory is a list of arrays of numbers; a reference is an index.  A coordinate object is identified with its `coordinate` array: no code binds this attribute again after
the constructor.  Arrays that one expression makes and uses up (`np.append(...)`, `np.array([...])`) are values.  Attributes of sensor models are values.  As elsewhere, the
course of a computation after an infinity or NaN is not followed (`Fail.notFinite`).
-/

namespace Verif.Memory

open Verif.Sensors
open Verif.Dem (Geo)

/-- The arrays in memory.  The `coordinate` attributes of `coordinates.py` L16-31, L290-305. -/
abbrev Mem (K : Type) := List (List K)

/-- A computation on the memory; what was written before an exception stays (`coordinates.py` L9-137, L278-337). -/
def M (K α : Type) : Type := Mem K → Except Fail α × Mem K

/-- One computation after the other (no line of its own in `coordinates.py`). -/
instance {K : Type} : Monad (M K) where
  pure a := fun h => (.ok a, h)
  bind x f := fun h =>
    match x h with
    | (.error e, h) => (.error e, h)
    | (.ok a, h) => f a h

/-- A computation that does not use the memory (`coordinates.py` L233-275). -/
def lift {K α : Type} (x : Except Fail α) : M K α := fun h => (x, h)

/-- An exception, for example of `coordinates.py` L29. -/
def raised {K α : Type} (e : PyErr) : M K α := lift (.error (.raised e))

section
variable {K : Type}

/-- A new array.  `np.array` in `coordinates.py` L16-31. -/
def alloc (vs : List K) : M K Nat := fun h => (.ok h.length, h ++ [vs])

/-- The numbers in an array.  (A dangling reference cannot occur in Python.)  `self.coordinate` in `coordinates.py` L33-55. -/
def load (a : Nat) : M K (List K) := fun h =>
  match h[a]? with
  | none => (.error (.raised .attributeError), h)
  | some vs => (.ok vs, h)

/-- New numbers in an array.  `coordinates.py` L33-55, L115-137. -/
def store (a : Nat) (vs : List K) : M K Unit := fun h => (.ok (), h.set a vs)

/-- `a[i]`.  `coordinates.py` L33-55. -/
def item (a i : Nat) : M K K := do
  let vs ← load a
  match vs[i]? with
  | none => raised .indexError
  | some v => pure v

/-- `a[i] = v`.  `coordinates.py` L33-55, L115-137. -/
def setItem (a i : Nat) (v : K) : M K Unit := do
  let vs ← load a
  if i < vs.length then store a (vs.set i v) else raised .indexError

/-! ## The classes -/

/-- coordinates.py L16-31 and L290-305: the constructors, for `n` components; `np.array` makes a new array. -/
def construct [Zero K] (n : Nat) (coordinate : Option (List K)) : M K Nat := do
  let vs := coordinate.getD (List.replicate n 0)
  if vs.length ≠ n then raised .valueError else alloc vs

/-- `WorldCoordinate(...)` and `GeodeticWorldCoordinate(...)` (coordinates.py L103-113) -/
def worldCoordinate [Zero K] (coordinate : Option (List K)) : M K Nat := construct 3 coordinate

/-- `ImageCoordinate(...)` (`coordinates.py` L290-305) -/
def imageCoordinate [Zero K] (coordinate : Option (List K)) : M K Nat := construct 2 coordinate

/-- coordinates.py L33-55 -/
def x (a : Nat) : M K K := item a 0
/-- `coordinates.py` L33-55 -/
def y (a : Nat) : M K K := item a 1
/-- `coordinates.py` L33-55 -/
def z (a : Nat) : M K K := item a 2

/-- coordinates.py L115-137 -/
def longitude (a : Nat) : M K K := x a
/-- `coordinates.py` L115-137 -/
def latitude (a : Nat) : M K K := y a
/-- `coordinates.py` L115-137 -/
def elevation (a : Nat) : M K K := z a
/-- `coordinates.py` L115-137, the setter of `elevation` -/
def setElevation (a : Nat) (v : K) : M K Unit := setItem a 2 v

/-- coordinates.py L307-337: `c`, `r`, and `x`, `y` by way of them. -/
def c (a : Nat) : M K K := item a 0
/-- `coordinates.py` L307-337 -/
def r (a : Nat) : M K K := item a 1

/-- Three components, one after the other.  `coordinates.py` L115-137. -/
def geodetic (a : Nat) : M K (Geo K) := do
  let lon ← longitude a
  let lat ← latitude a
  let h ← elevation a
  pure ⟨lon, lat, h⟩

/-- Two components.  `coordinates.py` L307-337. -/
def pixel (a : Nat) : M K (K × K) := do
  let x ← c a
  let y ← r a
  pure (x, y)

/-! ## Elevation models -/

/-- `set_elevation` (`elevation_model.py` L32-41) -/
abbrev MemElev (K : Type) := Nat → M K Unit

/-- elevation_model.py L69-77 -/
def constantElevation (z : K) : MemElev K := fun a => setElevation a z

/-- What `get_interpolation_grid` gives for a tile: interpolator and `world_to_image` of the tile, or `None`s.  `digital_elevation_model.py` L141-166. -/
abbrev MemGrid (K : Type) := Option ((K → K → K) × (Nat → M K Nat))

/-- digital_elevation_model.py L105-124.  `tile` is `find_tile_id` (digital_elevation_model.py L33-41), `grid` is `get_interpolation_grid` (its cache makes no difference,
C21). -/
def demElevation (tile : Geo K → Option (List Char)) (grid : List Char → Except PyErr (MemGrid K)) : MemElev K := fun a => do
  let g ← geodetic a
  match tile g with
  | none => pure ()
  | some [] => pure ()
  | some id =>
    match grid id with
    | .error e => raised e
    | .ok none => pure ()
    | .ok (some (f, worldToImage)) => do
      let q ← worldToImage a
      let p ← pixel q
      setElevation a (f p.1 p.2)

/-- `if elevation_model: elevation_model.set_elevation(...)` (`gdal_sensor_model.py` L94-95, `projective_sensor_model.py` L57-58) -/
def withElevation (e : Option (MemElev K)) (a : Nat) : M K Unit :=
  match e with
  | none => pure ()
  | some f => f a

/-! ## Sensor models -/

/-- sensor_model.py L14-52, on objects. -/
structure MemModel (K O : Type) where
  imageToWorld : Nat → Option (MemElev K) → Option O → M K Nat
  worldToImage : Nat → M K Nat

section
variable [Field K] [LinearOrder K] {O : Type}
open Verif.Transforms

/-- chipped_image_sensor_model.py L45-79 -/
def chipped (t : Projective K) (full : MemModel K O) : MemModel K O where
  imageToWorld := fun a e o => do
    let p ← pixel a
    let q ← lift (finite (t.inverse p))
    let b ← imageCoordinate (some [q.1, q.2])
    full.imageToWorld b e o
  worldToImage := fun a => do
    let b ← full.worldToImage a
    let q ← pixel b
    let p ← lift (finite (t.forward q))
    imageCoordinate (some [p.1, p.2])

/-- projective_sensor_model.py L39-72 -/
def projective (t : Projective K) : MemModel K O where
  imageToWorld := fun a e _ => do
    let p ← pixel a
    let q ← lift (finite (t.inverse p))
    let b ← worldCoordinate (some [q.1, q.2, 0])
    withElevation e b
    pure b
  worldToImage := fun a => do
    let lon ← x a
    let lat ← y a
    let p ← lift (finite (t.forward (lon, lat)))
    imageCoordinate (some [p.1, p.2])

/-- gdal_sensor_model.py L64-123 -/
def gdalAffine (an : Angles K) (m i : Affine K) (crs : Option (Crs K)) : MemModel K O where
  imageToWorld := fun a e _ => do
    let p ← pixel a
    let (u, v) := m.apply p.1 p.2 1
    let (lon, lat, _) ← lift (match crs with
      | none => Except.ok (u, v, 1)
      | some t => t.fwd (u, v, 1))
    let b ← worldCoordinate (some [an.rad lon, an.rad lat, 0])
    withElevation e b
    pure b
  worldToImage := fun a => do
    let lon ← longitude a
    let lat ← latitude a
    let (u, v, w) ← lift (match crs with
      | none => Except.ok (an.deg lon, an.deg lat, (1 : K))
      | some t => t.inv (an.deg lon, an.deg lat, 1))
    let p := i.apply u v w
    imageCoordinate (some [p.1, p.2])

end
end

noncomputable section
open Verif.Rpc Verif.Rsm Verif.Loading

/-- composite_sensor_model.py L30-69 -/
def composite (approximate precision : MemModel ℝ (Dict ℝ)) : MemModel ℝ (Dict ℝ) where
  imageToWorld := fun a e o => do
    let b ← approximate.imageToWorld a e o
    let lon ← longitude b
    let lat ← latitude b
    precision.imageToWorld a e (some (guessFrom ⟨lon, lat, 0⟩ o))
  worldToImage := precision.worldToImage

/-- `scipy.optimize.minimize` with an objective that uses the memory.  Called by `rpc_sensor_model.py` L226-235 and `replacement_sensor_model.py` L538-557. -/
def runSearch (f : ℝ × ℝ → M ℝ ℝ) : Search → M ℝ (ℝ × ℝ)
  | .done p => pure p
  | .ask p next => fun h =>
    match f p h with
    | (.error (.raised e), h) => (.error (.raised e), h)
    | (.error .notFinite, h) => runSearch f (next none) h
    | (.ok v, h) => runSearch f (next (some v)) h

/-- rpc_sensor_model.py L202-205, L239-242; replacement_sensor_model.py L511-514, L561-564 -/
def onSurface (dflt : MemElev ℝ) (e : Option (MemElev ℝ)) (p : ℝ × ℝ) : M ℝ Nat := do
  let b ← worldCoordinate (some [p.1, p.2, 0])
  dflt b
  withElevation e b
  pure b

/-- rpc_sensor_model.py L201-209, replacement_sensor_model.py L510-518; the target `a` is read anew each time. -/
def objective (worldToImage : Nat → M ℝ Nat) (dflt : MemElev ℝ) (e : Option (MemElev ℝ)) (a : Nat) (p : ℝ × ℝ) : M ℝ ℝ := do
  let b ← onSurface dflt e p
  let q ← worldToImage b
  let s ← pixel q
  let t ← pixel a
  pure (Real.sqrt ((t.1 - s.1) ^ 2 + (t.2 - s.2) ^ 2))

/-- rpc_sensor_model.py L213-244, replacement_sensor_model.py L525-566 -/
def searchImageToWorld (minimise : Minimiser) (bounds : Option ((ℝ × ℝ) × ℝ × ℝ)) (worldToImage : Nat → M ℝ Nat) (dflt : MemElev ℝ)
    (defaultStart : ℝ × ℝ) (defaultDistance : ℝ) (a : Nat) (e : Option (MemElev ℝ)) (o : Option (Dict ℝ)) : M ℝ Nat := do
  let start ← lift (raise (startFrom o defaultStart))
  let size ← lift (raise (distanceFrom o defaultDistance))
  let p ← runSearch (objective worldToImage dflt e a) (minimise start bounds (equilateralTriangle start size))
  onSurface dflt e p

/-- rpc_sensor_model.py L38-64 -/
def rpcPolynomialAt (coefficients : List ℝ) (a : Nat) : M ℝ ℝ := do
  let l ← x a
  let p ← y a
  let h ← z a
  lift (raise (rpcPolynomial coefficients l p h))

/-- rpc_sensor_model.py L151-177 -/
def rpcWorldToImage (m : RpcModel) (a : Nat) : M ℝ Nat := do
  let l ← lift (pyDiv (degrees (← x a) - m.longOff) m.longScale)
  let p ← lift (pyDiv (degrees (← y a) - m.latOff) m.latScale)
  let h ← lift (npDiv ((← z a) - m.heightOff) m.heightScale)
  let b ← worldCoordinate (some [l, p, h])
  let cn ← lift (npDiv (← rpcPolynomialAt m.sampNum b) (← rpcPolynomialAt m.sampDen b))
  let rn ← lift (npDiv (← rpcPolynomialAt m.lineNum b) (← rpcPolynomialAt m.lineDen b))
  imageCoordinate (some [cn * m.sampScale + m.sampOff, rn * m.lineScale + m.lineOff])

/-- rpc_sensor_model.py L67-244 -/
def rpc (minimise : Minimiser) (m : RpcModel) : MemModel ℝ (Dict ℝ) where
  imageToWorld := searchImageToWorld minimise none (rpcWorldToImage m) (constantElevation m.heightOff) (radians m.longOff, radians m.latOff) (radians 0.5)
  worldToImage := rpcWorldToImage m

/-- coordinates.py L238-255 and L258-275: new objects. -/
def geocentricToGeodetic (earth : Earth) (a : Nat) : M ℝ Nat := do
  let u ← x a
  let v ← y a
  let w ← z a
  let g := earth.ofEcef ![u, v, w]
  worldCoordinate (some [g.longitude, g.latitude, g.elevation])

/-- `coordinates.py` L233-275 -/
def geodeticToGeocentric (earth : Earth) (a : Nat) : M ℝ Nat := do
  let g ← geodetic a
  let v := earth.toEcef g
  worldCoordinate (some [v 0, v 1, v 2])

/-- replacement_sensor_model.py L153-197; for geodetic domains the result is the argument itself (L195). -/
def toDomain (earth : Earth) (f : Frame) (a : Nat) : M ℝ Nat :=
  match f.form with
  | .rectangular =>
    match f.origin, f.axes with
    | some o, some (m, _) => do
      let b ← geodeticToGeocentric earth a
      let g ← geodetic b
      let v := m.mulVec (fun i => vecOf g i - o i)
      worldCoordinate (some [v 0, v 1, v 2])
    | _, _ => raised .typeError
  | .geodetic2pi => do
    let u ← x a
    let v ← y a
    let w ← z a
    worldCoordinate (some [pyMod (u + 2 * Real.pi) (2 * Real.pi), v, w])
  | .geodetic => pure a

/-- replacement_sensor_model.py L295-320 -/
def rsmPolynomialAt (p : RsmPoly ℝ) (a : Nat) : M ℝ ℝ := do
  let u ← x a
  let v ← y a
  let w ← z a
  lift (raise (p.evaluate u v w))

/-- replacement_sensor_model.py L586-598 -/
def normalizeWorld (m : PolyModel) (a : Nat) : M ℝ Nat := do
  let u ← lift (norm1 (← x a) m.xOff m.xScale)
  let v ← lift (norm1 (← y a) m.yOff m.yScale)
  let w ← lift (norm1 (← z a) m.zOff m.zScale)
  worldCoordinate (some [u, v, w])

/-- replacement_sensor_model.py L626-638 -/
def denormalizeImage (m : PolyModel) (a : Nat) : M ℝ Nat := do
  let line := denorm1 (← r a) m.rowOff m.rowScale
  let samp := denorm1 (← c a) m.colOff m.colScale
  imageCoordinate (some [samp, line])

/-- replacement_sensor_model.py L472-485, L568-584 -/
def polyWorldToImage (earth : Earth) (m : PolyModel) (a : Nat) : M ℝ Nat := do
  let d ← toDomain earth m.domain.frame a
  let n ← normalizeWorld m d
  let row ← lift (npDiv (← rsmPolynomialAt m.rowNum n) (← rsmPolynomialAt m.rowDen n))
  let col ← lift (npDiv (← rsmPolynomialAt m.colNum n) (← rsmPolynomialAt m.colDen n))
  let b ← imageCoordinate (some [col, row])
  denormalizeImage m b

/-- replacement_sensor_model.py L487-566 -/
def rsmPoly (earth : Earth) (minimise : Minimiser) (m : PolyModel) : MemModel ℝ (Dict ℝ) where
  imageToWorld := fun a e o =>
    match m.domain.vertices[0]?, m.domain.vertices[3]? with
    | some v1, some v4 =>
      searchImageToWorld minimise m.domain.bbox (polyWorldToImage earth m) (constantElevation m.domain.defaultHeight)
        ((v1.longitude + v4.longitude) / 2, (v1.latitude + v4.latitude) / 2)
        (Real.sqrt ((v1.longitude - v4.longitude) ^ 2 + (v1.latitude - v4.latitude) ^ 2)) a e o
    | _, _ => raised .indexError
  worldToImage := polyWorldToImage earth m

/-- `self.section_sensor_models[row][column]`.  `replacement_sensor_model.py` L731, L755. -/
def selectSection (s : Sectioned) (sections : List (List (MemModel ℝ (Dict ℝ)))) (a : Nat) : M ℝ (MemModel ℝ (Dict ℝ)) := do
  let p ← pixel a
  let (col, row) ← lift (raise (s.index p))
  let line ← lift (raise (pyGet sections row))
  lift (raise (pyGet line col))

/-- replacement_sensor_model.py L712-758; the models of the sections are `sections`. -/
def rsmSectioned (earth : Earth) (s : Sectioned) (sections : List (List (MemModel ℝ (Dict ℝ)))) : MemModel ℝ (Dict ℝ) where
  worldToImage := fun a => do
    let d ← toDomain earth s.frame a
    let g ← geodetic d
    let row ← lift (raise (lowOrder s.rowPoly g.longitude g.latitude g.elevation))
    let col ← lift (raise (lowOrder s.colPoly g.longitude g.latitude g.elevation))
    let b ← imageCoordinate (some [col, row])
    let m ← selectSection s sections b
    m.worldToImage a
  imageToWorld := fun a e o => do
    let m ← selectSection s sections a
    m.imageToWorld a e o

/-! ## SICD and SIDD -/

open Verif.Sicd (V3 Contour Circle)
open Verif.SicdFiles (Ground)

/-- Three components as a vector.  `sicd_sensor_model.py` L1087. -/
def vector (a : Nat) : M ℝ V3 := do
  let u ← x a
  let v ← y a
  let w ← z a
  pure ⟨u, v, w⟩

/-- `coordinates.py` L238-275 with the conversions of the SICD model. -/
def toGeodetic (G : Verif.Sicd.Geo) (a : Nat) : M ℝ Nat := do
  let p ← vector a
  let l := G.toLle p
  worldCoordinate (some [l.lon, l.lat, l.h])

/-- `coordinates.py` L233-275 with the conversions of the SICD model -/
def toGeocentric (G : Verif.Sicd.Geo) (a : Nat) : M ℝ Nat := do
  let g ← geodetic a
  let p := G.toEcf ⟨g.longitude, g.latitude, g.elevation⟩
  worldCoordinate (some [p.x, p.y, p.z])

/-- An error or NaN of a projection.  `sicd_sensor_model.py` L632-679. -/
def projected {α : Type} : Except PyErr (Option α) → Except Fail α
  | .error e => .error (.raised e)
  | .ok none => .error .notFinite
  | .ok (some p) => .ok p

/-- sicd_sensor_model.py L934-937: the height of a contour point above the terrain; `set_elevation` works on a copy. -/
def heightAt (G : Verif.Sicd.Geo) (e : MemElev ℝ) (p : V3) : M ℝ ℝ := do
  let b ← worldCoordinate (some [p.x, p.y, p.z])
  let lle ← toGeodetic G b
  let dem ← worldCoordinate (some (← load lle))
  e dem
  let h ← elevation lle
  let t ← elevation dem
  pure (h - t)

/-- The loop over the sampled points (L933-937). -/
def heightsAt (G : Verif.Sicd.Geo) (e : MemElev ℝ) : List V3 → M ℝ (List ℝ)
  | [] => pure []
  | p :: ps => do
    let h ← heightAt G e p
    let hs ← heightsAt G e ps
    pure (h :: hs)

/-- `DEMRRDotSurfaceProjection(...).rrdot_to_ground` (L803-967) with the sampled points on objects; `summary` is `describe_region`, which writes to nothing. -/
def demToGround (G : Verif.Sicd.Geo) (scp : V3) (right : Bool) (summary : Verif.Sicd.Lle → Option Verif.Sicd.DemSummary) (e : MemElev ℝ) (maxAdjacent lim : ℝ) (k : Contour) :
    M ℝ (List V3) := do
  match summary (G.toLle scp) with
  | none => raised .attributeError
  | some s =>
    let a ← lift (raise (Verif.Sicd.haeToGround G scp right s.highest 1 3 k))
    let b ← lift (raise (Verif.Sicd.haeToGround G scp right s.lowest 1 3 k))
    match a, b with
    | some (a, _), some (b, _) =>
      let C := Verif.Sicd.circleOf k
      let cosA := C.cosine a
      let cosB := C.cosine b
      let step := Verif.Sicd.demStep maxAdjacent s.postSpacing C.radius cosB
      let look : ℝ := if right then -1 else 1
      if V3.dot k.V k.V < k.rdot * k.rdot ∨ V3.dot (V3.cross k.P k.V) (V3.cross k.P k.V) = 0 ∨ C.radius = 0 ∨ 1 < |cosB| then raised .valueError
      else if step = 0 then raised (if cosA = cosB then .valueError else .overflowError)
      else do
        let heights ← heightsAt G e ((List.range (Verif.Sicd.samples cosA cosB step).toNat).map (fun (n : Nat) => C.point look (cosB + n * step)))
        pure ((Verif.Sicd.scan lim 0 none heights).map (fun u => C.point look (cosB + u * step)))
    | _, _ => raised .valueError

/-- One round of the loop of `world_to_image` (L1093-1114): the grid position and the displacement.  `scene` and `gn` are arrays; `g_n += diff_n` writes to `gn`.  (With a NaN the
loop ends and `gn` is not used any more.) -/
def sicdRound (M : Verif.Sicd.Model) (scene gn : Nat) : Memory.M ℝ ((ℝ × ℝ) × Option ℝ) := do
  let g ← vector gn
  let xy := M.gridOf g
  match ← lift (raise (M.project xy)) with
  | none => pure (xy, none)
  | some p => do
    let S ← vector scene
    let d := V3.sub S p
    setItem gn 0 (g.x + d.x)
    setItem gn 1 (g.y + d.y)
    setItem gn 2 (g.z + d.z)
    pure (xy, some (V3.norm d))

/-- The loop (L1086-1119), with at most `left` more rounds after this one. -/
def sicdSearch (M : Verif.Sicd.Model) (scene gn : Nat) : Nat → Memory.M ℝ (ℝ × ℝ)
  | 0 => do
    let q ← sicdRound M scene gn
    pure q.1
  | left + 1 => do
    let q ← sicdRound M scene gn
    match q.2 with
    | none => pure q.1
    | some d => if 1 / 100 < d then sicdSearch M scene gn left else pure q.1

/-- sicd_sensor_model.py L1067-1128; `scene_point.copy()` (L1088) is a new array. -/
def sicdWorldToImage (G : Verif.Sicd.Geo) (M : Verif.Sicd.Model) (a : Nat) : Memory.M ℝ Nat := do
  let ecf ← toGeocentric G a
  let S ← vector ecf
  let scene ← alloc [S.x, S.y, S.z]
  let gn ← alloc (← load scene)
  let xy ← sicdSearch M scene gn 9
  let rc := M.conv.toPixel xy
  imageCoordinate (some [rc.2 - M.conv.firstCol, rc.1 - M.conv.firstRow])

/-- sicd_sensor_model.py L1027-1065 -/
def sicdImageToWorld (G : Verif.Sicd.Geo) (right : Bool) (summary : MemElev ℝ → Verif.Sicd.Lle → Option Verif.Sicd.DemSummary) (M : Verif.Sicd.Model) (a : Nat)
    (e : Option (MemElev ℝ)) : Memory.M ℝ Nat := do
  let row ← r a
  let col ← c a
  let k := M.coa.contour (M.conv.toGrid (row + M.conv.firstRow, col + M.conv.firstCol))
  let p ← (match e with
    | none => lift (projected (M.plane.toGround k))
    | some e => do
      match ← demToGround G M.conv.scp right (summary e) e 10 (1 / 1000) k with
      | [] => raised .indexError
      | p :: _ => pure p)
  let b ← worldCoordinate (some [p.x, p.y, p.z])
  toGeodetic G b

/-- The SICD sensor model.  `sicd_sensor_model.py` L970-1128. -/
def sicd (G : Verif.Sicd.Geo) (right : Bool) (summary : MemElev ℝ → Verif.Sicd.Lle → Option Verif.Sicd.DemSummary) (M : Verif.Sicd.Model) : MemModel ℝ (Dict ℝ) where
  imageToWorld := fun a e _ => sicdImageToWorld G right summary M a e
  worldToImage := sicdWorldToImage G M

end

/-! ## Programs that use coordinates -/

/-- What a variable refers to: a NumPy array, or an object of one of the three classes.  `coordinates.py` L9, L61, L278. -/
inductive Kind
  | array
  | world
  | geodetic
  | image
deriving DecidableEq

/-- The properties of the classes.  `coordinates.py` L33-55, L115-137, L307-337. -/
inductive Property
  | x | y | z | longitude | latitude | elevation | c | r
deriving DecidableEq

/-- coordinates.py L33-55, L115-137, L307-337: the component that a property of a class reads and writes; `none` when the class does not have it. -/
def Kind.component : Kind → Property → Option Nat
  | .world, .x | .geodetic, .x => some 0
  | .world, .y | .geodetic, .y => some 1
  | .world, .z | .geodetic, .z => some 2
  | .geodetic, .longitude => some 0
  | .geodetic, .latitude => some 1
  | .geodetic, .elevation => some 2
  | .image, .c | .image, .x => some 0
  | .image, .r | .image, .y => some 1
  | _, _ => none

/-- The argument of a constructor: nothing, a list, or the array of a variable (itself, or the `coordinate` of an object).
`coordinates.py` L16-31, L103-113, L290-305. -/
inductive Source (K : Type)
  | nothing
  | values (vs : List K)
  | variable (i : Nat)

/-- One statement of a program.  Variables are numbered in the order in which they are made; sensor models and elevation models are numbered too.
They use `coordinates.py` L9-137, L278-337, `elevation_model.py` L32-41 and `sensor_model.py` L25-52. -/
inductive Op (K O : Type)
  | array (vs : List K)
  | new (k : Kind) (s : Source K)
  | get (v : Nat) (p : Property)
  | set (v : Nat) (p : Property) (value : K)
  | getItem (v i : Nat)
  | setItem (v i : Nat) (value : K)
  | setElevation (e v : Nat)
  | imageToWorld (m v : Nat) (e : Option Nat) (o : Option O)
  | worldToImage (m v : Nat)

/-- The memory and the variables (`coordinates.py` L9-137, L278-337). -/
structure State (K : Type) where
  mem : Mem K
  vars : List (Kind × Nat)

/-- The sensor models and elevation models of a program (`elevation_model.py` L22-91, `sensor_model.py` L14-52). -/
structure Library (K O : Type) where
  models : List (MemModel K O)
  elevations : List (MemElev K)

section
variable {K O : Type}

/-- A statement that makes a variable; none is made when it raises (`coordinates.py` L16-31, L290-305). -/
def State.bindNew (s : State K) (k : Kind) (m : M K Nat) : Except Fail (Option K) × State K :=
  match m s.mem with
  | (.error f, h) => (.error f, { s with mem := h })
  | (.ok a, h) => (.ok none, ⟨h, s.vars ++ [(k, a)]⟩)

/-- A statement with a result (`coordinates.py` L33-55, L115-137, L307-337). -/
def State.run (s : State K) (m : M K (Option K)) : Except Fail (Option K) × State K :=
  match m s.mem with
  | (r, h) => (r, { s with mem := h })

/-- Names that do not exist, methods of other classes (no line of the code). -/
def State.nameError (s : State K) : Except Fail (Option K) × State K := (.error (.raised .attributeError), s)

/-- Number of components of a class.  `coordinates.py` L28-29, L302-303. -/
def Kind.size : Kind → Nat
  | .image => 2
  | _ => 3

/-- One statement.  Arguments are of the classes that the annotations ask for; other programs stop with an error here (in Python, writing to a property that the class does not
have makes a new attribute).  `coordinates.py` L9-137, L278-337, `elevation_model.py` L32-41, `sensor_model.py` L25-52. -/
def State.step [Zero K] (L : Library K O) (s : State K) : Op K O → Except Fail (Option K) × State K
  | .array vs => s.bindNew .array (alloc vs)
  | .new .array _ => s.nameError
  | .new k .nothing => s.bindNew k (construct k.size none)
  | .new k (.values vs) => s.bindNew k (construct k.size (some vs))
  | .new k (.variable i) =>
    match s.vars[i]? with
    | none => s.nameError
    | some (_, a) => s.bindNew k (do construct k.size (some (← load a)))
  | .get v p =>
    match s.vars[v]? with
    | none => s.nameError
    | some (k, a) =>
      match k.component p with
      | none => s.nameError
      | some i => s.run (some <$> item a i)
  | .set v p value =>
    match s.vars[v]? with
    | none => s.nameError
    | some (k, a) =>
      match k.component p with
      | none => s.nameError
      | some i => s.run ((fun _ => none) <$> setItem a i value)
  | .getItem v i =>
    match s.vars[v]? with
    | none => s.nameError
    | some (_, a) => s.run (some <$> item a i)
  | .setItem v i value =>
    match s.vars[v]? with
    | none => s.nameError
    | some (_, a) => s.run ((fun _ => none) <$> setItem a i value)
  | .setElevation e v =>
    match L.elevations[e]?, s.vars[v]? with
    | some f, some (.geodetic, a) => s.run ((fun _ => none) <$> f a)
    | _, _ => s.nameError
  | .imageToWorld m v e o =>
    match L.models[m]?, s.vars[v]? with
    | some f, some (.image, a) =>
      match e with
      | none => s.bindNew .geodetic (f.imageToWorld a none o)
      | some e =>
        match L.elevations[e]? with
        | none => s.nameError
        | some e => s.bindNew .geodetic (f.imageToWorld a (some e) o)
    | _, _ => s.nameError
  | .worldToImage m v =>
    match L.models[m]?, s.vars[v]? with
    | some f, some (.geodetic, a) => s.bindNew .image (f.worldToImage a)
    | _, _ => s.nameError

/-- A program: the answers of its statements, and the state at its end.  (A caller that catches exceptions goes on after them.)
(`coordinates.py` L9-137, L278-337) -/
def State.steps [Zero K] (L : Library K O) (s : State K) : List (Op K O) → List (Except Fail (Option K)) × State K
  | [] => ([], s)
  | o :: os =>
    let (r, s) := s.step L o
    let (rs, s) := s.steps L os
    (r :: rs, s)

end

end Verif.Memory
