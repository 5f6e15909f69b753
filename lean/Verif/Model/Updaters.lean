import Verif.Model.Sensors

/-!
# Model of `sicd_updater.py`, `sidd_updater.py` and of the chip part of `sidd_sensor_model_builder.py`

XML parsing and rendering (xsdata) are not modelled: the state is the dataclass content that the
updaters read and write.  Integers are Python integers; `floor(float(n))` of an integer is `n`
(exact up to 2^53, far above every image size).
-/

namespace Verif.Updaters

open Verif.Transforms Verif.Sensors

/-- `chip_bounds`: [col, row, width, height].  `sicd_updater.py` L35-62, `sidd_updater.py` L29-89. -/
structure Window where
  x : Int
  y : Int
  w : Int
  h : Int
deriving DecidableEq

/-- A call of `update_image_data_for_chip`: bounds and output size (width, height).  `sicd_updater.py` L35, `sidd_updater.py` L29. -/
structure Request where
  win : Window
  out : Option (Int × Int)
deriving DecidableEq

/-- `SICD.ImageData`.  `sicd_updater.py` L59-62. -/
structure ImageData where
  firstRow : Int
  firstCol : Int
  numRows : Int
  numCols : Int
deriving DecidableEq

/-- The fields of a `SICDUpdater`.  `sicd_updater.py` L25-33. -/
structure Sicd where
  originalFirstRow : Int
  originalFirstCol : Int
  image : ImageData
deriving DecidableEq

/-- sicd_updater.py L19-33 -/
def Sicd.new (d : ImageData) : Sicd := ⟨d.firstRow, d.firstCol, d⟩

/-- sicd_updater.py L35-62; the result is the new state. -/
def Sicd.update (s : Sicd) (q : Request) : Except PyErr Sicd :=
  if q.out.elim false (fun o => decide (o.1 ≠ q.win.w ∨ o.2 ≠ q.win.h)) then .error .valueError
  else .ok { s with image := ⟨s.originalFirstRow + q.win.y, s.originalFirstCol + q.win.x, q.win.h, q.win.w⟩ }

/-- A sequence of calls; a call that raises leaves the state (the check comes before the
assignments).  `sicd_updater.py` L35-62. -/
def runAll {S : Type} (update : S → Request → Except PyErr S) (s : S) (qs : List Request) : S :=
  qs.foldl (fun s q => match update s q with
    | .ok s' => s'
    | .error _ => s) s

section
variable {K : Type} [Field K]

/-- `GeometricChip`: size and the positions (x, y) of the corners in the full image.  `sidd_updater.py` L121-135. -/
structure Chip (K : Type) where
  cols : Int
  rows : Int
  ul : K × K
  ur : K × K
  lr : K × K
  ll : K × K
deriving DecidableEq

/-- `a / b` of Python numbers, the divisor being an integer.  `sidd_updater.py` L164-165. -/
def pyDiv (a : K) (b : Int) : Except PyErr K := if b = 0 then .error .zeroDivisionError else .ok (a / (b : K))

/-- One coordinate of sidd_updater.py L164-193 -/
def bilinear (u v ul ur lr ll : K) : K :=
  ul + u * (ll - ul) + v * (ur - ul) + u * v * (ul + lr - ur - ll)

/-- sidd_updater.py L147-193 (`chipped_coordinate_to_full`) -/
def chippedToFull (p : K × K) (g : Chip K) : Except PyErr (K × K) := do
  let u ← pyDiv p.2 (g.rows - 1)
  let v ← pyDiv p.1 (g.cols - 1)
  pure (bilinear u v g.ul.1 g.ur.1 g.lr.1 g.ll.1, bilinear u v g.ul.2 g.ur.2 g.lr.2 g.ll.2)

/-- sidd_updater.py L84-89 -/
def windowCorners (w : Window) : List (K × K) :=
  [((w.x : K), (w.y : K)), (((w.x + w.w - 1 : Int) : K), (w.y : K)),
   (((w.x + w.w - 1 : Int) : K), ((w.y + w.h - 1 : Int) : K)), ((w.x : K), ((w.y + w.h - 1 : Int) : K))]

/-- sidd_updater.py L90-117 -/
def fullCorners (s : Option (Chip K)) (w : Window) : Except PyErr (List (K × K)) :=
  match s with
  | none => .ok (windowCorners w)
  | some g => (windowCorners w).mapM (fun p => chippedToFull p g)

/-- sidd_updater.py L29-135; the state of a `SIDDUpdater` is its `GeometricChip`, if any. -/
def siddUpdate (s : Option (Chip K)) (q : Request) : Except PyErr (Option (Chip K)) := do
  let size := q.out.getD (q.win.w, q.win.h)
  match ← fullCorners s q.win with
  | [ul, ur, lr, ll] => pure (some ⟨size.1, size.2, ul, ur, lr, ll⟩)
  | _ => .error .indexError

/-- sidd_sensor_model_builder.py L109-138: the sensor model of the full image is wrapped when the
metadata has a chip. -/
def siddModel {O : Type} [LinearOrder K] (lstsq : List (Row K) → Projective K) (chip : Option (Chip K)) (full : SensorModel K O) :
    Except PyErr (SensorModel K O) :=
  match chip with
  | none => .ok full
  | some g => chipped lstsq [g.ul, g.ur, g.lr, g.ll]
      [(0, 0), ((g.cols : K), 0), ((g.cols : K), (g.rows : K)), (0, (g.rows : K))] full

end

end Verif.Updaters
