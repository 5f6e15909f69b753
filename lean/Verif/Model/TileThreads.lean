import Verif.Model.Updaters

/-!
# One tile factory used by several threads

gdal_tile_factory.py L111-116: `create_encoded_tile` changes the metadata that the factory shares between all tiles (`sar_updater`) and then renders
it; there is no lock.  A step is one assignment of sicd_updater.py L59-62 or the rendering of one element (L64-72; in the order of the document:
NumRows, NumCols, FirstRow, FirstCol).  Steps are coarser than Python byte codes, so every behaviour of the model is one of the code.  What GDAL
does with a dataset that is used by several threads is not modelled.
-/

namespace Verif.TileThreads

open Verif.Updaters

/-- Where a thread is in `create_encoded_tile`.  `gdal_tile_factory.py` L84-147, `sicd_updater.py` L56-72. -/
inductive Pc
  | idle
  /-- The size check has passed (L56-57); nothing is assigned yet. -/
  | checked (q : Request)
  /-- `first_row` is assigned (L59). -/
  | row (q : Request)
  /-- `first_col` is assigned (L60). -/
  | col (q : Request)
  /-- `num_rows` is assigned (L61). -/
  | rows (q : Request)
  /-- `num_cols` is assigned (L62); the rendering begins. -/
  | encoding (q : Request)
  | read1 (q : Request) (numRows : Int)
  | read2 (q : Request) (numRows numCols : Int)
  | read3 (q : Request) (numRows numCols firstRow : Int)
deriving DecidableEq

/-- A thread with its requests to come, and the outcome of each that it has finished: the image data in the tile.  `gdal_tile_factory.py` L84-147. -/
structure Thread where
  todo : List Request
  pc : Pc
  done : List (Request × Except PyErr ImageData)

/-- One step of one thread on the shared updater.  `sicd_updater.py` L56-72. -/
def step (s : Sicd) (t : Thread) : Sicd × Thread :=
  match t.pc with
  | .idle =>
    match t.todo with
    | [] => (s, t)
    | q :: qs =>
      if q.out.elim false (fun o => decide (o.1 ≠ q.win.w ∨ o.2 ≠ q.win.h)) then (s, { t with todo := qs, done := t.done ++ [(q, .error .valueError)] })
      else (s, { t with todo := qs, pc := .checked q })
  | .checked q => ({ s with image := { s.image with firstRow := s.originalFirstRow + q.win.y } }, { t with pc := .row q })
  | .row q => ({ s with image := { s.image with firstCol := s.originalFirstCol + q.win.x } }, { t with pc := .col q })
  | .col q => ({ s with image := { s.image with numRows := q.win.h } }, { t with pc := .rows q })
  | .rows q => ({ s with image := { s.image with numCols := q.win.w } }, { t with pc := .encoding q })
  | .encoding q => (s, { t with pc := .read1 q s.image.numRows })
  | .read1 q nr => (s, { t with pc := .read2 q nr s.image.numCols })
  | .read2 q nr nc => (s, { t with pc := .read3 q nr nc s.image.firstRow })
  | .read3 q nr nc fr => (s, { t with pc := .idle, done := t.done ++ [(q, .ok ⟨fr, s.image.firstCol, nr, nc⟩)] })

/-- The factory's updater and the threads.  `gdal_tile_factory.py` L79. -/
structure Sys where
  updater : Sicd
  threads : Nat → Thread

/-- A step of thread `i`.  `sicd_updater.py` L56-72. -/
def Sys.step (s : Sys) (i : Nat) : Sys :=
  let r := TileThreads.step s.updater (s.threads i)
  { updater := r.1, threads := fun j => if j = i then r.2 else s.threads j }

/-- Any schedule (`gdal_tile_factory.py` L84-147). -/
def Sys.run (s : Sys) (schedule : List Nat) : Sys := schedule.foldl Sys.step s

/-- A new factory for an image with this metadata, and threads that have not begun.  `gdal_tile_factory.py` L59-80, `sicd_updater.py` L25-33. -/
def start (d : ImageData) (work : Nat → List Request) : Sys := { updater := Sicd.new d, threads := fun i => ⟨work i, .idle, []⟩ }

end Verif.TileThreads
