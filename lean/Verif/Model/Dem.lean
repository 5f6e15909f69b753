import Mathlib.Algebra.Order.Floor.Ring
import Mathlib.Algebra.Order.Field.Basic
import Verif.Model.Py

/-!
# Model of `digital_elevation_model.py`

The raster cache is `cachetools.LRUCache` used through `cachetools.cachedmethod`
without a lock; both are third-party code, modelled from their documented
behaviour (every value has size 1).
-/

namespace Verif.Dem

/-- `cachetools.LRUCache(maxsize)`; entries in order of use, oldest first.  `digital_elevation_model.py` L100. -/
structure Lru (Key V : Type) where
  cap : Int
  entries : List (Key × V)

section
variable {Key V : Type} [DecidableEq Key]

/-- The keys in order of use (`cachetools`, `digital_elevation_model.py` L100). -/
def Lru.keys (c : Lru Key V) : List Key := c.entries.map Prod.fst

/-- The entries without the key `k` (`cachetools`, `digital_elevation_model.py` L100). -/
def dropKey (k : Key) (es : List (Key × V)) : List (Key × V) := es.filter (fun e => e.1 ≠ k)

/-- `LRUCache.__getitem__`: `none` is `KeyError`; a hit moves the entry to the end.  Called by the decorator of `digital_elevation_model.py` L141. -/
def Lru.get (c : Lru Key V) (k : Key) : Option (V × Lru Key V) :=
  match c.entries.find? (fun e => e.1 = k) with
  | none => none
  | some e => some (e.2, { c with entries := dropKey k c.entries ++ [(k, e.2)] })

/-- The loop `while currsize + size > maxsize: popitem()` of `Cache.__setitem__` (`digital_elevation_model.py` L100, L141). -/
def evict (cap : Int) : List (Key × V) → List (Key × V)
  | [] => []
  | e :: es => if ((e :: es).length : Int) + 1 > cap then evict cap es else e :: es

/-- `LRUCache.__setitem__`: `none` is `ValueError` ("value too large").  Called by the decorator of `digital_elevation_model.py` L141. -/
def Lru.set (c : Lru Key V) (k : Key) (v : V) : Option (Lru Key V) :=
  if 1 > c.cap then none
  else if k ∈ c.keys then some { c with entries := dropKey k c.entries ++ [(k, v)] }
  else some { c with entries := evict c.cap c.entries ++ [(k, v)] }

/-- digital_elevation_model.py L141: the wrapper made by `cachedmethod`: look up, else call
the method, store the result (ignoring `ValueError`) and return it.  The flag tells
whether the method was called; an exception of the method propagates and nothing is stored. -/
def cachedCall {E : Type} (load : Key → Except E V) (c : Lru Key V) (k : Key) : Except E V × Lru Key V × Bool :=
  match c.get k with
  | some (v, c') => (.ok v, c', false)
  | none =>
    match load k with
    | .error e => (.error e, c, true)
    | .ok v => (.ok v, (match c.set k v with | some c' => c' | none => c), true)
end

/-- Longitude, latitude, elevation.  `coordinates.py` L61-137. -/
structure Geo (K : Type) where
  longitude : K
  latitude : K
  elevation : K
deriving DecidableEq

/-- What the tile factory returns: elevations, sensor model and summary, each possibly `None`
(digital_elevation_model.py L57, L159).  The sensor model is its `world_to_image`. -/
structure Loaded (K A R : Type) where
  array : Option A
  model : Option (Geo K → Except PyErr (K × K))
  summary : Option R

/-- A cached value: interpolation grid, sensor model, summary (digital_elevation_model.py L144). -/
structure Grid (K R : Type) where
  interp : Option (K → K → K)
  model : Option (Geo K → Except PyErr (K × K))
  summary : Option R

/-- A DEM: tile set, tile factory and the construction of the interpolator.  `digital_elevation_model.py` L79-100. -/
structure Terrain (K A R : Type) where
  tileId : Geo K → Option (List Char)
  getTile : List Char → Except PyErr (Loaded K A R)
  spline : A → Except PyErr (K → K → K)

section
variable {K A R : Type}

/-- digital_elevation_model.py L142-166: the undecorated `get_interpolation_grid`. -/
def Terrain.load (d : Terrain K A R) (path : List Char) : Except PyErr (Grid K R) :=
  match d.getTile path with
  | .error e => .error e
  | .ok t =>
    match t.array, t.model with
    | some a, some m =>
      match d.spline a with
      | .error e => .error e
      | .ok g => .ok { interp := some g, model := some m, summary := t.summary }
    | _, _ => .ok { interp := none, model := none, summary := none }

/-- digital_elevation_model.py L116-118, L134-136: the tile of a location, with the
falsy ids `None` and `""` both meaning no tile. -/
def Terrain.tileOf (d : Terrain K A R) (c : Geo K) : Option (List Char) :=
  match d.tileId c with
  | none => none
  | some [] => none
  | some p => some p

/-- digital_elevation_model.py L122-124: the part of `set_elevation` after the tile is known. -/
def applyGrid (g : Grid K R) (c : Geo K) : Except PyErr (Geo K) :=
  match g.interp, g.model with
  | some f, some m =>
    match m c with
    | .error e => .error e
    | .ok (x, y) => .ok { c with elevation := f x y }
  | _, _ => .ok c

/-- The two queries.  `digital_elevation_model.py` L105-139. -/
inductive Query (K : Type)
  | setElevation (c : Geo K)
  | describeRegion (c : Geo K)

/-- Their results: the coordinate after the call, or the summary.  `digital_elevation_model.py` L105-139. -/
inductive Answer (K R : Type)
  | coordinate (c : Geo K)
  | summary (s : Option R)

/-- The argument of a query (`digital_elevation_model.py` L105, L126). -/
def Query.coord : Query K → Geo K
  | .setElevation c => c
  | .describeRegion c => c

/-- The result of a query from the result of `get_interpolation_grid`
(digital_elevation_model.py L120-124 and L138-139). -/
def Query.finish : Query K → Except PyErr (Grid K R) → Except PyErr (Answer K R)
  | .setElevation c, .ok g => (applyGrid g c).map .coordinate
  | .describeRegion _, .ok g => .ok (.summary g.summary)
  | _, .error e => .error e

/-- The result of a query for which there is no tile (L117-118, L135-136). -/
def Query.noTile : Query K → Except PyErr (Answer K R)
  | .setElevation c => .ok (.coordinate c)
  | .describeRegion _ => .ok (.summary none)

/-- digital_elevation_model.py L105-139: `set_elevation` and `describe_region` on the
cached model; also returns the tiles that were loaded. -/
def Terrain.query (d : Terrain K A R) (c : Lru (List Char) (Grid K R)) (q : Query K) :
    Except PyErr (Answer K R) × Lru (List Char) (Grid K R) × List (List Char) :=
  match d.tileOf q.coord with
  | none => (q.noTile, c, [])
  | some p =>
    let (r, c', loaded) := cachedCall d.load c p
    (q.finish r, c', if loaded then [p] else [])

/-- A sequence of queries on one model.  `digital_elevation_model.py` L105-139. -/
def Terrain.queries (d : Terrain K A R) (c : Lru (List Char) (Grid K R)) :
    List (Query K) → List (Except PyErr (Answer K R)) × Lru (List Char) (Grid K R) × List (List Char)
  | [] => ([], c, [])
  | q :: qs =>
    let (a, c', l) := d.query c q
    let (as, c'', l') := d.queries c' qs
    (a :: as, c'', l ++ l')

end

/-! ## Concurrent queries: look-up, load and store are separate steps -/

section
variable {K A R : Type}

/-- Where a thread is inside `get_interpolation_grid`.  `digital_elevation_model.py` L141-166. -/
inductive Phase (K R : Type)
  | idle
  | missed (p : List Char)
  | loaded (p : List Char) (g : Grid K R)

/-- A thread that asks the queries `todo` one after the other (`digital_elevation_model.py` L105-166). -/
structure Thread (K R : Type) where
  todo : List (Query K)
  phase : Phase K R
  done : List (Except PyErr (Answer K R))

/-- The cache that the threads share (`digital_elevation_model.py` L100), and the threads. -/
structure Sys (K R : Type) where
  cache : Lru (List Char) (Grid K R)
  threads : Nat → Thread K R

/-- One atomic step of one thread (the wrapper of `cachedmethod` has no lock, so other
threads may run between look-up, load and store).  `digital_elevation_model.py` L105-166. -/
def threadStep (d : Terrain K A R) (cache : Lru (List Char) (Grid K R)) (t : Thread K R) :
    Lru (List Char) (Grid K R) × Thread K R :=
  match t.phase, t.todo with
  | _, [] => (cache, t)
  | .idle, q :: qs =>
    match d.tileOf q.coord with
    | none => (cache, { todo := qs, phase := .idle, done := t.done ++ [q.noTile] })
    | some p =>
      match cache.get p with
      | some (g, cache') => (cache', { todo := qs, phase := .idle, done := t.done ++ [q.finish (.ok g)] })
      | none => (cache, { t with phase := .missed p })
  | .missed p, q :: qs =>
    match d.load p with
    | .error e => (cache, { todo := qs, phase := .idle, done := t.done ++ [q.finish (.error e)] })
    | .ok g => (cache, { t with phase := .loaded p g })
  | .loaded p g, q :: qs =>
    ((match cache.set p g with | some c' => c' | none => cache),
      { todo := qs, phase := .idle, done := t.done ++ [q.finish (.ok g)] })

/-- A step of thread `i` (`digital_elevation_model.py` L105-166). -/
def Sys.step (d : Terrain K A R) (s : Sys K R) (i : Nat) : Sys K R :=
  let (c, t) := threadStep d s.cache (s.threads i)
  { cache := c, threads := fun j => if j = i then t else s.threads j }

/-- Any schedule: the list of thread numbers that make a step (`digital_elevation_model.py` L105-166). -/
def Sys.run (d : Terrain K A R) (s : Sys K R) (schedule : List Nat) : Sys K R := schedule.foldl (Sys.step d) s

end

/-! ## The interpolator -/

section
variable {K : Type} [Field K] [LinearOrder K] [IsStrictOrderedRing K] [FloorRing K]

/-- A tile array of `width × height` elevations; `z c r` is `elevations_array[r][c]`.  `digital_elevation_model.py` L159-164. -/
structure Posts (K : Type) where
  width : Nat
  height : Nat
  z : Nat → Nat → K

/-- FITPACK `bispev` moves an argument outside the knots to the nearest end.  Called by `digital_elevation_model.py` L124. -/
def clamp (x : K) (n : Nat) : K := max 0 (min x ((n : K) - 1))

/-- The knot interval used for a clamped argument: the last one for the right end.  Called by `digital_elevation_model.py` L124. -/
def cell (x : K) (n : Nat) : Nat := min ⌊x⌋.toNat (n - 2)

/-- digital_elevation_model.py L161-164: `RectBivariateSpline(range(w), range(h), a.T, kx=1, ky=1)`,
i.e. the interpolating bilinear surface; at least two posts in each direction are required. -/
def bilinear (p : Posts K) : Except PyErr (K → K → K) :=
  if p.width < 2 ∨ p.height < 2 then .error .valueError
  else .ok fun x y =>
    let x := clamp x p.width
    let y := clamp y p.height
    let i := cell x p.width
    let j := cell y p.height
    let u := x - i
    let v := y - j
    (1 - u) * (1 - v) * p.z i j + u * (1 - v) * p.z (i + 1) j + (1 - u) * v * p.z i (j + 1) + u * v * p.z (i + 1) (j + 1)

end

end Verif.Dem
