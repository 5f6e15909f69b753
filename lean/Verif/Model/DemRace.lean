import Verif.Model.Py

/-!
# The raster cache at the granularity of its two internal tables

digital_elevation_model.py L100, L141 use `cachetools.LRUCache` through
`cachedmethod` without a lock.  An `LRUCache` keeps the entries (`data`) and the
order of use (`order`) in two separate dictionaries that one look-up or store
updates one after the other.  The source of cachetools is not part of /repo; the
steps below follow its release 5.3 (`Cache.__getitem__`, `Cache.__setitem__`,
`Cache.pop`, `LRUCache.__getitem__`, `__setitem__`, `popitem`, `__update`).
Values are left out: only keys decide what happens.  Steps are coarser than
Python byte codes, so every behaviour of the model is one of the code.
-/

namespace Verif.DemRace

/-- Keys stored, and keys in order of use, oldest first.  The `LRUCache` of `digital_elevation_model.py` L100. -/
structure Cache where
  cap : Nat
  data : List Nat
  order : List Nat
deriving DecidableEq, Repr

/-- `LRUCache.__update`: `move_to_end`, which inserts an unknown key.  Called by the decorator of `digital_elevation_model.py` L141. -/
def touch (k : Nat) (order : List Nat) : List Nat := order.filter (· ≠ k) ++ [k]

/-- Where a thread is in the wrapper of `cachedmethod` (digital_elevation_model.py L141). -/
inductive Pc
  | idle
  /-- `LRUCache.__getitem__` has the value and has seen that the key is present; `__update` is next. -/
  | hit (k : Nat)
  /-- The look-up raised `KeyError`; the tile is loaded next. -/
  | missed (k : Nat)
  /-- `Cache.__setitem__`, before or inside the eviction loop. -/
  | storing (k : Nat)
  /-- The entry is stored; `__update` is next. -/
  | stored (k : Nat)
deriving DecidableEq, Repr

/-- A thread that asks for the tiles `todo` one after the other (`digital_elevation_model.py` L141-166). -/
structure Thread where
  todo : List Nat
  pc : Pc
  /-- For each finished call: did it return, or did the cache raise `KeyError` out of the query. -/
  done : List Bool
deriving DecidableEq, Repr

/-- One step of one thread on the shared cache.  `digital_elevation_model.py` L141-166 with the code of `cachetools`. -/
def step (c : Cache) (t : Thread) : Cache × Thread :=
  match t.pc, t.todo with
  | .idle, [] => (c, t)
  | .idle, k :: ks =>
    if k ∈ c.data then (c, { t with todo := ks, pc := .hit k }) else (c, { t with todo := ks, pc := .missed k })
  | .hit k, _ => ({ c with order := touch k c.order }, { t with pc := .idle, done := t.done ++ [true] })
  | .missed k, _ => (c, { t with pc := .storing k })
  | .storing k, _ =>
    if k ∉ c.data ∧ c.data.length + 1 > c.cap then
      -- `popitem`: the first key of `order`, then `pop` of that key, which raises when it is not stored
      match c.order with
      | [] => (c, { t with pc := .idle, done := t.done ++ [false] })
      | o :: os =>
        if o ∈ c.data then ({ c with data := c.data.filter (· ≠ o), order := os }, t)
        else (c, { t with pc := .idle, done := t.done ++ [false] })
    else ({ c with data := if k ∈ c.data then c.data else c.data ++ [k] }, { t with pc := .stored k })
  | .stored k, _ => ({ c with order := touch k c.order }, { t with pc := .idle, done := t.done ++ [true] })

/-- The cache that the threads share (`digital_elevation_model.py` L100), and the threads. -/
structure Sys where
  cache : Cache
  threads : Nat → Thread

/-- A step of thread `i` (`digital_elevation_model.py` L141-166). -/
def Sys.step (s : Sys) (i : Nat) : Sys :=
  let (c, t) := DemRace.step s.cache (s.threads i)
  { cache := c, threads := fun j => if j = i then t else s.threads j }

/-- Any schedule (`digital_elevation_model.py` L141-166). -/
def Sys.run (s : Sys) (schedule : List Nat) : Sys := schedule.foldl Sys.step s

/-- Threads that have not begun, on an empty cache.  `digital_elevation_model.py` L100. -/
def start (cap : Nat) (work : Nat → List Nat) : Sys :=
  { cache := ⟨cap, [], []⟩, threads := fun i => ⟨work i, .idle, []⟩ }

end Verif.DemRace
