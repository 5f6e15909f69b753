import Verif.Model.Memory

/-!
# Specification: programs on coordinates that are values

Each variable has its own numbers; no statement changes any variable but the one it writes to.
-/

namespace Verif.Spec.Memory

open Verif.Sensors Verif.Memory
open Verif.Dem (Geo)

/-- Class and components of every variable. -/
abbrev Values (K : Type) := List (Kind × List K)

/-- Sensor models and elevation models as functions of values. -/
structure Functions (K O : Type) where
  models : List (SensorModel K O)
  elevations : List (Elev K)

section
variable {K O : Type}

def undefined (s : Values K) : Except Fail (Option K) × Values K := (.error (.raised .attributeError), s)

/-- A new variable, unless there is an exception. -/
def bindNew (s : Values K) (k : Kind) : Except Fail (List K) → Except Fail (Option K) × Values K
  | .error f => (.error f, s)
  | .ok vs => (.ok none, s ++ [(k, vs)])

/-- The components of the classes, each with its names. -/
def fields : Kind → List (List Property)
  | .array => []
  | .world => [[.x], [.y], [.z]]
  | .geodetic => [[.x, .longitude], [.y, .latitude], [.z, .elevation]]
  | .image => [[.x, .c], [.y, .r]]

/-- Number of a component by its name. -/
def component (k : Kind) (p : Property) : Option Nat := (fields k).findIdx? (fun names => p ∈ names)

/-- A coordinate of a class from a list of numbers. -/
def made (k : Kind) (vs : List K) : Except Fail (List K) := if vs.length = (fields k).length then .ok vs else .error (.raised .valueError)

def readItem (s : Values K) (vs : List K) (i : Nat) : Except Fail (Option K) × Values K :=
  match vs[i]? with
  | none => (.error (.raised .indexError), s)
  | some x => (.ok (some x), s)

def writeItem (s : Values K) (v : Nat) (k : Kind) (vs : List K) (i : Nat) (value : K) : Except Fail (Option K) × Values K :=
  if i < vs.length then (.ok none, s.set v (k, vs.set i value)) else (.error (.raised .indexError), s)

def triple (g : Geo K) : List K := [g.longitude, g.latitude, g.elevation]

def pair (p : K × K) : List K := [p.1, p.2]

/-- One statement. -/
def step [Zero K] (L : Functions K O) (s : Values K) : Op K O → Except Fail (Option K) × Values K
  | .array vs => bindNew s .array (.ok vs)
  | .new .array _ => undefined s
  | .new k .nothing => bindNew s k (.ok (List.replicate (fields k).length 0))
  | .new k (.values vs) => bindNew s k (made k vs)
  | .new k (.variable i) =>
    match s[i]? with
    | none => undefined s
    | some (_, vs) => bindNew s k (made k vs)
  | .get v p =>
    match s[v]? with
    | none => undefined s
    | some (k, vs) =>
      match component k p with
      | none => undefined s
      | some i => readItem s vs i
  | .set v p value =>
    match s[v]? with
    | none => undefined s
    | some (k, vs) =>
      match component k p with
      | none => undefined s
      | some i => writeItem s v k vs i value
  | .getItem v i =>
    match s[v]? with
    | none => undefined s
    | some (_, vs) => readItem s vs i
  | .setItem v i value =>
    match s[v]? with
    | none => undefined s
    | some (k, vs) => writeItem s v k vs i value
  | .setElevation e v =>
    match L.elevations[e]?, s[v]? with
    | some f, some (.geodetic, [lon, lat, h]) =>
      match f ⟨lon, lat, h⟩ with
      | .error x => (.error x, s)
      | .ok g => (.ok none, s.set v (.geodetic, [lon, lat, g.elevation]))
    | _, _ => undefined s
  | .imageToWorld m v e o =>
    match L.models[m]?, s[v]? with
    | some f, some (.image, [x, y]) =>
      match e with
      | none => bindNew s .geodetic ((f.imageToWorld (x, y) none o).map triple)
      | some e =>
        match L.elevations[e]? with
        | none => undefined s
        | some e => bindNew s .geodetic ((f.imageToWorld (x, y) (some e) o).map triple)
    | _, _ => undefined s
  | .worldToImage m v =>
    match L.models[m]?, s[v]? with
    | some f, some (.geodetic, [lon, lat, h]) => bindNew s .image ((f.worldToImage ⟨lon, lat, h⟩).map pair)
    | _, _ => undefined s

/-- The numbers of the variables. -/
def contents (s : State K) : Values K := s.vars.map (fun v => (v.1, (s.mem[v.2]?).getD []))

/-- A program. -/
def steps [Zero K] (L : Functions K O) (s : Values K) : List (Op K O) → List (Except Fail (Option K)) × Values K
  | [] => ([], s)
  | o :: os =>
    let (r, s) := step L s o
    let (rs, s) := steps L s os
    (r :: rs, s)

/-- `set_elevation` of a terrain model as a function of values: the location of the tile's surface below the coordinate, which is `Verif.Dem.Terrain.query` without the cache. -/
def surface {A R : Type} (d : Verif.Dem.Terrain K A R) : Elev K := fun g =>
  match d.tileOf g with
  | none => .ok g
  | some id => Verif.Rpc.raise (d.load id >>= fun gr => Verif.Dem.applyGrid gr g)

end

end Verif.Spec.Memory
