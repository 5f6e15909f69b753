import Verif.Model.Dem

/-!
# Specification of elevation queries: no cache
-/

namespace Verif.Spec.Dem

open Verif.Dem

variable {K A R : Type}

/-- The answer of a model without a cache: load the tile of the location, every time. -/
def uncached (d : Terrain K A R) (q : Query K) : Except PyErr (Answer K R) :=
  match d.tileOf q.coord with
  | none => q.noTile
  | some p => q.finish (d.load p)

/-- The tiles a sequence of queries refers to. -/
def tilesOf (d : Terrain K A R) (qs : List (Query K)) : List (List Char) := qs.filterMap (fun q => d.tileOf q.coord)

/-- The list has at most / fewer than `n` different elements: it is contained in a list of that length. -/
def AtMost {α : Type} (l : List α) (n : Int) : Prop := ∃ s : List α, l ⊆ s ∧ (s.length : Int) ≤ n

end Verif.Spec.Dem
