import Mathlib.Data.Set.Basic
import Verif.Model.GdalConfig

/-!
# Specification vocabulary for configuration blocks
-/

namespace Verif.Spec.GdalConfig

open Verif.GdalConfig

/-- The table slots an option dictionary writes to. -/
def slots (fold : String → String) (d : Dict) : List String := d.map (fun kv => fold kv.1)

/-- No two option names of the dictionary denote the same GDAL option. -/
def DistinctOptions (fold : String → String) (d : Dict) : Prop := (slots fold d).Nodup

/-- Environments entered somewhere in a program. -/
def used : Prog → Set Nat
  | .skip => ∅
  | .set _ _ => ∅
  | .raise => ∅
  | .seq p q => used p ∪ used q
  | .block i b => {i} ∪ used b

/-- No environment object is entered again inside its own block. -/
def NoReentry : Prog → Prop
  | .skip => True
  | .set _ _ => True
  | .raise => True
  | .seq p q => NoReentry p ∧ NoReentry q
  | .block i b => i ∉ used b ∧ NoReentry b

/-- The program reaches a `raise` (it has no conditions, so every statement before it is executed). -/
def raises : Prog → Bool
  | .skip => false
  | .set _ _ => false
  | .raise => true
  | .seq p q => raises p || raises q
  | .block _ b => raises b

/-- Table slots a program may change for good: direct writes that are not
inside a block naming the same option. -/
def exposed (fold : String → String) (opts : Nat → Dict) : Prog → Set String
  | .skip => ∅
  | .set k _ => {fold k}
  | .raise => ∅
  | .seq p q => exposed fold opts p ∪ exposed fold opts q
  | .block i b => exposed fold opts b \ {s | s ∈ slots fold (opts i)}

/-- A schedule in which every environment is entered only when outside, left
only when inside, and everything is left at the end. -/
def ValidSchedule : List Event → (Nat → Bool) → Prop
  | [], inside => ∀ i, inside i = false
  | .enter i :: rest, inside =>
    inside i = false ∧ ValidSchedule rest (fun j => if j = i then true else inside j)
  | .exit i :: rest, inside =>
    inside i = true ∧ ValidSchedule rest (fun j => if j = i then false else inside j)

end Verif.Spec.GdalConfig
