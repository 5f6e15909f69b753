import Verif.Model.Py

/-! # Indexing of Python lists -/

namespace Verif

/-- Position of the Python index `i` in a list of length `n`: negative indices count from the end
(`xmltre_utils.py` L65, `replacement_sensor_model.py` L731). -/
def pyPos (n : Nat) (i : Int) : Except PyErr Nat :=
  let j := if i < 0 then i + n else i
  if j < 0 ∨ (n : Int) ≤ j then .error .indexError else .ok j.toNat

/-- `l[i]` (`replacement_sensor_model.py` L731, L755) -/
def pyGet {α : Type} (l : List α) (i : Int) : Except PyErr α :=
  match pyPos l.length i with
  | .error e => .error e
  | .ok j =>
    match l[j]? with
    | none => .error .indexError
    | some a => .ok a

/-- `l[i] = a` (`xmltre_utils.py` L65, `sicd_sensor_model_builder.py` L49, L64) -/
def pySet {α : Type} (l : List α) (i : Int) (a : α) : Except PyErr (List α) :=
  match pyPos l.length i with
  | .error e => .error e
  | .ok j => .ok (l.set j a)

end Verif
