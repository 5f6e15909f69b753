import Mathlib.Algebra.Order.Field.Basic
import Verif.Model.Py

/-!
# Dynamic range adjustment

Model of `/repo/src/aws/osml/gdal/dynamic_range_adjustment.py`.
Floats are elements of an arbitrary linearly ordered field (no rounding).
-/

namespace Verif.DRA

variable {K : Type*} [Field K] [LinearOrder K]

/-- dynamic_range_adjustment.py L12-26: the four fields of `DRAParameters`. -/
structure DRAParameters (K : Type*) where
  suggestedMin : K
  suggestedMax : K
  actualMin : K
  actualMax : K
deriving DecidableEq, Repr

/-- An upward `while p(i) and i < stop: i += 1` loop; `fuel` is `stop - i`, so
running out of fuel is the `i < stop` test failing (used for L57-59 and L74-76). -/
def scanUp (p : Nat → Bool) : (fuel i : Nat) → Nat
  | 0, i => i
  | fuel + 1, i => if p i then scanUp p fuel (i + 1) else i

/-- A downward `while p(i) and i > 0: i -= 1` loop (L61-63 and L79-81). -/
def scanDown (p : Nat → Bool) : Nat → Nat
  | 0 => 0
  | i + 1 => if p (i + 1) then scanDown p i else i + 1

/-- L66-68: the in-place cumulative sum over a copy of the counts. -/
def cumulativeFrom (acc : K) : List K → List K
  | [] => []
  | c :: cs => (acc + c) :: cumulativeFrom (acc + c) cs

/-- L66-68: `cumulative_counts`. -/
def cumulative (counts : List K) : List K := cumulativeFrom 0 counts

/-- L51-54: `if not value: value = default`; both `None` and `0` are falsy. -/
def orDefault (value : Option K) (default : K) : K :=
  match value with
  | none => default
  | some v => if v = 0 then default else v

/-- L57-59: index of the first non-zero count (`len(counts)` when there is none). -/
def actualMinIndex (counts : List K) : Nat :=
  scanUp (fun i => counts[i]? == some 0) counts.length 0

/-- L61-63: index of the last non-zero count (0 when there is none). -/
def actualMaxIndex (counts : List K) : Nat :=
  scanDown (fun i => counts[i]? == some 0) (counts.length - 1)

/-- L74-76: first index whose cumulative count reaches the low threshold. -/
def eMinIndex (cum : List K) (low : K) : Nat :=
  scanUp (fun i => (cum[i]?).any (fun c => decide (c < low))) (cum.length - 1) 0

/-- L78-81: last index whose cumulative count does not exceed the high threshold. -/
def eMaxIndex (cum : List K) (high : K) : Nat :=
  scanDown (fun i => (cum[i]?).any (fun c => decide (high < c))) (cum.length - 1)

/-- L28-92 `DRAParameters.from_counts`.  All list accesses of the Python are in
range for a non-empty list; for an empty list `cumulative_counts[-1]` (L72)
raises `IndexError`. -/
def fromCounts (counts : List K) (first last : Option K)
    (minPct maxPct a b : K) : Except PyErr (DRAParameters K) :=
  let n : K := (counts.length : K)
  let firstV := orDefault first 0
  let lastV := orDefault last n
  let amin : K := (actualMinIndex counts : K)
  let amax : K := (actualMaxIndex counts : K)
  let cum := cumulative counts
  match cum.getLast? with
  | none => .error .indexError
  | some maxCounts =>
    let eMin : K := (eMinIndex cum (minPct * maxCounts) : K)
    let eMax : K := (eMaxIndex cum (maxPct * maxCounts) : K)
    let minV := max amin (eMin - a * (eMax - eMin))
    let maxV := min amax (eMax + b * (eMax - eMin))
    let step := (lastV - firstV) / n
    .ok { suggestedMin := minV * step + firstV
          suggestedMax := maxV * step + firstV
          actualMin := amin * step + firstV
          actualMax := amax * step + firstV }

/-- L31-36: the defaults `0.02, 0.98, 0.2, 0.4`. -/
def fromCountsDefault (counts : List K) (first last : Option K) :
    Except PyErr (DRAParameters K) :=
  fromCounts counts first last (2 / 100) (98 / 100) (2 / 10) (4 / 10)

end Verif.DRA
