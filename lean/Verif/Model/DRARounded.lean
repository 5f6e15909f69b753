import Verif.Model.DRA
import Verif.Model.Float64

/-!
# Dynamic range adjustment in double precision

`DRAParameters.from_counts` again, every floating point operation followed by the rounding `rnd`.
-/

namespace Verif.DRARounded

open Verif.DRA

/-- dynamic_range_adjustment.py L66-68: sums so far, each rounded.  Python adds counts that are `int` without rounding; below 2⁵³ that is
the same. -/
def cumulativeFrom (rnd : ℚ → ℚ) (acc : ℚ) : List ℚ → List ℚ
  | [] => []
  | c :: cs => rnd (acc + c) :: cumulativeFrom rnd (rnd (acc + c)) cs

/-- L66-68: the first entry is the first count itself. -/
def cumulative (rnd : ℚ → ℚ) : List ℚ → List ℚ
  | [] => []
  | c :: cs => c :: cumulativeFrom rnd c cs

/-- L28-92 `DRAParameters.from_counts`.  Indices are `int`; `max` and `min` (L83-84) compare an `int` with a `float` exactly. -/
def fromCounts (rnd : ℚ → ℚ) (counts : List ℚ) (first last : Option ℚ) (minPct maxPct a b : ℚ) : Except PyErr (DRAParameters ℚ) :=
  let n : ℚ := counts.length
  let firstV := orDefault first 0
  let lastV := orDefault last n
  let amin : ℚ := actualMinIndex counts
  let amax : ℚ := actualMaxIndex counts
  let cum := cumulative rnd counts
  match cum.getLast? with
  | none => .error .indexError
  | some maxCounts =>
    let eMin : ℚ := eMinIndex cum (rnd (minPct * maxCounts))
    let eMax : ℚ := eMaxIndex cum (rnd (maxPct * maxCounts))
    let minV := max amin (rnd (eMin - rnd (a * (eMax - eMin))))
    let maxV := min amax (rnd (eMax + rnd (b * (eMax - eMin))))
    let step := rnd (rnd (lastV - firstV) / n)
    .ok { suggestedMin := rnd (rnd (minV * step) + firstV)
          suggestedMax := rnd (rnd (maxV * step) + firstV)
          actualMin := rnd (rnd (amin * step) + firstV)
          actualMax := rnd (rnd (amax * step) + firstV) }

/-- L31-36: the doubles nearest to `0.02, 0.98, 0.2, 0.4` as defaults. -/
def fromCountsDefault (rnd : ℚ → ℚ) (counts : List ℚ) (first last : Option ℚ) : Except PyErr (DRAParameters ℚ) :=
  fromCounts rnd counts first last (rnd (2 / 100)) (rnd (98 / 100)) (rnd (2 / 10)) (rnd (4 / 10))

end Verif.DRARounded
