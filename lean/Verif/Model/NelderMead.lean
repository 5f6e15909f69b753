import Verif.Model.Rpc

/-!
# Model of SciPy's Nelder-Mead search

`scipy.optimize.minimize(method="Nelder-Mead")` is what `rpc_sensor_model.py` L226-235 and `replacement_sensor_model.py` L538-557 call.  SciPy is not part of the repository: everywhere else the minimiser is a
parameter, constrained only by what is assumed of it.  Here it is written out (`_minimize_neldermead` of `scipy/optimize/_optimize.py`) in two dimensions with the options of the two calls, in exact arithmetic, to
show that the assumptions can be met and to prove more about the two functions.  Simplified: sorting is stable.
-/

namespace Verif.NelderMead

open Verif.Rpc

/-- A row of `sim` and its entry of `fsim`; `none` is NaN or infinity
(SciPy, called by `rpc_sensor_model.py` L226-235 and `replacement_sensor_model.py` L538-557). -/
structure Vertex where
  x : ℝ × ℝ
  f : Option ℝ

/-- `sim[0]`, `sim[1]`, `sim[2]` (SciPy, called by `rpc_sensor_model.py` L226-235 and `replacement_sensor_model.py` L538-557) -/
structure Simplex where
  a : Vertex
  b : Vertex
  c : Vertex

/-- The order of `np.argsort`: values that are not finite come last
(SciPy, called by `rpc_sensor_model.py` L226-235 and `replacement_sensor_model.py` L538-557). -/
def Before : Option ℝ → Option ℝ → Prop
  | some s, some t => s ≤ t
  | _, none => True
  | none, some _ => False

/-- `<` of floats.  `inf` says whether values that are not finite are infinities or NaN
(SciPy, called by `rpc_sensor_model.py` L226-235 and `replacement_sensor_model.py` L538-557). -/
def Less (inf : Bool) : Option ℝ → Option ℝ → Prop
  | some s, some t => s < t
  | some _, none => inf = true
  | none, _ => False

/-- `<=` of floats (SciPy, called by `rpc_sensor_model.py` L226-235 and `replacement_sensor_model.py` L538-557). -/
def LessEq (inf : Bool) : Option ℝ → Option ℝ → Prop
  | some s, some t => s ≤ t
  | _, none => inf = true
  | none, some _ => False

open Classical in
/-- Insert a third vertex into two that are in order (SciPy, called by `rpc_sensor_model.py` L226-235 and `replacement_sensor_model.py` L538-557). -/
noncomputable def insertLast (u v c : Vertex) : Simplex := if Before v.f c.f then ⟨u, v, c⟩ else if Before u.f c.f then ⟨u, c, v⟩ else ⟨c, u, v⟩

open Classical in
/-- `np.take(sim, np.argsort(fsim), 0)` (SciPy, called by `rpc_sensor_model.py` L226-235 and `replacement_sensor_model.py` L538-557) -/
noncomputable def sort (s : Simplex) : Simplex := if Before s.a.f s.b.f then insertLast s.a s.b s.c else insertLast s.b s.a s.c

/-- `(1 + t) * xbar - t * sim[-1]` with the mean `xbar` of the two better vertices: `t` is 1 for the reflection, 2 for the expansion, 1/2 for the outer and -1/2 for the inner contraction
(SciPy, called by `rpc_sensor_model.py` L226-235 and `replacement_sensor_model.py` L538-557). -/
noncomputable def Simplex.away (s : Simplex) (t : ℝ) : ℝ × ℝ :=
  ((1 + t) * ((s.a.x.1 + s.b.x.1) / 2) - t * s.c.x.1, (1 + t) * ((s.a.x.2 + s.b.x.2) / 2) - t * s.c.x.2)

/-- `sim[0] + sigma * (sim[j] - sim[0])` (SciPy, called by `rpc_sensor_model.py` L226-235 and `replacement_sensor_model.py` L538-557) -/
noncomputable def halfway (a v : Vertex) : ℝ × ℝ := (a.x.1 + 1 / 2 * (v.x.1 - a.x.1), a.x.2 + 1 / 2 * (v.x.2 - a.x.2))

/-- `func(x)`, which raises when `maxfun` calls have been made; `n` calls are left.  What follows the exception is `stop`
(SciPy, called by `rpc_sensor_model.py` L226-235 and `replacement_sensor_model.py` L538-557). -/
def evaluate (n : Nat) (x : ℝ × ℝ) (stop : Search) (k : Option ℝ → Nat → Search) : Search :=
  match n with
  | 0 => stop
  | n + 1 => .ask x (fun v => k v n)

/-- The loop over the two worse vertices.  When the limit is reached in the middle of it, a vertex has moved but not its value
(SciPy, called by `rpc_sensor_model.py` L226-235 and `replacement_sensor_model.py` L538-557). -/
noncomputable def shrink (clip : ℝ × ℝ → ℝ × ℝ) (s : Simplex) (n : Nat) (next : Simplex → Nat → Search) (stop : Simplex → Search) : Search :=
  evaluate n (clip (halfway s.a s.b)) (stop { s with b := ⟨clip (halfway s.a s.b), s.b.f⟩ }) fun fb n =>
    evaluate n (clip (halfway s.a s.c)) (stop ⟨s.a, ⟨clip (halfway s.a s.b), fb⟩, ⟨clip (halfway s.a s.c), s.c.f⟩⟩) fun fc n =>
      next ⟨s.a, ⟨clip (halfway s.a s.b), fb⟩, ⟨clip (halfway s.a s.c), fc⟩⟩ n

open Classical in
/-- One pass of the `while` loop: reflection, expansion, contraction or shrinking
(SciPy, called by `rpc_sensor_model.py` L226-235 and `replacement_sensor_model.py` L538-557). -/
noncomputable def step (inf : Bool) (clip : ℝ × ℝ → ℝ × ℝ) (s : Simplex) (n : Nat) (next : Simplex → Nat → Search) (stop : Simplex → Search) : Search :=
  evaluate n (clip (s.away 1)) (stop s) fun fr n =>
    if Less inf fr s.a.f then
      evaluate n (clip (s.away 2)) (stop s) fun fe n =>
        if Less inf fe fr then next { s with c := ⟨clip (s.away 2), fe⟩ } n else next { s with c := ⟨clip (s.away 1), fr⟩ } n
    else if Less inf fr s.b.f then next { s with c := ⟨clip (s.away 1), fr⟩ } n
    else if Less inf fr s.c.f then
      evaluate n (clip (s.away (1 / 2))) (stop s) fun fo n =>
        if LessEq inf fo fr then next { s with c := ⟨clip (s.away (1 / 2)), fo⟩ } n else shrink clip s n next stop
    else
      evaluate n (clip (s.away (-1 / 2))) (stop s) fun fi n =>
        if Less inf fi s.c.f then next { s with c := ⟨clip (s.away (-1 / 2)), fi⟩ } n else shrink clip s n next stop

/-- `np.max(np.ravel(np.abs(sim[1:] - sim[0]))) <= xatol and np.max(np.abs(fsim[0] - fsim[1:])) <= fatol`
(SciPy, called by `rpc_sensor_model.py` L226-235 and `replacement_sensor_model.py` L538-557) -/
def Converged (xatol fatol : ℝ) (s : Simplex) : Prop :=
  (∀ v ∈ [s.b, s.c], |v.x.1 - s.a.x.1| ≤ xatol ∧ |v.x.2 - s.a.x.2| ≤ xatol) ∧
    ∃ f, s.a.f = some f ∧ ∀ v ∈ [s.b, s.c], ∃ g, v.f = some g ∧ |f - g| ≤ fatol

open Classical in
/-- The `while` loop with `m` iterations and `n` evaluations left
(SciPy, called by `rpc_sensor_model.py` L226-235 and `replacement_sensor_model.py` L538-557). -/
noncomputable def loop (inf : Bool) (clip : ℝ × ℝ → ℝ × ℝ) (xatol fatol : ℝ) : Nat → Simplex → Nat → Search
  | 0, s, _ => .done s.a.x
  | m + 1, s, n =>
    if n = 0 ∨ Converged xatol fatol s then .done s.a.x
    else step inf clip s n (fun s' n' => loop inf clip xatol fatol m (sort s') n') (fun s' => .done (sort s').a.x)

/-- `np.clip` to the bounds (SciPy, called by `rpc_sensor_model.py` L226-235 and `replacement_sensor_model.py` L538-557). -/
noncomputable def clipTo (bounds : Option ((ℝ × ℝ) × ℝ × ℝ)) (p : ℝ × ℝ) : ℝ × ℝ :=
  match bounds with
  | none => p
  | some b => (min (max p.1 b.1.1) b.2.1, min (max p.2 b.1.2) b.2.2)

open Classical in
/-- A vertex of the initial simplex beyond an upper bound is reflected at it
(SciPy, called by `rpc_sensor_model.py` L226-235 and `replacement_sensor_model.py` L538-557). -/
noncomputable def reflectAt (bounds : Option ((ℝ × ℝ) × ℝ × ℝ)) (p : ℝ × ℝ) : ℝ × ℝ :=
  match bounds with
  | none => p
  | some b => (if b.2.1 < p.1 then 2 * b.2.1 - p.1 else p.1, if b.2.2 < p.2 then 2 * b.2.2 - p.2 else p.2)

/-- `_minimize_neldermead` with the options `xatol=radians(0.000001)`, `fatol=0.5` (rpc_sensor_model.py L230-234, replacement_sensor_model.py L552-556).  The limits are 200 iterations and 200 evaluations for each
of the two variables.  An initial simplex of another shape raises in SciPy; `equilateral_triangle` makes three vertices. -/
noncomputable def nelderMead (inf : Bool) : Minimiser := fun start bounds simplex =>
  match simplex with
  | [p, q, r] =>
    let e := fun v => clipTo bounds (reflectAt bounds v)
    .ask (e p) fun fp => .ask (e q) fun fq => .ask (e r) fun fr =>
      loop inf (clipTo bounds) (radians 0.000001) 0.5 399 (sort ⟨⟨e p, fp⟩, ⟨e q, fq⟩, ⟨e r, fr⟩⟩) 397
  | p :: _ => .done (clipTo bounds p)
  | [] => .done (clipTo bounds start)

end Verif.NelderMead
