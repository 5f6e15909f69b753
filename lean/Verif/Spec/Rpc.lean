import Mathlib.Analysis.Real.Sqrt
import Mathlib.Algebra.BigOperators.Group.List.Basic
import Verif.Model.Rpc

/-!
# Specification for RPC models and for models that search the ground point

The data types of the model (`Geo`, `Elev`, `Search`) are used; none of its functions.
-/

namespace Verif.Spec.Rpc

open Verif.Sensors Verif.Rpc
open Verif.Dem (Geo)

/-- The exponents of `L`, `P`, `H` in the order of the RPC00B format (STDI-0002 Volume 1 Appendix E):
1, L, P, H, LP, LH, PH, L², P², H², PLH, L³, LP², LH², L²P, P³, PH², L²H, P²H, H³. -/
def rpc00b : List (Nat × Nat × Nat) :=
  [(0, 0, 0), (1, 0, 0), (0, 1, 0), (0, 0, 1), (1, 1, 0), (1, 0, 1), (0, 1, 1), (2, 0, 0), (0, 2, 0), (0, 0, 2),
   (1, 1, 1), (3, 0, 0), (1, 2, 0), (1, 0, 2), (2, 1, 0), (0, 3, 0), (0, 1, 2), (2, 0, 1), (0, 2, 1), (0, 0, 3)]

/-- `Σ cᵢ L^a P^b H^c`. -/
def cubic {K : Type} [Field K] (c : List K) (l p h : K) : K :=
  ((c.zip rpc00b).map (fun t => t.1 * (l ^ t.2.1 * p ^ t.2.2.1 * h ^ t.2.2.2))).sum

/-- The ground point at a longitude and latitude: at the default height, or where the elevation
model puts it. -/
def ground (height : ℝ) (e : Option (Elev ℝ)) (lon lat : ℝ) : Except Fail (Geo ℝ) :=
  match e with
  | none => .ok ⟨lon, lat, height⟩
  | some f => f ⟨lon, lat, height⟩

/-- Distance of two points in the image. -/
noncomputable def misfit (p q : ℝ × ℝ) : ℝ := Real.sqrt ((p.1 - q.1) ^ 2 + (p.2 - q.2) ^ 2)

/-- The minimiser finds `p` when each question `q` is answered by an `v` with `answer q v`. -/
inductive Finds (answer : ℝ × ℝ → Option ℝ → Prop) : Search → ℝ × ℝ → Prop
  | done (p) : Finds answer (.done p) p
  | ask (q next v p) : answer q v → Finds answer (next v) p → Finds answer (.ask q next) p

/-- The truthful answer: the distance in the image between the target and the projection of
the ground point; `none` if there is no finite projection. -/
def IsMisfit (project : Geo ℝ → Except Fail (ℝ × ℝ)) (height : ℝ) (e : Option (Elev ℝ)) (target q : ℝ × ℝ) :
    Option ℝ → Prop
  | none => ground height e q.1 q.2 = .error .notFinite ∨
      ∃ g, ground height e q.1 q.2 = .ok g ∧ project g = .error .notFinite
  | some v => ∃ g x, ground height e q.1 q.2 = .ok g ∧ project g = .ok x ∧ v = misfit target x

end Verif.Spec.Rpc
