import Verif.Spec.Rpc

/-!
# The simplex method of Nelder and Mead as in the literature

J. C. Lagarias, J. A. Reeds, M. H. Wright, P. E. Wright, *Convergence properties of the Nelder-Mead simplex method in low dimensions*, SIAM J. Optim. 9 (1998), section 2.
-/

namespace Verif.Spec.Simplex

open Verif.Rpc

/-- A place and its value; `none` is no finite value. -/
abbrev Try := (ℝ × ℝ) × Option ℝ

/-- The minimiser makes the tries of the list, one after the other, each answered in agreement with `answer`, and returns `p`. -/
inductive Tries (answer : ℝ × ℝ → Option ℝ → Prop) : Search → List Try → ℝ × ℝ → Prop
  | done (p) : Tries answer (.done p) [] p
  | ask (q next v ts p) : answer q v → Tries answer (next v) ts p → Tries answer (.ask q next) ((q, v) :: ts) p

/-- `<` of values.  What is not finite is `∞` if `inf` says so; otherwise it is NaN, which cannot be compared. -/
def Smaller (inf : Bool) (u v : Option ℝ) : Prop := ∃ s, u = some s ∧ ((∃ t, v = some t ∧ s < t) ∨ v = none ∧ inf = true)

/-- `≤` of values. -/
def NotLarger (inf : Bool) (u v : Option ℝ) : Prop := (∃ s t, u = some s ∧ v = some t ∧ s ≤ t) ∨ v = none ∧ inf = true

/-- Three tries, the best one first. -/
structure Triangle where
  best : Try
  middle : Try
  worst : Try

/-- The tries of a triangle. -/
def Triangle.all (s : Triangle) : List Try := [s.best, s.middle, s.worst]

/-- The same tries in order; values that are not finite are last. -/
def Ranked (ts : List Try) (s : Triangle) : Prop := s.all.Perm ts ∧ NotLarger true s.best.2 s.middle.2 ∧ NotLarger true s.middle.2 s.worst.2

/-- The place `t` times as far from the middle of the better side as the worst corner, on the other side. -/
noncomputable def Triangle.opposite (s : Triangle) (t : ℝ) : ℝ × ℝ :=
  let m := ((s.best.1.1 + s.middle.1.1) / 2, (s.best.1.2 + s.middle.1.2) / 2)
  (m.1 + t * (m.1 - s.worst.1.1), m.2 + t * (m.2 - s.worst.1.2))

/-- The midway of two places. -/
noncomputable def midway (a b : ℝ × ℝ) : ℝ × ℝ := ((a.1 + b.1) / 2, (a.2 + b.2) / 2)

/-- The triangle with another try in the place of the worst one. -/
def Triangle.replaced (s : Triangle) (t : Try) : Triangle := { s with worst := t }

/-- One pass: the tries it makes and the triangle it leaves (not in order). -/
inductive Pass (inf : Bool) (clip : ℝ × ℝ → ℝ × ℝ) (s : Triangle) : List Try → Triangle → Prop
  | expanded (fr fe) : Smaller inf fr s.best.2 → Smaller inf fe fr →
      Pass inf clip s [(clip (s.opposite 1), fr), (clip (s.opposite 2), fe)] (s.replaced (clip (s.opposite 2), fe))
  | unexpanded (fr fe) : Smaller inf fr s.best.2 → ¬ Smaller inf fe fr →
      Pass inf clip s [(clip (s.opposite 1), fr), (clip (s.opposite 2), fe)] (s.replaced (clip (s.opposite 1), fr))
  | reflected (fr) : ¬ Smaller inf fr s.best.2 → Smaller inf fr s.middle.2 →
      Pass inf clip s [(clip (s.opposite 1), fr)] (s.replaced (clip (s.opposite 1), fr))
  | outside (fr fo) : ¬ Smaller inf fr s.best.2 → ¬ Smaller inf fr s.middle.2 → Smaller inf fr s.worst.2 → NotLarger inf fo fr →
      Pass inf clip s [(clip (s.opposite 1), fr), (clip (s.opposite (1 / 2)), fo)] (s.replaced (clip (s.opposite (1 / 2)), fo))
  | inside (fr fi) : ¬ Smaller inf fr s.best.2 → ¬ Smaller inf fr s.middle.2 → ¬ Smaller inf fr s.worst.2 → Smaller inf fi s.worst.2 →
      Pass inf clip s [(clip (s.opposite 1), fr), (clip (s.opposite (-1 / 2)), fi)] (s.replaced (clip (s.opposite (-1 / 2)), fi))
  | shrunk (fr f fb fc) (t) : ¬ Smaller inf fr s.best.2 → ¬ Smaller inf fr s.middle.2 →
      (Smaller inf fr s.worst.2 ∧ t = 1 / 2 ∧ ¬ NotLarger inf f fr ∨ ¬ Smaller inf fr s.worst.2 ∧ t = -1 / 2 ∧ ¬ Smaller inf f s.worst.2) →
      Pass inf clip s [(clip (s.opposite 1), fr), (clip (s.opposite t), f),
          (clip (midway s.best.1 s.middle.1), fb), (clip (midway s.best.1 s.worst.1), fc)]
        ⟨s.best, (clip (midway s.best.1 s.middle.1), fb), (clip (midway s.best.1 s.worst.1), fc)⟩

/-- The triangle is small, and so are the differences of its values. -/
def Agree (place value : ℝ) (s : Triangle) : Prop :=
  ∀ t ∈ [s.middle, s.worst], |t.1.1 - s.best.1.1| ≤ place ∧ |t.1.2 - s.best.1.2| ≤ place ∧ ∃ f g, s.best.2 = some f ∧ t.2 = some g ∧ |f - g| ≤ value

/-- Passes, one after the other, each from a triangle that does not agree yet. -/
inductive Passes (inf : Bool) (clip : ℝ × ℝ → ℝ × ℝ) (place value : ℝ) : Triangle → List Try → Triangle → Prop
  | none (s) : Passes inf clip place value s [] s
  | more (s ts s1 s2 us s3) : ¬ Agree place value s → Pass inf clip s ts s1 → Ranked s1.all s2 → Passes inf clip place value s2 us s3 →
      Passes inf clip place value s (ts ++ us) s3

/-- A number moved into an interval. -/
noncomputable def inside (lo hi v : ℝ) : ℝ := min (max v lo) hi

/-- A place moved into the bounds, if there are any. -/
noncomputable def intoBounds : Option ((ℝ × ℝ) × ℝ × ℝ) → ℝ × ℝ → ℝ × ℝ
  | none, p => p
  | some b, p => (inside b.1.1 b.2.1 p.1, inside b.1.2 b.2.2 p.2)

/-- Where a corner of the given triangle goes: mirrored at an upper bound it is beyond, then moved into the bounds. -/
noncomputable def enters : Option ((ℝ × ℝ) × ℝ × ℝ) → ℝ × ℝ → ℝ × ℝ
  | none, p => p
  | some b, p => (inside b.1.1 b.2.1 (min p.1 (2 * b.2.1 - p.1)), inside b.1.2 b.2.2 (min p.2 (2 * b.2.2 - p.2)))

end Verif.Spec.Simplex
