import Verif.Spec.Rounded
import Verif.Model.Transforms

/-!
# Specification: chips of an image, and fits that are nearly exact
-/

namespace Verif.Spec.RoundedTransforms

open Verif.Transforms

/-- The rectangle `(x, y)`–`(x + w, y + h)` of the full image is the rectangle `(u, v)`–`(u + s, v + k)` of the chip. -/
structure Chip where
  x : ℝ
  y : ℝ
  w : ℝ
  h : ℝ
  u : ℝ
  v : ℝ
  s : ℝ
  k : ℝ

/-- The position in the chip of a position in the full image, and back. -/
noncomputable def Chip.toChip (c : Chip) (p : ℝ × ℝ) : ℝ × ℝ := (c.u + (p.1 - c.x) * (c.s / c.w), c.v + (p.2 - c.y) * (c.k / c.h))
noncomputable def Chip.toFull (c : Chip) (q : ℝ × ℝ) : ℝ × ℝ := (c.x + (q.1 - c.u) * (c.w / c.s), c.y + (q.2 - c.v) * (c.h / c.k))

/-- Positions of the full image that the chip shows, and positions of the chip. -/
def Chip.Shows (c : Chip) (p : ℝ × ℝ) : Prop := (c.x ≤ p.1 ∧ p.1 ≤ c.x + c.w) ∧ c.y ≤ p.2 ∧ p.2 ≤ c.y + c.h
def Chip.Has (c : Chip) (q : ℝ × ℝ) : Prop := (c.u ≤ q.1 ∧ q.1 ≤ c.u + c.s) ∧ c.v ≤ q.2 ∧ q.2 ≤ c.v + c.k

/-- Both rectangles are at least a pixel wide and high; coordinates are at most `X` in the full image and `U` in the chip; no
coordinate is more than `κ` times as large as the rectangle is wide or high. -/
structure Sized (c : Chip) (X U κ : ℝ) : Prop where
  pixel : 1 ≤ c.w ∧ 1 ≤ c.h ∧ 1 ≤ c.s ∧ 1 ≤ c.k
  full : |c.x| ≤ X ∧ |c.x + c.w| ≤ X ∧ |c.y| ≤ X ∧ |c.y + c.h| ≤ X
  chip : |c.u| ≤ U ∧ |c.u + c.s| ≤ U ∧ |c.v| ≤ U ∧ |c.v + c.k| ≤ U
  ratio_full : X ≤ κ * c.w ∧ X ≤ κ * c.h
  ratio_chip : U ≤ κ * c.s ∧ U ≤ κ * c.k
  one : 1 ≤ κ
  limit : X ≤ 2 ^ 30 ∧ U ≤ 2 ^ 30

/-- The equations of a projective transform that maps the first point of each pair to the second, up to `ρ`. -/
def Fits (ρ : ℝ) (t : Projective ℝ) (pairs : List ((ℝ × ℝ) × (ℝ × ℝ))) : Prop :=
  ∀ p ∈ pairs, |t.a0 + t.a1 * p.1.1 + t.a2 * p.1.2 - p.2.1 * (1 + t.c0 * p.1.1 + t.c1 * p.1.2)| ≤ ρ ∧
    |t.b0 + t.b1 * p.1.1 + t.b2 * p.1.2 - p.2.2 * (1 + t.c0 * p.1.1 + t.c1 * p.1.2)| ≤ ρ

/-- The corners with their places. -/
def Chip.corners (c : Chip) : List ((ℝ × ℝ) × (ℝ × ℝ)) :=
  [((c.x, c.y), (c.u, c.v)), ((c.x + c.w, c.y), (c.u + c.s, c.v)), ((c.x + c.w, c.y + c.h), (c.u + c.s, c.v + c.k)), ((c.x, c.y + c.h), (c.u, c.v + c.k))]

/-- How much the shape of the chip magnifies the error of the fit: 4 for a square. -/
noncomputable def Chip.shape (c : Chip) : ℝ := 2 + c.s / c.k + c.k / c.s

/-- What is assumed of `numpy.linalg.lstsq`: the equations hold up to `ρ`. -/
def Solved (ρ : ℝ) (rows : List (Row ℝ)) (t : Projective ℝ) : Prop := ∀ r ∈ rows, |r.apply t - r.rhs| ≤ ρ

/-- The products of the coordinates of the points of each pair are doubles. -/
def ExactProducts (rnd : ℝ → ℝ) (pairs : List ((ℝ × ℝ) × (ℝ × ℝ))) : Prop :=
  ∀ p ∈ pairs, ∀ a b, (a = p.2.1 ∨ a = p.2.2) → (b = p.1.1 ∨ b = p.1.2) → rnd (-a * b) = -a * b

/-! ## Conditions of a quotient of two linear forms -/

/-- `m0 + m1 x + m2 y`, and the sum of the magnitudes of its terms. -/
def form (m0 m1 m2 : ℝ) (p : ℝ × ℝ) : ℝ := m0 + m1 * p.1 + m2 * p.2

/-- At this point the terms of the denominator of a transform do not cancel to less than a quarter of them, and neither numerator is made of
terms more than `m` times as large as the denominator. -/
structure Regular (t : Projective ℝ) (p : ℝ × ℝ) (m : ℝ) : Prop where
  point : |p.1| ≤ 2 ^ 31 ∧ |p.2| ≤ 2 ^ 31
  parameters : ∀ a, a = t.a0 ∨ a = t.a1 ∨ a = t.a2 ∨ a = t.b0 ∨ a = t.b1 ∨ a = t.b2 ∨ a = t.c0 ∨ a = t.c1 → |a| ≤ 2 ^ 60
  den : 1 + |t.c0| * |p.1| + |t.c1| * |p.2| ≤ 4 * |form 1 t.c0 t.c1 p|
  numX : |t.a0| + |t.a1| * |p.1| + |t.a2| * |p.2| ≤ m * |form 1 t.c0 t.c1 p|
  numY : |t.b0| + |t.b1| * |p.1| + |t.b2| * |p.2| ≤ m * |form 1 t.c0 t.c1 p|
  low : 1 / 2 ^ 32 ≤ m
  high : m ≤ 2 ^ 150

end Verif.Spec.RoundedTransforms
