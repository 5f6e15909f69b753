import Verif.Spec.Features

/-!
# Specification: detections that are moved
-/

namespace Verif.Spec.Detections

open Verif Verif.Features Verif.Spec.Features

/-- A position moved by `d`. -/
def shift (d p : Pos) : Pos := (p.1 + d.1, p.2 + d.2)

/-- `f'` is the detection `f`, moved by `d` in the image: its image geometry and its image box (if it has them) are moved, everything else is the same.  The geometry has a vertex.  Deprecated names are not in use. -/
structure Moved (dep : Bool) (d : Pos) (f f' : Feature) : Prop where
  geometry : f'.geometry = f.geometry
  bbox : f'.bbox = f.bbox
  others : ∀ k, k ≠ "imageGeometry" → k ≠ "imageBBox" → f'.props k = f.props k
  shape : f.props "imageGeometry" = none ∧ f'.props "imageGeometry" = none ∨
    ∃ g, NoRing g ∧ vertices g ≠ [] ∧ f.props "imageGeometry" = some (toGeoJson g) ∧ f'.props "imageGeometry" = some (toGeoJson (relabel (shift d) g))
  box : f.props "imageBBox" = none ∧ f'.props "imageBBox" = none ∨
    ∃ x0 y0 x1 y1, f.props "imageBBox" = some (.arr [.num x0, .num y0, .num x1, .num y1]) ∧
      f'.props "imageBBox" = some (.arr [.num (x0 + d.1), .num (y0 + d.2), .num (x1 + d.1), .num (y1 + d.2)])
  current : dep = false ∨ ∀ k ∈ ["geom_imcoords", "detection", "bounds_imcoords"], f.props k = none

/-- Both calls raise the same exception, or both return and the results correspond. -/
def Alike {α : Type} (R : α → α → Prop) (a b : Except PyErr α) : Prop :=
  (∃ e, a = .error e ∧ b = .error e) ∨ ∃ r r', a = .ok r ∧ b = .ok r' ∧ R r r'

end Verif.Spec.Detections
