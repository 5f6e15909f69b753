import Verif.Model.Features

/-!
# Specification for `features/`
-/

namespace Verif.Spec.Features

open Verif Verif.Features

/-- What the third-party reader is expected to do with what was written for `g`: give `g` back. -/
structure ReadsBack (S : Shapely) (g : Geom Pos) : Prop where
  geojson : S.shape (toGeoJson g) = .ok g
  mapping : ∀ c, coordinates g = .ok c → S.shape (.obj [("type", .str (typeName g)), ("coordinates", c)]) = .ok g
  ring : ∀ shell holes, g = .polygon shell holes → S.ring (lineJson shell) = .ok (.polygon shell [])

/-- The five properties an accessor may touch. -/
def imageProps (dep : Bool) : List String :=
  ["imageGeometry", "imageBBox"] ++ if dep then ["geom_imcoords", "detection", "bounds_imcoords"] else []

mutual
/-- The same shape with every position replaced. -/
def relabel {P Q : Type} (f : P → Q) : Geom P → Geom Q
  | .point p => .point (f p)
  | .lineString ps => .lineString (ps.map f)
  | .linearRing ps => .linearRing (ps.map f)
  | .polygon s hs => .polygon (s.map f) (hs.map (List.map f))
  | .multiPoint ps => .multiPoint (ps.map f)
  | .multiLineString ls => .multiLineString (ls.map (List.map f))
  | .multiPolygon gs => .multiPolygon (gs.map (fun g => (g.1.map f, g.2.map (List.map f))))
  | .collection gs => .collection (relabelAll f gs)

/-- The same for a list. -/
def relabelAll {P Q : Type} (f : P → Q) : List (Geom P) → List (Geom Q)
  | [] => []
  | g :: gs => relabel f g :: relabelAll f gs
end

mutual
/-- No bare ring occurs (a ring is not a GeoJSON type). -/
def NoRing {P : Type} : Geom P → Prop
  | .linearRing _ => False
  | .collection gs => NoRingAll gs
  | _ => True

/-- The same for a list. -/
def NoRingAll {P : Type} : List (Geom P) → Prop
  | [] => True
  | g :: gs => NoRing g ∧ NoRingAll gs
end

/-- A position lies in an area. -/
def Inside (a : Bounds) (p : Pos) : Prop := a.x0 ≤ p.1 ∧ p.1 ≤ a.x1 ∧ a.y0 ≤ p.2 ∧ p.2 ≤ a.y1

/-- `n` equally spaced nodes from `a` to `b`: the node of index `k`. -/
def node (a b : ℚ) (n k : Nat) : ℚ := a + k * ((b - a) / ((n : ℚ) - 1))

/-- An index query contract: the indices of the entries for which `p` holds, each once. -/
def Returns {G : Type} (index : List (Option G)) (p : G → Prop) (r : List Nat) : Prop :=
  r.Nodup ∧ ∀ i, i ∈ r ↔ ∃ h, index[i]? = some (some h) ∧ p h

end Verif.Spec.Features
