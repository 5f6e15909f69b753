import Mathlib.Order.Interval.Set.Basic
import Mathlib.Order.Monotone.Basic
import Verif.Model.MapTiles

/-!
# Specification vocabulary for map tiles
-/

namespace Verif.Spec.MapTiles

open Verif.MapTiles

variable {K : Type*} [Field K] [LinearOrder K]

/-- What is assumed of one axis of the map projection: on the world extent
`[-h, h]` in metres the inverse is strictly increasing and cancels with the
forward direction, which is increasing on the valid angles. -/
structure GoodAxis (A : Axis K) (h : K) (valid : K → Prop) : Prop where
  inv_mono : StrictMonoOn A.inv (Set.Icc (-h) h)
  fwd_mono : ∀ a b, valid a → valid b → a ≤ b → A.fwd a ≤ A.fwd b
  inv_fwd : ∀ a, valid a → A.inv (A.fwd a) = a
  fwd_inv : ∀ m, m ∈ Set.Icc (-h) h → A.fwd (A.inv m) = m
  valid_inv : ∀ m, m ∈ Set.Icc (-h) h → valid (A.inv m)

/-- An angle whose projection is in the world extent without its lower edge. -/
def InExtent (A : Axis K) (h : K) (valid : K → Prop) (a : K) : Prop :=
  valid a ∧ -h < A.fwd a ∧ A.fwd a ≤ h

/-- The tile is one of the `2^z` by `2^z` tiles of its level. -/
def IsTileOfLevel (z : Nat) (id : TileId) : Prop :=
  id.matrix = z ∧ 0 ≤ id.row ∧ id.row < 2 ^ z ∧ 0 ≤ id.col ∧ id.col < 2 ^ z

/-- The location is inside the bounds, lower edges excluded. -/
def Contains (b : Bounds K) (lon lat : K) : Prop :=
  b.minLon < lon ∧ lon ≤ b.maxLon ∧ b.minLat < lat ∧ lat ≤ b.maxLat

end Verif.Spec.MapTiles
