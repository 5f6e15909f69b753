import Verif.Spec.Sicd
import Verif.Model.SicdBuilder
import Verif.Model.Updaters
import Mathlib.Analysis.Calculus.Deriv.Basic

/-!
# Specification: what a SICD document says about the place of a pixel

In the numbers of the document (`Verif.Sicd.Meta`), with distances, derivatives and sums.
-/

namespace Verif.Spec.Scene

open Verif.Sicd (V3 Meta Poly1 Poly2 Geo)
open Verif.Spec.Sicd

noncomputable section

/-- Distance. -/
def distance (p q : V3) : ℝ := √(sqDist p q)

/-- The value of a polynomial: coefficients times powers. -/
def value1 (coef : List (Int × ℝ)) (t : ℝ) : ℝ := (coef.map (fun e => e.2 * t ^ e.1.toNat)).sum

/-- The value of a polynomial in two variables. -/
def value2 (coef : List (Int × Int × ℝ)) (x y : ℝ) : ℝ := (coef.map (fun e => e.2.2 * x ^ e.1.toNat * y ^ e.2.1.toNat)).sum

/-- Each exponent is given at most once and is between 0 and the order. -/
def Good1 (p : Poly1) : Prop := (p.coef.map (·.1)).Nodup ∧ ∀ e ∈ p.coef, 0 ≤ e.1 ∧ e.1 ≤ p.order

/-- The same for two variables, and there is at least one row. -/
def Good2 (p : Poly2) : Prop := (p.coef.map (fun e => (e.1, e.2.1))).Nodup ∧ (∀ e ∈ p.coef, 0 ≤ e.1 ∧ e.1 ≤ p.order1 ∧ 0 ≤ e.2.1 ∧ e.2.1 ≤ p.order2) ∧ 0 ≤ p.order1

/-- The position of the platform at a time. -/
def platform (m : Meta) (t : ℝ) : V3 := ⟨value1 m.arp.x.coef t, value1 m.arp.y.coef t, value1 m.arp.z.coef t⟩

/-- Its velocity. -/
def velocity (m : Meta) (t : ℝ) : V3 := ⟨deriv (fun s => (platform m s).x) t, deriv (fun s => (platform m s).y) t, deriv (fun s => (platform m s).z) t⟩

/-- Its speed. -/
def speed (m : Meta) (t : ℝ) : ℝ := distance (velocity m t) ⟨0, 0, 0⟩

/-- The direction of the ellipsoid's normal at the scene center point. -/
def up (G : Geo) (m : Meta) : V3 :=
  ⟨Real.cos (G.toLle m.scp).lat * Real.cos (G.toLle m.scp).lon, Real.cos (G.toLle m.scp).lat * Real.sin (G.toLle m.scp).lon, Real.sin (G.toLle m.scp).lat⟩

/-- What the grid of the image says about the pixel at distances `x` and `y` from the scene center pixel: its range as a function of time, what has to be added to the rate of
that range, and the normal of the ground plane through the scene center point. -/
inductive Pixel (G : Geo) (m : Meta) (x y : ℝ) : (ℝ → ℝ) → (ℝ → ℝ) → V3 → Prop where
  /-- planar grids: the distance to the point of the image plane -/
  | plane (h : m.gridType = .plane ∨ m.gridType = .xctyat ∨ m.gridType = .xrgycr) :
      Pixel G m x y (fun t => distance (platform m t) ⟨m.scp.x + (x * m.uRow.x + y * m.uCol.x), m.scp.y + (x * m.uRow.y + y * m.uCol.y), m.scp.z + (x * m.uRow.z + y * m.uCol.z)⟩)
        (fun _ => 0) (up G m)
  /-- polar format: the distance to the scene center point and the scaled distance along the polar angle -/
  | pfa (fpn : V3) (ang sf : Poly1) (h : m.gridType = .rgazim) (ha : m.algo = .pfa) (hp : m.pfa = some (fpn, ang, sf)) :
      Pixel G m x y (fun t => distance (platform m t) m.scp +
        value1 sf.coef (value1 ang.coef t) * (x * Real.cos (value1 ang.coef t) + y * Real.sin (value1 ang.coef t))) (fun _ => 0) fpn
  /-- range and azimuth compressed: the distance to the scene center point and the range; the azimuth changes the rate -/
  | rgazcomp (az : ℝ) (h : m.gridType = .rgazim) (ha : m.algo = .rgazcomp) (hp : m.rgAzComp = some az) :
      Pixel G m x y (fun t => distance (platform m t) m.scp + x) (fun t => -speed m t * (az * y)) (up G m)
  /-- zero Doppler: a hyperbola around the time of closest approach -/
  | inca (rca : ℝ) (tca : Poly1) (drate : Poly2) (h : m.gridType = .rgzero) (hp : m.inca = some (rca, tca, drate)) :
      Pixel G m x y (fun t => √((rca + x) ^ 2 + value2 drate.coef x y * speed m (value1 tca.coef y) ^ 2 * (t - value1 tca.coef y) ^ 2)) (fun _ => 0) (up G m)

/-- The polynomials that are used are as the standard asks for. -/
structure Good (m : Meta) : Prop where
  time : Good2 m.timeCoa
  arp : Good1 m.arp.x ∧ Good1 m.arp.y ∧ Good1 m.arp.z
  pfa : ∀ n a k, m.pfa = some (n, a, k) → Good1 a ∧ Good1 k
  inca : ∀ r c d, m.inca = some (r, c, d) → Good1 c ∧ Good2 d

/-- At time `t` the point `p` is at the range `R` from the platform, and its distance changes at the rate of `R` and `extra`. -/
def Sees (m : Meta) (t : ℝ) (R extra : ℝ → ℝ) (p : V3) : Prop :=
  distance (platform m t) p = R t ∧ ∃ d, HasDerivAt R d t ∧ HasDerivAt (fun s => distance (platform m s) p) (d + extra t) t

/-! ## SIDD -/

/-- The numbers that a SIDD document states about its measurement. -/
structure Measured where
  /-- reference point and its pixel -/
  ref : V3
  refRow : ℝ
  refCol : ℝ
  /-- directions of the product plane -/
  uRow : V3
  uCol : V3
  /-- distances between pixels -/
  rowSS : ℝ
  colSS : ℝ
  time : Poly2
  arp : Verif.Sicd.XyzPoly
  chip : Option (Verif.Updaters.Chip ℝ)

/-- The position of the platform at a time. -/
def orbit (a : Verif.Sicd.XyzPoly) (t : ℝ) : V3 := ⟨value1 a.x.coef t, value1 a.y.coef t, value1 a.z.coef t⟩

/-- Its velocity. -/
def orbitRate (a : Verif.Sicd.XyzPoly) (t : ℝ) : V3 := ⟨deriv (fun s => (orbit a s).x) t, deriv (fun s => (orbit a s).y) t, deriv (fun s => (orbit a s).z) t⟩

/-- The corners of a chip are those of a parallelogram. -/
structure Parallelogram (g : Verif.Updaters.Chip ℝ) : Prop where
  cols : g.cols ≠ 0
  rows : g.rows ≠ 0
  closed : g.lr = (g.ur.1 + (g.ll.1 - g.ul.1), g.ur.2 + (g.ll.2 - g.ul.2))
  open_ : (g.ur.1 - g.ul.1) * (g.ll.2 - g.ul.2) - (g.ur.2 - g.ul.2) * (g.ll.1 - g.ul.1) ≠ 0

/-- The pixel of the full image (column, row) of a pixel: a chip is stretched over the parallelogram of its corners. -/
def full : Option (Verif.Updaters.Chip ℝ) → ℝ × ℝ → ℝ × ℝ
  | none, p => p
  | some g, p => (g.ul.1 + p.1 / g.cols * (g.ur.1 - g.ul.1) + p.2 / g.rows * (g.ll.1 - g.ul.1), g.ul.2 + p.1 / g.cols * (g.ur.2 - g.ul.2) + p.2 / g.rows * (g.ll.2 - g.ul.2))

/-- The point of the product plane at distances `x` and `y` from the reference point. -/
def onProduct (m : Measured) (x y : ℝ) : V3 :=
  ⟨m.ref.x + (x * m.uRow.x + y * m.uCol.x), m.ref.y + (x * m.uRow.y + y * m.uCol.y), m.ref.z + (x * m.uRow.z + y * m.uCol.z)⟩

/-- The direction across the product plane. -/
def across (a b : V3) : V3 := ⟨a.y * b.z - a.z * b.y, a.z * b.x - a.x * b.z, a.x * b.y - a.y * b.x⟩

/-- The platform sees a point of the product plane from the side of the reference point, or the point is below the track. -/
structure InSight (m : Measured) (t : ℝ) (q : V3) : Prop where
  velocity : Independent (orbitRate m.arp t) (across m.uRow m.uCol)
  direction : Independent (V3.sub (orbit m.arp t) q) (across m.uRow m.uCol)
  side : side (orbit m.arp t) (orbitRate m.arp t) (across m.uRow m.uCol) q = 0 ∨
    0 < side (orbit m.arp t) (orbitRate m.arp t) (across m.uRow m.uCol) q * side (orbit m.arp t) (orbitRate m.arp t) (across m.uRow m.uCol) m.ref

end

end Verif.Spec.Scene
