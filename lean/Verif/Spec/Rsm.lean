import Mathlib.Algebra.BigOperators.Ring.Finset
import Mathlib.Analysis.Real.Pi.Bounds
import Verif.Spec.Rpc

/-!
# Specification for RSM models
-/

namespace Verif.Spec.Rsm

/-- `Σ a_ijk x^i y^j z^k` for `i < nx`, `j < ny`, `k < nz`. -/
def triple {K : Type} [Field K] (nx ny nz : Nat) (a : Nat → Nat → Nat → K) (x y z : K) : K :=
  ∑ k ∈ Finset.range nz, ∑ j ∈ Finset.range ny, ∑ i ∈ Finset.range nx, a i j k * (x ^ i * y ^ j * z ^ k)

/-- The coefficients of a list in the order of the RSMPCA format (STDI-0002 Volume 1 Appendix U): the
power of `x` runs fastest, then `y`, then `z`. -/
def InOrder {K : Type} (c : List K) (nx ny nz : Nat) (a : Nat → Nat → Nat → K) : Prop :=
  ∀ i j k, i < nx → j < ny → k < nz → c[i + nx * (j + ny * k)]? = some (a i j k)

/-- The exponents of the low order polynomial: 1, x, y, z, x², xy, xz, y², yz, z². -/
def lowOrderTerms : List (Nat × Nat × Nat) :=
  [(0, 0, 0), (1, 0, 0), (0, 1, 0), (0, 0, 1), (2, 0, 0), (1, 1, 0), (1, 0, 1), (0, 2, 0), (0, 1, 1), (0, 0, 2)]

/-- `Σ cₜ x^a y^b z^c` -/
def quadratic {K : Type} [Field K] (c : List K) (x y z : K) : K :=
  ((c.zip lowOrderTerms).map (fun t => t.1 * (x ^ t.2.1 * y ^ t.2.2.1 * z ^ t.2.2.2))).sum

/-- Section `i` of `n` sections of length `size` from `start` on is the one that is responsible
for `v`: it contains `v`, where the first and the last section extend to infinity. -/
def Responsible (start size v : ℝ) (n i : Nat) : Prop :=
  i < n ∧ (i = 0 ∨ start + i * size ≤ v) ∧ (i + 1 = n ∨ v < start + (i + 1) * size)

/-- Two longitudes are the same direction. -/
def SameLongitude (a b : ℝ) : Prop := ∃ k : ℤ, a = b + k * (2 * Real.pi)

/-! ## What is known about the minimiser -/

open Verif.Rpc Verif.Spec.Rpc

/-- The minimiser returns points inside its bounds, whatever it is told. -/
def StaysInside (minimise : Minimiser) : Prop :=
  ∀ start b simplex p, b.1.1 ≤ b.2.1 → b.1.2 ≤ b.2.2 → Finds (fun _ _ => True) (minimise start (some b) simplex) p →
    b.1.1 ≤ p.1 ∧ p.1 ≤ b.2.1 ∧ b.1.2 ≤ p.2 ∧ p.2 ≤ b.2.2

/-- `np.clip` to a box -/
noncomputable def clip (b : (ℝ × ℝ) × ℝ × ℝ) (p : ℝ × ℝ) : ℝ × ℝ :=
  (min (max p.1 b.1.1) b.2.1, min (max p.2 b.1.2) b.2.2)

/-- `q` is an affine combination of the points of `s`. -/
def AffineOf (s : List (ℝ × ℝ)) (q : ℝ × ℝ) : Prop :=
  ∃ ws : List ℝ, ws.length = s.length ∧ ws.sum = 1 ∧
    q.1 = (List.zipWith (fun w p => w * p.1) ws s).sum ∧ q.2 = (List.zipWith (fun w p => w * p.2) ws s).sum

/-- The simplices that a bounded simplex search can reach: each new corner is an old one or an
affine combination of old ones (reflection, expansion, contraction, shrinking), clipped to the
bounds. -/
inductive SimplexReach (b : (ℝ × ℝ) × ℝ × ℝ) : List (ℝ × ℝ) → List (ℝ × ℝ) → Prop
  | refl (s) : SimplexReach b s s
  | step (s t u) : SimplexReach b s t → (∀ q ∈ u, q ∈ t ∨ ∃ r, AffineOf t r ∧ q = clip b r) → SimplexReach b s u

open Classical in
/-- Coordinates above the upper bound, mirrored at it. -/
noncomputable def mirror (b : (ℝ × ℝ) × ℝ × ℝ) (p : ℝ × ℝ) : ℝ × ℝ :=
  (if b.2.1 < p.1 then 2 * b.2.1 - p.1 else p.1, if b.2.2 < p.2 then 2 * b.2.2 - p.2 else p.2)

/-- Nelder-Mead with bounds, as in SciPy: the initial simplex is clipped (in newer versions after it has been mirrored at the upper bounds), and the result is a corner
of a simplex that can be reached from it. -/
def SimplexSearch (minimise : Minimiser) : Prop :=
  ∀ start b simplex p, simplex ≠ [] → Finds (fun _ _ => True) (minimise start (some b) simplex) p →
    ∃ s, (SimplexReach b (simplex.map (clip b)) s ∨ SimplexReach b (simplex.map (fun q => clip b (mirror b q))) s) ∧ p ∈ s

/-- The minimiser asks at most `n` questions, whatever the answers. -/
inductive AtMost : Nat → Search → Prop
  | done (n p) : AtMost n (.done p)
  | ask (n q next) : (∀ v, AtMost n (next v)) → AtMost (n + 1) (.ask q next)

/-- The place is inside the bounds, if there are any. -/
def Within (bounds : Option ((ℝ × ℝ) × ℝ × ℝ)) (p : ℝ × ℝ) : Prop :=
  ∀ b, bounds = some b → b.1.1 ≤ p.1 ∧ p.1 ≤ b.2.1 ∧ b.1.2 ≤ p.2 ∧ p.2 ≤ b.2.2

/-- The minimiser has asked for the value of the place it returns and for the values of all corners of the initial triangle inside the bounds, and the place is no worse than any of them. -/
def NoWorse (minimise : Minimiser) : Prop :=
  ∀ answer start bounds p1 p2 p3 p, Finds answer (minimise start bounds [p1, p2, p3]) p →
    ∃ v, answer p v ∧ ∀ q ∈ [p1, p2, p3], Within bounds q → ∃ w, answer q w ∧ ∀ t, w = some t → ∃ s, v = some s ∧ s ≤ t

end Verif.Spec.Rsm
