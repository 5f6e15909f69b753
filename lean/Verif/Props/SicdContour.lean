import Verif.Props.Sicd
import Mathlib.Analysis.SpecialFunctions.Trigonometric.Deriv
import Mathlib.Analysis.SpecialFunctions.Sqrt
import Mathlib.Analysis.Calculus.Deriv.Inv

/-!
# What the range / range rate contours of the SICD image grids mean
-/

namespace Verif.Props.SicdContour

open Verif.Sicd Verif.Sicd.V3 Verif.Spec.Sicd Verif.Props.Sicd

/-! ## Polynomials -/

/-- **C123** Coefficients belong to the powers in ascending order. -/
theorem polyval_sum (c : List ℝ) (t : ℝ) : polyval c t = ∑ i ∈ Finset.range c.length, c.getD i 0 * t ^ i := by
  induction c with
  | nil => simp [polyval]
  | cons a c ih =>
    rw [List.length_cons, Finset.sum_range_succ', polyval, ih, Finset.mul_sum, add_comm]
    simp only [List.getD_cons_succ, List.getD_cons_zero, pow_zero, mul_one]
    congr 1
    apply Finset.sum_congr rfl
    intro i _
    ring

/-- **C123** The coefficient in row `i` and column `j` belongs to `x ^ i * y ^ j`. -/
theorem polyval2d_sum (c : List (List ℝ)) (x y : ℝ) :
    polyval2d c x y = ∑ i ∈ Finset.range c.length, ∑ j ∈ Finset.range (c.getD i []).length, (c.getD i []).getD j 0 * (x ^ i * y ^ j) := by
  induction c with
  | nil => simp [polyval2d]
  | cons r c ih =>
    rw [List.length_cons, Finset.sum_range_succ', polyval2d, ih, Finset.mul_sum, add_comm, polyval_sum]
    simp only [List.getD_cons_succ, List.getD_cons_zero, pow_zero, one_mul]
    congr 1
    apply Finset.sum_congr rfl
    intro i _
    rw [Finset.mul_sum]
    apply Finset.sum_congr rfl
    intro j _
    ring

example : polyval2d [[1, 2], [3, 4]] 5 7 = 1 + 2 * 7 + 3 * 5 + 4 * (5 * 7) := by norm_num [polyval2d, polyval]

theorem polyderFrom_add (c : List ℝ) (t : ℝ) : ∀ n : Nat, polyval (polyderFrom (n + 1) c) t = polyval (polyderFrom n c) t + polyval c t := by
  induction c with
  | nil => intro n; simp [polyderFrom, polyval]
  | cons a c ih =>
    intro n
    simp only [polyderFrom, polyval, ih (n + 1), ih n]
    push_cast
    ring

theorem polyderFrom_zero (c : List ℝ) (t : ℝ) : polyval (polyderFrom 0 c) t = t * polyval (polyder c) t := by
  cases c with
  | nil => simp [polyderFrom, polyder, polyval]
  | cons a c => simp [polyderFrom, polyder, polyval]

/-- `polyder` gives the derivative. -/
theorem hasDerivAt_polyval (c : List ℝ) (t : ℝ) : HasDerivAt (polyval c) (polyval (polyder c) t) t := by
  induction c with
  | nil => exact hasDerivAt_const t (0 : ℝ)
  | cons a c ih =>
    have h : HasDerivAt (fun t => a + t * polyval c t) (1 * polyval c t + t * polyval (polyder c) t) t := ((hasDerivAt_id t).mul ih).const_add a
    have e : polyval (polyder (a :: c)) t = 1 * polyval c t + t * polyval (polyder c) t := by
      show polyval (polyderFrom (0 + 1) c) t = _
      rw [polyderFrom_add, polyderFrom_zero]; ring
    rw [e]
    exact h

/-! ## The range rate is the rate of change of the range -/

/-- The set with a fixed center of aperture time. -/
def withTime (s : Coa) (t : ℝ) : Coa := { s with time := [[t]] }

theorem withTime_timeAt (s : Coa) (t : ℝ) (xy : ℝ × ℝ) : (withTime s t).timeAt xy = t := by
  simp [withTime, Coa.timeAt, polyval2d, polyval]

/-- **C123** A contour depends on the time polynomial through its value at the grid position only. -/
theorem contour_withTime (s : Coa) (xy : ℝ × ℝ) : (withTime s (s.timeAt xy)).contour xy = s.contour xy := by
  simp only [Coa.contour, withTime_timeAt]
  rfl

theorem hasDerivAt_norm_sub {x y z : ℝ → ℝ} {x' y' z' t : ℝ} (hx : HasDerivAt x x' t) (hy : HasDerivAt y y' t) (hz : HasDerivAt z z' t) (q : V3)
    (h : dot (sub ⟨x t, y t, z t⟩ q) (sub ⟨x t, y t, z t⟩ q) ≠ 0) :
    HasDerivAt (fun t => V3.norm (sub ⟨x t, y t, z t⟩ q)) (dot ⟨x', y', z'⟩ (sub ⟨x t, y t, z t⟩ q) / V3.norm (sub ⟨x t, y t, z t⟩ q)) t := by
  have h1 := ((((hx.sub_const q.x).mul (hx.sub_const q.x)).add ((hy.sub_const q.y).mul (hy.sub_const q.y))).add
    ((hz.sub_const q.z).mul (hz.sub_const q.z))).sqrt h
  refine h1.congr_deriv ?_
  have hn := Verif.Sicd.norm_pos h
  have e : √(((x t - q.x) * (x t - q.x) + (y t - q.y) * (y t - q.y)) + (z t - q.z) * (z t - q.z)) = V3.norm (sub ⟨x t, y t, z t⟩ q) := rfl
  simp only [Pi.mul_apply, Pi.add_apply]
  rw [e, div_eq_div_iff (by positivity) hn.ne']
  simp only [dot, sub]
  ring

/-- The grid position can be projected at time `t`: the range is not 0. -/
def Ranged (s : Coa) (xy : ℝ × ℝ) (t : ℝ) : Prop :=
  match s.grid with
  | .pfa scp _ _ => 0 < sqDist (s.arp.at t) scp
  | .rgazcomp _ _ => False
  | .inca rCaScp _ sf => rCaScp + xy.1 ≠ 0 ∧ 0 ≤ polyval2d sf xy.1 xy.2
  | .plane scp uRow uCol => 0 < sqDist (s.arp.at t) (add scp (add (smul xy.1 uRow) (smul xy.2 uCol)))

/-- **C123** For the polar format, range-Doppler (INCA) and planar grids the range rate of a grid position is the rate of change, over the center of aperture time, of its range; the velocity is the rate of change of the platform's position,
plus the offset of the velocity. -/
theorem range_rate_is_derivative (s : Coa) (xy : ℝ × ℝ) (t : ℝ) (h : Ranged s xy t) :
    HasDerivAt (fun t => ((withTime s t).contour xy).r) ((withTime s t).contour xy).rdot t
      ∧ HasDerivAt (fun t => ((withTime s t).contour xy).P.x) (((withTime s t).contour xy).V.x - s.deltaVarp.x) t
      ∧ HasDerivAt (fun t => ((withTime s t).contour xy).P.y) (((withTime s t).contour xy).V.y - s.deltaVarp.y) t
      ∧ HasDerivAt (fun t => ((withTime s t).contour xy).P.z) (((withTime s t).contour xy).V.z - s.deltaVarp.z) t := by
  have hx := hasDerivAt_polyval s.arp.px t
  have hy := hasDerivAt_polyval s.arp.py t
  have hz := hasDerivAt_polyval s.arp.pz t
  simp only [Coa.contour, withTime_timeAt, add]
  have e : ∀ a b : ℝ, a + b - b = a := fun a b => by ring
  refine ⟨?_, (hx.add_const s.deltaArp.x).congr_deriv (e _ _).symm, (hy.add_const s.deltaArp.y).congr_deriv (e _ _).symm,
    (hz.add_const s.deltaArp.z).congr_deriv (e _ _).symm⟩
  refine HasDerivAt.add_const _ ?_
  unfold Ranged at h
  rcases hg : s.grid with ⟨scp, pa, sf⟩ | ⟨scp, az⟩ | ⟨r0, tc, sf⟩ | ⟨scp, ur, uc⟩ <;> rw [hg] at h <;> simp only [sqDist_eq] at h
  · simp only [withTime, Coa.specific, hg]
    have h1 := hasDerivAt_norm_sub hx hy hz scp h.ne'
    have ht := hasDerivAt_polyval pa t
    have hk := (hasDerivAt_polyval sf (polyval pa t)).comp t ht
    have hc := ht.cos
    have hs := ht.sin
    have := h1.add (hk.mul ((hc.const_mul xy.1).add (hs.const_mul xy.2)))
    refine this.congr_deriv ?_
    simp only [PolyXYZ.at, PolyXYZ.deriv, Function.comp, Pi.add_apply]
    ring
  · simp only [withTime, Coa.specific, hg]
    obtain ⟨h1, h2⟩ := h
    have hp : 0 < (r0 + xy.1) ^ 2 + polyval2d sf xy.1 xy.2 * V3.norm (s.arp.deriv.at (polyval tc xy.2)) ^ 2 * (t - polyval tc xy.2) ^ 2 := by
      have : 0 < (r0 + xy.1) ^ 2 := by positivity
      have h3 : 0 ≤ polyval2d sf xy.1 xy.2 * V3.norm (s.arp.deriv.at (polyval tc xy.2)) ^ 2 * (t - polyval tc xy.2) ^ 2 := by positivity
      linarith
    have hd := (((((hasDerivAt_id t).sub_const (polyval tc xy.2)).pow 2).const_mul
      (polyval2d sf xy.1 xy.2 * V3.norm (s.arp.deriv.at (polyval tc xy.2)) ^ 2)).const_add ((r0 + xy.1) ^ 2)).sqrt hp.ne'
    refine hd.congr_deriv ?_
    have hr := Real.sqrt_pos.2 hp
    simp only [id, Pi.pow_apply]
    field_simp
    ring
  · simp only [withTime, Coa.specific, hg]
    exact hasDerivAt_norm_sub hx hy hz _ h.ne'

/-- The premise is met by a polar format grid. -/
example : Ranged ⟨[[0]], ⟨[0, 1], [0], [3]⟩, .pfa ⟨0, 4, 0⟩ [0, 1] [1, 2], ⟨0, 0, 0⟩, ⟨0, 0, 0⟩, 0⟩ (3, 5) 0 := by
  norm_num [Ranged, sqDist, PolyXYZ.at, polyval]

/-! ## Range and Doppler cone angle -/

/-- The cosine of the angle between the velocity `V` and the line of sight from `P` to `q`. -/
noncomputable def cosCone (P V q : V3) : ℝ := along V q P / (√(sqDist ⟨0, 0, 0⟩ V) * √(sqDist P q))

theorem norm_sq (V : V3) : √(sqDist ⟨0, 0, 0⟩ V) = V3.norm V := by
  rw [V3.norm, sqDist_eq]; congr 1; simp only [dot, sub]; ring

/-- **C123** On a range-azimuth compressed grid, without adjustable offsets, the point that a pixel is projected to lies at the range of the scene center plus the row coordinate, and the cosine of its Doppler cone angle is that of the scene
center plus the scaled column coordinate. -/
theorem rgazcomp_ground (s : Coa) (scp : V3) (azSf : ℝ) (hg : s.grid = .rgazcomp scp azSf) (hd : s.deltaArp = ⟨0, 0, 0⟩) (hv : s.deltaVarp = ⟨0, 0, 0⟩) (hb : s.bias = 0)
    (pl : Plane) (hu : ¬ (pl.u.x = 0 ∧ pl.u.y = 0 ∧ pl.u.z = 0)) (xy : ℝ × ℝ) (p : V3) (h : pl.toGround (s.contour xy) = .ok (some p)) :
    let P := s.arp.at (s.timeAt xy)
    let V := s.arp.deriv.at (s.timeAt xy)
    0 < sqDist ⟨0, 0, 0⟩ V → 0 < sqDist P scp → side P V pl.u pl.ref ≠ 0 →
      √(sqDist P p) = √(sqDist P scp) + xy.1 ∧ cosCone P V p = cosCone P V scp + azSf * xy.2 := by
  intro P V hV hP hside
  have add0 : ∀ a : V3, add a ⟨0, 0, 0⟩ = a := fun a => by ext <;> simp [add]
  have hk : s.contour xy = ⟨norm (sub P scp) + xy.1, dot V (sub P scp) / norm (sub P scp) + -norm V * (azSf * xy.2), P, V⟩ := by
    simp only [Coa.contour, Coa.specific, hg, hd, hv, hb, add0, add_zero]
    rfl
  rw [hk] at h
  obtain ⟨-, hrate, hr, hs⟩ := ground_point_solves_partial pl _ p hu h
  obtain ⟨⟨hr2, -⟩, -⟩ := hs hside
  simp only at hrate hr hr2
  have e1 : √(sqDist P scp) = norm (sub P scp) := by rw [V3.norm, sqDist_eq]
  have e2 : √(sqDist P p) = norm (sub P scp) + xy.1 := by rw [hr2, Real.sqrt_sq hr.le]
  have hn1 : 0 < norm (sub P scp) := e1 ▸ Real.sqrt_pos.2 hP
  have hn2 : 0 < norm V := norm_sq V ▸ Real.sqrt_pos.2 hV
  refine ⟨by rw [e1, e2], ?_⟩
  have a1 : along V p P = -along V P p := by simp only [along]; ring
  have a2 : along V scp P = -along V P scp := by simp only [along]; ring
  simp only [cosCone, e1, e2, norm_sq, a1, a2, hrate]
  rw [← along_eq]
  field_simp
  ring

/-- The premises are met: a pixel on the row of the scene center. -/
example : let s : Coa := ⟨[[0]], ⟨[0, 1], [0], [3]⟩, .rgazcomp ⟨0, 4, 0⟩ (1 / 5), ⟨0, 0, 0⟩, ⟨0, 0, 0⟩, 0⟩
    (⟨⟨0, 4, 0⟩, ⟨0, 0, 1⟩⟩ : Plane).toGround (s.contour (0, 1)) = .ok (some ⟨1, √15, 0⟩)
      ∧ 0 < sqDist ⟨0, 0, 0⟩ (s.arp.deriv.at 0) ∧ 0 < sqDist (s.arp.at 0) ⟨0, 4, 0⟩ ∧ side (s.arp.at 0) (s.arp.deriv.at 0) ⟨0, 0, 1⟩ ⟨0, 4, 0⟩ ≠ 0 := by
  intro s
  have hP : s.arp.at 0 = ⟨0, 0, 3⟩ := by norm_num [s, PolyXYZ.at, polyval]
  have hV : s.arp.deriv.at 0 = ⟨1, 0, 0⟩ := by norm_num [s, PolyXYZ.at, PolyXYZ.deriv, polyder, polyderFrom, polyval]
  have ht : s.timeAt (0, 1) = 0 := by norm_num [s, Coa.timeAt, polyval2d, polyval]
  have hn : norm (sub ⟨0, 0, 3⟩ ⟨0, 4, 0⟩) = 5 := norm_eq_of (by norm_num) (by norm_num [dot, sub])
  have hnV : V3.norm ⟨1, 0, 0⟩ = 1 := norm_eq_of (by norm_num) (by norm_num [dot])
  have hk : s.contour (0, 1) = ⟨5, -1 / 5, ⟨0, 0, 3⟩, ⟨1, 0, 0⟩⟩ := by
    simp only [Coa.contour, ht, hP, hV, Coa.specific]
    simp only [s, hn, hnV]
    norm_num [add, dot, sub]
  have h15 := Real.mul_self_sqrt (show (0:ℝ) ≤ 15 by norm_num)
  have hp15 : 0 < √15 := by positivity
  rw [hk, hP, hV]
  refine ⟨?_, by norm_num [sqDist], by norm_num [sqDist], by norm_num [side]⟩
  apply ground_point_found
  · norm_num
  · right; left; norm_num
  · left; norm_num [V3.sub]
  · norm_num [OnPlane, along]
  · constructor
    · norm_num [sqDist]
    · norm_num [along]
  · right; norm_num [side]

/-! ## Adjustable offsets -/

/-- **C123** Adjustable offsets move the platform, change its velocity and lengthen the range: the projected point is seen from the moved platform with the changed velocity at the longer range, at the range rate of the grid position. -/
theorem offsets_apply (s : Coa) (xy : ℝ × ℝ) (pl : Plane) (hu : ¬ (pl.u.x = 0 ∧ pl.u.y = 0 ∧ pl.u.z = 0)) (p : V3) (h : pl.toGround (s.contour xy) = .ok (some p)) :
    let k := ({ s with deltaArp := ⟨0, 0, 0⟩, deltaVarp := ⟨0, 0, 0⟩, bias := 0 } : Coa).contour xy
    let P : V3 := ⟨k.P.x + s.deltaArp.x, k.P.y + s.deltaArp.y, k.P.z + s.deltaArp.z⟩
    let V : V3 := ⟨k.V.x + s.deltaVarp.x, k.V.y + s.deltaVarp.y, k.V.z + s.deltaVarp.z⟩
    along V P p = (k.r + s.bias) * k.rdot ∧ OnPlane pl.ref pl.u p ∧ (side P V pl.u pl.ref ≠ 0 → Seen P V (k.r + s.bias) k.rdot p) := by
  intro k P V
  have hk : s.contour xy = ⟨k.r + s.bias, k.rdot, P, V⟩ := by
    have e : ∀ t Q W, ({ s with deltaArp := ⟨0, 0, 0⟩, deltaVarp := ⟨0, 0, 0⟩, bias := 0 } : Coa).specific xy t Q W = s.specific xy t Q W := fun _ _ _ => rfl
    have e2 : ({ s with deltaArp := ⟨0, 0, 0⟩, deltaVarp := ⟨0, 0, 0⟩, bias := 0 } : Coa).timeAt xy = s.timeAt xy := rfl
    simp only [k, P, V, Coa.contour, e, e2, add, add_zero]
  rw [hk] at h
  obtain ⟨h1, h2, -, h3⟩ := ground_point_solves_partial pl _ p hu h
  exact ⟨h2, h1, fun hs => (h3 hs).1⟩

/-- **C123** Moving the platform by an offset and the plane along with it moves every ground point by the same offset, and nothing else changes. -/
theorem offset_translates (s : Coa) (d : V3) (xy : ℝ × ℝ) (pl : Plane) :
    (⟨add pl.ref d, pl.u⟩ : Plane).toGround (({ s with deltaArp := add s.deltaArp d } : Coa).contour xy)
      = (pl.toGround (s.contour xy)).map (Option.map (fun p => ⟨p.x + d.x, p.y + d.y, p.z + d.z⟩)) := by
  have hk : ({ s with deltaArp := add s.deltaArp d } : Coa).contour xy = ⟨(s.contour xy).r, (s.contour xy).rdot, add (s.contour xy).P d, (s.contour xy).V⟩ := by
    simp only [Coa.contour]
    have e : ∀ t Q W, ({ s with deltaArp := add s.deltaArp d } : Coa).specific xy t Q W = s.specific xy t Q W := fun _ _ _ => rfl
    have e2 : ({ s with deltaArp := add s.deltaArp d } : Coa).timeAt xy = s.timeAt xy := rfl
    simp only [e, e2]
    congr 1
    ext <;> simp only [add] <;> ring
  rw [hk]
  generalize s.contour xy = k
  have hz : sub (add k.P d) (add pl.ref d) = sub k.P pl.ref := by ext <;> simp only [add, sub] <;> ring
  simp only [Plane.toGround, hz]
  split_ifs <;> simp only [Except.map, Option.map]
  congr 2
  ext <;> simp only [add, sub, smul] <;> ring

/-- A platform offset and a range bias: from (0, 0, 3) + (0, 0, 1), at range 5, the plane 1 higher. -/
example : (⟨⟨0, 4, 1⟩, ⟨0, 0, 2⟩⟩ : Plane).toGround (({ time := [[0]], arp := ⟨[0, 1], [0], [3]⟩, grid := .plane ⟨0, 4, 0⟩ ⟨1, 0, 0⟩ ⟨0, 1, 0⟩, deltaArp := ⟨0, 0, 1⟩, deltaVarp := ⟨0, 0, 0⟩, bias := 0 } : Coa).contour (0, 0))
    = .ok (some ⟨0, 4, 1⟩) := by
  have h := offset_translates ⟨[[0]], ⟨[0, 1], [0], [3]⟩, .plane ⟨0, 4, 0⟩ ⟨1, 0, 0⟩ ⟨0, 1, 0⟩, ⟨0, 0, 0⟩, ⟨0, 0, 0⟩, 0⟩ ⟨0, 0, 1⟩ (0, 0) ⟨⟨0, 4, 0⟩, ⟨0, 0, 2⟩⟩
  have hn : V3.norm ⟨0, -4, 3⟩ = 5 := norm_eq_of (by norm_num) (by norm_num [dot])
  have hk : (⟨[[0]], ⟨[0, 1], [0], [3]⟩, .plane ⟨0, 4, 0⟩ ⟨1, 0, 0⟩ ⟨0, 1, 0⟩, ⟨0, 0, 0⟩, ⟨0, 0, 0⟩, 0⟩ : Coa).contour (0, 0) = ⟨5, 0, ⟨0, 0, 3⟩, ⟨1, 0, 0⟩⟩ := by
    simp only [Coa.contour, Coa.specific, Coa.timeAt, polyval2d, polyval, PolyXYZ.at, PolyXYZ.deriv, polyder, polyderFrom, add, smul]
    norm_num [hn, dot, sub]
  rw [hk, example_ground] at h
  simpa [Except.map, add] using h

end Verif.Props.SicdContour
