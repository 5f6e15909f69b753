import Verif.Spec.Sicd
import Mathlib.Tactic.LinearCombination
import Mathlib.Tactic.Linarith
import Mathlib.Tactic.FieldSimp
import Mathlib.Tactic.Positivity

/-! # Vector algebra for the SAR projections -/

namespace Verif.Sicd

open V3 Verif.Spec.Sicd

theorem dot_comm (a b : V3) : dot a b = dot b a := by simp only [dot]; ring
theorem dot_add_left (a b c : V3) : dot (add a b) c = dot a c + dot b c := by simp only [dot, add]; ring
theorem dot_add_right (a b c : V3) : dot a (add b c) = dot a b + dot a c := by simp only [dot, add]; ring
theorem dot_sub_left (a b c : V3) : dot (sub a b) c = dot a c - dot b c := by simp only [dot, sub]; ring
theorem dot_sub_right (a b c : V3) : dot a (sub b c) = dot a b - dot a c := by simp only [dot, sub]; ring
theorem dot_smul_left (k : ℝ) (a b : V3) : dot (smul k a) b = k * dot a b := by simp only [dot, smul]; ring
theorem dot_smul_right (k : ℝ) (a b : V3) : dot a (smul k b) = k * dot a b := by simp only [dot, smul]; ring
theorem dot_cross_left (a b : V3) : dot (cross a b) a = 0 := by simp only [dot, cross]; ring
theorem dot_cross_right (a b : V3) : dot (cross a b) b = 0 := by simp only [dot, cross]; ring

theorem dot_cross_self (a b : V3) : dot (cross a b) (cross a b) = dot a a * dot b b - dot a b * dot a b := by
  simp only [dot, cross]; ring

theorem dot_self_nonneg (a : V3) : 0 ≤ dot a a := by
  simp only [dot]; nlinarith [mul_self_nonneg a.x, mul_self_nonneg a.y, mul_self_nonneg a.z]

theorem norm_mul_self (a : V3) : norm a * norm a = dot a a := Real.mul_self_sqrt (dot_self_nonneg a)

theorem norm_nonneg (a : V3) : 0 ≤ norm a := Real.sqrt_nonneg _

theorem dot_self_eq_zero {a : V3} : dot a a = 0 ↔ a = ⟨0, 0, 0⟩ := by
  constructor
  · intro h
    simp only [dot] at h
    have hx : a.x * a.x = 0 := by nlinarith [mul_self_nonneg a.x, mul_self_nonneg a.y, mul_self_nonneg a.z]
    have hy : a.y * a.y = 0 := by nlinarith [mul_self_nonneg a.x, mul_self_nonneg a.y, mul_self_nonneg a.z]
    have hz : a.z * a.z = 0 := by nlinarith [mul_self_nonneg a.x, mul_self_nonneg a.y, mul_self_nonneg a.z]
    exact V3.ext (mul_self_eq_zero.1 hx) (mul_self_eq_zero.1 hy) (mul_self_eq_zero.1 hz)
  · rintro rfl; simp [dot]

theorem norm_pos {a : V3} (h : dot a a ≠ 0) : 0 < norm a :=
  Real.sqrt_pos.2 (lt_of_le_of_ne (dot_self_nonneg a) (Ne.symm h))

theorem dot_unit {a : V3} (h : dot a a ≠ 0) : dot (unit a) (unit a) = 1 := by
  have hp := norm_pos h
  have := norm_mul_self a
  rw [unit, dot_smul_left, dot_smul_right, ← this]
  field_simp

theorem independent_iff (a b : V3) : Independent a b ↔ dot (cross a b) (cross a b) ≠ 0 := by
  rw [ne_eq, dot_self_eq_zero, V3.ext_iff]
  simp only [Independent, cross]
  tauto

/-- Every vector in terms of two vectors and their cross product. -/
theorem expand (u v d : V3) :
    smul (dot (cross u v) (cross u v)) d
      = add (smul (dot d (cross u v)) (cross u v))
          (add (smul (dot v v * dot d u - dot u v * dot d v) u) (smul (dot u u * dot d v - dot u v * dot d u) v)) := by
  ext <;> simp only [dot, cross, smul, add] <;> ring

/-- Every vector in an orthonormal basis. -/
theorem expand_orthonormal {u v : V3} (hu : dot u u = 1) (hv : dot v v = 1) (huv : dot u v = 0) (d : V3) :
    d = add (smul (dot d (cross u v)) (cross u v)) (add (smul (dot d u) u) (smul (dot d v) v)) := by
  have h := expand u v d
  rw [dot_cross_self, hu, hv, huv] at h
  simpa [smul, V3.ext_iff] using h

theorem eq_of_dots {u v : V3} (hu : dot u u = 1) (hv : dot v v = 1) (huv : dot u v = 0) {d e : V3} (h1 : dot d u = dot e u)
    (h2 : dot d v = dot e v) (h3 : dot d (cross u v) = dot e (cross u v)) : d = e := by
  rw [expand_orthonormal hu hv huv d, expand_orthonormal hu hv huv e, h1, h2, h3]

/-! ## The ground frame -/

/-- What the code derives from the plane normal and the velocity. -/
structure Frame (V uz ux uy : V3) (vz vx : ℝ) : Prop where
  zz : dot uz uz = 1
  xx : dot ux ux = 1
  xz : dot ux uz = 0
  yy : dot uy uy = 1
  yx : dot uy ux = 0
  yz : dot uy uz = 0
  hy : uy = cross uz ux
  hV : V = add (smul vz uz) (smul vx ux)
  vx_pos : 0 < vx

theorem frame_of {V uz : V3} (hz : dot uz uz = 1) (hvx : √(norm V * norm V - dot V uz * dot V uz) ≠ 0) :
    Frame V uz (smul (1 / √(norm V * norm V - dot V uz * dot V uz)) (sub V (smul (dot V uz) uz)))
      (cross uz (smul (1 / √(norm V * norm V - dot V uz * dot V uz)) (sub V (smul (dot V uz) uz)))) (dot V uz)
      √(norm V * norm V - dot V uz * dot V uz) := by
  have hpos : 0 < √(norm V * norm V - dot V uz * dot V uz) := lt_of_le_of_ne (Real.sqrt_nonneg _) (Ne.symm hvx)
  have hsq := Real.mul_self_sqrt (Real.sqrt_pos.1 hpos).le
  generalize √(norm V * norm V - dot V uz * dot V uz) = w at *
  rw [norm_mul_self] at hsq
  have hxz : dot (smul (1 / w) (sub V (smul (dot V uz) uz))) uz = 0 := by
    rw [dot_smul_left, dot_sub_left, dot_smul_left, hz]; ring
  have hxx : dot (smul (1 / w) (sub V (smul (dot V uz) uz))) (smul (1 / w) (sub V (smul (dot V uz) uz))) = 1 := by
    simp only [dot_smul_left, dot_smul_right, dot_sub_left, dot_sub_right, hz, dot_comm uz V]
    field_simp
    linear_combination -hsq
  refine ⟨hz, hxx, hxz, ?_, dot_cross_right _ _, dot_cross_left _ _, rfl, ?_, hpos⟩
  · rw [dot_cross_self, hz, hxx, dot_comm uz, hxz]; ring
  · ext <;> simp only [add, smul, sub] <;> field_simp <;> ring

theorem Frame.eq {V uz ux uy : V3} {vz vx : ℝ} (F : Frame V uz ux uy vz vx) {d e : V3} (h1 : dot d ux = dot e ux)
    (h2 : dot d uy = dot e uy) (h3 : dot d uz = dot e uz) : d = e :=
  eq_of_dots F.zz F.xx (by rw [dot_comm]; exact F.xz) h3 h1 (by rw [← F.hy]; exact h2)

theorem Frame.sq {V uz ux uy : V3} {vz vx : ℝ} (F : Frame V uz ux uy vz vx) (d : V3) :
    dot d d = dot d ux ^ 2 + dot d uy ^ 2 + dot d uz ^ 2 := by
  have h := expand_orthonormal F.zz F.xx (by rw [dot_comm]; exact F.xz) d
  rw [← F.hy] at h
  have h' := congrArg (dot d) h
  rw [dot_add_right, dot_add_right, dot_smul_right, dot_smul_right, dot_smul_right] at h'
  rw [h']; ring

/-! ## The specification in terms of the vector operations -/

theorem sqDist_eq (p q : V3) : sqDist p q = dot (sub p q) (sub p q) := by simp only [sqDist, dot, sub]; ring
theorem along_eq (v p q : V3) : along v p q = dot v (sub p q) := rfl
theorem side_eq (P V n q : V3) : side P V n q = dot (cross (sub P q) V) n := rfl
theorem perp_iff (a b : V3) : Perp a b ↔ dot a b = 0 := Iff.rfl
theorem isUnit_iff (a : V3) : Spec.Sicd.IsUnit a ↔ dot a a = 1 := by simp only [Spec.Sicd.IsUnit, dot, pow_two]

/-! ## The image plane -/

theorem ofPlane_eq {c : Converter} (hr : dot c.uRow c.uRow = 1) (hc : dot c.uCol c.uCol = 1) (hi : Independent c.uRow c.uCol) (p : V3) :
    c.ofPlane p = ((dot (sub p c.scp) c.uRow - dot c.uRow c.uCol * dot (sub p c.scp) c.uCol) / (1 - dot c.uRow c.uCol * dot c.uRow c.uCol),
      (dot (sub p c.scp) c.uCol - dot c.uRow c.uCol * dot (sub p c.scp) c.uRow) / (1 - dot c.uRow c.uCol * dot c.uRow c.uCol))
      ∧ 1 - dot c.uRow c.uCol * dot c.uRow c.uCol ≠ 0 := by
  rw [independent_iff, dot_cross_self, hr, hc, one_mul] at hi
  have h0 := dot_self_nonneg (cross c.uRow c.uCol)
  rw [dot_cross_self, hr, hc, one_mul] at h0
  refine ⟨?_, hi⟩
  simp only [Converter.ofPlane, Real.mul_self_sqrt h0, dot_add_right, dot_smul_right]
  generalize 1 - dot c.uRow c.uCol * dot c.uRow c.uCol = s at *
  ext <;> simp only <;> field_simp <;> ring

/-! ## The ground plane projection -/

/-- The quantities of a projection that does not fail. -/
structure Solved (pl : Plane) (k : Contour) (p ux uy : V3) (vz vx z g ca : ℝ) : Prop where
  F : Frame k.V (unit pl.u) ux uy vz vx
  hz : z = dot (sub k.P pl.ref) (unit pl.u)
  r_pos : 0 < k.r
  g_pos : 0 < g
  hg : g * g = k.r * k.r - z * z
  hca : vx * g * ca = -k.r * k.rdot + vz * z
  ca_le : ca * ca ≤ 1
  hp : p = add (sub k.P (smul z (unit pl.u))) (add (smul (g * ca) ux)
    (smul (g * ((SignType.sign (dot (cross (sub k.P pl.ref) k.V) (unit pl.u)) : ℝ) * √(1 - ca * ca))) uy))

theorem azimuth_eq {vx g r rd vz z : ℝ} (hv : vx ≠ 0) (hg : g ≠ 0) (hr : r ≠ 0) :
    vx * g * ((-rd + vz * (z / r)) / (vx * (g / r))) = -r * rd + vz * z := by
  field_simp

theorem solved_of {pl : Plane} {k : Contour} {p : V3} (hu : dot pl.u pl.u ≠ 0) (h : pl.toGround k = .ok (some p)) :
    ∃ ux uy vz vx z g ca, Solved pl k p ux uy vz vx z g ca := by
  simp only [Plane.toGround] at h
  by_cases h1 : k.r < dot (sub k.P pl.ref) (unit pl.u)
  · rw [if_pos h1] at h; cases h
  rw [if_neg h1] at h
  by_cases h2 : k.r = 0 ∨ k.r * k.r < dot (sub k.P pl.ref) (unit pl.u) * dot (sub k.P pl.ref) (unit pl.u)
  · rw [if_pos h2] at h; cases h
  rw [if_neg h2] at h
  push Not at h2
  by_cases h3 : √(norm k.V * norm k.V - dot k.V (unit pl.u) * dot k.V (unit pl.u))
      * (√(k.r * k.r - dot (sub k.P pl.ref) (unit pl.u) * dot (sub k.P pl.ref) (unit pl.u)) / k.r) = 0
  · rw [if_pos h3] at h; split_ifs at h; cases h
  rw [if_neg h3] at h
  have hvx := left_ne_zero_of_mul h3
  have hg0 : √(k.r * k.r - dot (sub k.P pl.ref) (unit pl.u) * dot (sub k.P pl.ref) (unit pl.u)) ≠ 0 := by
    intro e; rw [e] at h3; simp at h3
  have hgp := lt_of_le_of_ne (Real.sqrt_nonneg _) (Ne.symm hg0)
  have hgg := Real.mul_self_sqrt (Real.sqrt_pos.1 hgp).le
  have hF := frame_of (V := k.V) (dot_unit hu) hvx
  have hr : 0 < k.r := by
    rcases lt_trichotomy k.r 0 with hr | hr | hr
    · exfalso
      have := Real.sqrt_pos.1 hgp
      push Not at h1
      nlinarith
    · exact absurd hr h2.1
    · exact hr
  split_ifs at h with h4
  simp only [Except.ok.injEq, Option.some.injEq] at h
  refine ⟨_, _, _, _, _, _, _, hF, rfl, hr, hgp, hgg, ?_, ?_, h.symm⟩
  · exact azimuth_eq hvx hg0 hr.ne'
  · push Not at h4
    have := abs_le.1 h4
    nlinarith

theorem signType_sq {x : ℝ} (h : x ≠ 0) : ((SignType.sign x : ℝ)) * (SignType.sign x : ℝ) = 1 := by
  rcases lt_or_gt_of_ne h with h | h <;> simp [sign_neg, sign_pos, h]

namespace Solved

variable {pl : Plane} {k : Contour} {p ux uy : V3} {vz vx z g ca : ℝ}

theorem dz (S : Solved pl k p ux uy vz vx z g ca) : dot (sub k.P p) (unit pl.u) = z := by
  rw [S.hp]
  simp only [dot_sub_left, dot_add_left, dot_smul_left, S.F.zz, S.F.xz, S.F.yz]; ring

theorem dx (S : Solved pl k p ux uy vz vx z g ca) : dot (sub k.P p) ux = -(g * ca) := by
  rw [S.hp]
  simp only [dot_sub_left, dot_add_left, dot_smul_left, S.F.xx, S.F.yx, dot_comm (unit pl.u) ux, S.F.xz]; ring

theorem dy (S : Solved pl k p ux uy vz vx z g ca) : dot (sub k.P p) uy
    = -(g * ((SignType.sign (dot (cross (sub k.P pl.ref) k.V) (unit pl.u)) : ℝ) * √(1 - ca * ca))) := by
  rw [S.hp]
  simp only [dot_sub_left, dot_add_left, dot_smul_left, S.F.yy, dot_comm ux uy, S.F.yx, dot_comm (unit pl.u) uy, S.F.yz]; ring

theorem rate (S : Solved pl k p ux uy vz vx z g ca) : dot k.V (sub k.P p) = k.r * k.rdot := by
  rw [S.F.hV, dot_add_left, dot_smul_left, dot_smul_left, dot_comm _ (sub k.P p), dot_comm _ (sub k.P p), S.dz, S.dx]
  linear_combination -S.hca

end Solved

/-- Side of the track in the frame. -/
theorem Frame.side {V uz ux uy : V3} {vz vx : ℝ} (F : Frame V uz ux uy vz vx) (d : V3) : dot (cross d V) uz = -(vx * dot d uy) := by
  rw [F.hV, F.hy]; simp only [dot, cross, add, smul]; ring

theorem unit_smul {a : V3} (h : dot a a ≠ 0) : a = smul (norm a) (unit a) := by
  have := (norm_pos h).ne'
  ext <;> simp only [unit, smul] <;> field_simp

theorem dot_unit_right {a : V3} (h : dot a a ≠ 0) (b : V3) : dot b a = norm a * dot b (unit a) := by
  rw [← dot_smul_right, ← unit_smul h]

theorem norm_eq_of {a : V3} {r : ℝ} (hr : 0 ≤ r) (h : dot a a = r ^ 2) : norm a = r := by
  rw [V3.norm, h, Real.sqrt_sq hr]

theorem ne_zero_of_independent {a b : V3} (h : Independent a b) : dot b b ≠ 0 := by
  rw [independent_iff, dot_cross_self] at h
  intro e
  rw [dot_self_eq_zero] at e
  rw [e] at h
  simp [dot] at h

theorem independent_unit {a b : V3} (h : Independent a b) : dot a a - dot a (unit b) * dot a (unit b) ≠ 0 := by
  have hb := ne_zero_of_independent h
  rw [independent_iff, dot_cross_self] at h
  intro e
  apply h
  have h1 := dot_unit_right hb a
  have h2 := norm_mul_self b
  rw [← h2, h1]
  linear_combination (norm b * norm b) * e

theorem sign_mul_abs {n vx dy w : ℝ} (hn : 0 < n) (hv : 0 < vx) (h : n * -(vx * dy) = 0 ∨ 0 < n * -(vx * dy) * (n * -(vx * w))) :
    (SignType.sign (-(vx * w)) : ℝ) * |dy| = -dy := by
  rcases h with h | h
  · have : dy = 0 := by
      rcases mul_eq_zero.1 h with h | h
      · exact absurd h hn.ne'
      · rcases mul_eq_zero.1 (neg_eq_zero.1 h) with h | h
        · exact absurd h hv.ne'
        · exact h
    rw [this]; simp
  · have h1 : 0 < dy * w := by
      have hpos : 0 < n * n * (vx * vx) := by positivity
      have : 0 < n * n * (vx * vx) * (dy * w) := by linarith
      exact (mul_pos_iff_of_pos_left hpos).1 this
    rcases pos_and_pos_or_neg_and_neg_of_mul_pos h1 with ⟨h2, h3⟩ | ⟨h2, h3⟩
    · have := mul_pos hv h3
      rw [sign_neg (by linarith), abs_of_pos h2]; simp
    · have := mul_neg_of_pos_of_neg hv h3
      rw [sign_pos (by linarith), abs_of_neg h2]; simp

/-- Every point that meets the equations on the right side is the one returned. -/
theorem toGround_of {pl : Plane} {k : Contour} {q : V3} (hr : 0 < k.r) (hV : Independent k.V pl.u) (hq : Independent (sub k.P q) pl.u)
    (hpl : OnPlane pl.ref pl.u q) (hs : Seen k.P k.V k.r k.rdot q)
    (hside : side k.P k.V pl.u q = 0 ∨ 0 < side k.P k.V pl.u q * side k.P k.V pl.u pl.ref) : pl.toGround k = .ok (some q) := by
  have hu := ne_zero_of_independent hV
  have hn := norm_pos hu
  obtain ⟨hs1, hs2⟩ := hs
  rw [sqDist_eq] at hs1
  rw [along_eq] at hs2
  rw [OnPlane, along_eq, dot_comm, dot_unit_right hu] at hpl
  rw [side_eq, side_eq, dot_unit_right hu, dot_unit_right hu] at hside
  have hz : dot (sub k.P q) (unit pl.u) = dot (sub k.P pl.ref) (unit pl.u) := by
    have h0 : dot (sub q pl.ref) (unit pl.u) = 0 := by
      rcases mul_eq_zero.1 hpl with h | h
      · exact absurd h hn.ne'
      · exact h
    rw [dot_sub_left] at h0 ⊢
    rw [dot_sub_left]; linarith
  have hV' := independent_unit hV
  rw [← norm_mul_self k.V] at hV'
  have hvpos : 0 ≤ norm k.V * norm k.V - dot k.V (unit pl.u) * dot k.V (unit pl.u) := by
    have := dot_self_nonneg (cross k.V (unit pl.u))
    rw [dot_cross_self, dot_unit hu] at this
    rw [norm_mul_self]; linarith
  have hvx : √(norm k.V * norm k.V - dot k.V (unit pl.u) * dot k.V (unit pl.u)) ≠ 0 := by
    rw [Real.sqrt_ne_zero hvpos]; exact hV'
  have F := frame_of (dot_unit hu) hvx
  have hd := F.sq (sub k.P q)
  have hq' := independent_unit hq
  rw [hs1, hz] at hd
  rw [hs1, hz] at hq'
  rw [F.side, F.side] at hside
  have hrate := hs2
  rw [F.hV, dot_add_left, dot_smul_left, dot_smul_left, dot_comm _ (sub k.P q), dot_comm _ (sub k.P q), hz] at hrate
  have hlook := F.side (sub k.P pl.ref)
  unfold Plane.toGround
  simp only
  generalize hux : smul (1 / √(norm k.V * norm k.V - dot k.V (unit pl.u) * dot k.V (unit pl.u)))
    (sub k.V (smul (dot k.V (unit pl.u)) (unit pl.u))) = ux at *
  generalize huy : cross (unit pl.u) ux = uy at *
  rw [hlook]
  have hvx0 := F.vx_pos
  generalize √(norm k.V * norm k.V - dot k.V (unit pl.u) * dot k.V (unit pl.u)) = vx at *
  have hPx : dot q ux = dot k.P ux - dot (sub k.P q) ux := by rw [dot_sub_left]; ring
  have hPy : dot q uy = dot k.P uy - dot (sub k.P q) uy := by rw [dot_sub_left]; ring
  have hPz : dot q (unit pl.u) = dot k.P (unit pl.u) - dot (sub k.P q) (unit pl.u) := by rw [dot_sub_left]; ring
  rw [hz] at hPz
  generalize dot (sub k.P pl.ref) (unit pl.u) = z at *
  generalize dot (sub k.P q) ux = dx at *
  generalize dot (sub k.P q) uy = dy at *
  generalize dot k.V (unit pl.u) = vz at *
  have hzr : ¬ k.r < z := by nlinarith
  have hg2 : 0 < k.r * k.r - z * z := lt_of_le_of_ne (by nlinarith) (by intro e; apply hq'; rw [pow_two]; exact e.symm)
  rw [if_neg hzr, if_neg (by push Not; exact ⟨hr.ne', by linarith⟩)]
  have hg := Real.sqrt_pos.2 hg2
  have hgg := Real.mul_self_sqrt hg2.le
  generalize √(k.r * k.r - z * z) = g at *
  rw [if_neg (by positivity)]
  have hca : (-k.rdot + vz * (z / k.r)) / (vx * (g / k.r)) = -dx / g := by
    field_simp
    linear_combination hrate
  rw [hca]
  have hle : ¬ 1 < |-dx / g| := by
    rw [not_lt, abs_div, abs_neg, abs_of_pos hg, div_le_one hg]
    apply abs_le_of_sq_le_sq _ hg.le
    nlinarith
  rw [if_neg hle]
  have hsa : √(1 - -dx / g * (-dx / g)) = |dy| / g := by
    rw [show 1 - -dx / g * (-dx / g) = (|dy| / g) ^ 2 by
      rw [div_pow, sq_abs]; field_simp; nlinarith]
    exact Real.sqrt_sq (by positivity)
  rw [hsa]
  have hsy : (SignType.sign (-(vx * dot (sub k.P pl.ref) uy)) : ℝ) * |dy| = -dy := sign_mul_abs hn hvx0 hside
  generalize (SignType.sign (-(vx * dot (sub k.P pl.ref) uy)) : ℝ) = sg at hsy ⊢
  congr 2
  apply F.eq
  · simp only [dot_sub_left, dot_add_left, dot_smul_left, F.xx, F.yx, dot_comm (unit pl.u) ux, F.xz]
    rw [hPx]; field_simp; ring
  · simp only [dot_sub_left, dot_add_left, dot_smul_left, F.yy, dot_comm ux uy, F.yx, dot_comm (unit pl.u) uy, F.yz]
    rw [hPy]
    rw [show g * (sg * (|dy| / g)) = sg * |dy| by field_simp, hsy]
    ring
  · simp only [dot_sub_left, dot_add_left, dot_smul_left, F.zz, F.xz, F.yz]
    rw [hPz]; ring

/-- When the projection raises there is nothing to return. -/
theorem no_point_of_error {pl : Plane} {k : Contour} {e : PyErr} (hu : dot pl.u pl.u ≠ 0) (h : pl.toGround k = .error e) (q : V3)
    (hpl : OnPlane pl.ref pl.u q) (hr : 0 ≤ k.r) : ¬ Seen k.P k.V k.r k.rdot q := by
  rintro ⟨hs1, hs2⟩
  have hn := norm_pos hu
  rw [sqDist_eq] at hs1
  rw [along_eq] at hs2
  rw [OnPlane, along_eq, dot_comm, dot_unit_right hu] at hpl
  have hz : dot (sub k.P q) (unit pl.u) = dot (sub k.P pl.ref) (unit pl.u) := by
    have h0 : dot (sub q pl.ref) (unit pl.u) = 0 := by
      rcases mul_eq_zero.1 hpl with h | h
      · exact absurd h hn.ne'
      · exact h
    rw [dot_sub_left] at h0 ⊢
    rw [dot_sub_left]; linarith
  have hzz := dot_unit hu
  -- Cauchy-Schwarz in the direction of the normal, and the square of what is left
  have hperp := dot_self_nonneg (cross (sub k.P q) (unit pl.u))
  rw [dot_cross_self, hzz, hz, hs1] at hperp
  simp only [Plane.toGround] at h
  by_cases h1 : k.r < dot (sub k.P pl.ref) (unit pl.u)
  · nlinarith
  rw [if_neg h1] at h
  by_cases h2 : k.r = 0 ∨ k.r * k.r < dot (sub k.P pl.ref) (unit pl.u) * dot (sub k.P pl.ref) (unit pl.u)
  · rw [if_pos h2] at h; cases h
  rw [if_neg h2] at h
  push Not at h2
  have hr' : 0 < k.r := lt_of_le_of_ne hr (Ne.symm h2.1)
  by_cases h3 : √(norm k.V * norm k.V - dot k.V (unit pl.u) * dot k.V (unit pl.u))
      * (√(k.r * k.r - dot (sub k.P pl.ref) (unit pl.u) * dot (sub k.P pl.ref) (unit pl.u)) / k.r) = 0
  · rw [if_pos h3] at h
    by_cases h4 : -k.rdot + dot k.V (unit pl.u) * (dot (sub k.P pl.ref) (unit pl.u) / k.r) = 0
    · rw [if_pos h4] at h; cases h
    · apply h4
      -- either the velocity or the line of sight is along the normal
      have key : dot k.V (sub k.P q) = dot k.V (unit pl.u) * dot (sub k.P pl.ref) (unit pl.u) := by
        rcases mul_eq_zero.1 h3 with h5 | h5
        · have h6 := Real.sqrt_eq_zero'.1 h5
          have hc : dot (cross k.V (unit pl.u)) (cross k.V (unit pl.u)) = 0 := by
            apply le_antisymm _ (dot_self_nonneg _)
            rw [dot_cross_self, hzz, ← norm_mul_self]; linarith
          have := expand k.V (unit pl.u) (sub k.P q)
          have h7 := dot_self_eq_zero.1 hc
          have h8 : k.V = smul (dot k.V (unit pl.u)) (unit pl.u) := by
            have h9 : cross (unit pl.u) (cross k.V (unit pl.u)) = ⟨0, 0, 0⟩ := by rw [h7]; simp [cross]
            have h10 : cross (unit pl.u) (cross k.V (unit pl.u))
                = sub (smul (dot (unit pl.u) (unit pl.u)) k.V) (smul (dot k.V (unit pl.u)) (unit pl.u)) := by
              ext <;> simp only [cross, sub, smul, dot] <;> ring
            rw [h10, hzz] at h9
            simp only [sub, smul, V3.mk.injEq] at h9
            ext <;> simp only [smul] <;> linarith [h9.1, h9.2.1, h9.2.2]
          calc dot k.V (sub k.P q) = dot (smul (dot k.V (unit pl.u)) (unit pl.u)) (sub k.P q) := by rw [← h8]
            _ = _ := by rw [dot_smul_left, dot_comm _ (sub k.P q), hz]
        · rcases div_eq_zero_iff.1 h5 with h5 | h5
          · have h6 := Real.sqrt_eq_zero'.1 h5
            have hc : dot (cross (sub k.P q) (unit pl.u)) (cross (sub k.P q) (unit pl.u)) = 0 := by
              apply le_antisymm _ (dot_self_nonneg _)
              rw [dot_cross_self, hzz, hz, hs1]; linarith
            have h7 := dot_self_eq_zero.1 hc
            have h8 : sub k.P q = smul (dot (sub k.P q) (unit pl.u)) (unit pl.u) := by
              have h9 : cross (unit pl.u) (cross (sub k.P q) (unit pl.u)) = ⟨0, 0, 0⟩ := by rw [h7]; simp [cross]
              have h10 : cross (unit pl.u) (cross (sub k.P q) (unit pl.u))
                  = sub (smul (dot (unit pl.u) (unit pl.u)) (sub k.P q)) (smul (dot (sub k.P q) (unit pl.u)) (unit pl.u)) := by
                ext <;> simp only [cross, sub, smul, dot] <;> ring
              rw [h10, hzz] at h9
              generalize sub k.P q = d at *
              simp only [sub, smul, V3.mk.injEq] at h9
              ext <;> simp only [smul] <;> linarith [h9.1, h9.2.1, h9.2.2]
            calc dot k.V (sub k.P q) = dot k.V (smul (dot (sub k.P q) (unit pl.u)) (unit pl.u)) := by rw [← h8]
              _ = _ := by rw [dot_smul_right, hz]; ring
          · exact absurd h5 hr'.ne'
      rw [hs2] at key
      field_simp
      linarith
  · rw [if_neg h3] at h
    have hvx := left_ne_zero_of_mul h3
    have F := frame_of (V := k.V) hzz hvx
    have hd := F.sq (sub k.P q)
    rw [hs1, hz] at hd
    have hrate := hs2
    rw [F.hV, dot_add_left, dot_smul_left, dot_smul_left, dot_comm _ (sub k.P q), dot_comm _ (sub k.P q), hz] at hrate
    have hg0 : √(k.r * k.r - dot (sub k.P pl.ref) (unit pl.u) * dot (sub k.P pl.ref) (unit pl.u)) ≠ 0 := by
      intro e; rw [e] at h3; simp at h3
    have hgp := lt_of_le_of_ne (Real.sqrt_nonneg _) (Ne.symm hg0)
    have hgg := Real.mul_self_sqrt (Real.sqrt_pos.1 hgp).le
    split_ifs at h with h4
    have hvx0 := F.vx_pos
    generalize √(k.r * k.r - dot (sub k.P pl.ref) (unit pl.u) * dot (sub k.P pl.ref) (unit pl.u)) = g at *
    generalize √(norm k.V * norm k.V - dot k.V (unit pl.u) * dot k.V (unit pl.u)) = vx at *
    generalize dot (sub k.P pl.ref) (unit pl.u) = z at *
    generalize dot k.V (unit pl.u) = vz at *
    generalize dot (sub k.P q) (smul (1 / vx) (sub k.V (smul vz (unit pl.u)))) = dx at *
    generalize dot (sub k.P q) (cross (unit pl.u) _) = dy at *
    have hca : (-k.rdot + vz * (z / k.r)) / (vx * (g / k.r)) = -dx / g := by
      field_simp
      linear_combination hrate
    rw [hca, abs_div, abs_neg, abs_of_pos hgp, one_lt_div hgp] at h4
    have : dx ^ 2 ≤ g ^ 2 := by nlinarith [sq_nonneg dy]
    exact absurd h4 (not_lt.2 (abs_le_of_sq_le_sq this hgp.le))

end Verif.Sicd
