import Verif.Lemmas.RoundedSicdSteps
import Verif.Lemmas.Rounded
import Verif.Props.RoundedAffine

/-!
# The R/Rdot ground plane projection in doubles
-/

namespace Verif.Props.RoundedSicd

open Verif.Sicd
open Verif.Sicd.V3 Verif.RoundedSicd Verif.Spec.Rounded Verif.Spec.RoundedSicd
open Verif.Lemmas.RoundedSicd

variable {rnd : ℝ → ℝ} {dot3 : V3 → V3 → ℝ}

/-- The displacement of the point from the platform without the last roundings. -/
noncomputable def leg (w x : V3) (z g ca sa : ℝ) : V3 := add (smul (-z) w) (add (smul (g * ca) x) (smul (g * sa) (cross w x)))

theorem dot_leg_w {w x : V3} (hw : dot w w = 1) (z g ca sa : ℝ) : dot (leg w x z g ca sa) w = -z + g * ca * dot x w := by
  unfold leg
  rw [dot_add_left, dot_add_left, dot_smul_left, dot_smul_left, dot_smul_left, hw, dot_cross_left]
  ring

theorem dot_leg_self {w x : V3} (hw : dot w w = 1) (z g ca sa : ℝ) : dot (leg w x z g ca sa) (leg w x z g ca sa) =
    z * z + g * g * (ca * ca) * dot x x + g * g * (sa * sa) * (dot x x - dot x w * dot x w) - 2 * (z * (g * ca) * dot x w) := by
  have h1 : dot (cross w x) (cross w x) = dot x x - dot x w * dot x w := by rw [dot_cross_self, hw, dot_comm w x]; ring
  unfold leg
  simp only [dot_add_left, dot_add_right, dot_smul_left, dot_smul_right, hw, dot_cross_left, dot_cross_right, h1, dot_comm w x, dot_comm w (cross w x),
    dot_comm x (cross w x)]
  ring

theorem dot_leg_V {V w : V3} {vz vx : ℝ} (z g ca sa : ℝ) :
    dot V (leg w (x0 V w vz vx) z g ca sa) = -z * dot V w + g * ca * dot V (x0 V w vz vx) := by
  have h : dot V (cross w (x0 V w vz vx)) = 0 := by unfold x0 over; simp only [dot, cross, sub, smul]; ring
  unfold leg
  rw [dot_add_right, dot_add_right, dot_smul_right, dot_smul_right, dot_smul_right, h]
  ring

theorem side_leg {V w : V3} {vz vx : ℝ} (z g ca sa : ℝ) :
    dot (cross (leg w (x0 V w vz vx) z g ca sa) V) w = -(g * sa * dot (cross w V) (cross w V) / vx) := by
  unfold leg x0 over
  simp only [dot, cross, sub, smul, add]
  ring

/-- The three equations for the point, given the errors of the steps. -/
theorem residuals {P V ref w p : V3} {r rdot D z g ca sa vz vx : ℝ} (hr1 : 1 ≤ r) (hD : r ≤ D) (hD2 : D ≤ 2 ^ 30) (h1 : 1 ≤ norm V) (hw : norm w = 1)
    (hz : |z - dot (sub P ref) w| ≤ 13 * eps * D) (hzr : |z| ≤ 1.001 * r) (hg : |g| ≤ 1.01 * r) (hgg : |g * g + z * z - r * r| ≤ 7 * eps * (r * r))
    (hca : |ca| ≤ 1) (hsa : |sa * sa + ca * ca - 1| ≤ 5 * eps)
    (hvz : |vz - dot V w| ≤ 12 * eps * norm V) (hxx : |dot (x0 V w vz vx) (x0 V w vz vx) - 1| ≤ 78 * eps) (hxw : |dot (x0 V w vz vx) w| ≤ 18 * eps)
    (hxV : |dot V (x0 V w vz vx) - vx| ≤ 37 * eps * norm V) (haz : |ca * (vx * g) - (-rdot * r + vz * z)| ≤ 8 * eps * (norm V * r))
    (hp : norm (sub p (add P (leg w (x0 V w vz vx) z g ca sa))) ≤ 70 * eps * D) :
    |dot (sub p ref) w| ≤ 102 * eps * D ∧ |dot (sub P p) (sub P p) - r * r| ≤ 280 * eps * (D * r) ∧
      |dot V (sub P p) - r * rdot| ≤ 130 * eps * (D * norm V) := by
  have ep := eps_pos
  have es := eps_small
  have r0 : 0 < r := by linarith only [hr1]
  have D0 : 0 < D := by linarith only [r0, hD]
  have v0 : 0 < norm V := by linarith only [h1]
  have hw2 : dot w w = 1 := by rw [← norm_mul_self, hw]; norm_num
  have er : eps * r ≤ eps * D := mul_le_mul_of_nonneg_left hD ep.le
  have er0 : 0 < eps * r := mul_pos ep r0
  have rD : r * r ≤ D * r := mul_le_mul_of_nonneg_right hD r0.le
  have rr0 : 0 < r * r := mul_pos r0 r0
  have err : 0 < eps * (r * r) := mul_pos ep rr0
  have erD : eps * (r * r) ≤ eps * (D * r) := mul_le_mul_of_nonneg_left rD ep.le
  have err1 : eps * (r * r) ≤ 1 / 10 ^ 15 * (r * r) := mul_le_mul_of_nonneg_right es rr0.le
  generalize hx : x0 V w vz vx = x at *
  generalize hq : leg w x z g ca sa = q at *
  have gca : |g * ca| ≤ 1.01 * r := by
    rw [abs_mul]
    have := mul_le_mul hg hca (abs_nonneg _) (by linarith only [r0])
    linarith only [this]
  have gx : |g * ca * dot x w| ≤ 18.2 * eps * r := by
    rw [abs_mul]
    have := mul_le_mul gca hxw (abs_nonneg _) (by linarith only [r0])
    linarith only [this, er0]
  set δ := sub p (add P q) with hδ
  refine ⟨?_, ?_, ?_⟩
  · -- on the plane
    have e : dot (sub p ref) w = -(z - dot (sub P ref) w) + g * ca * dot x w + dot δ w := by
      have := dot_leg_w (x := x) hw2 z g ca sa
      rw [hq] at this
      rw [hδ]
      simp only [dot_sub_left, dot_add_left, this]
      ring
    have k : |dot δ w| ≤ 70 * eps * D := by
      have := abs_dot_le δ w
      rw [hw] at this
      linarith only [this, hp]
    have z' := abs_le.mp hz
    have g' := abs_le.mp gx
    have k' := abs_le.mp k
    rw [e, abs_le]
    constructor <;> linarith only [z'.1, z'.2, g'.1, g'.2, k'.1, k'.2, er, mul_pos ep D0]
  · -- range
    have e : dot (sub P p) (sub P p) = dot q q + 2 * dot q δ + dot δ δ := by
      have : sub P p = smul (-1) (add q δ) := by rw [hδ]; ext <;> simp only [sub, smul, add] <;> ring
      rw [this]
      simp only [dot_smul_left, dot_smul_right, dot_add_left, dot_add_right, dot_comm δ q]
      ring
    have qq := dot_leg_self (x := x) hw2 z g ca sa
    rw [hq] at qq
    have zz0 := mul_self_nonneg z
    have gg0 := mul_self_nonneg g
    have cc0 := mul_self_nonneg ca
    have ss0 := mul_self_nonneg sa
    have hgg' := abs_le.mp hgg
    have hsa' := abs_le.mp hsa
    have hxx' := abs_le.mp hxx
    have cc : ca * ca ≤ 1 := by
      have := mul_self_le_mul_self (abs_nonneg ca) hca
      rw [abs_mul_abs_self] at this
      linarith only [this]
    have ss : sa * sa ≤ 1.001 := by linarith only [hsa'.2, es, cc0]
    have gg : g * g ≤ 1.001 * (r * r) := by linarith only [hgg'.2, zz0, err1, rr0]
    -- the three parts
    have xw2 : dot x w * dot x w ≤ eps := by
      have := mul_self_le_mul_self (abs_nonneg (dot x w)) hxw
      rw [abs_mul_abs_self] at this
      nlinarith only [this, ep, es]
    have xw0 := mul_self_nonneg (dot x w)
    have y1 : |dot x x - dot x w * dot x w - 1| ≤ 79 * eps := by
      rw [abs_le]; constructor <;> linarith only [hxx'.1, hxx'.2, xw2, xw0, ep]
    have p3 : |g * g * (sa * sa) + g * g * (ca * ca) - g * g| ≤ 5.1 * eps * (r * r) := by
      have e : g * g * (sa * sa) + g * g * (ca * ca) - g * g = g * g * (sa * sa + ca * ca - 1) := by ring
      rw [e, abs_mul, abs_of_nonneg gg0]
      have := mul_le_mul gg hsa (abs_nonneg _) (by positivity)
      linarith only [this, err]
    have p4 : |z * (g * ca) * dot x w| ≤ 18.3 * eps * (r * r) := by
      rw [mul_assoc, abs_mul]
      have := mul_le_mul hzr gx (abs_nonneg _) (by positivity)
      linarith only [this, err]
    -- with c² and s² weighted together the factor of g² is at most one of the two
    have p12 : |g * g * (ca * ca) * (dot x x - 1) + g * g * (sa * sa) * (dot x x - dot x w * dot x w - 1)| ≤ 80 * eps * (r * r) := by
      have a : |g * g * (ca * ca) * (dot x x - 1)| ≤ g * g * (ca * ca) * (79 * eps) := by
        rw [abs_mul, abs_of_nonneg (mul_nonneg gg0 cc0)]
        exact mul_le_mul_of_nonneg_left (by linarith only [hxx, ep]) (mul_nonneg gg0 cc0)
      have b : |g * g * (sa * sa) * (dot x x - dot x w * dot x w - 1)| ≤ g * g * (sa * sa) * (79 * eps) := by
        rw [abs_mul, abs_of_nonneg (mul_nonneg gg0 ss0)]
        exact mul_le_mul_of_nonneg_left y1 (mul_nonneg gg0 ss0)
      have c : g * g * (ca * ca) + g * g * (sa * sa) ≤ 1.002 * (r * r) := by
        have p3' := (abs_le.mp p3).2
        linarith only [p3', gg, err1, rr0]
      have d := mul_le_mul_of_nonneg_right c (by positivity : 0 ≤ 79 * eps)
      have f := abs_add_le (g * g * (ca * ca) * (dot x x - 1)) (g * g * (sa * sa) * (dot x x - dot x w * dot x w - 1))
      linarith only [a, b, d, f, err]
    have Q : |dot q q - r * r| ≤ 135 * eps * (r * r) := by
      have p12' := abs_le.mp p12
      have p3' := abs_le.mp p3
      have p4' := abs_le.mp p4
      rw [qq, abs_le]
      constructor <;> linarith only [p12'.1, p12'.2, p3'.1, p3'.2, p4'.1, p4'.2, hgg'.1, hgg'.2, err]
    have Q' := abs_le.mp Q
    have nq : norm q ≤ 1.0001 * r := norm_le_of (by linarith only [r0]) (by
      have : (1.0001 * r) ^ 2 = 1.00020001 * (r * r) := by ring
      rw [this]
      linarith only [Q'.2, err1, rr0])
    have c1 : |dot q δ| ≤ 70.1 * eps * (D * r) := by
      have a := abs_dot_le q δ
      have b := mul_le_mul nq hp (norm_nonneg _) (by linarith only [r0])
      have : 0 < eps * (D * r) := by positivity
      linarith only [a, b, this]
    have c2 : dot δ δ ≤ eps * (D * r) := by
      rw [← norm_mul_self]
      have a := mul_self_le_mul_self (norm_nonneg δ) hp
      have b : 70 * eps * D * (70 * eps * D) = (4900 * eps * D) * (eps * D) := by ring
      have c : 4900 * eps * D ≤ r := by
        have : 4900 * eps * D ≤ 4900 * eps * 2 ^ 30 := mul_le_mul_of_nonneg_left hD2 (by positivity)
        have : 4900 * eps * 2 ^ 30 ≤ 1 := by unfold eps; norm_num
        linarith
      have d := mul_le_mul_of_nonneg_right c (mul_pos ep D0).le
      linarith only [a, b, d]
    have c3 := dot_self_nonneg δ
    have c1' := abs_le.mp c1
    have : 0 < eps * (D * r) := by positivity
    rw [e, abs_le]
    constructor <;> linarith only [c1'.1, c1'.2, c2, c3, Q'.1, Q'.2, erD, this]
  · -- range rate
    have VD : r * norm V ≤ D * norm V := mul_le_mul_of_nonneg_right hD v0.le
    have eVD : eps * (r * norm V) ≤ eps * (D * norm V) := mul_le_mul_of_nonneg_left VD ep.le
    have eV : 0 < eps * (D * norm V) := by positivity
    have qV := dot_leg_V (V := V) (w := w) (vz := vz) (vx := vx) z g ca sa
    rw [hx, hq] at qV
    have e : dot V (sub P p) - r * rdot = -(z * (vz - dot V w)) - g * ca * (dot V x - vx) - (ca * (vx * g) - (-rdot * r + vz * z)) - dot V δ := by
      have : sub P p = smul (-1) (add q δ) := by rw [hδ]; ext <;> simp only [sub, smul, add] <;> ring
      rw [this, dot_smul_right, dot_add_right, qV]
      ring
    have a : |z * (vz - dot V w)| ≤ 12.1 * eps * (D * norm V) := by
      rw [abs_mul]
      have := mul_le_mul hzr hvz (abs_nonneg _) (by linarith only [r0])
      linarith only [this, eVD, eV]
    have b : |g * ca * (dot V x - vx)| ≤ 37.5 * eps * (D * norm V) := by
      rw [abs_mul]
      have := mul_le_mul gca hxV (abs_nonneg _) (by linarith only [r0])
      linarith only [this, eVD, eV]
    have c : |dot V δ| ≤ 70 * eps * (D * norm V) := by
      have h3 := abs_dot_le V δ
      have h4 := mul_le_mul_of_nonneg_left hp v0.le
      linarith only [h3, h4]
    have a' := abs_le.mp a
    have b' := abs_le.mp b
    have c' := abs_le.mp c
    have d' := abs_le.mp haz
    rw [e, abs_le]
    constructor <;> linarith only [a'.1, a'.2, b'.1, b'.2, c'.1, c'.2, d'.1, d'.2, eVD, eV]

/-- What the geometry says about the unit normal. -/
structure Facts (ref w : V3) (r : ℝ) (P V : V3) (D : ℝ) : Prop where
  unit : norm w = 1
  r1 : 1 ≤ r
  rD : r ≤ D
  D2 : D ≤ 2 ^ 30
  hP : norm P ≤ D
  hd : norm (sub P ref) ≤ D
  v1 : 1 ≤ norm V
  v2 : norm V ≤ 2 ^ 60
  level : 2 * (dot V w * dot V w) ≤ norm V * norm V
  grazing : |dot (sub P ref) w| ≤ (1 - 1 / 2 ^ 10) * r
  aside : 20 * eps * (D * norm V) ≤ |dot (cross (sub P ref) V) w|

theorem facts {ref u P V : V3} {r D : ℝ} (h : Imaging ref u r P V D) :
    Facts ref (unit u) r P V D ∧ dot u u ≠ 0 ∧ 1 / 2 ≤ norm u ∧ norm u ≤ 2 := by
  obtain ⟨hs, hP, hd, ⟨hr1, hr2⟩, hn, hv, hl, hg, ha⟩ := h
  simp only [length_eq] at hP hd hn hv hl hg ha
  have hN : 0 < norm u := by linarith only [hn.1]
  have hu : dot u u ≠ 0 := by rw [← norm_mul_self]; exact (mul_pos hN hN).ne'
  refine ⟨⟨norm_unit hn.1, hr1, hr2, hs, hP, hd, hv.1, hv.2, ?_, ?_, ?_⟩, hu, hn.1, hn.2⟩
  · have e : inner3 V u = norm u * dot V (unit u) := dot_unit_right hu V
    rw [e] at hl
    have : (norm u * norm u) * (2 * (dot V (unit u) * dot V (unit u))) ≤ (norm u * norm u) * (norm V * norm V) := by linarith only [hl]
    exact le_of_mul_le_mul_left this (mul_pos hN hN)
  · have e : Spec.Sicd.along u P ref = norm u * dot (sub P ref) (unit u) := by
      rw [along_eq, dot_comm, dot_unit_right hu]
    rw [e, abs_mul, abs_of_pos hN] at hg
    exact le_of_mul_le_mul_left (by linarith only [hg]) hN
  · have e : Spec.Sicd.side P V u ref = norm u * dot (cross (sub P ref) V) (unit u) := by
      rw [side_eq, dot_unit_right hu]
    rw [e, abs_mul, abs_of_pos hN] at ha
    have : norm u * (20 * eps * (D * norm V)) ≤ norm u * |dot (cross (sub P ref) V) (unit u)| := by
      unfold eps
      linarith only [ha]
    exact le_of_mul_le_mul_left this hN

/-- The error in the distance from the plane is small beside the range. -/
theorem z_small {ref w P V : V3} {r D z : ℝ} (F : Facts ref w r P V D) (hz : |z - dot (sub P ref) w| ≤ 13 * eps * D) : |z| ≤ 0.99903 * r := by
  have a : 13 * eps * D ≤ 0.000002 * r := by
    have h1 : 13 * eps * D ≤ 13 * eps * 2 ^ 30 := mul_le_mul_of_nonneg_left F.D2 (by have := eps_pos; positivity)
    have h2 : 13 * eps * 2 ^ 30 ≤ 0.000002 := by unfold eps; norm_num
    linarith only [h1, h2, F.r1]
  have b := abs_le.mp hz
  have c := abs_le.mp F.grazing
  rw [abs_le]
  constructor <;> linarith only [a, b.1, b.2, c.1, c.2, F.r1]

/-- The computed side is that of the reference point. -/
theorem look_eq {ref w P V e : V3} {r D : ℝ} (hr : Rounds rnd) (hd : Dot3Rounds dot3) (F : Facts ref w r P V D) (he : norm (sub e w) ≤ 7 * eps) :
    lookD rnd dot3 P ref V e = (SignType.sign (dot (cross (sub P ref) V) w) : ℝ) ∧ lookD rnd dot3 P ref V e * lookD rnd dot3 P ref V e = 1 ∧
      |lookD rnd dot3 P ref V e| = 1 := by
  have k := abs_le.mp (look_err hr hd he F.unit F.v1 F.v2 (le_trans F.r1 F.rD) F.D2 F.hd)
  have a := F.aside
  have pos : 0 < eps * (D * norm V) := mul_pos eps_pos (mul_pos (by linarith only [F.r1, F.rD]) (by linarith only [F.v1]))
  unfold lookD
  rcases le_or_gt 0 (dot (cross (sub P ref) V) w) with h | h
  · rw [abs_of_nonneg h] at a
    have h1 : 0 < dot (cross (sub P ref) V) w := by linarith only [a, pos]
    have h2 : 0 < dot3 (crossD rnd (rv rnd (sub P ref)) V) e := by linarith only [a, pos, k.1]
    rw [sign_pos h1, sign_pos h2]
    simp
  · rw [abs_of_neg h] at a
    have h2 : dot3 (crossD rnd (rv rnd (sub P ref)) V) e < 0 := by linarith only [a, pos, k.2]
    rw [sign_neg h, sign_neg h2]
    simp

/-- The point in the coordinates of the unit normal. -/
theorem point_spec {pl : Plane} {k : Contour} {p : V3} {D : ℝ} (hr : Rounds rnd) (hd : Dot3Rounds dot3) (F : Facts pl.ref (unit pl.u) k.r k.P k.V D)
    (hu : 1 / 2 ≤ norm pl.u) (hu2 : norm pl.u ≤ 2) (hrd : |k.rdot| ≤ 2 ^ 60) (h : toGroundD rnd dot3 pl k = .ok (some p)) :
    |dot (sub p pl.ref) (unit pl.u)| ≤ 102 * eps * D ∧ |dot (sub k.P p) (sub k.P p) - k.r * k.r| ≤ 280 * eps * (D * k.r) ∧
      |dot k.V (sub k.P p) - k.r * k.rdot| ≤ 130 * eps * (D * norm k.V) ∧
      -(73 * eps * (D * norm k.V)) ≤ (SignType.sign (dot (cross (sub k.P pl.ref) k.V) (unit pl.u)) : ℝ) * dot (cross (sub k.P p) k.V) (unit pl.u) := by
  have ep := eps_pos
  have es := eps_small
  have he := unit_err hr hd hu hu2
  have hw := F.unit
  unfold toGroundD at h
  simp only at h
  generalize hee : unitD rnd dot3 pl.u = e at *
  have hz := arpZ_err hr hd he hw (le_trans F.r1 F.rD) F.D2 F.hd
  have hlook := look_eq hr hd F he
  generalize hww : unit pl.u = w at *
  generalize hzz : arpZ rnd dot3 k.P pl.ref e = z at *
  have hzs := z_small F hz
  have r60 : k.r ≤ 2 ^ 60 := by linarith only [F.rD, F.D2, (by norm_num : (2:ℝ) ^ 30 ≤ 2 ^ 60)]
  have z60 : |z| ≤ 2 ^ 60 := by linarith only [hzs, r60, F.r1]
  by_cases c1 : k.r < z
  · rw [if_pos c1] at h; simp at h
  rw [if_neg c1] at h
  by_cases c2 : k.r = 0 ∨ gpSquare rnd k.r z < 0
  · rw [if_pos c2] at h; simp at h
  rw [if_neg c2] at h
  push Not at c2
  obtain ⟨hzr, hg, hgg⟩ := gp_err hr F.r1 r60 z60 c2.2
  have hg0 := (gp_low hr F.r1 r60 hzs).2
  generalize hgd : rnd √(gpSquare rnd k.r z) = g at *
  have hvz := vz_err hd he hw F.v1 F.v2
  generalize hvzd : dot3 k.V e = vz at *
  obtain ⟨-, vz1, vx1, vx2, vxx⟩ := vx_err hr hd F.v1 F.v2 hvz F.level
  by_cases c3 : vxSquare rnd dot3 k.V vz < 0
  · rw [if_pos c3] at h; simp at h
  rw [if_neg c3] at h
  generalize hvxd : rnd √(vxSquare rnd dot3 k.V vz) = vx at *
  by_cases c4 : azDen rnd k.r g vx = 0
  · rw [if_pos c4] at h
    by_cases c5 : azNum rnd k.r k.rdot z vz = 0
    · rw [if_pos c5] at h; simp at h
    · rw [if_neg c5] at h; simp at h
  rw [if_neg c4] at h
  by_cases c5 : 1 < |rnd (azNum rnd k.r k.rdot z vz / azDen rnd k.r g vx)|
  · rw [if_pos c5] at h; simp at h
  rw [if_neg c5] at h
  have haz := az_err hr F.r1 F.v1 F.v2 hrd hzr hg hg0 vz1 vx1 vx2 (not_lt.mp c5)
  generalize hcad : rnd (azNum rnd k.r k.rdot z vz / azDen rnd k.r g vx) = ca at *
  have hca := not_lt.mp c5
  by_cases c6 : vx = 0 ∨ rnd (1 - rnd (ca * ca)) < 0
  · rw [if_pos c6] at h; simp at h
  rw [if_neg c6] at h
  push Not at c6
  obtain ⟨s1, s2, s3⟩ := sa_err hr hca c6.2
  generalize hsd : rnd √(rnd (1 - rnd (ca * ca))) = sr at *
  obtain ⟨hl1, hl2, hl3⟩ := hlook
  generalize hld : lookD rnd dot3 k.P pl.ref k.V e = look at *
  obtain ⟨x1, x2, x3⟩ := x0_spec hw F.v1 hvz vz1 vx1 vxx
  have nx : norm (x0 k.V w vz vx) ≤ 1.0001 := by
    have := norm_of_dot (by positivity) x1
    linarith only [this, es]
  have hux := ux_err hr he hw F.v1 F.v2 vz1 vx1 nx
  have huy := uy_err hr he hw hux nx
  have ny : norm (cross w (x0 k.V w vz vx)) ≤ 1.0001 := by
    have := norm_cross_le w (x0 k.V w vz vx)
    rw [hw] at this
    linarith only [this, nx]
  have hnad := nadir_err hr he hw (le_trans F.r1 F.rD) (by linarith only [F.D2, (by norm_num : (2:ℝ) ^ 30 ≤ 2 ^ 60)]) F.hP (by linarith only [hzr, F.rD, F.r1] : |z| ≤ 1.01 * D)
  have sab : |look * sr| ≤ 1.01 := by rw [abs_mul, hl3]; linarith only [s1]
  have hp := point_err hr F.r1 F.rD F.D2 hg hca sab hw F.hP (by linarith only [hzr, F.rD, F.r1] : |z| ≤ 1.01 * D) hnad hux nx huy ny
  simp only [Except.ok.injEq, Option.some.injEq] at h
  rw [h] at hp
  have ss : |look * sr * (look * sr) + ca * ca - 1| ≤ 5 * eps := by
    have : look * sr * (look * sr) = sr * sr := by linear_combination (sr * sr) * hl2
    rw [this]
    exact s3
  obtain ⟨R1, R2, R3⟩ := residuals F.r1 F.rD F.D2 F.v1 hw hz hzr hg hgg hca ss hvz x1 x2 x3 haz hp
  refine ⟨R1, R2, R3, ?_⟩
  -- the side
  rw [← hl1]
  set δ := sub p (add k.P (leg w (x0 k.V w vz vx) z g ca (look * sr))) with hδ
  have e1 : dot (cross (sub k.P p) k.V) w = -(dot (cross (leg w (x0 k.V w vz vx) z g ca (look * sr)) k.V) w) - dot (cross δ k.V) w := by
    have : sub k.P p = smul (-1) (add (leg w (x0 k.V w vz vx) z g ca (look * sr)) δ) := by rw [hδ]; ext <;> simp only [sub, smul, add] <;> ring
    rw [this]
    simp only [dot, cross, smul, add]
    ring
  rw [e1, side_leg]
  have v0 : 0 < norm k.V := by linarith only [F.v1]
  have D0 : 0 < D := by linarith only [F.r1, F.rD]
  have vx0 : 0 < vx := by linarith only [vx1, v0]
  have g0 : 0 ≤ g := by linarith only [hg0, F.r1]
  have cw : dot (cross w k.V) (cross w k.V) ≤ norm k.V * norm k.V := by
    have := mul_self_le_mul_self (norm_nonneg _) (norm_cross_le w k.V)
    rw [norm_mul_self, hw] at this
    linarith only [this]
  have cw0 := dot_self_nonneg (cross w k.V)
  generalize dot (cross w k.V) (cross w k.V) = cc at *
  have m1 : look * (-(-(g * (look * sr) * cc / vx)) - dot (cross δ k.V) w) = g * sr * (cc / vx) - look * dot (cross δ k.V) w := by
    have : look * (-(-(g * (look * sr) * cc / vx)) - dot (cross δ k.V) w) = (look * look) * (g * sr * (cc / vx)) - look * dot (cross δ k.V) w := by ring
    rw [this, hl2, one_mul]
  rw [m1]
  have cv : cc / vx ≤ 1.5 * norm k.V := by
    rw [div_le_iff₀ vx0]
    have := mul_le_mul_of_nonneg_left vx1 (by positivity : 0 ≤ 1.5 * norm k.V)
    nlinarith only [this, cw, v0]
  have cv0 : 0 ≤ cc / vx := div_nonneg cw0 vx0.le
  have q1 : -(1.6 * eps * (D * norm k.V)) ≤ g * sr * (cc / vx) := by
    have a : g * (cc / vx) ≤ 1.52 * (D * norm k.V) := by
      have := mul_le_mul (le_trans (le_abs_self g) hg) cv cv0 (by linarith only [F.r1])
      have : k.r * norm k.V ≤ D * norm k.V := mul_le_mul_of_nonneg_right F.rD v0.le
      have : 0 < D * norm k.V := mul_pos D0 v0
      linarith
    have b : 0 ≤ g * (cc / vx) := mul_nonneg g0 cv0
    have c : -(1.002 * eps) * (g * (cc / vx)) ≤ sr * (g * (cc / vx)) := mul_le_mul_of_nonneg_right s2 b
    have d := mul_le_mul_of_nonneg_left a (by positivity : 0 ≤ 1.002 * eps)
    have f : 0 < eps * (D * norm k.V) := by positivity
    linarith only [c, d, f]
  have q2 : |look * dot (cross δ k.V) w| ≤ 70 * eps * (D * norm k.V) := by
    rw [abs_mul, hl3, one_mul]
    have a := abs_dot_le (cross δ k.V) w
    rw [hw] at a
    have b := norm_cross_le δ k.V
    have hp' : norm δ ≤ 70 * eps * D := hp
    have c := mul_le_mul_of_nonneg_right hp' v0.le
    linarith only [a, b, c]
  have q2' := abs_le.mp q2
  have f : 0 < eps * (D * norm k.V) := by positivity
  linarith only [q1, q2'.2, f]

/-- **C146** In doubles the point that the ground plane projection returns is on the plane, at the range, with the range rate and on the side of the reference
point, up to roundings that do not depend on how steep the line of sight is: for a satellite (`D` less than 10⁷ m) a micrometre, and for the range rate a
micrometre times the speed over the range. -/
theorem ground_point_in_doubles {pl : Plane} {k : Contour} {p : V3} {D : ℝ} (hr : Rounds rnd) (hd : Dot3Rounds dot3)
    (hI : Imaging pl.ref pl.u k.r k.P k.V D) (hrd : |k.rdot| ≤ 2 ^ 60) (h : toGroundD rnd dot3 pl k = .ok (some p)) :
    |Spec.Sicd.along pl.u p pl.ref| ≤ 102 / 2 ^ 53 * (D * length pl.u) ∧ |√(Spec.Sicd.sqDist k.P p) - k.r| ≤ 280 / 2 ^ 53 * D ∧
      |Spec.Sicd.along k.V k.P p - k.r * k.rdot| ≤ 130 / 2 ^ 53 * (D * length k.V) ∧
      (0 < Spec.Sicd.side k.P k.V pl.u pl.ref → -(73 / 2 ^ 53 * (D * length k.V * length pl.u)) ≤ Spec.Sicd.side k.P k.V pl.u p) ∧
      (Spec.Sicd.side k.P k.V pl.u pl.ref < 0 → Spec.Sicd.side k.P k.V pl.u p ≤ 73 / 2 ^ 53 * (D * length k.V * length pl.u)) := by
  obtain ⟨F, hu, hu1, hu2⟩ := facts hI
  obtain ⟨R1, R2, R3, R4⟩ := point_spec hr hd F hu1 hu2 hrd h
  have ep := eps_pos
  have N0 : 0 < norm pl.u := by linarith only [hu1]
  have r0 : 0 < k.r := by linarith only [F.r1]
  simp only [length_eq]
  have se : ∀ q, Spec.Sicd.side k.P k.V pl.u q = norm pl.u * dot (cross (sub k.P q) k.V) (unit pl.u) := fun q => by rw [side_eq, dot_unit_right hu]
  have ee : eps = 1 / 2 ^ 53 := rfl
  refine ⟨?_, ?_, ?_, ?_, ?_⟩
  · rw [along_eq, dot_comm, dot_unit_right hu, abs_mul, abs_of_pos N0]
    have := mul_le_mul_of_nonneg_left R1 N0.le
    rw [ee] at this
    linarith only [this]
  · have e : √(Spec.Sicd.sqDist k.P p) = norm (sub k.P p) := by rw [sqDist_eq]; rfl
    rw [e]
    rw [← norm_mul_self] at R2
    have n0 := norm_nonneg (sub k.P p)
    generalize norm (sub k.P p) = m at *
    have e2 : m * m - k.r * k.r = (m - k.r) * (m + k.r) := by ring
    rw [e2, abs_mul, abs_of_pos (by linarith only [n0, r0] : 0 < m + k.r)] at R2
    have a : |m - k.r| * k.r ≤ 280 * eps * D * k.r := by
      have := mul_nonneg (abs_nonneg (m - k.r)) n0
      linarith only [this, R2]
    have := le_of_mul_le_mul_right a r0
    rw [ee] at this
    linarith only [this]
  · rw [along_eq]
    rw [ee] at R3
    linarith only [R3]
  · intro hs
    rw [se] at hs ⊢
    rw [sign_pos (pos_of_mul_pos_right hs N0.le)] at R4
    simp only [SignType.coe_one, one_mul] at R4
    have := mul_le_mul_of_nonneg_left R4 N0.le
    rw [ee] at this
    linarith only [this]
  · intro hs
    rw [se] at hs ⊢
    have hs' : dot (cross (sub k.P pl.ref) k.V) (unit pl.u) < 0 := by
      by_contra hc
      have := mul_nonneg N0.le (not_lt.mp hc)
      linarith only [this, hs]
    rw [sign_neg hs'] at R4
    simp only [SignType.coe_neg_one, neg_mul, one_mul] at R4
    have := mul_le_mul_of_nonneg_left R4 N0.le
    rw [ee] at this
    linarith only [this]

/-! ## Near the exact point -/

/-- Rounding errors of lengths up to `D` are small beside the range. -/
theorem eps_range {ref w P V : V3} {r D : ℝ} (F : Facts ref w r P V D) : eps * D ≤ 1 / 2 ^ 23 * r := by
  have h1 := mul_le_mul_of_nonneg_left F.D2 eps_pos.le
  have h2 : eps * 2 ^ 30 = 1 / 2 ^ 23 := by unfold eps; norm_num
  linarith only [h1, h2, F.r1]

/-- The frame of velocity and normal. -/
theorem frame_facts {ref w P V : V3} {r D : ℝ} (F : Facts ref w r P V D) : ∃ ux uy vx, Frame V w ux uy (dot V w) vx ∧ 0.7 * norm V ≤ vx ∧ vx ≤ norm V ∧
    vx * vx = norm V * norm V - dot V w * dot V w := by
  have hw2 : dot w w = 1 := by rw [← norm_mul_self, F.unit]; norm_num
  have v0 : 0 < norm V := by linarith only [F.v1]
  have l := F.level
  have vv : 0 < norm V * norm V := mul_pos v0 v0
  have a0 := mul_self_nonneg (dot V w)
  have h0 : 0 ≤ norm V * norm V - dot V w * dot V w := by linarith only [l, vv]
  have low : 0.7 * norm V ≤ √(norm V * norm V - dot V w * dot V w) := Real.le_sqrt_of_sq_le (by
    have : (0.7 * norm V) ^ 2 = 0.49 * (norm V * norm V) := by ring
    rw [this]
    linarith only [l, vv])
  refine ⟨_, _, _, frame_of hw2 (by linarith only [low, v0]), low, ?_, Real.mul_self_sqrt h0⟩
  refine Real.sqrt_le_iff.mpr ⟨v0.le, ?_⟩
  linarith only [a0]

theorem abs_dot_unit {ux : V3} (h : dot ux ux = 1) (m : V3) : |dot m ux| ≤ norm m := by
  have a := abs_dot_le m ux
  rw [norm_eq_of (a := ux) (r := 1) (by norm_num) (by rw [h]; norm_num)] at a
  linarith only [a]

/-- Two displacements from the platform that nearly agree in height, speed and length, on the same side, are close. -/
theorem displacements {V w ux uy m n : V3} {r D v a vx β σ : ℝ} (F : Frame V w ux uy a vx) (hr1 : 1 ≤ r) (hDr : eps * D ≤ 1 / 2 ^ 23 * r) (hD : r ≤ D) (hv : 1 ≤ v)
    (hvx : 0.7 * v ≤ vx) (hvx' : vx ≤ v) (ha : |a| ≤ 0.71 * v) (hβ : 1 / 2 ^ 10 ≤ β) (hβ1 : β ≤ 1) (hw : |dot (sub m n) w| ≤ 102 * eps * D)
    (hV : |dot V (sub m n)| ≤ 130 * eps * (D * v)) (hn : dot n n = r * r) (hm : |dot m m - r * r| ≤ 280 * eps * (D * r)) (hσ : σ * σ = 1)
    (hs : -(73 * eps * (D * v)) ≤ σ * (vx * dot m uy)) (hsn : β * (r * v) ≤ σ * (vx * dot n uy)) :
    norm (sub m n) ≤ 1500 / β * eps * D := by
  have ep := eps_pos
  have r0 : 0 < r := by linarith only [hr1]
  have D0 : 0 < D := by linarith only [hD, r0]
  have v0 : 0 < v := by linarith only [hv]
  have vx0 : 0 < vx := F.vx_pos
  have β0 : 0 < β := lt_of_lt_of_le (by positivity) hβ
  have eD : 0 < eps * D := by positivity
  -- along the track
  have hx : |dot (sub m n) ux| ≤ 290 * eps * D := by
    have e : vx * dot (sub m n) ux = dot V (sub m n) - a * dot (sub m n) w := by
      have : dot V (sub m n) = a * dot (sub m n) w + vx * dot (sub m n) ux := by
        rw [dot_comm, F.hV, dot_add_right, dot_smul_right, dot_smul_right]
      linarith only [this]
    have e2 : |vx * dot (sub m n) ux| ≤ 130 * eps * (D * v) + 0.71 * v * (102 * eps * D) := by
      rw [e]
      refine le_trans (abs_sub _ _) (add_le_add hV ?_)
      rw [abs_mul]
      exact mul_le_mul ha hw (abs_nonneg _) (by positivity)
    rw [abs_mul, abs_of_pos vx0] at e2
    have e3 := mul_le_mul_of_nonneg_right hvx (abs_nonneg (dot (sub m n) ux))
    have : v * |dot (sub m n) ux| ≤ v * (290 * eps * D) := by
      have : 0 < v * (eps * D) := by positivity
      linarith only [e2, e3, this]
    exact le_of_mul_le_mul_left this v0
  -- lengths
  have nn : norm n ≤ r := norm_le_of r0.le (by rw [hn]; exact le_of_eq (by ring))
  have hm' := abs_le.mp hm
  have nm : norm m ≤ 1.001 * r := norm_le_of (by linarith only [r0]) (by
    have a1 := mul_le_mul_of_nonneg_right hDr r0.le
    have a2 : (280:ℝ) * (1 / 2 ^ 23) ≤ 0.001 := by norm_num
    have a3 := mul_le_mul_of_nonneg_right a2 (mul_pos r0 r0).le
    have a4 := mul_pos r0 r0
    have : (1.001 * r) ^ 2 = 1.002001 * (r * r) := by ring
    rw [this]
    linarith only [hm'.2, a1, a3, a4])
  have sumw : ∀ c : V3, dot c c = 1 → |dot m c + dot n c| ≤ 2.001 * r := fun c hc => by
    have a1 := abs_dot_unit hc m
    have a2 := abs_dot_unit hc n
    have a3 := abs_add_le (dot m c) (dot n c)
    linarith only [a1, a2, a3, nn, nm]
  have pw : |(dot m w - dot n w) * (dot m w + dot n w)| ≤ 102 * eps * D * (2.001 * r) := by
    rw [abs_mul, ← dot_sub_left]
    exact mul_le_mul hw (sumw w F.zz) (abs_nonneg _) (by positivity)
  have px : |(dot m ux - dot n ux) * (dot m ux + dot n ux)| ≤ 290 * eps * D * (2.001 * r) := by
    rw [abs_mul, ← dot_sub_left]
    exact mul_le_mul hx (sumw ux F.xx) (abs_nonneg _) (by positivity)
  have py : |(dot m uy - dot n uy) * (dot m uy + dot n uy)| ≤ 1070 * (eps * D) * r := by
    have e : (dot m uy - dot n uy) * (dot m uy + dot n uy) = (dot m m - r * r) - (dot m w - dot n w) * (dot m w + dot n w) - (dot m ux - dot n ux) * (dot m ux + dot n ux) := by
      rw [← hn, F.sq m, F.sq n]
      ring
    have pw' := abs_le.mp pw
    have px' := abs_le.mp px
    have : 0 < eps * D * r := by positivity
    rw [e, abs_le]
    constructor <;> linarith only [pw'.1, pw'.2, px'.1, px'.2, hm'.1, hm'.2, this]
  -- away from the track
  have sn : β * r ≤ σ * dot n uy := by
    have h1 : 0 < σ * (vx * dot n uy) := lt_of_lt_of_le (by positivity) hsn
    have h2 : 0 < σ * dot n uy := by
      have : σ * (vx * dot n uy) = vx * (σ * dot n uy) := by ring
      rw [this] at h1
      exact pos_of_mul_pos_right h1 vx0.le
    have h3 : vx * (σ * dot n uy) ≤ v * (σ * dot n uy) := mul_le_mul_of_nonneg_right hvx' h2.le
    have : v * (β * r) ≤ v * (σ * dot n uy) := by linarith only [h3, hsn]
    exact le_of_mul_le_mul_left this v0
  have sm : -(105 * (eps * D)) ≤ σ * dot m uy := by
    by_contra hc
    have hc := not_le.mp hc
    have h1 : vx * (σ * dot m uy) < vx * (-(105 * (eps * D))) := mul_lt_mul_of_pos_left hc vx0
    have h2 := mul_le_mul_of_nonneg_right hvx (by positivity : 0 ≤ 105 * (eps * D))
    have h3 : 0 < v * (eps * D) := by positivity
    linarith only [h1, h2, hs, h3]
  have sum : 0.98 * (β * r) ≤ |dot m uy + dot n uy| := by
    have h1 : σ * (dot m uy + dot n uy) ≤ |dot m uy + dot n uy| := by
      have : |σ| = 1 := by
        have := abs_mul_abs_self σ
        rw [hσ] at this
        nlinarith only [this, abs_nonneg σ]
      have h2 := le_abs_self (σ * (dot m uy + dot n uy))
      rw [abs_mul, this, one_mul] at h2
      exact h2
    have h3 : 105 * (eps * D) ≤ 0.02 * (β * r) := by
      have a1 : 105 * (1 / 2 ^ 23) * r ≤ 0.02 * (1 / 2 ^ 10) * r := mul_le_mul_of_nonneg_right (by norm_num) r0.le
      have a2 := mul_le_mul_of_nonneg_right hβ r0.le
      linarith only [a1, a2, hDr]
    linarith only [h1, h3, sn, sm]
  have hy : |dot (sub m n) uy| ≤ 1092 / β * (eps * D) := by
    rw [abs_mul] at py
    rw [dot_sub_left]
    have h1 := mul_le_mul_of_nonneg_left sum (abs_nonneg (dot m uy - dot n uy))
    have h2 : (β * |dot m uy - dot n uy|) * r ≤ (1092 * (eps * D)) * r := by
      have : 0 < eps * D * r := by positivity
      linarith only [h1, py, this]
    have h3 := le_of_mul_le_mul_right h2 r0
    rw [div_mul_eq_mul_div, le_div_iff₀ β0]
    linarith only [h3]
  -- together
  have tot : norm (sub m n) ≤ |dot (sub m n) ux| + |dot (sub m n) uy| + |dot (sub m n) w| := by
    refine norm_le_of (by positivity) ?_
    rw [F.sq (sub m n), ← sq_abs (dot (sub m n) ux), ← sq_abs (dot (sub m n) uy), ← sq_abs (dot (sub m n) w)]
    have a1 := abs_nonneg (dot (sub m n) ux)
    have a2 := abs_nonneg (dot (sub m n) uy)
    have a3 := abs_nonneg (dot (sub m n) w)
    nlinarith only [mul_nonneg a1 a2, mul_nonneg a1 a3, mul_nonneg a2 a3]
  have fin : 392 * (eps * D) ≤ 392 / β * (eps * D) := by
    refine mul_le_mul_of_nonneg_right ?_ eD.le
    rw [le_div_iff₀ β0]
    linarith only [hβ1]
  have e4 : 1500 / β * eps * D = 392 / β * (eps * D) + 1092 / β * (eps * D) + 16 / β * (eps * D) := by field_simp; ring
  have e5 : 0 < 16 / β * (eps * D) := by positivity
  linarith only [tot, hx, hy, hw, fin, e4, e5]

/-- The cosine of the azimuth is well below 1 when there is a point that is not near the plane of track and normal. -/
theorem ca_small {ref w P V n ux uy : V3} {r rdot D z g vz vx vx0 : ℝ} (hr : Rounds rnd) (F : Facts ref w r P V D) (Fr : Frame V w ux uy (dot V w) vx0)
    (hv0 : 0.7 * norm V ≤ vx0) (hv0' : vx0 ≤ norm V) (hvv : vx0 * vx0 = norm V * norm V - dot V w * dot V w)
    (hz : |z - dot n w| ≤ 13 * eps * D) (hzr : |z| ≤ 1.001 * r) (hg : |g| ≤ 1.01 * r) (hg0 : r / 32 ≤ g) (hgg : |g * g + z * z - r * r| ≤ 7 * eps * (r * r))
    (hvz : |vz - dot V w| ≤ 12 * eps * norm V) (vz1 : |vz| ≤ 0.71 * norm V) (hx : 0.7 * norm V ≤ vx) (hx' : vx ≤ 1.01 * norm V)
    (hxx : |vx * vx - (norm V * norm V - vz * vz)| ≤ 13 * eps * (norm V * norm V))
    (hn : dot n n = r * r) (hrate : dot V n = r * rdot) (hside : 1 / 64 * r ≤ |dot n uy|) :
    |rnd (azNum rnd r rdot z vz / azDen rnd r g vx)| ≤ 1 - 1 / 10 ^ 5 := by
  have ep := eps_pos
  have es := eps_small
  have r0 : 0 < r := by linarith only [F.r1]
  have D0 : 0 < D := by linarith only [F.rD, r0]
  have eDr := eps_range F
  have v0 : 0 < norm V := by linarith only [F.v1]
  have Vw : |dot V w| ≤ 0.708 * norm V := by
    refine abs_le_of_sq_le_sq ?_ (by linarith only [v0])
    nlinarith only [F.level, mul_pos v0 v0]
  obtain ⟨den0, den1, w0⟩ := azDen_err hr F.r1 F.v1 F.v2 hg hg0 hx hx'
  obtain ⟨t, ht, t1, t3⟩ := azNum_err hr (rdot := rdot) F.r1 F.v1 F.v2 hzr vz1
  have v1 := F.v1
  have v2 := F.v2
  have r1 := F.r1
  rw [ht]
  generalize azDen rnd r g vx = den at *
  generalize norm V = v at *
  have denp : 0 < den := by linarith only [den0, v0]
  have rr0 : 0 < r * r := mul_pos r0 r0
  have ev : 0 < eps * v := mul_pos ep v0
  have ev1 : eps * v ≤ 1 / 10 ^ 15 * v := mul_le_mul_of_nonneg_right es v0.le
  have eDv : eps * D * v ≤ 1 / 2 ^ 23 * r * v := mul_le_mul_of_nonneg_right eDr v0.le
  have evr : eps * v * r ≤ 1 / 10 ^ 15 * v * r := mul_le_mul_of_nonneg_right ev1 r0.le
  have eDr2 : eps * D * r ≤ 1 / 2 ^ 23 * r * r := mul_le_mul_of_nonneg_right eDr r0.le
  have err : eps * (r * r) ≤ 1 / 10 ^ 15 * (r * r) := mul_le_mul_of_nonneg_right es rr0.le
  have vr : 0 < v * r := mul_pos v0 r0
  have nn : norm n ≤ r := norm_le_of r0.le (by rw [hn]; exact le_of_eq (by ring))
  have nw := le_trans (abs_dot_unit Fr.zz n) nn
  have nx := le_trans (abs_dot_unit Fr.xx n) nn
  -- the rate in the frame
  have rate : r * rdot = dot V w * dot n w + vx0 * dot n ux := by
    rw [← hrate, dot_comm]
    conv_lhs => rw [Fr.hV]
    rw [dot_add_right, dot_smul_right, dot_smul_right]
  have num1 : |r * (-rdot + vz * (z / r)) + vx0 * dot n ux| ≤ 22 * (eps * D * v) := by
    have e : r * (-rdot + vz * (z / r)) + vx0 * dot n ux = (vz - dot V w) * z + dot V w * (z - dot n w) := by
      have : r * (vz * (z / r)) = vz * z := by field_simp
      rw [mul_add, this]
      linear_combination -rate
    have a1 : |(vz - dot V w) * z| ≤ 12 * eps * v * (1.001 * r) := by
      rw [abs_mul]; exact mul_le_mul hvz hzr (abs_nonneg _) (by positivity)
    have a2 : |dot V w * (z - dot n w)| ≤ 0.708 * v * (13 * eps * D) := by
      rw [abs_mul]; exact mul_le_mul Vw hz (abs_nonneg _) (by positivity)
    have a3 := abs_add_le ((vz - dot V w) * z) (dot V w * (z - dot n w))
    have a4 : eps * v * r ≤ eps * v * D := mul_le_mul_of_nonneg_left F.rD ev.le
    have a5 : 0 < eps * D * v := by positivity
    rw [e]
    linarith only [a1, a2, a3, a4, a5]
  -- the ground distance
  have gg : dot n ux * dot n ux + 0.00023 * (r * r) ≤ g * g := by
    have sq := Fr.sq n
    rw [hn] at sq
    have y2 : (1 / 64) ^ 2 * (r * r) ≤ dot n uy ^ 2 := by
      have := mul_self_le_mul_self (by positivity) hside
      rw [abs_mul_abs_self] at this
      nlinarith only [this]
    have zz : |z * z - dot n w * dot n w| ≤ 27 * (eps * D * r) := by
      have e : z * z - dot n w * dot n w = (z - dot n w) * (z + dot n w) := by ring
      rw [e, abs_mul]
      have a1 : |z + dot n w| ≤ 2.001 * r := by
        have := abs_add_le z (dot n w)
        linarith only [this, hzr, nw]
      have := mul_le_mul hz a1 (abs_nonneg _) (by positivity)
      have : 0 < eps * D * r := by positivity
      linarith
    have zz' := abs_le.mp zz
    have gg' := abs_le.mp hgg
    linarith only [sq, y2, zz'.2, gg'.1, eDr2, err, rr0]
  have gx : |dot n ux| + 0.00011 * r ≤ g := by
    refine le_of_sq_le_sq ?_ (by linarith only [hg0, r0])
    have e : (|dot n ux| + 0.00011 * r) ^ 2 = dot n ux * dot n ux + 0.00022 * (|dot n ux| * r) + 0.0000000121 * (r * r) := by
      rw [← abs_mul_abs_self (dot n ux)]; ring
    have := mul_le_mul_of_nonneg_right nx r0.le
    rw [e, pow_two]
    linarith only [gg, this, rr0]
  -- the speed
  have vxd : vx0 - 24 * (eps * v) ≤ vx := by
    have a1 : |vz * vz - dot V w * dot V w| ≤ 18 * (eps * (v * v)) := by
      have e : vz * vz - dot V w * dot V w = (vz - dot V w) * (vz + dot V w) := by ring
      rw [e, abs_mul]
      have a1 : |vz + dot V w| ≤ 1.42 * v := by
        have := abs_add_le vz (dot V w)
        linarith only [this, vz1, Vw, v0]
      have := mul_le_mul hvz a1 (abs_nonneg _) (by positivity)
      have : 0 < eps * (v * v) := by positivity
      linarith
    have a1' := abs_le.mp a1
    have x' := abs_le.mp hxx
    have a2 : (vx0 - vx) * (vx0 + vx) ≤ 31 * (eps * (v * v)) := by nlinarith only [a1'.1, a1'.2, x'.1, x'.2, hvv]
    by_contra hc
    have hc := not_le.mp hc
    have a3 : 24 * (eps * v) < vx0 - vx := by linarith only [hc]
    have a4 : 1.4 * v ≤ vx0 + vx := by linarith only [hv0, hx]
    have := mul_le_mul a3.le a4 (by positivity) (by linarith only [a3, ev])
    have : 0 < eps * (v * v) := by positivity
    linarith
  -- numerator and denominator
  have n1 : |(-rdot + t)| ≤ 2 * v := by
    have a1 : |r * (-rdot + vz * (z / r))| ≤ 1.01 * (v * r) := by
      have b := abs_le.mp num1
      have c : |vx0 * dot n ux| ≤ v * r := by
        rw [abs_mul, abs_of_pos Fr.vx_pos]
        exact mul_le_mul hv0' nx (abs_nonneg _) v0.le
      have c' := abs_le.mp c
      rw [abs_le]
      constructor <;> linarith only [b.1, b.2, c'.1, c'.2, eDv, vr]
    rw [abs_mul, abs_of_pos r0] at a1
    have a2 : |(-rdot + vz * (z / r))| ≤ 1.01 * v := le_of_mul_le_mul_left (by linarith only [a1]) r0
    have a2' := abs_le.mp a2
    have t3' := abs_le.mp t3
    rw [abs_le]
    constructor <;> linarith only [a2'.1, a2'.2, t3'.1, t3'.2, ev1, v0]
  have n2 := near hr n1 (by linarith only [v1, (by norm_num : (1:ℝ) / 2 ^ 100 ≤ 1)])
    (by linarith only [v2, (by norm_num : (2:ℝ) ^ 60 * 2 ≤ 2 ^ 250)])
  have n3 : |rnd (-rdot + t)| * r ≤ vx0 * |dot n ux| + 27 * (eps * D * v) := by
    have e : rnd (-rdot + t) * r = (rnd (-rdot + t) - (-rdot + t)) * r + (t - vz * (z / r)) * r + (r * (-rdot + vz * (z / r)) + vx0 * dot n ux) - vx0 * dot n ux := by ring
    have a1 : |(rnd (-rdot + t) - (-rdot + t)) * r| ≤ 1.001 * eps * (2 * v) * r := by
      rw [abs_mul, abs_of_pos r0]; exact mul_le_mul_of_nonneg_right n2 r0.le
    have a2 : |(t - vz * (z / r)) * r| ≤ 1.5 * eps * v * r := by
      rw [abs_mul, abs_of_pos r0]; exact mul_le_mul_of_nonneg_right t3 r0.le
    have a3 : |vx0 * dot n ux| = vx0 * |dot n ux| := by rw [abs_mul, abs_of_pos Fr.vx_pos]
    have a4 : eps * v * r ≤ eps * v * D := mul_le_mul_of_nonneg_left F.rD ev.le
    have a5 : 0 < eps * D * v := by positivity
    have a6 : |rnd (-rdot + t)| * r = |rnd (-rdot + t) * r| := by rw [abs_mul, abs_of_pos r0]
    have b1 := abs_sub ((rnd (-rdot + t) - (-rdot + t)) * r + (t - vz * (z / r)) * r + (r * (-rdot + vz * (z / r)) + vx0 * dot n ux)) (vx0 * dot n ux)
    have b2 := abs_add_le ((rnd (-rdot + t) - (-rdot + t)) * r + (t - vz * (z / r)) * r) (r * (-rdot + vz * (z / r)) + vx0 * dot n ux)
    have b3 := abs_add_le ((rnd (-rdot + t) - (-rdot + t)) * r) ((t - vz * (z / r)) * r)
    rw [a6, e]
    linarith only [a1, a2, a3, a4, a5, b1, b2, b3, num1]
  have d1 : vx * g - 2.1 * eps * v * r ≤ den * r := by
    have a := (abs_le.mp w0).1
    have e : vx * (g / r) * r = vx * g := by field_simp
    have := mul_le_mul_of_nonneg_right a r0.le
    linarith only [this, e]
  have d2 : vx0 * |dot n ux| + 0.00007 * (v * r) ≤ vx * g := by
    have a1 := mul_le_mul_of_nonneg_left gx (by linarith only [hx, v0] : 0 ≤ vx)
    have a2 := mul_le_mul_of_nonneg_right vxd (abs_nonneg (dot n ux))
    have a3 := mul_le_mul_of_nonneg_left nx ev.le
    have a4 := mul_le_mul_of_nonneg_right hx r0.le
    linarith only [a1, a2, a3, a4, evr, vr]
  have q : |rnd (-rdot + t) / den| ≤ 1 - 1 / 20000 := by
    rw [abs_div, abs_of_pos denp, div_le_iff₀ denp]
    have e : |rnd (-rdot + t)| * r ≤ (1 - 1 / 20000) * den * r := by
      have := mul_le_mul_of_nonneg_right den1 r0.le
      linarith only [n3, d1, d2, this, eDv, evr, vr]
    exact le_of_mul_le_mul_right e r0
  have fin := abs_le.mp (near hr q (by norm_num) (by norm_num))
  have q' := abs_le.mp q
  rw [abs_le]
  constructor <;> linarith only [fin.1, fin.2, q'.1, q'.2, es]

/-- **C146** When there is a point on the plane at the range, with the range rate and on the side of the reference point, and it is not near the plane of track
and normal, the computation in doubles returns a point, and that is the point up to a rounding error. -/
theorem ground_point_found {pl : Plane} {k : Contour} {q : V3} {D β : ℝ} (hr : Rounds rnd) (hd : Dot3Rounds dot3)
    (hI : Imaging pl.ref pl.u k.r k.P k.V D) (hrd : |k.rdot| ≤ 2 ^ 60) (hq : Spec.Sicd.Seen k.P k.V k.r k.rdot q) (hp : Spec.Sicd.OnPlane pl.ref pl.u q)
    (hs : 0 < Spec.Sicd.side k.P k.V pl.u pl.ref * Spec.Sicd.side k.P k.V pl.u q) (hβ : 1 / 64 ≤ β) (hβ1 : β ≤ 1)
    (hb : β * (k.r * (length k.V * length pl.u)) ≤ |Spec.Sicd.side k.P k.V pl.u q|) :
    ∃ p, toGroundD rnd dot3 pl k = .ok (some p) ∧ √(Spec.Sicd.sqDist p q) ≤ 1500 / β / 2 ^ 53 * D := by
  obtain ⟨F, hu, hu1, hu2⟩ := facts hI
  obtain ⟨ux, uy, vx0, Fr, hv0, hv0', hvv⟩ := frame_facts F
  have ep := eps_pos
  have es := eps_small
  have N0 : 0 < norm pl.u := by linarith only [hu1]
  have r0 : 0 < k.r := by linarith only [F.r1]
  have v0 : 0 < norm k.V := by linarith only [F.v1]
  have n1 : dot (sub k.P q) (sub k.P q) = k.r * k.r := by
    have := hq.1
    rw [sqDist_eq] at this
    rw [this]; ring
  have n2 : dot k.V (sub k.P q) = k.r * k.rdot := hq.2
  have n3 : dot (sub q pl.ref) (unit pl.u) = 0 := by
    have h1 : Spec.Sicd.along pl.u q pl.ref = 0 := hp
    rw [along_eq, dot_comm, dot_unit_right hu] at h1
    exact (mul_eq_zero.mp h1).resolve_left N0.ne'
  have se : ∀ q, Spec.Sicd.side k.P k.V pl.u q = norm pl.u * dot (cross (sub k.P q) k.V) (unit pl.u) := fun q => by rw [side_eq, dot_unit_right hu]
  rw [se, se] at hs
  rw [se, length_eq, length_eq, abs_mul, abs_of_pos N0, Fr.side, abs_neg, abs_mul, abs_of_pos Fr.vx_pos] at hb
  have hb' : β * (k.r * norm k.V) ≤ vx0 * |dot (sub k.P q) uy| := le_of_mul_le_mul_left (by linarith only [hb]) N0
  have hside : 1 / 64 * k.r ≤ |dot (sub k.P q) uy| := by
    have a1 : vx0 * |dot (sub k.P q) uy| ≤ norm k.V * |dot (sub k.P q) uy| := mul_le_mul_of_nonneg_right hv0' (abs_nonneg _)
    have a2 : 1 / 64 * (k.r * norm k.V) ≤ β * (k.r * norm k.V) := mul_le_mul_of_nonneg_right hβ (by positivity)
    exact le_of_mul_le_mul_left (by linarith only [a1, a2, hb']) v0
  have he := unit_err hr hd hu1 hu2
  have hw := F.unit
  have found : ∃ p, toGroundD rnd dot3 pl k = .ok (some p) := by
    unfold toGroundD
    simp only
    generalize unitD rnd dot3 pl.u = e at *
    have hz := arpZ_err hr hd he hw (le_trans F.r1 F.rD) F.D2 F.hd
    generalize unit pl.u = w at *
    generalize arpZ rnd dot3 k.P pl.ref e = z at *
    have hzs := z_small F hz
    have r60 : k.r ≤ 2 ^ 60 := by linarith only [F.rD, F.D2, (by norm_num : (2:ℝ) ^ 30 ≤ 2 ^ 60)]
    have z60 : |z| ≤ 2 ^ 60 := by linarith only [hzs, r60, F.r1]
    rw [if_neg (by have := le_abs_self z; linarith only [hzs, this, r0] : ¬ k.r < z)]
    obtain ⟨g1, hg0⟩ := gp_low hr F.r1 r60 hzs
    obtain ⟨hzr, hg, hgg⟩ := gp_err hr F.r1 r60 z60 g1
    rw [if_neg (by push Not; exact ⟨r0.ne', g1⟩)]
    generalize rnd √(gpSquare rnd k.r z) = g at *
    have hvz := vz_err hd he hw F.v1 F.v2
    generalize dot3 k.V e = vz at *
    obtain ⟨vq, vz1, vx1, vx2, vxx⟩ := vx_err hr hd F.v1 F.v2 hvz F.level
    rw [if_neg (not_lt.mpr vq)]
    generalize rnd √(vxSquare rnd dot3 k.V vz) = vx at *
    have hden := (azDen_err hr F.r1 F.v1 F.v2 hg hg0 vx1 vx2).1
    rw [if_neg (by linarith only [hden, v0])]
    have zq : dot (sub k.P pl.ref) w = dot (sub k.P q) w := by
      rw [dot_sub_left, dot_sub_left]
      rw [dot_sub_left] at n3
      linarith only [n3]
    rw [zq] at hz
    have hca := ca_small hr F Fr hv0 hv0' hvv hz hzr hg hg0 hgg hvz vz1 vx1 vx2 vxx n1 n2 hside
    generalize rnd (azNum rnd k.r k.rdot z vz / azDen rnd k.r g vx) = ca at *
    rw [if_neg (by linarith only [hca, (by norm_num : (0:ℝ) < 1 / 10 ^ 5)])]
    have cc0 := mul_self_nonneg ca
    have cc : ca * ca ≤ 1 - 1 / 10 ^ 5 := by
      have := mul_self_le_mul_self (abs_nonneg ca) hca
      rw [abs_mul_abs_self] at this
      linarith only [this, (by norm_num : (1 - 1 / 10 ^ 5 : ℝ) * (1 - 1 / 10 ^ 5) ≤ 1 - 1 / 10 ^ 5)]
    have a := abs_le.mp (near hr (x := ca * ca) (X := 1) (by rw [abs_of_nonneg cc0]; linarith only [cc]) (by norm_num) (by norm_num))
    have b := abs_le.mp (near hr (x := 1 - rnd (ca * ca)) (X := 1.001) (by rw [abs_le]; constructor <;> linarith only [a.1, a.2, cc, cc0, es]) (by norm_num) (by norm_num))
    rw [if_neg (by push Not; exact ⟨by linarith only [vx1, v0], by linarith only [a.2, b.1, cc, es]⟩)]
    exact ⟨_, rfl⟩
  obtain ⟨p, hfp⟩ := found
  refine ⟨p, hfp, ?_⟩
  obtain ⟨R1, R2, R3, R4⟩ := point_spec hr hd F hu1 hu2 hrd hfp
  have hss : dot (cross (sub k.P pl.ref) k.V) (unit pl.u) * dot (cross (sub k.P q) k.V) (unit pl.u) > 0 := by
    have e : norm pl.u * dot (cross (sub k.P pl.ref) k.V) (unit pl.u) * (norm pl.u * dot (cross (sub k.P q) k.V) (unit pl.u)) =
        (norm pl.u * norm pl.u) * (dot (cross (sub k.P pl.ref) k.V) (unit pl.u) * dot (cross (sub k.P q) k.V) (unit pl.u)) := by ring
    rw [e] at hs
    exact pos_of_mul_pos_right hs (mul_pos N0 N0).le
  obtain ⟨σ, hσ, hσ1⟩ : ∃ σ : ℝ, σ = -(SignType.sign (dot (cross (sub k.P pl.ref) k.V) (unit pl.u)) : ℝ) ∧
      (SignType.sign (dot (cross (sub k.P pl.ref) k.V) (unit pl.u)) : ℝ) * (SignType.sign (dot (cross (sub k.P pl.ref) k.V) (unit pl.u)) : ℝ) = 1 :=
    ⟨_, rfl, signType_sq (by intro h0; rw [h0, zero_mul] at hss; exact lt_irrefl _ hss)⟩
  have hsn : β * (k.r * norm k.V) ≤ σ * (vx0 * dot (sub k.P q) uy) := by
    have e : σ * (vx0 * dot (sub k.P q) uy) = vx0 * |dot (sub k.P q) uy| := by
      have hq' := Fr.side (sub k.P q)
      have p0 := Fr.vx_pos
      rcases lt_or_gt_of_ne (by intro h0; rw [h0, zero_mul] at hss; exact lt_irrefl _ hss : dot (cross (sub k.P pl.ref) k.V) (unit pl.u) ≠ 0) with h1 | h1
      · rw [hσ, sign_neg h1]
        have h2 : dot (cross (sub k.P q) k.V) (unit pl.u) < 0 := by
          by_contra hc
          have := mul_nonpos_of_nonpos_of_nonneg h1.le (not_lt.mp hc)
          linarith only [this, hss]
        rw [hq'] at h2
        have h3 : 0 < dot (sub k.P q) uy := pos_of_mul_pos_right (by linarith only [h2] : 0 < vx0 * dot (sub k.P q) uy) p0.le
        rw [abs_of_pos h3]
        simp
      · rw [hσ, sign_pos h1]
        have h2 : 0 < dot (cross (sub k.P q) k.V) (unit pl.u) := pos_of_mul_pos_right hss h1.le
        rw [hq'] at h2
        have h3 : dot (sub k.P q) uy < 0 := by
          by_contra hc
          have := mul_nonneg p0.le (not_lt.mp hc)
          linarith only [this, h2]
        rw [abs_of_neg h3]
        simp
    rw [e]
    exact hb'
  have hsm : -(73 * eps * (D * norm k.V)) ≤ σ * (vx0 * dot (sub k.P p) uy) := by
    rw [Fr.side (sub k.P p)] at R4
    rw [hσ]
    linarith only [R4]
  have Vw : |dot k.V (unit pl.u)| ≤ 0.71 * norm k.V := by
    refine abs_le_of_sq_le_sq ?_ (by linarith only [v0])
    nlinarith only [F.level, mul_pos v0 v0]
  have dd : sub (sub k.P p) (sub k.P q) = sub q p := by ext <;> simp only [sub] <;> ring
  have K := displacements Fr F.r1 (eps_range F) F.rD F.v1 hv0 hv0' Vw (by linarith only [hβ, (by norm_num : (1:ℝ) / 2 ^ 10 ≤ 1 / 64)]) hβ1
    (m := sub k.P p) (n := sub k.P q) (by
      have : dot (sub (sub k.P p) (sub k.P q)) (unit pl.u) = -dot (sub p pl.ref) (unit pl.u) := by
        rw [dd, dot_sub_left, dot_sub_left]
        rw [dot_sub_left] at n3
        linarith only [n3]
      rw [this, abs_neg]
      exact R1)
    (by
      rw [dot_sub_right, n2]
      exact R3) n1 R2 (σ := σ) (by rw [hσ]; linarith only [hσ1]) hsm hsn
  have e : √(Spec.Sicd.sqDist p q) = norm (sub (sub k.P p) (sub k.P q)) := by
    rw [dd, norm_sub_comm, sqDist_eq]; rfl
  rw [e]
  refine le_trans K (le_of_eq ?_)
  unfold eps
  ring

/-! ## An image -/

/-- An inner product with every operation rounded is one of those allowed. -/
theorem dot_in_doubles {rnd : ℝ → ℝ} (hr : Rounds rnd) :
    Dot3Rounds fun a b => rnd (rnd (rnd (a.x * b.x) + rnd (a.y * b.y)) + rnd (a.z * b.z)) :=
  ⟨fun a b h => (Verif.Props.RoundedAffine.left_dot_rounds hr).err (a.x, a.y, a.z) (b.x, b.y, b.z) h⟩

noncomputable def flat : Plane := ⟨⟨0, 100000, 0⟩, ⟨0, 0, 1⟩⟩

/-- A platform 300 km above the plane looks ahead of broadside. -/
noncomputable def squinted : Contour := ⟨500000, -3360, ⟨0, 0, 300000⟩, ⟨7000, 0, 0⟩⟩

noncomputable def target : V3 := ⟨240000, 320000, 0⟩

theorem length_of {a : V3} {x : ℝ} (hx : 0 ≤ x) (h : a.x ^ 2 + a.y ^ 2 + a.z ^ 2 = x ^ 2) : length a = x := by
  unfold length; rw [h, Real.sqrt_sq hx]

theorem squinted_imaging : Imaging flat.ref flat.u squinted.r squinted.P squinted.V 500000 := by
  have u1 : length flat.u = 1 := length_of (by norm_num) (by norm_num [flat])
  have v1 : length squinted.V = 7000 := length_of (by norm_num) (by norm_num [squinted])
  refine ⟨by norm_num, ?_, ?_, by norm_num [squinted], by rw [u1]; norm_num, by rw [v1]; norm_num, ?_, ?_, ?_⟩
  · rw [length_of (x := 300000) (by norm_num) (by norm_num [squinted])]; norm_num
  · unfold length
    refine Real.sqrt_le_iff.mpr ⟨by norm_num, ?_⟩
    norm_num [squinted, flat]
  · rw [u1, v1]; norm_num [inner3, squinted, flat]
  · rw [u1]; norm_num [Spec.Sicd.along, squinted, flat]
  · rw [u1, v1]; norm_num [Spec.Sicd.side, squinted, flat]

theorem squinted_point {rnd : ℝ → ℝ} (hr : Rounds rnd) {dot3 : V3 → V3 → ℝ} (hd : Dot3Rounds dot3) :
    ∃ p, toGroundD rnd dot3 flat squinted = .ok (some p) ∧ √(Spec.Sicd.sqDist p target) ≤ 1500 / (1 / 2) / 2 ^ 53 * 500000 := by
  have u1 : length flat.u = 1 := length_of (by norm_num) (by norm_num [flat])
  have v1 : length squinted.V = 7000 := length_of (by norm_num) (by norm_num [squinted])
  refine ground_point_found hr hd squinted_imaging (by norm_num [squinted]) ⟨?_, ?_⟩ ?_ ?_ (by norm_num) (by norm_num) ?_
  · norm_num [Spec.Sicd.sqDist, squinted, target]
  · norm_num [Spec.Sicd.along, squinted, target]
  · norm_num [Spec.Sicd.OnPlane, Spec.Sicd.along, flat, target]
  · norm_num [Spec.Sicd.side, squinted, flat, target]
  · rw [u1, v1]; norm_num [Spec.Sicd.side, squinted, flat, target]

/-- The platform above: with doubles it is seen within a fifth of a micrometre of the target. -/
example : ∃ p, toGroundD Verif.Rounded.double (fun a b => Verif.Rounded.double (Verif.Rounded.double (Verif.Rounded.double (a.x * b.x) + Verif.Rounded.double (a.y * b.y)) +
      Verif.Rounded.double (a.z * b.z))) flat squinted = .ok (some p) ∧ √(Spec.Sicd.sqDist p target) ≤ 2 / 10 ^ 7 := by
  obtain ⟨p, h1, h2⟩ := squinted_point Verif.Lemmas.Rounded.double_rounds (dot_in_doubles Verif.Lemmas.Rounded.double_rounds)
  exact ⟨p, h1, le_trans h2 (by norm_num)⟩

/-- And its range is right to less than a tenth of a micrometre. -/
example : ∃ p, toGroundD Verif.Rounded.double (fun a b => Verif.Rounded.double (Verif.Rounded.double (Verif.Rounded.double (a.x * b.x) + Verif.Rounded.double (a.y * b.y)) +
      Verif.Rounded.double (a.z * b.z))) flat squinted = .ok (some p) ∧ |√(Spec.Sicd.sqDist squinted.P p) - 500000| ≤ 1 / 10 ^ 7 := by
  have hr := Verif.Lemmas.Rounded.double_rounds
  obtain ⟨p, h1, -⟩ := squinted_point hr (dot_in_doubles hr)
  have h := (ground_point_in_doubles hr (dot_in_doubles hr) squinted_imaging (by norm_num [squinted]) h1).2.1
  exact ⟨p, h1, le_trans h (by norm_num)⟩

end Verif.Props.RoundedSicd
