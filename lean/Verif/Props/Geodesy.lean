import Verif.Props.SicdEllipsoid
import Mathlib.Analysis.Calculus.LocalExtr.Basic
import Mathlib.Topology.Order.Compact

/-!
# Geodetic and geocentric coordinates

`coordinates.py` L233-276 leaves the conversions to pyproj.  Here it is shown that the textbook formula of the ellipsoid determines them.
-/

namespace Verif.Props.Geodesy

open Verif.Sicd Verif.Sicd.V3 Verif.Spec.Sicd Verif.Spec.Ellipsoid Verif.Props.Sicd Verif.Props.SicdRoundTrip Verif.Props.SicdEllipsoid

variable {a b : ℝ}

/-! ## Uniqueness -/

theorem dot_le_one {u v : V3} (hu : dot u u = 1) (hv : dot v v = 1) : dot u v ≤ 1 := by
  have := dot_le u v
  rwa [norm_eq_of zero_le_one (by rw [hu]; norm_num), norm_eq_of zero_le_one (by rw [hv]; norm_num), one_mul] at this

theorem eq_of_dot_eq_one {u v : V3} (hu : dot u u = 1) (hv : dot v v = 1) (h : dot u v = 1) : u = v := by
  have e : (u.x - v.x) ^ 2 + (u.y - v.y) ^ 2 + (u.z - v.z) ^ 2 = 0 := by
    simp only [dot] at hu hv h
    linarith
  have hx : (u.x - v.x) ^ 2 = 0 := by nlinarith [sq_nonneg (u.x - v.x), sq_nonneg (u.y - v.y), sq_nonneg (u.z - v.z)]
  have hy : (u.y - v.y) ^ 2 = 0 := by nlinarith [sq_nonneg (u.x - v.x), sq_nonneg (u.y - v.y), sq_nonneg (u.z - v.z)]
  have hz : (u.z - v.z) ^ 2 = 0 := by nlinarith [sq_nonneg (u.x - v.x), sq_nonneg (u.y - v.y), sq_nonneg (u.z - v.z)]
  ext
  · exact sub_eq_zero.1 (pow_eq_zero_iff two_ne_zero |>.1 hx)
  · exact sub_eq_zero.1 (pow_eq_zero_iff two_ne_zero |>.1 hy)
  · exact sub_eq_zero.1 (pow_eq_zero_iff two_ne_zero |>.1 hz)

/-- The normal and the height at a point are unique above the centers of curvature. -/
theorem foot_unique (hb : 0 < b) (hab : b ≤ a) {u v : V3} (hu : dot u u = 1) (hv : dot v v = 1) {h k : ℝ} (hh : -(b ^ 2 / a) < h) (hk : -(b ^ 2 / a) ≤ k)
    (he : add (surface a b u) (smul h u) = add (surface a b v) (smul k v)) : u = v ∧ h = k := by
  have ha : 0 < a := hb.trans_le hab
  have su := dot_surface_self ha hb hab hu
  have sv := dot_surface_self ha hb hab hv
  have g1 := support_gap hb hab hu hv
  have g2 := support_gap hb hab hv hu
  have hc := dot_le_one hu hv
  have e1 : dot v (surface a b u) + h * dot u v = support a b v + k := by
    have := congrArg (dot v) he
    rw [dot_add_right, dot_smul_right, dot_add_right, dot_smul_right, hv, sv, dot_comm v u] at this
    linarith
  have e2 : dot u (surface a b v) + k * dot u v = support a b u + h := by
    have := congrArg (dot u) he
    rw [dot_add_right, dot_smul_right, dot_add_right, dot_smul_right, hu, su] at this
    linarith
  rw [dot_comm v u] at g2
  have hone : dot u v = 1 := by
    by_contra hne
    have hlt : 0 < 1 - dot u v := by
      rcases lt_or_eq_of_le hc with h | h
      · linarith
      · exact absurd h hne
    nlinarith
  obtain rfl := eq_of_dot_eq_one hu hv hone
  refine ⟨rfl, ?_⟩
  rw [hu] at e1
  rw [dot_surface_self ha hb hab hu] at e1
  linarith

/-- Longitudes and latitudes as pyproj returns them. -/
def Standard (l : Lle) : Prop := -Real.pi < l.lon ∧ l.lon ≤ Real.pi ∧ -(Real.pi / 2) ≤ l.lat ∧ l.lat ≤ Real.pi / 2

theorem normal_inj {l l' : Lle} (hl : Standard l) (hl' : Standard l') (h : normalAt l.lon l.lat = normalAt l'.lon l'.lat) :
    l.lat = l'.lat ∧ (-(Real.pi / 2) < l.lat → l.lat < Real.pi / 2 → l.lon = l'.lon) := by
  simp only [normalAt, V3.mk.injEq] at h
  obtain ⟨h1, h2, h3⟩ := h
  have hlat : l.lat = l'.lat := Real.injOn_sin ⟨hl.2.2.1, hl.2.2.2⟩ ⟨hl'.2.2.1, hl'.2.2.2⟩ h3
  refine ⟨hlat, fun k1 k2 => ?_⟩
  have hc : 0 < Real.cos l.lat := Real.cos_pos_of_mem_Ioo ⟨k1, k2⟩
  rw [← hlat] at h1 h2
  have hcos : Real.cos l.lon = Real.cos l'.lon := mul_left_cancel₀ hc.ne' h1
  have hsin : Real.sin l.lon = Real.sin l'.lon := mul_left_cancel₀ hc.ne' h2
  have e1 := Complex.arg_cos_add_sin_mul_I (θ := l.lon) ⟨hl.1, hl.2.1⟩
  have e2 := Complex.arg_cos_add_sin_mul_I (θ := l'.lon) ⟨hl'.1, hl'.2.1⟩
  rw [← e1, ← e2, ← Complex.ofReal_cos, ← Complex.ofReal_sin, ← Complex.ofReal_cos, ← Complex.ofReal_sin, hcos, hsin]

/-- **C160** A place has one latitude and elevation, and away from the poles one longitude: two geodetic coordinates in the standard ranges, above the centers of curvature
(b ^ 2 / a below the ellipsoid, 6336 km for WGS-84), that are converted to the same geocentric coordinate are the same. -/
theorem geodetic_unique (hb : 0 < b) (hab : b ≤ a) (l l' : Lle) (hl : Standard l) (hl' : Standard l') (hh : -(b ^ 2 / a) < l.h) (hh' : -(b ^ 2 / a) ≤ l'.h)
    (h : position a b l = position a b l') : l.lat = l'.lat ∧ l.h = l'.h ∧ (-(Real.pi / 2) < l.lat → l.lat < Real.pi / 2 → l.lon = l'.lon) := by
  rw [position_eq hb hab, position_eq hb hab] at h
  obtain ⟨h1, h2⟩ := foot_unique hb hab (normal_unit _ _) (normal_unit _ _) hh hh' h
  obtain ⟨h3, h4⟩ := normal_inj hl hl' h1
  exact ⟨h3, h2, h4⟩

/-! ## Existence -/

/-- How far the tangent line with normal direction `φ` is from the point `(ρ, z)` of a meridian plane. -/
noncomputable def gap (a b ρ z φ : ℝ) : ℝ := ρ * Real.cos φ + z * Real.sin φ - √(a ^ 2 * Real.cos φ ^ 2 + b ^ 2 * Real.sin φ ^ 2)

theorem inner_pos (hb : 0 < b) (hab : b ≤ a) (φ : ℝ) : 0 < a ^ 2 * Real.cos φ ^ 2 + b ^ 2 * Real.sin φ ^ 2 := by
  have h := Real.sin_sq_add_cos_sq φ
  have : b ^ 2 ≤ a ^ 2 := by nlinarith
  nlinarith [mul_nonneg (sub_nonneg.2 this) (sq_nonneg (Real.cos φ)), pow_pos hb 2]

theorem gap_hasDerivAt (hb : 0 < b) (hab : b ≤ a) (ρ z φ : ℝ) :
    HasDerivAt (gap a b ρ z) (-ρ * Real.sin φ + z * Real.cos φ + (a ^ 2 - b ^ 2) * Real.sin φ * Real.cos φ / √(a ^ 2 * Real.cos φ ^ 2 + b ^ 2 * Real.sin φ ^ 2)) φ := by
  have hp := inner_pos hb hab φ
  have hs : 0 < √(a ^ 2 * Real.cos φ ^ 2 + b ^ 2 * Real.sin φ ^ 2) := Real.sqrt_pos.2 hp
  have d1 := ((Real.hasDerivAt_cos φ).pow 2).const_mul (a ^ 2)
  have d2 := ((Real.hasDerivAt_sin φ).pow 2).const_mul (b ^ 2)
  have d3 := (d1.add d2).sqrt hp.ne'
  have d4 := (((Real.hasDerivAt_cos φ).const_mul ρ).add ((Real.hasDerivAt_sin φ).const_mul z)).sub d3
  refine d4.congr_deriv ?_
  simp only [Pi.add_apply, Pi.pow_apply]
  field_simp
  ring

theorem gap_max (hb : 0 < b) (hab : b ≤ a) (ρ z : ℝ) (hρ : 0 ≤ ρ) :
    ∃ φ, -(Real.pi / 2) ≤ φ ∧ φ ≤ Real.pi / 2 ∧ ∀ ψ, gap a b ρ z ψ ≤ gap a b ρ z φ := by
  have hcont : Continuous (gap a b ρ z) := continuous_iff_continuousAt.2 (fun φ => (gap_hasDerivAt hb hab ρ z φ).continuousAt)
  obtain ⟨φ, -, hφ⟩ := isCompact_Icc.exists_isMaxOn (s := Set.Icc (-Real.pi) Real.pi) ⟨0, by constructor <;> linarith [Real.pi_pos]⟩ hcont.continuousOn
  have glob : ∀ ψ, gap a b ρ z ψ ≤ gap a b ρ z φ := by
    intro ψ
    have hz : Complex.arg (Complex.cos ψ + Complex.sin ψ * Complex.I) ∈ Set.Ioc (-Real.pi) Real.pi := Complex.arg_mem_Ioc _
    set θ := Complex.arg (Complex.cos ψ + Complex.sin ψ * Complex.I) with hθ
    have hn : ‖Complex.cos (ψ : ℂ) + Complex.sin ψ * Complex.I‖ = 1 := Complex.norm_cos_add_sin_mul_I ψ
    have c1 := Complex.norm_mul_cos_arg (Complex.cos ψ + Complex.sin ψ * Complex.I)
    have c2 := Complex.norm_mul_sin_arg (Complex.cos ψ + Complex.sin ψ * Complex.I)
    rw [hn, one_mul, ← hθ, ← Complex.ofReal_cos, ← Complex.ofReal_sin] at c1 c2
    simp only [Complex.add_re, Complex.add_im, Complex.ofReal_re, Complex.ofReal_im, Complex.mul_re, Complex.mul_im, Complex.I_re, Complex.I_im, mul_zero, mul_one, zero_add, add_zero, sub_self] at c1 c2
    have : gap a b ρ z ψ = gap a b ρ z θ := by simp only [gap, c1, c2]
    rw [this]
    exact hφ ⟨hz.1.le, hz.2⟩
  -- a maximum with a cosine that is not negative
  obtain ⟨φ', hc, glob'⟩ : ∃ φ', 0 ≤ Real.cos φ' ∧ ∀ ψ, gap a b ρ z ψ ≤ gap a b ρ z φ' := by
    by_cases hc : 0 ≤ Real.cos φ
    · exact ⟨φ, hc, glob⟩
    · refine ⟨Real.pi - φ, by rw [Real.cos_pi_sub]; linarith, fun ψ => (glob ψ).trans ?_⟩
      simp only [gap, Real.cos_pi_sub, Real.sin_pi_sub, neg_sq]
      nlinarith
  refine ⟨Real.arcsin (Real.sin φ'), Real.neg_pi_div_two_le_arcsin _, Real.arcsin_le_pi_div_two _, fun ψ => (glob' ψ).trans (le_of_eq ?_)⟩
  have e1 : Real.sin (Real.arcsin (Real.sin φ')) = Real.sin φ' := Real.sin_arcsin (Real.neg_one_le_sin _) (Real.sin_le_one _)
  have e2 : Real.cos (Real.arcsin (Real.sin φ')) = Real.cos φ' := by
    rw [Real.cos_arcsin, ← Real.cos_sq', Real.sqrt_sq hc]
  simp only [gap, e1, e2]

/-- **C160** Every place has a geodetic coordinate in the standard ranges, with an elevation of at least its distance from the center minus the equatorial radius. -/
theorem geodetic_exists (hb : 0 < b) (hab : b ≤ a) (p : V3) : ∃ l, Standard l ∧ position a b l = p ∧ V3.norm p - a ≤ l.h := by
  have ha : 0 < a := hb.trans_le hab
  set ρ := ‖(⟨p.x, p.y⟩ : ℂ)‖ with hρ
  obtain ⟨φ, hφ1, hφ2, hmax⟩ := gap_max hb hab ρ p.z (norm_nonneg _)
  have hd : IsLocalMax (gap a b ρ p.z) φ := Filter.Eventually.of_forall hmax
  have hz := hd.hasDerivAt_eq_zero (gap_hasDerivAt hb hab ρ p.z φ)
  have hp := inner_pos hb hab φ
  set s := √(a ^ 2 * Real.cos φ ^ 2 + b ^ 2 * Real.sin φ ^ 2) with hs
  have hs0 : 0 < s := Real.sqrt_pos.2 hp
  have hs2 : s ^ 2 = a ^ 2 * Real.cos φ ^ 2 + b ^ 2 * Real.sin φ ^ 2 := Real.sq_sqrt hp.le
  have hN : primeVertical a b φ = a ^ 2 / s := by
    have h1 : 1 - (1 - b ^ 2 / a ^ 2) * Real.sin φ ^ 2 = s ^ 2 / a ^ 2 := by
      rw [hs2, eq_div_iff (by positivity)]
      have := Real.sin_sq_add_cos_sq φ
      field_simp
      linear_combination a ^ 2 * (-this)
    rw [primeVertical, h1, Real.sqrt_div (sq_nonneg s), Real.sqrt_sq hs0.le, Real.sqrt_sq ha.le]
    field_simp
  have hsc := Real.sin_sq_add_cos_sq φ
  set c := Real.cos φ
  set t := Real.sin φ
  set h := ρ * c + p.z * t - s with hh
  have hz' : (-ρ * t + p.z * c) * s + (a ^ 2 - b ^ 2) * t * c = 0 := by
    have := congrArg (· * s) hz
    simp only [zero_mul] at this
    rw [← this]
    field_simp
  have hr : (a ^ 2 / s + h) * c = ρ := by
    have : (a ^ 2 + h * s) * c = ρ * s := by
      rw [hh]
      linear_combination t * hz' - c * hs2 + (ρ * s - a ^ 2 * c) * hsc
    field_simp
    linarith
  have hzz : (a ^ 2 / s * (b ^ 2 / a ^ 2) + h) * t = p.z := by
    have : (b ^ 2 + h * s) * t = p.z * s := by
      rw [hh]
      linear_combination (-c) * hz' - t * hs2 + (p.z * s - b ^ 2 * t) * hsc
    field_simp
    linarith
  have hc1 := Complex.norm_mul_cos_arg ⟨p.x, p.y⟩
  have hc2 := Complex.norm_mul_sin_arg ⟨p.x, p.y⟩
  rw [← hρ] at hc1 hc2
  refine ⟨⟨Complex.arg ⟨p.x, p.y⟩, φ, h⟩, ⟨Complex.neg_pi_lt_arg _, Complex.arg_le_pi _, hφ1, hφ2⟩, ?_, ?_⟩
  · simp only [position, hN]
    ext
    · simp only
      rw [show Real.cos φ = c from rfl, hr, hc1]
    · simp only
      rw [show Real.cos φ = c from rfl, hr, hc2]
    · exact hzz
  · -- the direction of the point itself
    simp only
    have hψ := hmax (Complex.arg ⟨ρ, p.z⟩)
    have e1 := Complex.norm_mul_cos_arg ⟨ρ, p.z⟩
    have e2 := Complex.norm_mul_sin_arg ⟨ρ, p.z⟩
    have hn : ‖(⟨ρ, p.z⟩ : ℂ)‖ = V3.norm p := by
      rw [Complex.norm_def, Complex.normSq_mk, V3.norm]
      congr 1
      have : ρ * ρ = p.x * p.x + p.y * p.y := by
        rw [hρ, Complex.norm_mul_self_eq_normSq, Complex.normSq_mk]
      rw [this]
      rfl
    rw [hn] at e1 e2
    simp only at e1 e2
    set ψ := Complex.arg ⟨ρ, p.z⟩
    have hsq := Real.sin_sq_add_cos_sq ψ
    have hbound : √(a ^ 2 * Real.cos ψ ^ 2 + b ^ 2 * Real.sin ψ ^ 2) ≤ a := by
      rw [Real.sqrt_le_left ha.le]
      have : b ^ 2 ≤ a ^ 2 := by nlinarith
      nlinarith [mul_nonneg (sub_nonneg.2 this) (sq_nonneg (Real.sin ψ))]
    have hg : gap a b ρ p.z ψ = V3.norm p - √(a ^ 2 * Real.cos ψ ^ 2 + b ^ 2 * Real.sin ψ ^ 2) := by
      rw [gap, ← e1, ← e2]
      linear_combination V3.norm p * hsq
    rw [hg] at hψ
    have : gap a b ρ p.z φ = h := rfl
    rw [this] at hψ
    linarith

/-! ## Elevations -/

/-- **C160** The elevation is the distance from the ellipsoid, negative inside: no point of the ellipsoid is nearer than that, and one is as near. -/
theorem elevation_is_distance (hb : 0 < b) (hab : b ≤ a) (l : Lle) (hh : -(b ^ 2 / a) ≤ l.h) :
    (∀ m : Lle, m.h = 0 → |l.h| ≤ V3.norm (sub (position a b l) (position a b m))) ∧
    V3.norm (sub (position a b l) (position a b ⟨l.lon, l.lat, 0⟩)) = |l.h| := by
  have ha : 0 < a := hb.trans_le hab
  have hu := normal_unit l.lon l.lat
  constructor
  · intro m hm
    have hv := normal_unit m.lon m.lat
    rw [position_eq hb hab, position_eq hb hab, hm]
    set u := normalAt l.lon l.lat
    set v := normalAt m.lon m.lat
    have su := dot_surface_self ha hb hab hu
    have sv := dot_surface_self ha hb hab hv
    have hc := dot_le_one hu hv
    have h0 : 0 < b ^ 2 / a := by positivity
    set d := sub (add (surface a b u) (smul l.h u)) (add (surface a b v) (smul 0 v)) with hd
    rcases le_or_gt 0 l.h with hl | hl
    · have g := support_gap hb hab hv hu
      rw [dot_comm v u] at g
      have h1 := dot_le u d
      rw [norm_eq_of zero_le_one (by rw [hu]; norm_num), one_mul, hd, dot_sub_right, dot_add_right, dot_add_right, dot_smul_right, dot_smul_right, hu, su] at h1
      rw [abs_of_nonneg hl]
      nlinarith [mul_nonneg h0.le (sub_nonneg.2 hc)]
    · have g := support_gap hb hab hu hv
      have h1 := dot_le (smul (-1) v) d
      have hn : V3.norm (smul (-1) v) = 1 := norm_eq_of zero_le_one (by rw [dot_smul_left, dot_smul_right, hv]; norm_num)
      rw [hn, one_mul, hd, dot_smul_left, dot_sub_right, dot_add_right, dot_add_right, dot_smul_right, dot_smul_right, hv, sv, dot_comm v u] at h1
      rw [abs_of_neg hl]
      nlinarith [mul_nonneg (show 0 ≤ b ^ 2 / a + l.h by linarith) (sub_nonneg.2 hc)]
  · rw [position_eq hb hab, position_eq hb hab]
    simp only
    apply norm_eq_of (abs_nonneg _)
    have : sub (add (surface a b (normalAt l.lon l.lat)) (smul l.h (normalAt l.lon l.lat))) (add (surface a b (normalAt l.lon l.lat)) (smul 0 (normalAt l.lon l.lat)))
        = smul l.h (normalAt l.lon l.lat) := by
      ext <;> simp only [sub, add, smul] <;> ring
    rw [this, dot_smul_left, dot_smul_right, hu, sq_abs]
    ring

/-! ## The conversions of the code -/

/-- **C160** Whatever pyproj does to find geodetic coordinates, as long as they are coordinates of the place in the standard ranges and not below the centers of curvature: converting a
geodetic coordinate and back gives it back (its longitude only away from the poles), down to half the polar radius below the ellipsoid. -/
theorem geodetic_round_trip {G : Geo} (hG : Geodetic G a b) (hS : ∀ p, Standard (G.toLle p)) (l : Lle) (hl : Standard l) (hh : -(b / 2) ≤ l.h) :
    (G.toLle (G.toEcf l)).lat = l.lat ∧ (G.toLle (G.toEcf l)).h = l.h ∧ (-(Real.pi / 2) < l.lat → l.lat < Real.pi / 2 → G.toLle (G.toEcf l) = l) := by
  have ha : 0 < a := hG.pos.trans_le hG.le
  have hk : b / 2 < b ^ 2 / a := by
    rw [div_lt_div_iff₀ (by norm_num) ha]
    nlinarith [hG.flat, hG.pos]
  have hfar : b / 2 ≤ V3.norm (G.toEcf l) := by
    rw [hG.ecf]
    refine hG.plane_far (lon := l.lon) (lat := l.lat) hh ?_
    rw [OnPlane, along_eq, dot_sub_right]
    ring
  have h := hG.inv (G.toEcf l)
  obtain ⟨h1, h2, h3⟩ := geodetic_unique hG.pos hG.le l (G.toLle (G.toEcf l)) hl (hS _) (by linarith) (hG.high _ hfar) (by rw [← hG.ecf l, ← hG.ecf, h])
  refine ⟨h1.symm, h2.symm, fun k1 k2 => ?_⟩
  cases hx : G.toLle (G.toEcf l)
  cases l
  rw [hx] at h1 h2 h3
  simp only at h1 h2 h3 k1 k2
  simp [h1, h2, h3 k1 k2]

/-- **C160** Such conversions exist for every ellipsoid with an equatorial radius of up to 5/4 of the polar one, in particular for WGS-84. -/
theorem conversions_exist (hb : 0 < b) (hab : b ≤ a) (hflat : a ≤ 5 / 4 * b) : ∃ G : Geo, Geodetic G a b ∧ ∀ p, Standard (G.toLle p) := by
  choose f hf using fun p => geodetic_exists hb hab p
  have ha : 0 < a := hb.trans_le hab
  refine ⟨⟨f, position a b⟩, ⟨hb, hab, by linarith, fun _ => rfl, fun p => (hf p).2.1, fun p hp => ?_⟩, fun p => (hf p).1⟩
  have h := (hf p).2.2
  have : -(b ^ 2 / a) ≤ b / 2 - a := by
    rw [neg_le_iff_add_nonneg, ← sub_nonneg]
    have : b / 2 - a + b ^ 2 / a - 0 = (a * b / 2 - a ^ 2 + b ^ 2) / a := by field_simp; ring
    rw [this]
    apply div_nonneg _ ha.le
    nlinarith
  simp only
  linarith

/-- **C160** The constant height projection has the requested height with such conversions, so C57 does not need an assumption about pyproj beyond those. -/
theorem hae_height_on_ellipsoid {G : Geo} (hG : Geodetic G a b) (hS : ∀ p, Standard (G.toLle p)) (scp : V3) (right : Bool) (hae dhMax : ℝ) (nlim : Nat) (k : Contour) (p : V3) (n : Nat)
    (hh : -(b / 2) ≤ hae) (h : haeToGround G scp right hae dhMax nlim k = .ok (some (p, n))) : (G.toLle p).h = hae ∧ 1 ≤ n ∧ n ≤ max 1 nlim :=
  SicdSurface.hae_height_exact G scp right hae dhMax nlim k p n (fun q => (geodetic_round_trip hG hS { G.toLle q with h := hae } (hS q) hh).2.1) h

/-- The theorems apply to WGS-84: a place in Bavaria. -/
example : ∃ G : Geo, Geodetic G 6378137 6356752.3142 ∧ G.toLle (G.toEcf ⟨1 / 5, 21 / 25, 500⟩) = ⟨1 / 5, 21 / 25, 500⟩ := by
  obtain ⟨G, hG, hS⟩ := conversions_exist (a := 6378137) (b := 6356752.3142) (by norm_num) (by norm_num) (by norm_num)
  have hpi := Real.two_le_pi
  exact ⟨G, hG, (geodetic_round_trip hG hS ⟨1 / 5, 21 / 25, 500⟩ ⟨by simp only; linarith, by simp only; linarith, by simp only; linarith, by simp only; linarith⟩ (by norm_num)).2.2
    (by simp only; linarith) (by simp only; linarith)⟩

/-- And the elevation there is the distance to the ellipsoid. -/
example := elevation_is_distance (a := 6378137) (b := 6356752.3142) (by norm_num) (by norm_num) ⟨1 / 5, 21 / 25, 500⟩ (by norm_num)

example : (⟨1 / 5, 21 / 25, 500⟩ : Lle).lat = (⟨1 / 5, 21 / 25, 500⟩ : Lle).lat ∧ (500 : ℝ) = 500 :=
  have hpi := Real.two_le_pi
  have hs : Standard ⟨1 / 5, 21 / 25, 500⟩ := ⟨by simp only; linarith, by simp only; linarith, by simp only; linarith, by simp only; linarith⟩
  let r := geodetic_unique (a := 6378137) (b := 6356752.3142) (by norm_num) (by norm_num) _ _ hs hs (by norm_num) (by norm_num) rfl
  ⟨r.1, r.2.1⟩

end Verif.Props.Geodesy
