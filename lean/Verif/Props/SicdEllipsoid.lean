import Verif.Spec.Ellipsoid
import Mathlib.Analysis.SpecialFunctions.Complex.Arg
import Mathlib.Analysis.SpecialFunctions.Trigonometric.Inverse
import Verif.Props.SicdSurface
import Verif.Props.SicdRoundTrip

/-!
# Ground planes and surfaces of constant height on the ellipsoid

The conversions between geocentric and geodetic coordinates are those of an ellipsoid of revolution here.
-/

namespace Verif.Props.SicdEllipsoid

open Verif.Sicd Verif.Sicd.V3 Verif.Spec.Sicd Verif.Spec.Ellipsoid Verif.Props.Sicd Verif.Props.SicdRoundTrip

/-! ## Support function -/

/-- The matrix of the ellipsoid applied to a direction. -/
noncomputable def stretch (a b : ℝ) (u : V3) : V3 := ⟨a ^ 2 * u.x, a ^ 2 * u.y, b ^ 2 * u.z⟩

/-- The distance of the tangent plane with normal `u` from the center. -/
noncomputable def support (a b : ℝ) (u : V3) : ℝ := √(dot u (stretch a b u))

/-- The point of the ellipsoid with normal `u`. -/
noncomputable def surface (a b : ℝ) (u : V3) : V3 := smul (1 / support a b u) (stretch a b u)

theorem normal_unit (lon lat : ℝ) : dot (normalAt lon lat) (normalAt lon lat) = 1 := by
  simp only [normalAt, dot]
  nlinarith [Real.sin_sq_add_cos_sq lon, Real.sin_sq_add_cos_sq lat]

theorem upAt_eq (lon lat : ℝ) : upAt lon lat = normalAt lon lat := rfl

section

variable {a b : ℝ}

theorem support_sq (ha : 0 < a) (hb : 0 < b) (u : V3) : support a b u ^ 2 = dot u (stretch a b u) := by
  rw [support, Real.sq_sqrt]
  simp only [dot, stretch]
  nlinarith [mul_self_nonneg (a * u.x), mul_self_nonneg (a * u.y), mul_self_nonneg (b * u.z)]

theorem support_bounds (hb : 0 < b) (hab : b ≤ a) {u : V3} (hu : dot u u = 1) : b ≤ support a b u ∧ support a b u ≤ a := by
  have ha : 0 < a := hb.trans_le hab
  have hsq := support_sq ha hb u
  have h0 : 0 ≤ support a b u := Real.sqrt_nonneg _
  have hba : b ^ 2 ≤ a ^ 2 := by nlinarith
  simp only [dot, stretch] at hsq hu
  constructor
  · nlinarith [mul_nonneg (sub_nonneg.2 hba) (mul_self_nonneg u.x), mul_nonneg (sub_nonneg.2 hba) (mul_self_nonneg u.y)]
  · nlinarith [mul_nonneg (sub_nonneg.2 hba) (mul_self_nonneg u.z)]

theorem dot_surface_self (ha : 0 < a) (hb : 0 < b) (hab : b ≤ a) {u : V3} (hu : dot u u = 1) : dot u (surface a b u) = support a b u := by
  have hp := (support_bounds hb hab hu).1
  rw [surface, dot_smul_right, ← support_sq ha hb]
  have : support a b u ≠ 0 := by linarith
  field_simp

/-- The tangent planes of the ellipsoid stay away from each other's points as those of a ball of radius `b ^ 2 / a` do. -/
theorem support_gap (hb : 0 < b) (hab : b ≤ a) {u v : V3} (hu : dot u u = 1) (hv : dot v v = 1) :
    b ^ 2 / a * (1 - dot u v) ≤ support a b v - dot v (surface a b u) := by
  have ha : 0 < a := hb.trans_le hab
  obtain ⟨hpb, hpa⟩ := support_bounds hb hab hu
  obtain ⟨hqb, hqa⟩ := support_bounds hb hab hv
  have hpp := support_sq ha hb u
  have hqq := support_sq ha hb v
  set p := support a b u
  set q := support a b v
  set B := dot v (stretch a b u) with hB
  have hc : dot u v ≤ 1 := by
    have := dot_le u v
    rwa [norm_eq_of zero_le_one (by rw [hu]; norm_num), norm_eq_of zero_le_one (by rw [hv]; norm_num), one_mul] at this
  -- the square of the stretched difference
  have hx : b ^ 2 * dot (sub (smul q u) (smul p v)) (sub (smul q u) (smul p v)) ≤ dot (sub (smul q u) (smul p v)) (stretch a b (sub (smul q u) (smul p v))) := by
    have hba : b ^ 2 ≤ a ^ 2 := by nlinarith
    generalize sub (smul q u) (smul p v) = w
    simp only [dot, stretch]
    nlinarith [mul_nonneg (sub_nonneg.2 hba) (mul_self_nonneg w.x), mul_nonneg (sub_nonneg.2 hba) (mul_self_nonneg w.y)]
  have e1 : dot (sub (smul q u) (smul p v)) (sub (smul q u) (smul p v)) = q ^ 2 + p ^ 2 - 2 * p * q * dot u v := by
    simp only [dot_sub_left, dot_sub_right, dot_smul_left, dot_smul_right, hu, hv]
    rw [dot_comm v u]; ring
  have e2 : dot (sub (smul q u) (smul p v)) (stretch a b (sub (smul q u) (smul p v))) = q ^ 2 * dot u (stretch a b u) + p ^ 2 * dot v (stretch a b v) - 2 * p * q * B := by
    rw [hB]; simp only [dot, stretch, sub, smul]; ring
  rw [e1, e2, ← hpp, ← hqq] at hx
  have hpq : 0 < p * q := mul_pos (by linarith) (by linarith)
  have hmain : b ^ 2 * (1 - dot u v) ≤ p * q - B := by
    have h1 : b ^ 2 * (2 * (p * q) * (1 - dot u v)) ≤ 2 * (p * q) * (p * q - B) := by
      have : b ^ 2 * (2 * (p * q) * (1 - dot u v)) ≤ b ^ 2 * (q ^ 2 + p ^ 2 - 2 * p * q * dot u v) := by
        apply mul_le_mul_of_nonneg_left _ (sq_nonneg b)
        nlinarith [sq_nonneg (p - q)]
      nlinarith
    have h2 : 2 * (p * q) * (b ^ 2 * (1 - dot u v)) ≤ 2 * (p * q) * (p * q - B) := by linarith
    exact le_of_mul_le_mul_left h2 (by linarith)
  have hp0 : 0 < p := by linarith
  have e3 : q - dot v (surface a b u) = (p * q - B) / p := by
    rw [surface, dot_smul_right, ← hB]
    show q - 1 / p * B = _
    field_simp
  rw [e3, div_mul_eq_mul_div, div_le_div_iff₀ ha hp0]
  have h0 : 0 ≤ b ^ 2 * (1 - dot u v) := mul_nonneg (sq_nonneg b) (by linarith)
  nlinarith

theorem position_eq (hb : 0 < b) (hab : b ≤ a) (l : Lle) : position a b l = add (surface a b (normalAt l.lon l.lat)) (smul l.h (normalAt l.lon l.lat)) := by
  have ha : 0 < a := hb.trans_le hab
  have hu := normal_unit l.lon l.lat
  have hp := (support_bounds hb hab hu).1
  have hp0 : 0 < support a b (normalAt l.lon l.lat) := by linarith
  have hN : primeVertical a b l.lat = a ^ 2 / support a b (normalAt l.lon l.lat) := by
    have hs : support a b (normalAt l.lon l.lat) = a * √(1 - (1 - b ^ 2 / a ^ 2) * Real.sin l.lat ^ 2) := by
      rw [support]
      rw [← Real.sqrt_sq ha.le, ← Real.sqrt_mul (sq_nonneg a)]
      congr 1
      rw [Real.sqrt_sq ha.le]
      simp only [normalAt, dot, stretch]
      field_simp
      have h1 := Real.sin_sq_add_cos_sq l.lon
      have h2 := Real.sin_sq_add_cos_sq l.lat
      have h3 : Real.cos l.lat ^ 2 = 1 - Real.sin l.lat ^ 2 := by linarith
      have h4 : Real.cos l.lon ^ 2 = 1 - Real.sin l.lon ^ 2 := by linarith
      linear_combination (a ^ 2) * h3 + (a ^ 2 * Real.cos l.lat ^ 2) * h4
    have hs0 : 0 < √(1 - (1 - b ^ 2 / a ^ 2) * Real.sin l.lat ^ 2) := by
      rw [hs] at hp0
      exact (pos_iff_pos_of_mul_pos hp0).1 ha
    rw [primeVertical, hs]
    field_simp
  ext
  · simp only [position, hN, add, surface, smul, stretch, normalAt]; field_simp
  · simp only [position, hN, add, surface, smul, stretch, normalAt]; field_simp
  · simp only [position, hN, add, surface, smul, stretch, normalAt]; field_simp

/-- A point of a plane that touches the surface of height `hae` is not below that surface, and above it by no more than over a ball. -/
theorem tangent_height (hb : 0 < b) (hab : b ≤ a) {u v : V3} (hu : dot u u = 1) (hv : dot v v = 1) {x : V3} {h hae : ℝ}
    (hx : x = add (surface a b v) (smul h v)) (hh : -(b ^ 2 / a) ≤ h) (ht : dot u (sub x (add (surface a b u) (smul hae u))) = 0) :
    hae ≤ h ∧ h - hae ≤ √((b ^ 2 / a + hae) ^ 2 + dot (sub x (add (surface a b u) (smul hae u))) (sub x (add (surface a b u) (smul hae u)))) - (b ^ 2 / a + hae) := by
  have ha : 0 < a := hb.trans_le hab
  have hc : dot u v ≤ 1 := by
    have := dot_le u v
    rwa [norm_eq_of zero_le_one (by rw [hu]; norm_num), norm_eq_of zero_le_one (by rw [hv]; norm_num), one_mul] at this
  have su := dot_surface_self ha hb hab hu
  have sv := dot_surface_self ha hb hab hv
  constructor
  · have g := support_gap hb hab hv hu
    rw [dot_sub_right, dot_add_right, dot_smul_right, hu, su, hx, dot_add_right, dot_smul_right] at ht
    rw [dot_comm v u] at g
    nlinarith
  · have g := support_gap hb hab hu hv
    set d := sub x (add (surface a b u) (smul hae u)) with hd
    have e1 : x = add (add (surface a b u) (smul (-(b ^ 2 / a)) u)) (add d (smul (b ^ 2 / a + hae) u)) := by
      rw [hd]; ext <;> simp only [add, sub, smul] <;> ring
    have e2 : dot v x = support a b v + h := by rw [hx, dot_add_right, dot_smul_right, hv, sv]; ring
    rw [e1, dot_add_right, dot_add_right, dot_smul_right] at e2
    have hle : dot v (add d (smul (b ^ 2 / a + hae) u)) ≤ √((b ^ 2 / a + hae) ^ 2 + dot d d) := by
      have h1 := dot_le v (add d (smul (b ^ 2 / a + hae) u))
      rw [norm_eq_of zero_le_one (by rw [hv]; norm_num), one_mul] at h1
      refine h1.trans (le_of_eq ?_)
      rw [V3.norm]
      congr 1
      rw [dot_add_left, dot_add_right, dot_add_right, dot_smul_left, dot_smul_right, dot_smul_left, dot_smul_right, hu, ht, dot_comm d u, ht]
      ring
    rw [dot_comm v u] at e2
    linarith

theorem sqrt_gap {ρ t : ℝ} (hρ : 0 < ρ) : √(ρ ^ 2 + t ^ 2) - ρ ≤ t ^ 2 / (2 * ρ) := by
  have h : √(ρ ^ 2 + t ^ 2) ≤ ρ + t ^ 2 / (2 * ρ) := by
    rw [Real.sqrt_le_iff]
    constructor
    · positivity
    · have : (ρ + t ^ 2 / (2 * ρ)) ^ 2 = ρ ^ 2 + t ^ 2 + (t ^ 2 / (2 * ρ)) ^ 2 := by field_simp; ring
      rw [this]
      nlinarith [sq_nonneg (t ^ 2 / (2 * ρ))]
  linarith

end

/-! ## Conversions of an ellipsoid -/

/-- What pyproj does for an ellipsoid with these semi-axes: the textbook formula, a geodetic coordinate for every point, and none below the centers of curvature for points that are not deep inside.  The
ellipsoid is not flatter than 2 to 1. -/
structure Geodetic (G : Geo) (a b : ℝ) : Prop where
  pos : 0 < b
  le : b ≤ a
  flat : a < 2 * b
  ecf : ∀ l, G.toEcf l = position a b l
  inv : ∀ p, G.toEcf (G.toLle p) = p
  high : ∀ p, b / 2 ≤ norm p → -(b ^ 2 / a) ≤ (G.toLle p).h

section

variable {G : Geo} {a b : ℝ}

theorem Geodetic.eq (hG : Geodetic G a b) (p : V3) :
    p = add (surface a b (normalAt (G.toLle p).lon (G.toLle p).lat)) (smul (G.toLle p).h (normalAt (G.toLle p).lon (G.toLle p).lat)) := by
  rw [← position_eq hG.pos hG.le, ← hG.ecf, hG.inv]

/-- Moving along the normal changes the height only. -/
theorem Geodetic.move (hG : Geodetic G a b) (p : V3) (hae : ℝ) :
    sub p (smul ((G.toLle p).h - hae) (normalAt (G.toLle p).lon (G.toLle p).lat)) = position a b ⟨(G.toLle p).lon, (G.toLle p).lat, hae⟩ := by
  rw [position_eq hG.pos hG.le]
  have h := hG.eq p
  set u := normalAt (G.toLle p).lon (G.toLle p).lat
  rw [V3.ext_iff] at h
  simp only [add, smul] at h
  ext
  · simp only [sub, add, smul]; linarith [h.1]
  · simp only [sub, add, smul]; linarith [h.2.1]
  · simp only [sub, add, smul]; linarith [h.2.2]

theorem Geodetic.plane_far (hG : Geodetic G a b) {lon lat hae : ℝ} (hh : -(b / 2) ≤ hae) {x : V3}
    (hx : OnPlane (position a b ⟨lon, lat, hae⟩) (normalAt lon lat) x) : b / 2 ≤ norm x := by
  have hu := normal_unit lon lat
  have hpb := (support_bounds hG.pos hG.le hu).1
  rw [OnPlane, along_eq, position_eq hG.pos hG.le, dot_sub_right, dot_add_right, dot_smul_right, hu, dot_surface_self (hG.pos.trans_le hG.le) hG.pos hG.le hu] at hx
  have h1 := dot_le (normalAt lon lat) x
  rw [norm_eq_of zero_le_one (by rw [hu]; norm_num), one_mul] at h1
  linarith

/-- Points of a plane that touches the surface of height `hae`: their heights. -/
theorem Geodetic.plane_height (hG : Geodetic G a b) {lon lat hae : ℝ} (hh : -(b / 2) ≤ hae) {x : V3}
    (hx : OnPlane (position a b ⟨lon, lat, hae⟩) (normalAt lon lat) x) :
    hae ≤ (G.toLle x).h ∧ (G.toLle x).h - hae ≤ sqDist x (position a b ⟨lon, lat, hae⟩) / (2 * (b ^ 2 / a + hae)) := by
  have ha := hG.pos.trans_le hG.le
  have hρ : 0 < b ^ 2 / a + hae := by
    have : b / 2 < b ^ 2 / a := by
      rw [div_lt_div_iff₀ (by norm_num) ha]
      nlinarith [hG.flat, hG.pos]
    linarith
  have hhigh := hG.high x (hG.plane_far hh hx)
  have hx' := hx
  rw [OnPlane, along_eq, position_eq hG.pos hG.le] at hx'
  obtain ⟨h1, h2⟩ := tangent_height hG.pos hG.le (normal_unit lon lat) (normal_unit _ _) (hG.eq x) hhigh hx'
  refine ⟨h1, h2.trans ?_⟩
  rw [sqDist_eq, position_eq hG.pos hG.le]
  have hn := norm_mul_self (sub x (add (surface a b (normalAt lon lat)) (smul hae (normalAt lon lat))))
  simp only
  rw [← hn, ← pow_two]
  exact sqrt_gap hρ

/-! ## Planes -/

/-- **C122** The normal of a ground plane is a unit vector, given or not. -/
theorem plane_normal_unit (G : Geo) (ref : V3) (n : Normal) (h : match n with
    | .given v => ¬ (v.x = 0 ∧ v.y = 0 ∧ v.z = 0)
    | .spherical => ¬ (ref.x = 0 ∧ ref.y = 0 ∧ ref.z = 0)
    | .geodetic => True) : Spec.Sicd.IsUnit (Plane.new G ref n).u ∧ (Plane.new G ref n).ref = ref := by
  rw [isUnit_iff]
  cases n with
  | given v => exact ⟨dot_unit (by rw [ne_eq, dot_self_eq_zero, V3.ext_iff]; exact h), rfl⟩
  | spherical => exact ⟨dot_unit (by rw [ne_eq, dot_self_eq_zero, V3.ext_iff]; exact h), rfl⟩
  | geodetic => exact ⟨normal_unit _ _, rfl⟩

example (G : Geo) : Spec.Sicd.IsUnit (Plane.new G ⟨3, 0, 4⟩ .spherical).u := (plane_normal_unit G ⟨3, 0, 4⟩ .spherical (by norm_num)).1

/-- **C122** Without a given normal the ground plane of a sensor model touches the surface of constant height through the scene center from outside: no point of the same or a smaller height is above the plane. -/
theorem default_plane_tangent (hG : Geodetic G a b) (conv : Converter) (coa : Coa) (spn : V3) (lon lat h : ℝ) (hscp : conv.scp = position a b ⟨lon, lat, h⟩)
    (hround : G.toLle (position a b ⟨lon, lat, h⟩) = ⟨lon, lat, h⟩) (l : Lle) (hl : -(b ^ 2 / a) ≤ l.h) (hle : l.h ≤ h) :
    let M := Model.new G conv coa spn none
    OnPlane M.plane.ref M.plane.u conv.scp ∧ Spec.Sicd.IsUnit M.plane.u ∧ along M.plane.u (position a b l) conv.scp ≤ 0 := by
  intro M
  have e1 : M.plane.ref = conv.scp := rfl
  have e2 : M.plane.u = normalAt lon lat := by
    show upAt (G.toLle conv.scp).lon (G.toLle conv.scp).lat = _
    rw [hscp, hround]; rfl
  rw [e1, e2]
  refine ⟨onPlane_self _ _, (isUnit_iff _).2 (normal_unit _ _), ?_⟩
  have hu := normal_unit lon lat
  have hv := normal_unit l.lon l.lat
  have ha := hG.pos.trans_le hG.le
  rw [along_eq, hscp, position_eq hG.pos hG.le, position_eq hG.pos hG.le, dot_sub_right, dot_add_right, dot_add_right, dot_smul_right, dot_smul_right, hu,
    dot_surface_self ha hG.pos hG.le hu]
  have g := support_gap hG.pos hG.le hv hu
  have hc : dot (normalAt lon lat) (normalAt l.lon l.lat) ≤ 1 := by
    have := dot_le (normalAt lon lat) (normalAt l.lon l.lat)
    rwa [norm_eq_of zero_le_one (by rw [hu]; norm_num), norm_eq_of zero_le_one (by rw [hv]; norm_num), one_mul] at this
  rw [dot_comm (normalAt l.lon l.lat)] at g
  simp only
  nlinarith

/-! ## Constant height -/

theorem haeLoop_tangent (hG : Geodetic G a b) (hae dhMax : ℝ) (hh : -(b / 2) ≤ hae) (k : Contour) : ∀ (left n : Nat) (lon lat : ℝ) (st : HaeState),
    haeLoop G hae dhMax k left n ⟨position a b ⟨lon, lat, hae⟩, normalAt lon lat⟩ = .ok (some st) →
    ∃ lon0 lat0, (⟨position a b ⟨lon0, lat0, hae⟩, normalAt lon0 lat0⟩ : Plane).toGround k = .ok (some st.p) ∧ st.up = normalAt (G.toLle st.p).lon (G.toLle st.p).lat
      ∧ st.dh = (G.toLle st.p).h - hae ∧ (st.dh ≤ dhMax ∨ st.n = n + left) := by
  have hu : ∀ lon lat, unit (normalAt lon lat) = normalAt lon lat := fun lon lat => unit_of_unit (normal_unit lon lat)
  intro left
  induction left with
  | zero =>
    intro n lon lat st h
    rw [haeLoop] at h
    simp only [bind, Except.bind, pure, Except.pure] at h
    rcases hp : (⟨position a b ⟨lon, lat, hae⟩, normalAt lon lat⟩ : Plane).toGround k with e | o
    · rw [hp] at h; cases h
    · rw [hp] at h
      rcases o with _ | p
      · cases h
      · simp only [Except.ok.injEq, Option.some.injEq] at h
        subst h
        exact ⟨lon, lat, hp, rfl, rfl, .inr rfl⟩
  | succ left ih =>
    intro n lon lat st h
    rw [haeLoop] at h
    simp only [bind, Except.bind, pure, Except.pure] at h
    rcases hp : (⟨position a b ⟨lon, lat, hae⟩, normalAt lon lat⟩ : Plane).toGround k with e | o
    · rw [hp] at h; cases h
    · rw [hp] at h
      rcases o with _ | p
      · cases h
      · simp only at h
        by_cases hc : (G.toLle p).h - hae ≤ dhMax
        · rw [if_pos hc] at h
          simp only [Except.ok.injEq, Option.some.injEq] at h
          subst h
          exact ⟨lon, lat, hp, rfl, rfl, .inl hc⟩
        · rw [if_neg hc] at h
          simp only [Plane.new, upAt_eq] at h
          rw [hG.move, hu] at h
          obtain ⟨lon0, lat0, h1, h2, h3, h4⟩ := ih _ _ _ _ h
          exact ⟨lon0, lat0, h1, h2, h3, h4.imp_right (by omega)⟩

end

theorem norm_sub_le_add (x y z : V3) : norm (sub x z) ≤ norm (sub x y) + norm (sub y z) := by
  have e : sub x z = add (sub x y) (sub y z) := by ext <;> simp only [add, sub] <;> ring
  rw [e]; exact norm_add_le _ _

/-- **C122** The constant height projection on an ellipsoid.  The result has the requested height.  There is a point `g` with exactly the range rate product, and the range unless its plane's reference point is under the track, of the
contour, on a plane that touches the surface of that height, not below the surface, and above it by the threshold at most unless all iterations were used.  From `g` to the result, range and range rate product change by terms of second order in
the height `dh` of `g` above the surface; `c` is the cosine between the vertical at `g` and the slant plane normal. -/
theorem hae_accuracy (G : Geo) (a b : ℝ) (hG : Geodetic G a b) (scp : V3) (right : Bool) (hae dhMax : ℝ) (nlim : Nat) (k : Contour) (q : V3) (n : Nat) (hh : -(b / 2) ≤ hae)
    (h : haeToGround G scp right hae dhMax nlim k = .ok (some (q, n))) :
    (∃ lon lat, q = position a b ⟨lon, lat, hae⟩) ∧
    ∃ g lon0 lat0, OnPlane (position a b ⟨lon0, lat0, hae⟩) (normalAt lon0 lat0) g ∧ along k.V k.P g = k.r * k.rdot
      ∧ (side k.P k.V (normalAt lon0 lat0) (position a b ⟨lon0, lat0, hae⟩) ≠ 0 → Seen k.P k.V k.r k.rdot g)
      ∧ 0 ≤ (G.toLle g).h - hae ∧ ((G.toLle g).h - hae ≤ dhMax ∨ n = max 1 nlim)
      ∧ (Independent k.V (sub g k.P) → ∃ s, Spec.Sicd.IsUnit s ∧ Perp s k.V ∧ along s g k.P = 0 ∧
          ∀ c dh, c = dot (normalAt (G.toLle g).lon (G.toLle g).lat) s → c ≠ 0 → dh = (G.toLle g).h - hae →
            |√(sqDist k.P q) - √(sqDist k.P g)| ≤ (dh / c) ^ 2 / (2 * √(sqDist k.P g)) + dh ^ 2 * (1 / c ^ 2 - 1) / (2 * (b ^ 2 / a + hae))
            ∧ |along k.V k.P q - along k.V k.P g| ≤ norm k.V * (dh ^ 2 * (1 / c ^ 2 - 1) / (2 * (b ^ 2 / a + hae)))) := by
  have hu : ∀ lon lat, unit (normalAt lon lat) = normalAt lon lat := fun lon lat => unit_of_unit (normal_unit lon lat)
  simp only [haeToGround, bind, Except.bind, pure, Except.pure, Plane.new, upAt_eq] at h
  rw [hu] at h
  have hstart : add scp (smul (hae - (G.toLle scp).h) (normalAt (G.toLle scp).lon (G.toLle scp).lat)) = position a b ⟨(G.toLle scp).lon, (G.toLle scp).lat, hae⟩ := by
    rw [← hG.move]
    ext <;> simp only [add, sub, smul] <;> ring
  rw [hstart] at h
  rcases hl : haeLoop G hae dhMax k (nlim - 1) 1 ⟨position a b ⟨(G.toLle scp).lon, (G.toLle scp).lat, hae⟩, normalAt (G.toLle scp).lon (G.toLle scp).lat⟩ with e | o
  · rw [hl] at h; cases h
  · rw [hl] at h
    rcases o with _ | st
    · cases h
    · simp only [Except.ok.injEq, Option.some.injEq, Prod.mk.injEq] at h
      obtain ⟨hq, hn⟩ := h
      obtain ⟨lon0, lat0, hp, hup, hdh, hlim⟩ := haeLoop_tangent hG hae dhMax hh k _ _ _ _ _ hl
      have hne : ¬ ((normalAt lon0 lat0).x = 0 ∧ (normalAt lon0 lat0).y = 0 ∧ (normalAt lon0 lat0).z = 0) := by
        rintro ⟨h1, h2, h3⟩
        have := normal_unit lon0 lat0
        simp only [dot, h1, h2, h3] at this
        norm_num at this
      obtain ⟨hon, halong, _, hseen⟩ := ground_point_solves_partial ⟨position a b ⟨lon0, lat0, hae⟩, normalAt lon0 lat0⟩ k st.p hne hp
      have hheight := hG.plane_height hh hon
      refine ⟨?_, st.p, lon0, lat0, hon, halong, fun hs => (hseen hs).1, by linarith [hheight.1], ?_, ?_⟩
      · rw [← hq, hG.ecf]
        exact ⟨_, _, rfl⟩
      · rw [← hdh]
        rcases hlim with h1 | h1
        · exact .inl h1
        · exact .inr (by omega)
      · intro hind
        have hcr : dot (cross (smul (if right = true then -1 else 1) k.V) (sub st.p k.P)) (cross (smul (if right = true then -1 else 1) k.V) (sub st.p k.P)) ≠ 0 := by
          have h1 := (independent_iff _ _).1 hind
          rw [dot_cross_self] at h1 ⊢
          have h2 : (if right = true then (-1 : ℝ) else 1) * (if right = true then (-1 : ℝ) else 1) = 1 := by cases right <;> norm_num
          simp only [dot_smul_left, dot_smul_right]
          generalize (if right = true then (-1 : ℝ) else 1) = e at h2
          intro h3
          apply h1
          linear_combination h3 - (dot k.V k.V * dot (sub st.p k.P) (sub st.p k.P) - dot k.V (sub st.p k.P) * dot k.V (sub st.p k.P)) * h2
        have hlook : (if right = true then (-1 : ℝ) else 1) ≠ 0 := by cases right <;> norm_num
        set s := unit (cross (smul (if right = true then -1 else 1) k.V) (sub st.p k.P)) with hs
        have hss : dot s s = 1 := dot_unit hcr
        have hsV : dot s k.V = 0 := by
          have h1 : dot s (smul (if right = true then -1 else 1) k.V) = 0 := by rw [hs, unit, dot_smul_left, dot_cross_left, mul_zero]
          rw [dot_smul_right] at h1
          exact (mul_eq_zero.1 h1).resolve_left hlook
        have hsg : dot s (sub st.p k.P) = 0 := by rw [hs, unit, dot_smul_left, dot_cross_right, mul_zero]
        refine ⟨s, (isUnit_iff _).2 hss, (perp_iff _ _).2 hsV, hsg, ?_⟩
        intro c dh hc hc0 hdh'
        rw [← hdh] at hdh'
        subst hdh'
        -- the point along the slant plane normal
        rw [hup, ← hc] at hq
        set slp := sub st.p (smul (st.dh / c) s) with hslp
        set u := normalAt (G.toLle st.p).lon (G.toLle st.p).lat with hud
        have hfoot := hG.move st.p hae
        rw [← hdh, ← hud] at hfoot
        have huu : dot u u = 1 := normal_unit _ _
        have ed : sub slp (position a b ⟨(G.toLle st.p).lon, (G.toLle st.p).lat, hae⟩) = sub (smul st.dh u) (smul (st.dh / c) s) := by
          rw [← hfoot, hslp]
          ext <;> simp only [sub, smul] <;> ring
        have hon' : OnPlane (position a b ⟨(G.toLle st.p).lon, (G.toLle st.p).lat, hae⟩) u slp := by
          rw [OnPlane, along_eq, ed, dot_sub_right, dot_smul_right, dot_smul_right, huu, ← hc]
          field_simp; ring
        have ht : sqDist slp (position a b ⟨(G.toLle st.p).lon, (G.toLle st.p).lat, hae⟩) = st.dh ^ 2 * (1 / c ^ 2 - 1) := by
          rw [sqDist_eq, ed]
          simp only [dot_sub_left, dot_sub_right, dot_smul_left, dot_smul_right, huu, hss]
          rw [dot_comm s u, ← hc]
          field_simp; ring
        obtain ⟨e1, e2⟩ := hG.plane_height hh hon'
        rw [ht] at e2
        set E := st.dh ^ 2 * (1 / c ^ 2 - 1) / (2 * (b ^ 2 / a + hae))
        -- from there to the surface
        have hqs : q = sub slp (smul ((G.toLle slp).h - hae) (normalAt (G.toLle slp).lon (G.toLle slp).lat)) := by
          rw [hG.move, ← hq, hG.ecf]
        have hdiff : sub slp q = smul ((G.toLle slp).h - hae) (normalAt (G.toLle slp).lon (G.toLle slp).lat) := by
          rw [hqs]; ext <;> simp only [sub, smul] <;> ring
        have hnd : norm (sub slp q) = (G.toLle slp).h - hae := by
          apply norm_eq_of (by linarith)
          rw [hdiff, dot_smul_left, dot_smul_right, normal_unit]; ring
        have hR : ∀ x, √(sqDist k.P x) = norm (sub k.P x) := fun x => by rw [sqDist_eq]; rfl
        rw [hR, hR]
        -- range of the point along the normal
        have hg0 : 0 < norm (sub k.P st.p) := by
          apply norm_pos
          have h1 := ne_zero_of_independent hind
          have h2 : dot (sub k.P st.p) (sub k.P st.p) = dot (sub st.p k.P) (sub st.p k.P) := by simp only [dot, sub]; ring
          rw [h2]; exact h1
        have hrs : norm (sub k.P slp) = √(norm (sub k.P st.p) ^ 2 + (st.dh / c) ^ 2) := by
          rw [V3.norm]
          congr 1
          have h1 : sub k.P slp = add (sub k.P st.p) (smul (st.dh / c) s) := by rw [hslp]; ext <;> simp only [add, sub, smul] <;> ring
          have h2 : dot s (sub k.P st.p) = 0 := by
            have : dot s (sub k.P st.p) = -dot s (sub st.p k.P) := by simp only [dot, sub]; ring
            rw [this, hsg, neg_zero]
          rw [h1, pow_two (norm _), norm_mul_self]
          simp only [dot_add_left, dot_add_right, dot_smul_left, dot_smul_right, hss]
          rw [dot_comm (sub k.P st.p) s, h2]; ring
        have hgap := sqrt_gap (t := st.dh / c) hg0
        rw [← hrs] at hgap
        have hge : norm (sub k.P st.p) ≤ norm (sub k.P slp) := by
          rw [hrs]
          exact Real.le_sqrt_of_sq_le (by nlinarith [sq_nonneg (st.dh / c)])
        have t1 := norm_sub_le_add k.P slp q
        have t2 := norm_sub_le_add k.P q slp
        rw [norm_sub_comm q slp] at t2
        constructor
        · rw [abs_le]
          constructor
          · have : 0 ≤ (st.dh / c) ^ 2 / (2 * norm (sub k.P st.p)) := by positivity
            linarith
          · linarith
        · have h1 : along k.V k.P q - along k.V k.P st.p = dot k.V (sub slp q) + dot k.V (sub st.p slp) := by
            simp only [along_eq, dot_sub_right]; ring
          have h2 : dot k.V (sub st.p slp) = 0 := by
            have : sub st.p slp = smul (st.dh / c) s := by rw [hslp]; ext <;> simp only [sub, smul] <;> ring
            rw [this, dot_smul_right, dot_comm, hsV, mul_zero]
          rw [h1, h2, add_zero]
          have h3 := dot_le k.V (sub slp q)
          have h4 := dot_le (smul (-1) k.V) (sub slp q)
          have h5 : norm (smul (-1) k.V) = norm k.V := by simp only [V3.norm, dot, smul]; congr 1; ring
          rw [dot_smul_left, h5] at h4
          have h6 : norm k.V * norm (sub slp q) ≤ norm k.V * E := mul_le_mul_of_nonneg_left (by rw [hnd]; exact e2) (norm_nonneg _)
          rw [abs_le]
          constructor <;> linarith

/-! ## A sphere -/

/-- Spherical coordinates. -/
noncomputable def sphereGeo (ρ : ℝ) : Geo :=
  ⟨fun p => ⟨Complex.arg ⟨p.x, p.y⟩, Real.arcsin (p.z / norm p), norm p - ρ⟩, fun l => position ρ ρ l⟩

theorem primeVertical_sphere {ρ : ℝ} (h : 0 < ρ) (lat : ℝ) : primeVertical ρ ρ lat = ρ := by
  simp [primeVertical, h.ne']

theorem sphereGeo_geodetic {ρ : ℝ} (h : 0 < ρ) : Geodetic (sphereGeo ρ) ρ ρ := by
  refine ⟨h, le_refl _, by linarith, fun _ => rfl, fun p => ?_, fun p hp => ?_⟩
  · have hnn := norm_nonneg p
    have hn2 := norm_mul_self p
    simp only [dot] at hn2
    have hz : |p.z| ≤ norm p := by
      apply abs_le_of_sq_le_sq _ hnn
      nlinarith [mul_self_nonneg p.x, mul_self_nonneg p.y]
    have hxy : ‖(⟨p.x, p.y⟩ : ℂ)‖ = √(p.x ^ 2 + p.y ^ 2) := by
      rw [Complex.norm_def, Complex.normSq_mk]; congr 1; ring
    have hc := Complex.norm_mul_cos_arg ⟨p.x, p.y⟩
    have hs := Complex.norm_mul_sin_arg ⟨p.x, p.y⟩
    rw [hxy] at hc hs
    simp only at hc hs
    have hw := abs_le.1 hz
    by_cases h0 : norm p = 0
    · rw [h0, mul_zero] at hn2
      have hx : p.x = 0 := by nlinarith [mul_self_nonneg p.x, mul_self_nonneg p.y, mul_self_nonneg p.z]
      have hy : p.y = 0 := by nlinarith [mul_self_nonneg p.x, mul_self_nonneg p.y, mul_self_nonneg p.z]
      have hz0 : p.z = 0 := by nlinarith [mul_self_nonneg p.x, mul_self_nonneg p.y, mul_self_nonneg p.z]
      simp only [sphereGeo, position, primeVertical_sphere h, h0]
      ext <;> simp [hx, hy, hz0, h.ne']
    · have hnp : 0 < norm p := lt_of_le_of_ne hnn (Ne.symm h0)
      have hsin : Real.sin (Real.arcsin (p.z / norm p)) = p.z / norm p := by
        apply Real.sin_arcsin
        · rw [le_div_iff₀ hnp]; linarith
        · rw [div_le_iff₀ hnp]; linarith
      have hcos : norm p * Real.cos (Real.arcsin (p.z / norm p)) = √(p.x ^ 2 + p.y ^ 2) := by
        rw [Real.cos_arcsin]
        have : √(p.x ^ 2 + p.y ^ 2) = √(norm p ^ 2 * (1 - (p.z / norm p) ^ 2)) := by
          congr 1
          field_simp
          nlinarith
        rw [this, Real.sqrt_mul (sq_nonneg _), Real.sqrt_sq hnn]
      simp only [sphereGeo, position, primeVertical_sphere h]
      have e : ρ + (norm p - ρ) = norm p := by ring
      ext
      · simp only; rw [e, hcos, hc]
      · simp only; rw [e, hcos, hs]
      · simp only
        rw [hsin]
        field_simp
        ring
  · have := norm_nonneg p
    have e : ρ ^ 2 / ρ = ρ := by field_simp
    simp only [sphereGeo]
    rw [e]; linarith

/-- The premises are met: a sphere of radius 1, the scene center at (1, 0, 0), a contour that meets the plane there at (1, 1/4, 0), above the sphere. -/
example : ∃ q n, haeToGround (sphereGeo 1) ⟨1, 0, 0⟩ true 0 1 3 ⟨5, 0, ⟨4, -15 / 4, 0⟩, ⟨0, 0, 1⟩⟩ = .ok (some (q, n)) ∧ (∃ lon lat, q = position 1 1 ⟨lon, lat, 0⟩) := by
  have h1 : V3.norm ⟨1, 0, 0⟩ = 1 := norm_eq_of zero_le_one (by norm_num [dot])
  have harg : Complex.arg ⟨1, 0⟩ = 0 := by
    have : (⟨1, 0⟩ : ℂ) = 1 := rfl
    rw [this, Complex.arg_one]
  have hu : unit ⟨1, 0, 0⟩ = ⟨1, 0, 0⟩ := unit_of_unit (by norm_num [dot])
  have hg : (⟨⟨1, 0, 0⟩, ⟨1, 0, 0⟩⟩ : Plane).toGround ⟨5, 0, ⟨4, -15 / 4, 0⟩, ⟨0, 0, 1⟩⟩ = .ok (some ⟨1, 1 / 4, 0⟩) := by
    apply ground_point_found
    · norm_num
    · right; left; norm_num
    · right; right; norm_num [V3.sub]
    · norm_num [OnPlane, along]
    · constructor <;> norm_num [sqDist, along]
    · right; norm_num [side]
  have hn : V3.norm ⟨1, 1 / 4, 0⟩ ≤ 2 := by
    unfold V3.norm
    rw [Real.sqrt_le_iff]
    norm_num [dot]
  have hle : ((sphereGeo 1).toLle ⟨1, 1 / 4, 0⟩).h - 0 ≤ 1 := by simp only [sphereGeo]; linarith
  have h : ∃ q n, haeToGround (sphereGeo 1) ⟨1, 0, 0⟩ true 0 1 3 ⟨5, 0, ⟨4, -15 / 4, 0⟩, ⟨0, 0, 1⟩⟩ = .ok (some (q, n)) := by
    have hs : (sphereGeo 1).toLle ⟨1, 0, 0⟩ = ⟨0, 0, 0⟩ := by simp [sphereGeo, h1, harg]
    simp only [haeToGround, hs, upAt, Plane.new, Real.cos_zero, Real.sin_zero, mul_one, mul_zero, hu, sub_self]
    have e : add ⟨1, 0, 0⟩ (smul 0 ⟨1, 0, 0⟩) = (⟨1, 0, 0⟩ : V3) := by simp [add, smul]
    rw [e, haeLoop]
    simp only [hg, bind, Except.bind, pure, Except.pure]
    simp only [if_pos hle]
    exact ⟨_, _, rfl⟩
  obtain ⟨q, n, h⟩ := h
  exact ⟨q, n, h, (hae_accuracy (sphereGeo 1) 1 1 (sphereGeo_geodetic one_pos) _ _ _ _ _ _ _ _ (by norm_num) h).1⟩

/-- The premises of `default_plane_tangent` are met at longitude and latitude 0 of that sphere. -/
example : (sphereGeo 1).toLle (position 1 1 ⟨0, 0, 2⟩) = ⟨0, 0, 2⟩ := by
  have e : position 1 1 ⟨0, 0, 2⟩ = ⟨3, 0, 0⟩ := by
    simp only [position, primeVertical_sphere one_pos]; ext <;> norm_num
  have h3 : V3.norm ⟨3, 0, 0⟩ = 3 := norm_eq_of (by norm_num) (by norm_num [dot])
  have harg : Complex.arg ⟨3, 0⟩ = 0 := by
    have : (⟨3, 0⟩ : ℂ) = ((3 : ℝ) : ℂ) := rfl
    rw [this, Complex.arg_ofReal_of_nonneg (by norm_num)]
  rw [e]
  simp only [sphereGeo, h3, harg]
  norm_num

end Verif.Props.SicdEllipsoid
