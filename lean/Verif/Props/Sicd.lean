import Verif.Lemmas.Sicd

/-! # Properties of the SICD projections -/

namespace Verif.Props.Sicd

open Verif.Sicd Verif.Sicd.V3 Verif.Spec.Sicd

/-! ## Coordinates -/

/-- **C50** Pixels and grid coordinates invert each other. -/
theorem pixel_grid_inverse (c : Converter) (hr : c.rowSS ≠ 0) (hc : c.colSS ≠ 0) (rc xy : ℝ × ℝ) :
    c.toPixel (c.toGrid rc) = rc ∧ c.toGrid (c.toPixel xy) = xy := by
  constructor <;> ext <;> simp only [Converter.toPixel, Converter.toGrid] <;> field_simp <;> ring

example : (⟨1, 2, ⟨0, 0, 0⟩, ⟨1, 0, 0⟩, ⟨0, 1, 0⟩, 3, 1 / 2, 0, 0⟩ : Converter).toPixel ((⟨1, 2, ⟨0, 0, 0⟩, ⟨1, 0, 0⟩, ⟨0, 1, 0⟩, 3, 1 / 2, 0, 0⟩ : Converter).toGrid (7, 9)) = (7, 9) :=
  (pixel_grid_inverse ⟨1, 2, ⟨0, 0, 0⟩, ⟨1, 0, 0⟩, ⟨0, 1, 0⟩, 3, 1 / 2, 0, 0⟩ (by norm_num) (by norm_num) (7, 9) (0, 0)).1

/-- **C50** Grid coordinates and image plane points invert each other for independent unit vectors; a point off the image plane gets the coordinates of
its foot on the plane. -/
theorem grid_plane_inverse (c : Converter) (hr : Spec.Sicd.IsUnit c.uRow) (hc : Spec.Sicd.IsUnit c.uCol) (hi : Independent c.uRow c.uCol) :
    (∀ xy, c.ofPlane (c.toPlane xy) = xy)
      ∧ (∀ xy, OnPlane c.scp c.uIpn (c.toPlane xy))
      ∧ ∀ p, OnPlane c.scp c.uIpn p → c.toPlane (c.ofPlane p) = p := by
  rw [isUnit_iff] at hr hc
  have hn := (independent_iff _ _).1 hi
  have hz : ∀ d, dot c.uIpn d = 0 ↔ dot (cross c.uRow c.uCol) d = 0 := by
    intro d
    rw [Converter.uIpn, unit, dot_smul_left]
    have := (norm_pos hn).ne'
    constructor
    · intro h
      rcases mul_eq_zero.1 h with h | h
      · exact absurd h (one_div_ne_zero this)
      · exact h
    · intro h; rw [h, mul_zero]
  refine ⟨fun xy => ?_, fun xy => ?_, fun p hp => ?_⟩
  · obtain ⟨h1, h2⟩ := ofPlane_eq hr hc hi (c.toPlane xy)
    rw [h1]
    have e : sub (c.toPlane xy) c.scp = add (smul xy.1 c.uRow) (smul xy.2 c.uCol) := by
      ext <;> simp only [Converter.toPlane, sub, add] <;> ring
    rw [e]
    simp only [dot_add_left, dot_smul_left, hr, hc, dot_comm c.uCol c.uRow]
    ext <;> simp only <;> rw [div_eq_iff h2] <;> ring
  · rw [OnPlane, along_eq, hz]
    have e : sub (c.toPlane xy) c.scp = add (smul xy.1 c.uRow) (smul xy.2 c.uCol) := by
      ext <;> simp only [Converter.toPlane, sub, add] <;> ring
    rw [e, dot_add_right, dot_smul_right, dot_smul_right, dot_cross_left, dot_cross_right]; ring
  · obtain ⟨h1, h2⟩ := ofPlane_eq hr hc hi p
    rw [OnPlane, along_eq, hz, dot_comm] at hp
    have he := expand c.uRow c.uCol (sub p c.scp)
    rw [dot_cross_self, hr, hc, hp, one_mul] at he
    rw [h1]
    simp only [V3.ext_iff, smul, add, one_mul, zero_mul, zero_add] at he
    obtain ⟨ex, ey, ez⟩ := he
    simp only [Converter.toPlane]
    generalize dot (sub p c.scp) c.uRow - dot c.uRow c.uCol * dot (sub p c.scp) c.uCol = A at *
    generalize dot (sub p c.scp) c.uCol - dot c.uRow c.uCol * dot (sub p c.scp) c.uRow = B at *
    generalize 1 - dot c.uRow c.uCol * dot c.uRow c.uCol = s at *
    simp only [sub] at ex ey ez
    ext <;> simp only [add, smul] <;> field_simp <;> linarith

/-- **C50** The image plane normal is a unit vector perpendicular to the row and the column direction. -/
theorem image_plane_normal (c : Converter) (hi : Independent c.uRow c.uCol) :
    Spec.Sicd.IsUnit c.uIpn ∧ Perp c.uIpn c.uRow ∧ Perp c.uIpn c.uCol := by
  have hn := (independent_iff _ _).1 hi
  refine ⟨(isUnit_iff _).2 (dot_unit hn), ?_, ?_⟩ <;> rw [perp_iff, Converter.uIpn, unit, dot_smul_left]
  · rw [dot_cross_left, mul_zero]
  · rw [dot_cross_right, mul_zero]

/-- An oblique grid. -/
example : Spec.Sicd.IsUnit ⟨1, 0, 0⟩ ∧ Spec.Sicd.IsUnit ⟨3 / 5, 4 / 5, 0⟩ ∧ Independent ⟨1, 0, 0⟩ ⟨3 / 5, 4 / 5, 0⟩ := by
  refine ⟨?_, ?_, ?_⟩
  · norm_num [Spec.Sicd.IsUnit]
  · norm_num [Spec.Sicd.IsUnit]
  · right; right; norm_num

/-! ## Ground plane -/

/-- **C51** The point returned lies on the plane and has the range rate; when the reference point is not under the track it has the range too and lies
on the side of the track of the reference point.

Missing for the full claim: a reference point under the track (`ground_under_track_wrong_range`) and impossible geometries that do not
raise (`ground_below_plane_not_raised`). -/
theorem ground_point_solves_partial (pl : Plane) (k : Contour) (p : V3) (hu : ¬ (pl.u.x = 0 ∧ pl.u.y = 0 ∧ pl.u.z = 0))
    (h : pl.toGround k = .ok (some p)) :
    OnPlane pl.ref pl.u p ∧ along k.V k.P p = k.r * k.rdot ∧ 0 < k.r
      ∧ (side k.P k.V pl.u pl.ref ≠ 0 → Seen k.P k.V k.r k.rdot p ∧ 0 ≤ side k.P k.V pl.u p * side k.P k.V pl.u pl.ref
          ∧ Independent (sub k.P p) pl.u) := by
  have hu' : dot pl.u pl.u ≠ 0 := by
    rw [ne_eq, dot_self_eq_zero, V3.ext_iff]; exact hu
  obtain ⟨ux, uy, vz, vx, z, g, ca, S⟩ := solved_of hu' h
  have hn := norm_pos hu'
  have hsq : √(1 - ca * ca) * √(1 - ca * ca) = 1 - ca * ca := Real.mul_self_sqrt (by linarith [S.ca_le])
  have hs0 := Real.sqrt_nonneg (1 - ca * ca)
  refine ⟨?_, S.rate, S.r_pos, fun hside => ?_⟩
  · rw [OnPlane, along_eq, dot_comm, dot_unit_right hu']
    have h1 := S.dz
    have h2 := S.hz
    rw [dot_sub_left] at h1 h2 ⊢
    rw [show dot p (unit pl.u) - dot pl.ref (unit pl.u) = 0 by linarith, mul_zero]
  · rw [side_eq, dot_unit_right hu'] at hside
    have hl := right_ne_zero_of_mul hside
    have hsign := signType_sq hl
    have hsa : (SignType.sign (dot (cross (sub k.P pl.ref) k.V) (unit pl.u)) : ℝ) * dot (cross (sub k.P pl.ref) k.V) (unit pl.u)
        = |dot (cross (sub k.P pl.ref) k.V) (unit pl.u)| := by
      rcases lt_or_gt_of_ne hl with h | h
      · rw [sign_neg h, abs_of_neg h]; simp
      · rw [sign_pos h, abs_of_pos h]; simp
    refine ⟨⟨?_, S.rate⟩, ?_, ?_⟩
    · rw [sqDist_eq, S.F.sq, S.dx, S.dy, S.dz]
      generalize (SignType.sign (dot (cross (sub k.P pl.ref) k.V) (unit pl.u)) : ℝ) = sg at *
      linear_combination S.hg + g * g * (√(1 - ca * ca) * √(1 - ca * ca)) * hsign + g * g * hsq
    · rw [side_eq, side_eq, dot_unit_right hu', dot_unit_right hu' (cross (sub k.P pl.ref) k.V), S.F.side (sub k.P p), S.dy]
      have := S.F.vx_pos
      have := S.g_pos
      generalize (SignType.sign (dot (cross (sub k.P pl.ref) k.V) (unit pl.u)) : ℝ) = sg at *
      calc (0 : ℝ) ≤ norm pl.u * norm pl.u * vx * g * √(1 - ca * ca) * |dot (cross (sub k.P pl.ref) k.V) (unit pl.u)| := by positivity
        _ = _ := by rw [← hsa]; ring
    · rw [independent_iff, dot_cross_self]
      have h1 : dot (sub k.P p) (sub k.P p) = k.r * k.r := by
        rw [S.F.sq, S.dx, S.dy, S.dz]
        generalize (SignType.sign (dot (cross (sub k.P pl.ref) k.V) (unit pl.u)) : ℝ) = sg at *
        linear_combination S.hg + g * g * (√(1 - ca * ca) * √(1 - ca * ca)) * hsign + g * g * hsq
      rw [h1, dot_unit_right hu' (sub k.P p), S.dz, ← norm_mul_self pl.u]
      have : k.r * k.r * (norm pl.u * norm pl.u) - norm pl.u * z * (norm pl.u * z) = norm pl.u * norm pl.u * (g * g) := by
        rw [S.hg]; ring
      rw [this]
      have := S.g_pos
      positivity

/-- **C51** Every point of the plane that is seen at the range and range rate, on the side of the reference point, is the one returned.  So there is only
one such point. -/
theorem ground_point_found (pl : Plane) (k : Contour) (q : V3) (hr : 0 < k.r) (hV : Independent k.V pl.u) (hq : Independent (sub k.P q) pl.u)
    (hpl : OnPlane pl.ref pl.u q) (hs : Seen k.P k.V k.r k.rdot q)
    (hside : side k.P k.V pl.u q = 0 ∨ 0 < side k.P k.V pl.u q * side k.P k.V pl.u pl.ref) : pl.toGround k = .ok (some q) :=
  toGround_of hr hV hq hpl hs hside

/-- **C51** When the projection raises, no point of the plane is seen at that range and range rate. -/
theorem ground_raise_justified (pl : Plane) (k : Contour) (e : PyErr) (hu : ¬ (pl.u.x = 0 ∧ pl.u.y = 0 ∧ pl.u.z = 0)) (hr : 0 ≤ k.r)
    (h : pl.toGround k = .error e) (q : V3) (hpl : OnPlane pl.ref pl.u q) : ¬ Seen k.P k.V k.r k.rdot q :=
  no_point_of_error (by rw [ne_eq, dot_self_eq_zero, V3.ext_iff]; exact hu) h q hpl hr

/-- A platform three up, moving along x, and a target four to the side. -/
theorem example_ground : (⟨⟨0, 4, 0⟩, ⟨0, 0, 2⟩⟩ : Plane).toGround ⟨5, 0, ⟨0, 0, 3⟩, ⟨1, 0, 0⟩⟩ = .ok (some ⟨0, 4, 0⟩) := by
  apply ground_point_found
  · norm_num
  · right; left; norm_num
  · left; norm_num [sub]
  · norm_num [OnPlane, along]
  · constructor <;> norm_num [sqDist, along]
  · right; norm_num [side]

example : OnPlane ⟨0, 4, 0⟩ ⟨0, 0, 2⟩ ⟨0, 4, 0⟩ :=
  (ground_point_solves_partial ⟨⟨0, 4, 0⟩, ⟨0, 0, 2⟩⟩ ⟨5, 0, ⟨0, 0, 3⟩, ⟨1, 0, 0⟩⟩ _ (by norm_num) example_ground).1

theorem unit_z : unit ⟨0, 0, 1⟩ = ⟨0, 0, 1⟩ := by simp [unit, V3.norm, smul, dot]

/-- A range shorter than the height raises. -/
example : (⟨⟨0, 4, 0⟩, ⟨0, 0, 1⟩⟩ : Plane).toGround ⟨2, 0, ⟨0, 0, 3⟩, ⟨1, 0, 0⟩⟩ = .error .valueError := by
  simp only [Plane.toGround, unit_z]
  rw [if_pos]
  norm_num [dot, sub]

/-- **C51** negation: a platform farther below the plane than the range makes an impossible geometry that does not raise; the result is not a number. -/
theorem ground_below_plane_not_raised :
    ∃ (pl : Plane) (k : Contour), 0 < k.r ∧ (∀ q, OnPlane pl.ref pl.u q → ¬ Seen k.P k.V k.r k.rdot q) ∧ pl.toGround k = .ok none := by
  refine ⟨⟨⟨0, 4, 0⟩, ⟨0, 0, 1⟩⟩, ⟨2, 0, ⟨0, 0, -3⟩, ⟨1, 0, 0⟩⟩, by norm_num, ?_, ?_⟩
  · rintro ⟨x, y, z⟩ h ⟨h1, _⟩
    simp only [OnPlane, along, sqDist] at h h1
    norm_num at h
    subst h
    nlinarith [sq_nonneg x, sq_nonneg y]
  · simp only [Plane.toGround, unit_z]
    rw [if_neg (by norm_num [dot, sub]), if_pos]
    right; norm_num [dot, sub]

/-- **C51** negation: with the reference point under the track the returned point is not at the range. -/
theorem ground_under_track_wrong_range :
    ∃ (pl : Plane) (k : Contour) (p : V3), Spec.Sicd.IsUnit pl.u ∧ pl.toGround k = .ok (some p) ∧ sqDist k.P p ≠ k.r ^ 2 := by
  refine ⟨⟨⟨0, 0, 0⟩, ⟨0, 0, 1⟩⟩, ⟨5, 0, ⟨0, 0, 3⟩, ⟨1, 0, 0⟩⟩, ⟨0, 0, 0⟩, by norm_num [Spec.Sicd.IsUnit], ?_, by norm_num [sqDist]⟩
  have h16 : √(16 : ℝ) = 4 := by rw [show (16 : ℝ) = 4 ^ 2 by norm_num]; exact Real.sqrt_sq (by norm_num)
  have h25 : √(25 - 9 : ℝ) = 4 := by rw [show (25 - 9 : ℝ) = 16 by norm_num, h16]
  simp only [Plane.toGround, unit_z]
  norm_num [dot, sub, V3.norm, cross, smul, add, h16]

/-! ## Scene center -/

theorem seen_self {P V q : V3} (h : dot (sub P q) (sub P q) ≠ 0) : Seen P V (norm (sub P q)) (dot V (sub P q) / norm (sub P q)) q := by
  have := (norm_pos h).ne'
  refine ⟨by rw [sqDist_eq, pow_two, norm_mul_self], ?_⟩
  rw [along_eq]; field_simp

/-- A contour through a point of the plane on the side of the reference point. -/
theorem toGround_self {pl : Plane} {P V q : V3} (hV : Independent V pl.u) (hq : Independent (sub P q) pl.u) (hpl : OnPlane pl.ref pl.u q)
    (hside : side P V pl.u q = 0 ∨ 0 < side P V pl.u q * side P V pl.u pl.ref) :
    pl.toGround ⟨norm (sub P q), dot V (sub P q) / norm (sub P q), P, V⟩ = .ok (some q) := by
  have h0 : dot (sub P q) (sub P q) ≠ 0 := by
    intro e
    rw [dot_self_eq_zero] at e
    rw [e] at hq
    simp [Independent] at hq
  exact toGround_of (norm_pos h0) hV hq hpl (seen_self h0) hside

theorem onPlane_self (p n : V3) : OnPlane p n p := by simp [OnPlane, along]

theorem side_self (P V n q : V3) : side P V n q = 0 ∨ 0 < side P V n q * side P V n q := by
  rcases eq_or_ne (side P V n q) 0 with h | h
  · exact .inl h
  · exact .inr (mul_self_pos.2 h)

/-- The scene center point of a grid, for the kinds of grid that have one. -/
def GridCenter (g : Grid) (scp : V3) : Prop :=
  match g with
  | .pfa s _ _ => s = scp
  | .rgazcomp s _ => s = scp
  | .plane s _ _ => s = scp
  | .inca _ _ _ => False

/-- **C55** For polar format, range-azimuth compressed and plane grids without adjustable offsets, the scene center pixel projects to the scene
center point, whatever the polynomials and the plane through that point. -/
theorem scene_center_projects (M : Model) (G : Geo) (hg : GridCenter M.coa.grid M.conv.scp) (hd : M.coa.deltaArp = ⟨0, 0, 0⟩)
    (hv : M.coa.deltaVarp = ⟨0, 0, 0⟩) (hb : M.coa.bias = 0) (href : M.plane.ref = M.conv.scp)
    (hV : Independent (M.coa.arp.deriv.at (M.coa.timeAt (0, 0))) M.plane.u)
    (hP : Independent (sub (M.coa.arp.at (M.coa.timeAt (0, 0))) M.conv.scp) M.plane.u) :
    M.toWorld G (M.conv.scpRow - M.conv.firstRow, M.conv.scpCol - M.conv.firstCol) = .ok (some (G.toLle M.conv.scp)) := by
  have h0 : M.conv.toGrid (M.conv.scpRow - M.conv.firstRow + M.conv.firstRow, M.conv.scpCol - M.conv.firstCol + M.conv.firstCol) = (0, 0) := by
    simp [Converter.toGrid]
  have key : M.coa.contour (0, 0) = ⟨norm (sub (M.coa.arp.at (M.coa.timeAt (0, 0))) M.conv.scp),
      dot (M.coa.arp.deriv.at (M.coa.timeAt (0, 0))) (sub (M.coa.arp.at (M.coa.timeAt (0, 0))) M.conv.scp)
        / norm (sub (M.coa.arp.at (M.coa.timeAt (0, 0))) M.conv.scp), M.coa.arp.at (M.coa.timeAt (0, 0)), M.coa.arp.deriv.at (M.coa.timeAt (0, 0))⟩ := by
    have ha : ∀ a : V3, add a ⟨0, 0, 0⟩ = a := fun a => by simp [add]
    simp only [Coa.contour, hd, hv, hb, ha, add_zero, Coa.specific]
    cases hgr : M.coa.grid <;> rw [hgr] at hg <;> simp only [GridCenter] at hg
    · subst hg; simp
    · subst hg; simp
    · subst hg; simp [smul, add]
  have := toGround_self hV hP (pl := M.plane) (by rw [href]; exact onPlane_self _ _) (by rw [href]; exact side_self _ _ _ _)
  simp only [Model.toWorld, Model.toWorldOn, h0, key, this]
  rfl

/-- **C55** A pixel of a plane grid whose image plane point lies on the ground plane, on the scene's side of the track, projects to that
point. -/
theorem plane_grid_projects (M : Model) (xy : ℝ × ℝ) (hg : M.coa.grid = .plane M.conv.scp M.conv.uRow M.conv.uCol) (hd : M.coa.deltaArp = ⟨0, 0, 0⟩)
    (hv : M.coa.deltaVarp = ⟨0, 0, 0⟩) (hb : M.coa.bias = 0) (hpl : OnPlane M.plane.ref M.plane.u (M.conv.toPlane xy))
    (hV : Independent (M.coa.arp.deriv.at (M.coa.timeAt xy)) M.plane.u)
    (hP : Independent (sub (M.coa.arp.at (M.coa.timeAt xy)) (M.conv.toPlane xy)) M.plane.u)
    (hside : side (M.coa.arp.at (M.coa.timeAt xy)) (M.coa.arp.deriv.at (M.coa.timeAt xy)) M.plane.u (M.conv.toPlane xy) = 0
      ∨ 0 < side (M.coa.arp.at (M.coa.timeAt xy)) (M.coa.arp.deriv.at (M.coa.timeAt xy)) M.plane.u (M.conv.toPlane xy)
        * side (M.coa.arp.at (M.coa.timeAt xy)) (M.coa.arp.deriv.at (M.coa.timeAt xy)) M.plane.u M.plane.ref) :
    M.project xy = .ok (some (M.conv.toPlane xy)) := by
  have ha : ∀ a : V3, add a ⟨0, 0, 0⟩ = a := fun a => by simp [add]
  have key : M.coa.contour xy = ⟨norm (sub (M.coa.arp.at (M.coa.timeAt xy)) (M.conv.toPlane xy)),
      dot (M.coa.arp.deriv.at (M.coa.timeAt xy)) (sub (M.coa.arp.at (M.coa.timeAt xy)) (M.conv.toPlane xy))
        / norm (sub (M.coa.arp.at (M.coa.timeAt xy)) (M.conv.toPlane xy)), M.coa.arp.at (M.coa.timeAt xy), M.coa.arp.deriv.at (M.coa.timeAt xy)⟩ := by
    simp only [Coa.contour, hd, hv, hb, ha, add_zero, Coa.specific, hg]
    rfl
  rw [Model.project, key]
  exact toGround_self hV hP hpl hside

/-- A platform three up moving along x at unit speed over the plane z = 0, image of the plane around (0, 4, 0). -/
noncomputable def exModel (g : Grid) : Model :=
  ⟨⟨10, 20, ⟨0, 4, 0⟩, ⟨1, 0, 0⟩, ⟨0, 1, 0⟩, 1, 1, 2, 3⟩, ⟨[[0]], ⟨[0, 1], [0], [3]⟩, g, ⟨0, 0, 0⟩, ⟨0, 0, 0⟩, 0⟩, ⟨0, 0, 1⟩, ⟨⟨0, 4, 0⟩, ⟨0, 0, 1⟩⟩⟩

example (G : Geo) : (exModel (.pfa ⟨0, 4, 0⟩ [0, 2] [1, 5])).toWorld G (8, 17) = .ok (some (G.toLle ⟨0, 4, 0⟩)) := by
  have := scene_center_projects (exModel (.pfa ⟨0, 4, 0⟩ [0, 2] [1, 5])) G rfl rfl rfl rfl rfl
    (by right; left; norm_num [exModel, PolyXYZ.at, PolyXYZ.deriv, polyder, polyderFrom, polyval])
    (by left; norm_num [exModel, PolyXYZ.at, PolyXYZ.deriv, polyder, polyderFrom, polyval, sub])
  simpa only [exModel, show (10 : ℝ) - 2 = 8 by norm_num, show (20 : ℝ) - 3 = 17 by norm_num] using this

example : (exModel (.plane ⟨0, 4, 0⟩ ⟨1, 0, 0⟩ ⟨0, 1, 0⟩)).project (2, 1) = .ok (some ⟨2, 5, 0⟩) := by
  have := plane_grid_projects (exModel (.plane ⟨0, 4, 0⟩ ⟨1, 0, 0⟩ ⟨0, 1, 0⟩)) (2, 1) rfl rfl rfl rfl
    (by norm_num [exModel, OnPlane, along, Converter.toPlane, add, smul])
    (by right; left; norm_num [exModel, PolyXYZ.at, PolyXYZ.deriv, polyder, polyderFrom, polyval])
    (by left; norm_num [exModel, PolyXYZ.at, PolyXYZ.deriv, polyder, polyderFrom, polyval, sub, add, smul, Converter.toPlane])
    (by right; norm_num [exModel, side, PolyXYZ.at, PolyXYZ.deriv, polyder, polyderFrom, polyval, polyval2d, sub, add, smul, Converter.toPlane, Coa.timeAt])
  rw [this]
  norm_num [exModel, Converter.toPlane, add, smul]

/-! ## Ground to image -/

theorem search_spec (M : Model) (S : V3) : ∀ (left n : Nat) (g : V3) (xy : ℝ × ℝ) (m : Nat), M.search S left n g = .ok (xy, m) →
    n ≤ m ∧ m ≤ n + left ∧ (m = n + left ∨ M.project xy = .ok none ∨ ∃ p, M.project xy = .ok (some p) ∧ norm (sub S p) ≤ 1 / 100) := by
  intro left
  induction left with
  | zero =>
    intro n g xy m h
    rw [Model.search] at h
    simp only [bind, Except.bind, pure, Except.pure] at h
    rcases hp : M.project (M.gridOf g) with e | o
    · rw [hp] at h; cases h
    · rw [hp] at h
      rcases o with _ | p <;> simp only [Except.ok.injEq, Prod.mk.injEq] at h <;> obtain ⟨rfl, rfl⟩ := h <;> simp
  | succ left ih =>
    intro n g xy m h
    rw [Model.search] at h
    simp only [bind, Except.bind, pure, Except.pure] at h
    rcases hp : M.project (M.gridOf g) with e | o
    · rw [hp] at h; cases h
    · rw [hp] at h
      rcases o with _ | p
      · simp only [Except.ok.injEq, Prod.mk.injEq] at h
        obtain ⟨rfl, rfl⟩ := h
        exact ⟨le_refl _, by omega, .inr (.inl hp)⟩
      · simp only at h
        by_cases hc : 1 / 100 < norm (sub S p)
        · rw [if_pos hc] at h
          obtain ⟨h1, h2, h3⟩ := ih _ _ _ _ h
          exact ⟨by omega, by omega, h3.imp_left (by omega)⟩
        · rw [if_neg hc] at h
          simp only [Except.ok.injEq, Prod.mk.injEq] at h
          obtain ⟨rfl, rfl⟩ := h
          exact ⟨le_refl _, by omega, .inr (.inr ⟨p, hp, not_lt.1 hc⟩)⟩

/-- **C56** The search uses between one and ten iterations; unless it used all ten or met a value that is not a number, the grid position found
projects to within one centimeter of the requested point.  The pixel returned is the one of that grid position.

Missing for the full claim: the search stops with an unverified pixel when a projection is not a number (`search_stops_unverified`). -/
theorem search_verified_partial (M : Model) (G : Geo) (l : Lle) (rc : ℝ × ℝ) (h : M.toImage G l = .ok rc) (hr : M.conv.rowSS ≠ 0)
    (hc : M.conv.colSS ≠ 0) :
    ∃ xy n, M.search (G.toEcf l) 9 1 (G.toEcf l) = .ok (xy, n) ∧ 1 ≤ n ∧ n ≤ 10
      ∧ M.conv.toGrid (rc.1 + M.conv.firstRow, rc.2 + M.conv.firstCol) = xy
      ∧ (n = 10 ∨ M.project xy = .ok none ∨ ∃ p, M.project xy = .ok (some p) ∧ sqDist (G.toEcf l) p ≤ (1 / 100) ^ 2) := by
  simp only [Model.toImage, bind, Except.bind, pure, Except.pure] at h
  rcases hs : M.search (G.toEcf l) 9 1 (G.toEcf l) with e | ⟨xy, n⟩
  · rw [hs] at h; cases h
  · rw [hs] at h
    simp only [Except.ok.injEq] at h
    obtain ⟨h1, h2, h3⟩ := search_spec _ _ _ _ _ _ _ hs
    refine ⟨xy, n, rfl, h1, h2, ?_, ?_⟩
    · subst h
      simp only [sub_add_cancel]
      exact (pixel_grid_inverse M.conv hr hc (0, 0) xy).2
    · rcases h3 with h3 | h3 | ⟨p, h3, h4⟩
      · exact .inl h3
      · exact .inr (.inl h3)
      · refine .inr (.inr ⟨p, h3, ?_⟩)
        rw [sqDist_eq, ← norm_mul_self, ← pow_two]
        exact pow_le_pow_left₀ (norm_nonneg _) h4 2

theorem groundNormal_spec {scp uRow uCol : V3} (hi : Independent uRow uCol) : ∃ e : ℝ, e * e = 1
    ∧ groundNormal scp uRow uCol = smul e (unit (cross uRow uCol)) ∧ dot (groundNormal scp uRow uCol) (groundNormal scp uRow uCol) = 1
    ∧ 0 ≤ dot (groundNormal scp uRow uCol) scp := by
  have h1 := dot_unit ((independent_iff _ _).1 hi)
  unfold groundNormal
  simp only
  by_cases h : dot (unit (cross uRow uCol)) scp < 0
  · rw [if_pos h]
    refine ⟨-1, by norm_num, rfl, ?_, ?_⟩
    · rw [dot_smul_left, dot_smul_right, h1]; norm_num
    · rw [dot_smul_left]; linarith
  · rw [if_neg h]
    refine ⟨1, by norm_num, by simp [smul], h1, not_lt.1 h⟩

theorem unit_of_unit {a : V3} (h : dot a a = 1) : unit a = a := by
  simp [unit, V3.norm, h, smul]

/-- What is special about the SIDD model: projection direction, plane normal and image plane normal are the same up to sign. -/
theorem sidd_facts (G : Geo) (s : Sidd) (hi : Independent s.uRow s.uCol) : ∃ e : ℝ, e * e = 1
    ∧ (s.model G).spn = smul e (s.model G).conv.uIpn ∧ (s.model G).plane.u = smul e (s.model G).conv.uIpn
    ∧ dot (s.model G).conv.uIpn (s.model G).conv.uIpn = 1 := by
  obtain ⟨e, he, h1, h2, _⟩ := groundNormal_spec (scp := s.scp) hi
  refine ⟨e, he, h1, ?_, dot_unit ((independent_iff _ _).1 hi)⟩
  simp only [Sidd.model, Model.new, Plane.new]
  rw [unit_of_unit h2]
  exact h1

/-- Grid position of a point: the foot on the image plane. -/
theorem sidd_gridOf (G : Geo) (s : Sidd) (hr : Spec.Sicd.IsUnit s.uRow) (hc : Spec.Sicd.IsUnit s.uCol) (hi : Independent s.uRow s.uCol) (xy : ℝ × ℝ) (h : ℝ) :
    (s.model G).gridOf (add ((s.model G).conv.toPlane xy) (smul h (s.model G).conv.uIpn)) = xy := by
  obtain ⟨e, he, h1, h2, h3⟩ := sidd_facts G s hi
  have hinv := grid_plane_inverse (s.model G).conv hr hc hi
  have hp := hinv.2.1 xy
  rw [OnPlane, along_eq, dot_comm] at hp
  have hd : sub (s.model G).conv.scp (add ((s.model G).conv.toPlane xy) (smul h (s.model G).conv.uIpn))
      = sub (smul (-h) (s.model G).conv.uIpn) (sub ((s.model G).conv.toPlane xy) (s.model G).conv.scp) := by
    ext <;> simp only [sub, add, smul] <;> ring
  have hz : e ≠ 0 := by rintro rfl; simp at he
  have hdd : dot (sub (smul (-h) (s.model G).conv.uIpn) (sub ((s.model G).conv.toPlane xy) (s.model G).conv.scp)) (s.model G).conv.uIpn
    = -h * 1 - 0 := by rw [dot_sub_left, hp, dot_smul_left, h3]
  have this : add (add ((s.model G).conv.toPlane xy) (smul h (s.model G).conv.uIpn)) (smul ((-h * 1 - 0) / (e * 1)) (smul e (s.model G).conv.uIpn))
      = (s.model G).conv.toPlane xy := by
    ext <;> simp only [add, smul] <;> field_simp <;> ring
  simp only [Model.gridOf, hd, hdd, h1, dot_smul_left, h3, this]
  exact hinv.1 xy

/-- A position of the product plane that the platform sees on the scene's side of its track at the center of aperture time. -/
structure Imaged (s : Sidd) (t : ℝ) (p : V3) : Prop where
  hV : Independent (s.arp.deriv.at t) (cross s.uRow s.uCol)
  hP : Independent (sub (s.arp.at t) p) (cross s.uRow s.uCol)
  hside : side (s.arp.at t) (s.arp.deriv.at t) (cross s.uRow s.uCol) p = 0
    ∨ 0 < side (s.arp.at t) (s.arp.deriv.at t) (cross s.uRow s.uCol) p * side (s.arp.at t) (s.arp.deriv.at t) (cross s.uRow s.uCol) s.scp

theorem independent_smul {a b : V3} {c : ℝ} (hc : c ≠ 0) (h : Independent a b) : Independent a (smul c b) := by
  rw [independent_iff] at *
  have : cross a (smul c b) = smul c (cross a b) := by ext <;> simp only [cross, smul] <;> ring
  rw [this, dot_smul_left, dot_smul_right]
  exact mul_ne_zero hc (mul_ne_zero hc h)

theorem side_smul (P V n q : V3) (c : ℝ) : side P V (smul c n) q = c * side P V n q := by
  rw [side_eq, side_eq, dot_smul_right]

theorem sidd_project (G : Geo) (s : Sidd) (hr : Spec.Sicd.IsUnit s.uRow) (hc : Spec.Sicd.IsUnit s.uCol) (hi : Independent s.uRow s.uCol) (xy : ℝ × ℝ)
    (hv : Imaged s (polyval2d s.time xy.1 xy.2) ((s.model G).conv.toPlane xy)) :
    (s.model G).project xy = .ok (some ((s.model G).conv.toPlane xy)) := by
  obtain ⟨e, he, h1, h2, h3⟩ := sidd_facts G s hi
  have hz : e ≠ 0 := by rintro rfl; simp at he
  have hn := norm_pos ((independent_iff _ _).1 hi)
  obtain ⟨c, hc0, hu⟩ : ∃ c : ℝ, c ≠ 0 ∧ (s.model G).plane.u = smul c (cross s.uRow s.uCol) :=
    ⟨e * (1 / norm (cross s.uRow s.uCol)), by positivity, by rw [h2]; ext <;> simp only [Converter.uIpn, unit, smul, Sidd.model, Model.new] <;> ring⟩
  apply plane_grid_projects _ _ rfl rfl rfl rfl
  · have := (grid_plane_inverse (s.model G).conv hr hc hi).2.1 xy
    rw [OnPlane, along_eq] at this ⊢
    rw [h2, dot_smul_left]
    have e2 : (s.model G).plane.ref = (s.model G).conv.scp := rfl
    rw [e2, this, mul_zero]
  · rw [hu]; exact independent_smul hc0 hv.hV
  · rw [hu]; exact independent_smul hc0 hv.hP
  · rw [hu]
    rcases hv.hside with h | h
    · left; rw [side_smul]; exact mul_eq_zero.2 (.inr h)
    · right
      rw [side_smul, side_smul]
      have : 0 < c * c := mul_self_pos.2 hc0
      exact lt_of_lt_of_eq (mul_pos this h) (mul_mul_mul_comm c c _ _)

theorem sidd_search (G : Geo) (s : Sidd) (hr : Spec.Sicd.IsUnit s.uRow) (hc : Spec.Sicd.IsUnit s.uCol) (hi : Independent s.uRow s.uCol) (xy : ℝ × ℝ)
    (hv : Imaged s (polyval2d s.time xy.1 xy.2) ((s.model G).conv.toPlane xy)) (h : ℝ) : ∀ (left n : Nat) (h' : ℝ),
    (s.model G).search (add ((s.model G).conv.toPlane xy) (smul h (s.model G).conv.uIpn)) left n
      (add ((s.model G).conv.toPlane xy) (smul h' (s.model G).conv.uIpn)) = .ok (xy, if |h| ≤ 1 / 100 then n else n + left) := by
  have hp := sidd_project G s hr hc hi xy hv
  obtain ⟨e, he, h1, h2, h3⟩ := sidd_facts G s hi
  have hd : sub (add ((s.model G).conv.toPlane xy) (smul h (s.model G).conv.uIpn)) ((s.model G).conv.toPlane xy) = smul h (s.model G).conv.uIpn := by
    ext <;> simp only [sub, add, smul] <;> ring
  have hnorm : norm (smul h (s.model G).conv.uIpn) = |h| :=
    norm_eq_of (abs_nonneg h) (by rw [dot_smul_left, dot_smul_right, h3, sq_abs]; ring)
  intro left
  induction left with
  | zero =>
    intro n h'
    rw [Model.search]
    simp only [sidd_gridOf G s hr hc hi, hp, bind, Except.bind, pure, Except.pure]
    simp
  | succ left ih =>
    intro n h'
    rw [Model.search]
    simp only [sidd_gridOf G s hr hc hi, hp, bind, Except.bind, pure, Except.pure, hd, hnorm]
    by_cases hc : |h| ≤ 1 / 100
    · rw [if_neg (not_lt.2 hc), if_pos hc]
    · have hadd : add (add ((s.model G).conv.toPlane xy) (smul h' (s.model G).conv.uIpn)) (smul h (s.model G).conv.uIpn)
          = add ((s.model G).conv.toPlane xy) (smul (h' + h) (s.model G).conv.uIpn) := by
        ext <;> simp only [add, smul] <;> ring
      rw [if_pos (not_le.1 hc), if_neg hc, hadd, ih, if_neg hc]
      congr 2; omega

/-- **C56** For a derived-product plane grid `world_to_image` inverts `image_to_world` exactly, in one iteration, for every pixel whose position in the plane is
seen on the scene's side of the track. -/
theorem sidd_round_trip (G : Geo) (s : Sidd) (hr : Spec.Sicd.IsUnit s.uRow) (hc : Spec.Sicd.IsUnit s.uCol)
    (hi : Independent s.uRow s.uCol) (hrs : s.rowSS ≠ 0) (hcs : s.colSS ≠ 0) (rc : ℝ × ℝ) (p : V3) (hG : G.toEcf (G.toLle p) = p)
    (hp : p = (s.model G).conv.toPlane ((rc.1 - s.scpRow) * s.rowSS, (rc.2 - s.scpCol) * s.colSS))
    (hv : Imaged s (polyval2d s.time ((rc.1 - s.scpRow) * s.rowSS) ((rc.2 - s.scpCol) * s.colSS)) p) :
    (s.model G).toWorld G rc = .ok (some (G.toLle p)) ∧ (s.model G).toImage G (G.toLle p) = .ok rc := by
  subst hp
  have e1 : (s.model G).conv.toGrid (rc.1 + (s.model G).conv.firstRow, rc.2 + (s.model G).conv.firstCol)
      = ((rc.1 - s.scpRow) * s.rowSS, (rc.2 - s.scpCol) * s.colSS) := by
    simp [Sidd.model, Model.new, Converter.toGrid]
  have hpr := sidd_project G s hr hc hi ((rc.1 - s.scpRow) * s.rowSS, (rc.2 - s.scpCol) * s.colSS) hv
  have hse := sidd_search G s hr hc hi ((rc.1 - s.scpRow) * s.rowSS, (rc.2 - s.scpCol) * s.colSS) hv 0 9 1 0
  have h0 : ∀ a b : V3, add a (smul 0 b) = a := fun a b => by ext <;> simp [add, smul]
  rw [h0, if_pos (by norm_num)] at hse
  constructor
  · rw [Model.project] at hpr
    simp only [Model.toWorld, Model.toWorldOn, e1, hpr, bind, Except.bind, pure, Except.pure]
    rfl
  · simp only [Model.toImage, hG, hse, bind, Except.bind, pure, Except.pure, Except.ok.injEq]
    ext <;> simp only [Converter.toPixel, Sidd.model, Model.new] <;> field_simp <;> ring

/-- A product over the plane z = 0 seen from a platform three up. -/
noncomputable def exSidd : Sidd := ⟨⟨0, 4, 0⟩, 10, 20, [[0]], ⟨[0, 1], [0], [3]⟩, ⟨1, 0, 0⟩, ⟨0, 1, 0⟩, 1, 1⟩

theorem exSidd_cross : cross exSidd.uRow exSidd.uCol = ⟨0, 0, 1⟩ := by norm_num [exSidd, cross]

theorem exSidd_imaged (x y : ℝ) (h : -4 < y) : Imaged exSidd 0 ⟨x, 4 + y, 0⟩ := by
  refine ⟨?_, ?_, ?_⟩
  · rw [exSidd_cross]; right; left; norm_num [exSidd, PolyXYZ.at, PolyXYZ.deriv, polyder, polyderFrom, polyval]
  · rw [exSidd_cross]; left
    have : -(4 + y) ≠ 0 := by linarith
    simpa [exSidd, PolyXYZ.at, polyval, sub] using this
  · rw [exSidd_cross]; right
    have : 0 < 4 + y := by linarith
    norm_num [exSidd, side, PolyXYZ.at, PolyXYZ.deriv, polyder, polyderFrom, polyval]
    linarith

theorem exSidd_toPlane (G : Geo) (x y : ℝ) : (exSidd.model G).conv.toPlane (x, y) = ⟨x, 4 + y, 0⟩ := by
  ext <;> simp [Sidd.model, Model.new, exSidd, Converter.toPlane, add, smul]

theorem exSidd_units : Spec.Sicd.IsUnit exSidd.uRow ∧ Spec.Sicd.IsUnit exSidd.uCol ∧ Independent exSidd.uRow exSidd.uCol := by
  refine ⟨?_, ?_, ?_⟩
  · norm_num [Spec.Sicd.IsUnit, exSidd]
  · norm_num [Spec.Sicd.IsUnit, exSidd]
  · right; right; norm_num [exSidd]

example (G : Geo) (hG : G.toEcf (G.toLle ⟨-3, 9, 0⟩) = ⟨-3, 9, 0⟩) : (exSidd.model G).toImage G (G.toLle ⟨-3, 9, 0⟩) = .ok (7, 25) := by
  refine (sidd_round_trip G exSidd exSidd_units.1 exSidd_units.2.1 exSidd_units.2.2 one_ne_zero one_ne_zero (7, 25) ⟨-3, 9, 0⟩ hG ?_ ?_).2
  · rw [exSidd_toPlane]; norm_num [exSidd]
  · have := exSidd_imaged (-3) 5 (by norm_num)
    norm_num [exSidd, polyval2d, polyval] at this ⊢
    exact this

/-- **C86** Negated: the pixel of a point above the plane of a derived product is the pixel of its foot on the plane, whatever its height; beyond one centimeter
the search uses all its iterations.  So the height of the world coordinate is ignored, although the range contour of that pixel does not pass through the
point (`elevated_point_off_contour`). -/
theorem sidd_ignores_height (G : Geo) (s : Sidd) (hr : Spec.Sicd.IsUnit s.uRow) (hc : Spec.Sicd.IsUnit s.uCol)
    (hi : Independent s.uRow s.uCol) (xy : ℝ × ℝ) (h : ℝ) (l : Lle)
    (hl : G.toEcf l = add ((s.model G).conv.toPlane xy) (smul h (s.model G).conv.uIpn))
    (hv : Imaged s (polyval2d s.time xy.1 xy.2) ((s.model G).conv.toPlane xy)) :
    (s.model G).toImage G l = .ok (xy.1 / s.rowSS + s.scpRow, xy.2 / s.colSS + s.scpCol)
      ∧ (s.model G).search (G.toEcf l) 9 1 (G.toEcf l) = .ok (xy, if |h| ≤ 1 / 100 then 1 else 10) := by
  have hse := sidd_search G s hr hc hi _ hv h 9 1 h
  rw [← hl] at hse
  refine ⟨?_, hse⟩
  simp only [Model.toImage, hse, bind, Except.bind, pure, Except.pure, Except.ok.injEq]
  simp [Converter.toPixel, Sidd.model, Model.new]

/-- The pixel of a point 50 above the plane of the example. -/
example : let G : Geo := ⟨fun p => ⟨p.x, p.y, p.z⟩, fun l => ⟨l.lon, l.lat, l.h⟩⟩
    (exSidd.model G).toImage G ⟨-3, 9, 50⟩ = .ok (7, 25) := by
  intro G
  have hn : (exSidd.model G).conv.uIpn = ⟨0, 0, 1⟩ := by
    show unit (cross exSidd.uRow exSidd.uCol) = _
    rw [exSidd_cross, unit_z]
  have := (sidd_ignores_height G exSidd exSidd_units.1 exSidd_units.2.1 exSidd_units.2.2 (-3, 5) 50 ⟨-3, 9, 50⟩ ?_ ?_).1
  · rw [this]; norm_num [exSidd]
  · rw [hn, exSidd_toPlane]; norm_num [add, smul, G]
  · rw [exSidd_toPlane]
    have := exSidd_imaged (-3) 5 (by norm_num)
    simpa [exSidd, polyval2d, polyval] using this

/-- **C86** negation: a pixel returned for a point one meter above the plane whose range contour does not pass through that point. -/
theorem elevated_point_off_contour (G : Geo) (hG : ∀ p, G.toEcf (G.toLle p) = p) :
    ∃ (s : Sidd) (l : Lle) (rc : ℝ × ℝ), (s.model G).toImage G l = .ok rc
      ∧ let k := (s.model G).coa.contour ((s.model G).conv.toGrid rc)
        ¬ Seen k.P k.V k.r k.rdot (G.toEcf l) := by
  have hn : (exSidd.model G).conv.uIpn = ⟨0, 0, 1⟩ := by
    show unit (cross exSidd.uRow exSidd.uCol) = _
    rw [exSidd_cross, unit_z]
  have h5 : √(25 : ℝ) = 5 := by rw [show (25 : ℝ) = 5 ^ 2 by norm_num]; exact Real.sqrt_sq (by norm_num)
  refine ⟨exSidd, G.toLle ⟨0, 4, 1⟩, (10, 20), ?_, ?_⟩
  · have := (sidd_ignores_height G exSidd exSidd_units.1 exSidd_units.2.1 exSidd_units.2.2 (0, 0) 1 (G.toLle ⟨0, 4, 1⟩) ?_ ?_).1
    · rw [this]; norm_num [exSidd]
    · rw [hG, hn, exSidd_toPlane]; norm_num [add, smul]
    · rw [exSidd_toPlane]
      have := exSidd_imaged 0 0 (by norm_num)
      simpa [exSidd, polyval2d, polyval] using this
  · intro k
    rintro ⟨h1, _⟩
    rw [hG] at h1
    have hk : k = ⟨5, 0, ⟨0, 0, 3⟩, ⟨1, 0, 0⟩⟩ := by
      simp only [k, Coa.contour, Coa.specific, Sidd.model, Model.new, exSidd, Converter.toGrid, Coa.timeAt]
      norm_num [polyval2d, polyval, PolyXYZ.at, PolyXYZ.deriv, polyder, polyderFrom, add, sub, smul, V3.norm, dot, h5]
    rw [hk] at h1
    norm_num [sqDist] at h1

/-- **C86** For every model: a point more than one centimeter off the default plane is never found; the search uses all ten iterations or stops at a value
that is not a number. -/
theorem off_plane_never_found (M : Model) (S : V3) (hu : Spec.Sicd.IsUnit M.plane.u) (hS : 1 / 100 < |along M.plane.u S M.plane.ref|)
    (xy : ℝ × ℝ) (n : Nat) (h : M.search S 9 1 S = .ok (xy, n)) : n = 10 ∨ M.project xy = .ok none := by
  obtain ⟨_, _, h3⟩ := search_spec _ _ _ _ _ _ _ h
  rcases h3 with h3 | h3 | ⟨p, h3, h4⟩
  · exact .inl h3
  · exact .inr h3
  · exfalso
    rw [isUnit_iff] at hu
    have hpl : OnPlane M.plane.ref M.plane.u p := by
      refine (ground_point_solves_partial M.plane _ p ?_ h3).1
      rintro ⟨h5, h6, h7⟩
      rw [dot, h5, h6, h7] at hu
      norm_num at hu
    rw [OnPlane, along_eq] at hpl
    rw [along_eq] at hS
    have hd : dot M.plane.u (sub S M.plane.ref) = dot M.plane.u (sub S p) := by
      simp only [dot_sub_right] at hpl ⊢; linarith
    rw [hd] at hS
    have hcs := dot_self_nonneg (cross M.plane.u (sub S p))
    rw [dot_cross_self, hu, ← norm_mul_self (sub S p)] at hcs
    have h8 : (1 / 100 : ℝ) ^ 2 < |dot M.plane.u (sub S p)| ^ 2 := pow_lt_pow_left₀ hS (by norm_num) (by norm_num)
    rw [sq_abs] at h8
    have h9 := pow_le_pow_left₀ (norm_nonneg (sub S p)) h4 2
    nlinarith

example : 1 / 100 < |along (⟨0, 0, 1⟩ : V3) ⟨0, 4, 1⟩ ⟨0, 4, 0⟩| := by norm_num [along]

/-- **C56** negation: with the platform below the ground plane the search ends after one iteration with a pixel that does not project anywhere. -/
theorem search_stops_unverified :
    ∃ (M : Model) (S : V3) (xy : ℝ × ℝ), Independent M.conv.uRow M.conv.uCol ∧ M.search S 9 1 S = .ok (xy, 1) ∧ M.project xy = .ok none := by
  let M : Model := ⟨⟨0, 0, ⟨0, 0, 0⟩, ⟨0, 0, 1⟩, ⟨0, 1, 0⟩, 1, 1, 0, 0⟩,
    ⟨[[0]], ⟨[0, 1], [0], [-10]⟩, .plane ⟨0, 0, 0⟩ ⟨0, 0, 1⟩ ⟨0, 1, 0⟩, ⟨0, 0, 0⟩, ⟨0, 0, 0⟩, 0⟩, ⟨-1, 0, 0⟩, ⟨⟨0, 0, 0⟩, ⟨0, 0, 1⟩⟩⟩
  have hg : M.gridOf ⟨0, 0, -9⟩ = (-9, 0) := by
    simp only [M, Model.gridOf, Converter.uIpn, unit, V3.norm, Converter.ofPlane]
    norm_num [cross, dot, smul, sub, add]
  have hp : M.project (-9, 0) = .ok none := by
    simp only [M, Model.project, Coa.contour, Coa.specific, Coa.timeAt, Plane.toGround, unit_z]
    norm_num [polyval2d, polyval, PolyXYZ.at, PolyXYZ.deriv, polyder, polyderFrom, add, sub, smul, V3.norm, dot]
  refine ⟨M, ⟨0, 0, -9⟩, (-9, 0), ?_, ?_, hp⟩
  · left; norm_num [M]
  · rw [Model.search]
    simp only [hg, hp, bind, Except.bind, pure, Except.pure]

/-! ## Normals -/

/-- **C59** The slant plane normal is a unit vector perpendicular to the velocity and to the line of sight.  It points away from the center of the Earth
when the scene is on the stated side of the track: left is the direction of `P × V`. -/
theorem slant_normal_outward (scp P V : V3) (right : Bool) (h : Independent V (sub scp P)) :
    Spec.Sicd.IsUnit (slantNormal scp P V right) ∧ Perp (slantNormal scp P V right) V ∧ along (slantNormal scp P V right) scp P = 0
      ∧ ((if right then along (cross P V) scp P < 0 else 0 < along (cross P V) scp P)
          → 0 < along (slantNormal scp P V right) scp ⟨0, 0, 0⟩ ∧ 0 < along (slantNormal scp P V right) P ⟨0, 0, 0⟩) := by
  have hn := (independent_iff _ _).1 h
  have hs0 : ∀ a : V3, sub a ⟨0, 0, 0⟩ = a := fun a => by ext <;> simp [sub]
  cases right with
  | false =>
    have hp := norm_pos hn
    have e : slantNormal scp P V false = smul (1 / norm (cross V (sub scp P))) (cross V (sub scp P)) := by simp [slantNormal, unit]
    have e1 : dot (cross V (sub scp P)) scp = along (cross P V) scp P := by simp only [along, dot, cross, sub]; ring
    have e2 : dot (cross V (sub scp P)) P = along (cross P V) scp P := by simp only [along, dot, cross, sub]; ring
    refine ⟨?_, ?_, ?_, ?_⟩
    · rw [isUnit_iff]
      show dot (unit _) (unit _) = 1
      exact dot_unit (by simpa using hn)
    · rw [perp_iff, e, dot_smul_left, dot_cross_left, mul_zero]
    · rw [along_eq, e, dot_smul_left, dot_cross_right, mul_zero]
    · intro hside
      simp only [Bool.false_eq_true, if_false] at hside
      rw [along_eq, along_eq, hs0, hs0, e, dot_smul_left, dot_smul_left, e1, e2]
      constructor <;> positivity
  | true =>
    have hn' : dot (smul (-1) (cross V (sub scp P))) (smul (-1) (cross V (sub scp P))) ≠ 0 := by
      rw [dot_smul_left, dot_smul_right]; simpa using hn
    have hp := norm_pos hn'
    have e : slantNormal scp P V true
        = smul (1 / norm (smul (-1) (cross V (sub scp P)))) (smul (-1) (cross V (sub scp P))) := by simp [slantNormal, unit]
    have e1 : dot (smul (-1) (cross V (sub scp P))) scp = -along (cross P V) scp P := by simp only [along, dot, cross, sub, smul]; ring
    have e2 : dot (smul (-1) (cross V (sub scp P))) P = -along (cross P V) scp P := by simp only [along, dot, cross, sub, smul]; ring
    refine ⟨?_, ?_, ?_, ?_⟩
    · rw [isUnit_iff]
      show dot (unit _) (unit _) = 1
      exact dot_unit (by simpa using hn')
    · rw [perp_iff, e, dot_smul_left, dot_smul_left, dot_cross_left]; ring
    · rw [along_eq, e, dot_smul_left, dot_smul_left, dot_cross_right]; ring
    · intro hside
      simp only [if_true] at hside
      rw [along_eq, along_eq, hs0, hs0, e, dot_smul_left, e1, dot_smul_left _ _ P, e2]
      have : 0 < -along (cross P V) scp P := by linarith
      constructor <;> positivity

/-- A scene to the left of the track. -/
example : Independent (⟨1, 0, 0⟩ : V3) (sub ⟨0, 4, 6⟩ ⟨0, 0, 9⟩) ∧ 0 < along (cross ⟨0, 0, 9⟩ ⟨1, 0, 0⟩) ⟨0, 4, 6⟩ ⟨0, 0, 9⟩ := by
  constructor
  · right; left; norm_num [sub]
  · norm_num [along, cross]

/-- **C59** The ground plane normal is a unit vector perpendicular to the row and column directions and does not point to the center of the Earth. -/
theorem ground_normal_outward (scp uRow uCol : V3) (h : Independent uRow uCol) :
    Spec.Sicd.IsUnit (groundNormal scp uRow uCol) ∧ Perp (groundNormal scp uRow uCol) uRow ∧ Perp (groundNormal scp uRow uCol) uCol
      ∧ 0 ≤ along (groundNormal scp uRow uCol) scp ⟨0, 0, 0⟩ := by
  obtain ⟨e, he, h1, h2, h3⟩ := groundNormal_spec (scp := scp) h
  have hs0 : sub scp ⟨0, 0, 0⟩ = scp := by ext <;> simp [sub]
  refine ⟨(isUnit_iff _).2 h2, ?_, ?_, by rw [along_eq, hs0]; exact h3⟩
  · rw [perp_iff, h1, unit, dot_smul_left, dot_smul_left, dot_cross_left]; ring
  · rw [perp_iff, h1, unit, dot_smul_left, dot_smul_left, dot_cross_right]; ring

example : Independent (⟨0, 1, 0⟩ : V3) ⟨1, 0, 0⟩ := by right; right; norm_num

end Verif.Props.Sicd
