import Verif.Props.Sicd

/-!
# SICD `world_to_image` inverts `image_to_world`

The loop of `world_to_image` moves a point of the ground plane until the pixel it falls on projects to the requested point.  Here: how near the returned pixel is to the pixel one started from.
-/

namespace Verif.Props.SicdRoundTrip

open Verif.Sicd Verif.Sicd.V3 Verif.Spec.Sicd Verif.Props.Sicd

/-! ## Lengths -/

theorem dot_le (a b : V3) : dot a b ≤ norm a * norm b := by
  have h := dot_self_nonneg (cross a b)
  rw [dot_cross_self] at h
  have h1 : dot a b ^ 2 ≤ (norm a * norm b) ^ 2 := by
    have e : (norm a * norm b) ^ 2 = dot a a * dot b b := by rw [← norm_mul_self, ← norm_mul_self]; ring
    rw [e]; nlinarith
  exact abs_le_of_sq_le_sq' h1 (mul_nonneg (norm_nonneg a) (norm_nonneg b)) |>.2

theorem norm_add_le (a b : V3) : norm (add a b) ≤ norm a + norm b := by
  have h : norm (add a b) ^ 2 ≤ (norm a + norm b) ^ 2 := by
    have e1 := norm_mul_self (add a b)
    have e2 := norm_mul_self a
    have e3 := norm_mul_self b
    have e4 : dot (add a b) (add a b) = dot a a + 2 * dot a b + dot b b := by simp only [dot, add]; ring
    have := dot_le a b
    nlinarith
  exact abs_le_of_sq_le_sq' h (add_nonneg (norm_nonneg a) (norm_nonneg b)) |>.2

theorem norm_sub_comm (a b : V3) : norm (sub a b) = norm (sub b a) := by
  simp only [V3.norm]; congr 1; simp only [dot, sub]; ring

/-! ## The search -/

/-- The point `g0` of the ground plane that the grid position `xy` comes from: on the line through the image plane point in the direction of the slant plane normal. -/
def Foot (M : Model) (xy : ℝ × ℝ) (g0 : V3) : Prop := OnPlane M.plane.ref M.plane.u g0 ∧ ∃ t, g0 = add (M.conv.toPlane xy) (smul t M.spn)

/-- There is such a point when the slant plane normal is not parallel to the ground plane. -/
theorem foot_exists (M : Model) (xy : ℝ × ℝ) (h : dot M.spn M.plane.u ≠ 0) : ∃ g0, Foot M xy g0 := by
  refine ⟨add (M.conv.toPlane xy) (smul (dot (sub M.plane.ref (M.conv.toPlane xy)) M.plane.u / dot M.spn M.plane.u) M.spn), ?_, _, rfl⟩
  rw [OnPlane, along_eq, dot_comm, dot_sub_left, dot_add_left, dot_smul_left, dot_sub_left]
  field_simp
  ring

/-- The imaging is flat around `g0`: every point `g` of the ground plane that is no farther from `g0` than `S` falls on a pixel that projects to a point of the plane, and from `g0` (which comes to `S`) to `g` this point moves as `g` does,
up to a share `κ` of the distance. -/
def Flat (M : Model) (S g0 : V3) (κ : ℝ) : Prop :=
  ∀ g, OnPlane M.plane.ref M.plane.u g → norm (sub g g0) ≤ norm (sub S g0) →
    ∃ p, M.project (M.gridOf g) = .ok (some p) ∧ norm (sub (sub p S) (sub g g0)) ≤ κ * norm (sub g g0)

theorem onPlane_add {ref u g S p : V3} (hg : OnPlane ref u g) (hS : OnPlane ref u S) (hp : OnPlane ref u p) : OnPlane ref u (add g (sub S p)) := by
  rw [OnPlane, along_eq] at *
  rw [dot_comm, dot_sub_left, dot_add_left, dot_sub_left]
  rw [dot_comm, dot_sub_left] at hg hS hp
  linarith

theorem project_onPlane {M : Model} (hu : ¬ (M.plane.u.x = 0 ∧ M.plane.u.y = 0 ∧ M.plane.u.z = 0)) {xy : ℝ × ℝ} {p : V3} (h : M.project xy = .ok (some p)) :
    OnPlane M.plane.ref M.plane.u p :=
  (ground_point_solves_partial M.plane _ p hu h).1

theorem search_near (M : Model) (hu : ¬ (M.plane.u.x = 0 ∧ M.plane.u.y = 0 ∧ M.plane.u.z = 0)) (S g0 : V3) (κ : ℝ) (hk0 : 0 ≤ κ) (hk1 : κ < 1)
    (hS : OnPlane M.plane.ref M.plane.u S) (hflat : Flat M S g0 κ) : ∀ (left n : Nat) (g : V3) (e : ℝ), OnPlane M.plane.ref M.plane.u g → norm (sub g g0) ≤ e → e ≤ norm (sub S g0) →
    ∃ xy m g', M.search S left n g = .ok (xy, m) ∧ n ≤ m ∧ m ≤ n + left ∧ xy = M.gridOf g' ∧ norm (sub g' g0) ≤ max (1 / 100 / (1 - κ)) (κ ^ left * e)
      ∧ (∀ k, k ≤ left → (1 + κ) * (κ ^ k * e) ≤ 1 / 100 → m ≤ n + k ∧ ∃ p, M.project xy = .ok (some p) ∧ norm (sub S p) ≤ 1 / 100) := by
  intro left
  induction left with
  | zero =>
    intro n g e hg he heS
    obtain ⟨p, hp, hf⟩ := hflat g hg (he.trans heS)
    refine ⟨M.gridOf g, n, g, ?_, le_refl _, le_refl _, rfl, ?_, ?_⟩
    · rw [Model.search]
      simp only [hp, bind, Except.bind, pure, Except.pure]
    · rw [pow_zero, one_mul]; exact he.trans (le_max_right _ _)
    · intro k hk hv
      obtain rfl : k = 0 := by omega
      refine ⟨le_refl _, p, hp, ?_⟩
      have h1 : sub p S = add (sub (sub p S) (sub g g0)) (sub g g0) := by ext <;> simp only [add, sub] <;> ring
      have h2 := norm_add_le (sub (sub p S) (sub g g0)) (sub g g0)
      rw [← h1, norm_sub_comm] at h2
      rw [pow_zero, one_mul] at hv
      nlinarith [norm_nonneg (sub g g0)]
  | succ left ih =>
    intro n g e hg he heS
    obtain ⟨p, hp, hf⟩ := hflat g hg (he.trans heS)
    have hn := norm_nonneg (sub g g0)
    have hsum : norm (sub S p) ≤ (1 + κ) * norm (sub g g0) := by
      have h1 : sub p S = add (sub (sub p S) (sub g g0)) (sub g g0) := by ext <;> simp only [add, sub] <;> ring
      have h2 := norm_add_le (sub (sub p S) (sub g g0)) (sub g g0)
      rw [← h1, norm_sub_comm] at h2
      linarith
    have hlow : (1 - κ) * norm (sub g g0) ≤ norm (sub S p) := by
      have h1 : sub g g0 = add (sub (sub g g0) (sub p S)) (sub p S) := by ext <;> simp only [add, sub] <;> ring
      have h2 := norm_add_le (sub (sub g g0) (sub p S)) (sub p S)
      rw [← h1, norm_sub_comm (sub g g0) (sub p S), norm_sub_comm p S] at h2
      linarith
    by_cases hc : 1 / 100 < norm (sub S p)
    · have hg' := onPlane_add hg hS (project_onPlane hu hp)
      have hmove : norm (sub (add g (sub S p)) g0) ≤ κ * e := by
        have h1 : sub (add g (sub S p)) g0 = sub (sub g g0) (sub p S) := by ext <;> simp only [add, sub] <;> ring
        rw [h1, norm_sub_comm]
        exact hf.trans (mul_le_mul_of_nonneg_left he hk0)
      have he0 : 0 ≤ e := hn.trans he
      obtain ⟨xy, m, g', hs, h1, h2, h3, h4, h5⟩ := ih (n + 1) _ (κ * e) hg' hmove ((mul_le_of_le_one_left he0 hk1.le).trans heS)
      refine ⟨xy, m, g', ?_, by omega, by omega, h3, ?_, ?_⟩
      · rw [Model.search]
        simp only [hp, bind, Except.bind, pure, Except.pure]
        rw [if_pos hc]
        exact hs
      · rw [pow_succ, mul_assoc]; exact h4
      · intro k hk hv
        cases k with
        | zero =>
          exfalso
          rw [pow_zero, one_mul] at hv
          nlinarith
        | succ k =>
          rw [pow_succ, mul_assoc] at hv
          obtain ⟨a, b⟩ := h5 k (by omega) hv
          exact ⟨by omega, b⟩
    · refine ⟨M.gridOf g, n, g, ?_, le_refl _, by omega, rfl, ?_, ?_⟩
      · rw [Model.search]
        simp only [hp, bind, Except.bind, pure, Except.pure]
        rw [if_neg hc]
      · refine le_trans ?_ (le_max_left _ _)
        rw [le_div_iff₀ (by linarith)]
        linarith [not_lt.1 hc]
      · intro k _ _
        exact ⟨by omega, p, hp, not_lt.1 hc⟩

/-! ## From the ground plane to pixels -/

/-- Image plane axes that are unit vectors at a right angle, and a unit slant plane normal that is not parallel to the image plane. -/
structure Axes (M : Model) : Prop where
  row : Spec.Sicd.IsUnit M.conv.uRow
  col : Spec.Sicd.IsUnit M.conv.uCol
  right : Perp M.conv.uRow M.conv.uCol
  spn : Spec.Sicd.IsUnit M.spn
  across : dot M.spn M.conv.uIpn ≠ 0

theorem Axes.independent {M : Model} (h : Axes M) : Independent M.conv.uRow M.conv.uCol := by
  rw [independent_iff, dot_cross_self, (isUnit_iff _).1 h.row, (isUnit_iff _).1 h.col, (perp_iff _ _).1 h.right]
  norm_num

theorem Axes.uIpn_eq {M : Model} (h : Axes M) : M.conv.uIpn = cross M.conv.uRow M.conv.uCol := by
  rw [Converter.uIpn]
  apply unit_of_unit
  rw [dot_cross_self, (isUnit_iff _).1 h.row, (isUnit_iff _).1 h.col, (perp_iff _ _).1 h.right]
  norm_num

theorem Axes.gridOf_eq {M : Model} (h : Axes M) (g : V3) :
    M.gridOf g = (dot (sub (add g (smul (dot (sub M.conv.scp g) M.conv.uIpn / dot M.spn M.conv.uIpn) M.spn)) M.conv.scp) M.conv.uRow,
      dot (sub (add g (smul (dot (sub M.conv.scp g) M.conv.uIpn / dot M.spn M.conv.uIpn) M.spn)) M.conv.scp) M.conv.uCol) := by
  unfold Model.gridOf
  simp only
  rw [(ofPlane_eq ((isUnit_iff _).1 h.row) ((isUnit_iff _).1 h.col) h.independent _).1, (perp_iff _ _).1 h.right]
  simp

theorem foot_grid {M : Model} (h : Axes M) {xy : ℝ × ℝ} {g0 : V3} (hf : Foot M xy g0) : M.gridOf g0 = xy := by
  obtain ⟨_, t, rfl⟩ := hf
  have hinv := grid_plane_inverse M.conv h.row h.col h.independent
  have hp := hinv.2.1 xy
  rw [OnPlane, along_eq, dot_comm, dot_sub_left] at hp
  have hd : dot (sub M.conv.scp (add (M.conv.toPlane xy) (smul t M.spn))) M.conv.uIpn / dot M.spn M.conv.uIpn = -t := by
    have := h.across
    rw [dot_sub_left, dot_add_left, dot_smul_left]
    field_simp
    linarith
  unfold Model.gridOf
  simp only
  rw [hd]
  have : add (add (M.conv.toPlane xy) (smul t M.spn)) (smul (-t) M.spn) = M.conv.toPlane xy := by ext <;> simp only [add, smul] <;> ring
  rw [this]
  exact hinv.1 xy

/-- A displacement on the ground is stretched by at most the reciprocal cosine between slant plane normal and image plane normal. -/
theorem grid_stretch {M : Model} (h : Axes M) (g g' : V3) :
    (((M.gridOf g).1 - (M.gridOf g').1) ^ 2 + ((M.gridOf g).2 - (M.gridOf g').2) ^ 2) * dot M.spn M.conv.uIpn ^ 2 ≤ norm (sub g g') ^ 2 := by
  have hc := h.across
  have hr := (isUnit_iff _).1 h.row
  have hcl := (isUnit_iff _).1 h.col
  have hp := (perp_iff _ _).1 h.right
  have hs := (isUnit_iff _).1 h.spn
  have hn : dot M.conv.uIpn M.conv.uIpn = 1 := dot_unit ((independent_iff _ _).1 h.independent)
  set n := M.conv.uIpn with hnd
  set s := M.spn
  set c := dot s n with hcd
  set v := sub g g' with hv
  set w := sub v (smul (dot v n / c) s) with hw
  have e1 : (M.gridOf g).1 - (M.gridOf g').1 = dot w M.conv.uRow := by
    rw [h.gridOf_eq, h.gridOf_eq, hw, hv]
    simp only [dot_sub_left, dot_add_left, dot_smul_left, ← hnd]
    rw [← hcd]
    field_simp
    ring
  have e2 : (M.gridOf g).2 - (M.gridOf g').2 = dot w M.conv.uCol := by
    rw [h.gridOf_eq, h.gridOf_eq, hw, hv]
    simp only [dot_sub_left, dot_add_left, dot_smul_left, ← hnd]
    rw [← hcd]
    field_simp
    ring
  have hwn : dot w n = 0 := by
    rw [hw, dot_sub_left, dot_smul_left, ← hcd]
    field_simp
    ring
  have hx := expand_orthonormal hr hcl hp w
  have hww : dot w w = dot w M.conv.uRow ^ 2 + dot w M.conv.uCol ^ 2 := by
    have hk : dot w (cross M.conv.uRow M.conv.uCol) = 0 := by rw [← h.uIpn_eq]; exact hwn
    rw [hk] at hx
    have := congrArg (dot w) hx
    rw [dot_add_right, dot_add_right, dot_smul_right, dot_smul_right, dot_smul_right] at this
    rw [this]; ring
  rw [e1, e2, ← hww, pow_two (norm v), norm_mul_self]
  -- v = α s + w with w across n
  set α := dot v n / c with hα
  have hvw : v = add (smul α s) w := by rw [hw]; ext <;> simp only [add, sub, smul] <;> ring
  have hvv : dot v v = α ^ 2 + 2 * α * dot s w + dot w w := by
    have : dot v v = dot (add (smul α s) w) (add (smul α s) w) := by rw [← hvw]
    rw [this]
    simp only [dot_add_left, dot_add_right, dot_smul_left, dot_smul_right, hs]
    rw [dot_comm w s]
    ring
  have hsw : dot s w ^ 2 ≤ (1 - c ^ 2) * dot w w := by
    have h1 : dot (sub s (smul c n)) w = dot s w := by rw [dot_sub_left, dot_smul_left, dot_comm n w, hwn]; ring
    have h2 : dot (sub s (smul c n)) (sub s (smul c n)) = 1 - c ^ 2 := by
      simp only [dot_sub_left, dot_sub_right, dot_smul_left, dot_smul_right, hs, hn]
      rw [dot_comm n s, ← hcd]
      ring
    have h3 := dot_self_nonneg (cross (sub s (smul c n)) w)
    rw [dot_cross_self, h1, h2] at h3
    nlinarith
  rw [hvv]
  nlinarith [sq_nonneg (α + dot s w)]

/-- **C121** `world_to_image` inverts `image_to_world` up to a distance that the flatness of the imaging determines.  A pixel that projects to `S` is given back with an error, measured in the image plane, of at most one centimeter divided by
`1 - κ`, or `κ ^ 9` times the distance between `S` and the foot `g0` of the pixel if that is more, divided by the cosine of the angle between slant plane and image plane. -/
theorem round_trip (M : Model) (G : Geo) (hax : Axes M) (hrs : M.conv.rowSS ≠ 0) (hcs : M.conv.colSS ≠ 0) (hu : ¬ (M.plane.u.x = 0 ∧ M.plane.u.y = 0 ∧ M.plane.u.z = 0))
    (rc : ℝ × ℝ) (S g0 : V3) (hS : M.project (M.conv.toGrid (rc.1 + M.conv.firstRow, rc.2 + M.conv.firstCol)) = .ok (some S)) (hG : G.toEcf (G.toLle S) = S)
    (hfoot : Foot M (M.conv.toGrid (rc.1 + M.conv.firstRow, rc.2 + M.conv.firstCol)) g0) (κ : ℝ) (hk0 : 0 ≤ κ) (hk1 : κ < 1) (hflat : Flat M S g0 κ) :
    M.toWorld G rc = .ok (some (G.toLle S)) ∧ ∃ rc', M.toImage G (G.toLle S) = .ok rc' ∧
      (M.conv.rowSS * (rc'.1 - rc.1)) ^ 2 + (M.conv.colSS * (rc'.2 - rc.2)) ^ 2 ≤ (max (1 / 100 / (1 - κ)) (κ ^ 9 * norm (sub S g0)) / dot M.spn M.conv.uIpn) ^ 2 := by
  have hSp := project_onPlane hu hS
  refine ⟨?_, ?_⟩
  · rw [Model.project] at hS
    simp only [Model.toWorld, Model.toWorldOn, hS, bind, Except.bind, pure, Except.pure]
    rfl
  · obtain ⟨xy, m, g', hs, _, _, hxy, hnear, _⟩ := search_near M hu S g0 κ hk0 hk1 hSp hflat 9 1 S (norm (sub S g0)) hSp (le_refl _) (le_refl _)
    refine ⟨((M.conv.toPixel xy).1 - M.conv.firstRow, (M.conv.toPixel xy).2 - M.conv.firstCol), ?_, ?_⟩
    · simp only [Model.toImage, hG, hs, bind, Except.bind, pure, Except.pure]
    · have hst := grid_stretch hax g' g0
      rw [foot_grid hax hfoot, ← hxy] at hst
      have e1 : M.conv.rowSS * ((M.conv.toPixel xy).1 - M.conv.firstRow - rc.1) = xy.1 - (M.conv.toGrid (rc.1 + M.conv.firstRow, rc.2 + M.conv.firstCol)).1 := by
        simp only [Converter.toPixel, Converter.toGrid]; field_simp; ring
      have e2 : M.conv.colSS * ((M.conv.toPixel xy).2 - M.conv.firstCol - rc.2) = xy.2 - (M.conv.toGrid (rc.1 + M.conv.firstRow, rc.2 + M.conv.firstCol)).2 := by
        simp only [Converter.toPixel, Converter.toGrid]; field_simp; ring
      simp only
      rw [e1, e2, div_pow, le_div_iff₀ (by have := hax.across; positivity)]
      exact hst.trans (pow_le_pow_left₀ (norm_nonneg _) hnear 2)

/-- **C121** When moreover `(1 + κ) κ ^ k` times the distance between `S` and the foot is at most a centimeter, for a `k` up to nine, the search ends after at most `k + 1` iterations with a pixel that projects to within a centimeter of `S`. -/
theorem search_converges (M : Model) (G : Geo) (hrs : M.conv.rowSS ≠ 0) (hcs : M.conv.colSS ≠ 0) (hu : ¬ (M.plane.u.x = 0 ∧ M.plane.u.y = 0 ∧ M.plane.u.z = 0))
    (S g0 : V3) (hSp : OnPlane M.plane.ref M.plane.u S) (hG : G.toEcf (G.toLle S) = S) (κ : ℝ) (hk0 : 0 ≤ κ) (hk1 : κ < 1) (hflat : Flat M S g0 κ)
    (k : Nat) (hk : k ≤ 9) (hsmall : (1 + κ) * (κ ^ k * norm (sub S g0)) ≤ 1 / 100) :
    ∃ rc p m xy, M.toImage G (G.toLle S) = .ok rc ∧ M.search S 9 1 S = .ok (xy, m) ∧ m ≤ k + 1 ∧
      M.toWorld G rc = .ok (some (G.toLle p)) ∧ sqDist S p ≤ (1 / 100) ^ 2 := by
  obtain ⟨xy, m, g', hs, _, _, hxy, hnear, hv⟩ := search_near M hu S g0 κ hk0 hk1 hSp hflat 9 1 S (norm (sub S g0)) hSp (le_refl _) (le_refl _)
  obtain ⟨hm, p, hp, hd⟩ := hv k hk hsmall
  refine ⟨((M.conv.toPixel xy).1 - M.conv.firstRow, (M.conv.toPixel xy).2 - M.conv.firstCol), p, m, xy, ?_, hs, by omega, ?_, ?_⟩
  · simp only [Model.toImage, hG, hs, bind, Except.bind, pure, Except.pure]
  · have e : M.conv.toGrid ((M.conv.toPixel xy).1 - M.conv.firstRow + M.conv.firstRow, (M.conv.toPixel xy).2 - M.conv.firstCol + M.conv.firstCol) = xy := by
      simp only [sub_add_cancel]
      exact (pixel_grid_inverse M.conv hrs hcs (0, 0) xy).2
    rw [Model.project] at hp
    simp only [Model.toWorld, Model.toWorldOn, e, hp, bind, Except.bind, pure, Except.pure]
    rfl
  · rw [sqDist_eq, ← norm_mul_self, ← pow_two]
    exact pow_le_pow_left₀ (norm_nonneg _) hd 2

/-! ## A level track

An imaging for which the flatness follows from the geometry: the platform at height `H` passes the scene at the ground range `D` and the slant range `R`, and the image plane is the slant plane, spanned by the line of sight and the direction of flight. -/

/-- The sensor model of a level track along x, with the scene center at the ground range `D`. -/
noncomputable def slantModel (H D R v scpRow scpCol rowSS colSS firstRow firstCol : ℝ) : Model :=
  ⟨⟨scpRow, scpCol, ⟨0, D, 0⟩, ⟨0, D / R, -(H / R)⟩, ⟨1, 0, 0⟩, rowSS, colSS, firstRow, firstCol⟩,
    ⟨[[0]], ⟨[0, v], [0], [H]⟩, .plane ⟨0, D, 0⟩ ⟨0, D / R, -(H / R)⟩ ⟨1, 0, 0⟩, ⟨0, 0, 0⟩, ⟨0, 0, 0⟩, 0⟩, ⟨0, H / R, D / R⟩, ⟨⟨0, D, 0⟩, ⟨0, 0, 1⟩⟩⟩

section

variable {H D R v scpRow scpCol rowSS colSS firstRow firstCol : ℝ}

theorem slant_cross (hR : 0 < R) (hHDR : R ^ 2 = D ^ 2 + H ^ 2) :
    (slantModel H D R v scpRow scpCol rowSS colSS firstRow firstCol).conv.uIpn = ⟨0, -(H / R), -(D / R)⟩ := by
  have e : cross ⟨0, D / R, -(H / R)⟩ ⟨1, 0, 0⟩ = ⟨0, -(H / R), -(D / R)⟩ := by simp [cross]
  rw [Converter.uIpn]
  show unit (cross ⟨0, D / R, -(H / R)⟩ ⟨1, 0, 0⟩) = _
  rw [e]
  apply unit_of_unit
  simp only [dot]
  field_simp
  linarith

theorem slant_axes (hR : 0 < R) (hHDR : R ^ 2 = D ^ 2 + H ^ 2) : Axes (slantModel H D R v scpRow scpCol rowSS colSS firstRow firstCol) := by
  refine ⟨?_, ?_, ?_, ?_, ?_⟩
  · simp only [Spec.Sicd.IsUnit, slantModel]; field_simp; linarith
  · simp [Spec.Sicd.IsUnit, slantModel]
  · simp [Perp, slantModel]
  · simp only [Spec.Sicd.IsUnit, slantModel]; field_simp; linarith
  · rw [slant_cross hR hHDR]
    simp only [slantModel, dot]
    have : 0 * 0 + H / R * -(H / R) + D / R * -(D / R) = -1 := by field_simp; linarith
    rw [this]; norm_num

theorem slant_cos (hR : 0 < R) (hHDR : R ^ 2 = D ^ 2 + H ^ 2) :
    dot (slantModel H D R v scpRow scpCol rowSS colSS firstRow firstCol).spn (slantModel H D R v scpRow scpCol rowSS colSS firstRow firstCol).conv.uIpn = -1 := by
  rw [slant_cross hR hHDR]
  simp only [slantModel, dot]
  field_simp; linarith

theorem slant_gridOf (hR : 0 < R) (hHDR : R ^ 2 = D ^ 2 + H ^ 2) (x t : ℝ) :
    (slantModel H D R v scpRow scpCol rowSS colSS firstRow firstCol).gridOf ⟨x, D + t, 0⟩ = (D * t / R, x) := by
  rw [(slant_axes hR hHDR).gridOf_eq, slant_cos hR hHDR, slant_cross hR hHDR]
  simp only [slantModel, dot, sub, add, smul]
  ext
  · simp only
    field_simp
    have : H ^ 2 = R ^ 2 - D ^ 2 := by linarith
    ring_nf
  · simp only; ring

/-- A pixel of the level track projects to the point of the plane at its slant range. -/
theorem slant_project (hH : 0 < H) (hD : 0 < D) (hR : 0 < R) (hv : v ≠ 0) (hHDR : R ^ 2 = D ^ 2 + H ^ 2) (a b : ℝ) (ha : H < R + a) :
    (slantModel H D R v scpRow scpCol rowSS colSS firstRow firstCol).project (a, b) = .ok (some ⟨b, √((R + a) ^ 2 - H ^ 2), 0⟩) := by
  have hpos : 0 < (R + a) ^ 2 - H ^ 2 := by nlinarith
  have hy := Real.sqrt_pos.2 hpos
  have hyy := Real.mul_self_sqrt hpos.le
  set y := √((R + a) ^ 2 - H ^ 2) with hyd
  have hd : dot (sub ⟨0, 0, H⟩ (add ⟨0, D, 0⟩ (add (smul a ⟨0, D / R, -(H / R)⟩) (smul b ⟨1, 0, 0⟩))))
      (sub ⟨0, 0, H⟩ (add ⟨0, D, 0⟩ (add (smul a ⟨0, D / R, -(H / R)⟩) (smul b ⟨1, 0, 0⟩)))) = b ^ 2 + (R + a) ^ 2 := by
    simp only [dot, sub, add, smul]
    field_simp
    linear_combination (- (R ^ 2 + a ^ 2 + 2 * a * R)) * hHDR
  have hk : (slantModel H D R v scpRow scpCol rowSS colSS firstRow firstCol).coa.contour (a, b)
      = ⟨norm (sub ⟨0, 0, H⟩ (add ⟨0, D, 0⟩ (add (smul a ⟨0, D / R, -(H / R)⟩) (smul b ⟨1, 0, 0⟩)))),
        dot ⟨v, 0, 0⟩ (sub ⟨0, 0, H⟩ (add ⟨0, D, 0⟩ (add (smul a ⟨0, D / R, -(H / R)⟩) (smul b ⟨1, 0, 0⟩))))
          / norm (sub ⟨0, 0, H⟩ (add ⟨0, D, 0⟩ (add (smul a ⟨0, D / R, -(H / R)⟩) (smul b ⟨1, 0, 0⟩)))), ⟨0, 0, H⟩, ⟨v, 0, 0⟩⟩ := by
    simp [Coa.contour, slantModel, Coa.specific, Coa.timeAt, polyval2d, polyval, PolyXYZ.at, PolyXYZ.deriv, polyder, polyderFrom, add]
  have hn : norm (sub ⟨0, 0, H⟩ (add ⟨0, D, 0⟩ (add (smul a ⟨0, D / R, -(H / R)⟩) (smul b ⟨1, 0, 0⟩)))) ≠ 0 := by
    refine (norm_pos ?_).ne'
    rw [hd]
    have : 0 < R + a := by linarith
    positivity
  rw [Model.project, hk]
  apply ground_point_found
  · exact lt_of_le_of_ne (norm_nonneg _) (Ne.symm hn)
  · right; left; simpa [slantModel] using hv
  · left; simp [sub, slantModel]; exact hy.ne'
  · simp [OnPlane, along, slantModel]
  · constructor
    · simp only
      rw [pow_two (norm _), norm_mul_self, hd]
      simp only [sqDist]
      nlinarith
    · simp only
      rw [mul_div_cancel₀ _ hn]
      simp [along, dot, sub, add, smul]
  · right
    simp only [side, slantModel]
    have : 0 < v ^ 2 := by positivity
    have h1 : 0 < v ^ 2 * (y * D) := by positivity
    nlinarith

/-- The ground range as a function of the position in the image plane, against its linearisation. -/
theorem range_near (hD : 0 < D) (hR : 0 < R) (hHDR : R ^ 2 = D ^ 2 + H ^ 2) (t : ℝ) (ht : |t| ≤ D / 4) :
    D / 2 ≤ √((R + D * t / R) ^ 2 - H ^ 2) ∧ |√((R + D * t / R) ^ 2 - H ^ 2) - (D + D ^ 2 / R ^ 2 * t)| ≤ 2 * (H ^ 2 / R ^ 2) * |t| := by
  set c := D ^ 2 / R ^ 2 with hc
  have hs : H ^ 2 / R ^ 2 = 1 - c := by rw [hc]; field_simp; linarith
  have hc0 : 0 ≤ c := by positivity
  have hc1 : 0 ≤ 1 - c := by rw [← hs]; positivity
  have hA : (R + D * t / R) ^ 2 - H ^ 2 = D ^ 2 + 2 * D * t + c * t ^ 2 := by rw [hc]; field_simp; linear_combination R ^ 2 * hHDR
  rw [hs, hA]
  obtain ⟨h1, h2⟩ := abs_le.1 ht
  have hApos : D ^ 2 / 4 ≤ D ^ 2 + 2 * D * t + c * t ^ 2 := by nlinarith [mul_nonneg hc0 (sq_nonneg t)]
  have hf0 := Real.sqrt_nonneg (D ^ 2 + 2 * D * t + c * t ^ 2)
  have hff := Real.mul_self_sqrt (show 0 ≤ D ^ 2 + 2 * D * t + c * t ^ 2 by nlinarith)
  set f := √(D ^ 2 + 2 * D * t + c * t ^ 2)
  have hlow : D / 2 ≤ f := Real.le_sqrt_of_sq_le (by nlinarith)
  refine ⟨hlow, ?_⟩
  -- f² - (D + c t)² = (1 - c) t (2 D + c t)
  have hdiff : (f - (D + c * t)) * (f + (D + c * t)) = (1 - c) * t * (2 * D + c * t) := by linear_combination hff
  have hct : |c * t| ≤ D / 4 := by rw [abs_mul, abs_of_nonneg hc0]; nlinarith [abs_nonneg t]
  obtain ⟨h3, h4⟩ := abs_le.1 hct
  have hsum : 0 < f + (D + c * t) := by linarith
  have hr : f - (D + c * t) = (1 - c) * t * ((2 * D + c * t) / (f + (D + c * t))) := by
    rw [← mul_div_assoc, eq_div_iff hsum.ne']; exact hdiff
  rw [hr, abs_mul, abs_mul, abs_of_nonneg hc1, abs_of_nonneg (div_nonneg (by linarith) hsum.le)]
  have hq : (2 * D + c * t) / (f + (D + c * t)) ≤ 2 := by
    rw [div_le_iff₀ hsum]; linarith
  nlinarith [mul_nonneg hc1 (abs_nonneg t)]

/-- Between two positions the ground range changes as the foot does, up to a share of the distance from the scene center. -/
theorem range_flat (hD : 0 < D) (hR : 0 < R) (hHDR : R ^ 2 = D ^ 2 + H ^ 2) (T t t0 : ℝ) (hT : T ≤ D / 4) (ht : |t| ≤ T) (ht0 : |t0| ≤ T) :
    |√((R + D * t / R) ^ 2 - H ^ 2) - √((R + D * t0 / R) ^ 2 - H ^ 2) - (t - t0)| ≤ 4 * (H ^ 2 / R ^ 2) * (T / D) * |t - t0| := by
  obtain ⟨hl, hn⟩ := range_near hD hR hHDR t (ht.trans hT)
  obtain ⟨hl0, hn0⟩ := range_near hD hR hHDR t0 (ht0.trans hT)
  have hff := Real.mul_self_sqrt (show 0 ≤ (R + D * t / R) ^ 2 - H ^ 2 from (Real.sqrt_pos.1 (by linarith)).le)
  have hff0 := Real.mul_self_sqrt (show 0 ≤ (R + D * t0 / R) ^ 2 - H ^ 2 from (Real.sqrt_pos.1 (by linarith)).le)
  set f := √((R + D * t / R) ^ 2 - H ^ 2)
  set f0 := √((R + D * t0 / R) ^ 2 - H ^ 2)
  set c := D ^ 2 / R ^ 2 with hc
  set s := H ^ 2 / R ^ 2 with hsd
  have hs0 : 0 ≤ s := by positivity
  have hA : (R + D * t / R) ^ 2 - H ^ 2 = D ^ 2 + 2 * D * t + c * t ^ 2 := by rw [hc]; field_simp; linear_combination R ^ 2 * hHDR
  have hA0 : (R + D * t0 / R) ^ 2 - H ^ 2 = D ^ 2 + 2 * D * t0 + c * t0 ^ 2 := by rw [hc]; field_simp; linear_combination R ^ 2 * hHDR
  rw [hA] at hff
  rw [hA0] at hff0
  have hsum : 0 < f + f0 := by linarith
  have e : f - f0 - (t - t0) = (t - t0) * (((D + c * t - f) + (D + c * t0 - f0)) / (f + f0)) := by
    rw [← mul_div_assoc, eq_div_iff hsum.ne']
    linear_combination hff - hff0
  rw [e, abs_mul, mul_comm]
  refine mul_le_mul_of_nonneg_right ?_ (abs_nonneg _)
  rw [abs_div, abs_of_pos hsum, div_le_iff₀ hsum]
  have h1 : |(D + c * t - f) + (D + c * t0 - f0)| ≤ 2 * s * |t| + 2 * s * |t0| := by
    refine (abs_add_le _ _).trans (add_le_add ?_ ?_)
    · rw [abs_sub_comm]; exact hn
    · rw [abs_sub_comm]; exact hn0
  have h2 : 2 * s * |t| + 2 * s * |t0| ≤ 4 * s * T := by nlinarith
  have h3 : 4 * s * T = 4 * s * (T / D) * D := by field_simp
  have hT0 : 0 ≤ T := (abs_nonneg t).trans ht
  have h4 : 4 * s * (T / D) * D ≤ 4 * s * (T / D) * (f + f0) := mul_le_mul_of_nonneg_left (by linarith) (by positivity)
  linarith

theorem below_range (hH : 0 < H) (hD : 0 < D) (hR : 0 < R) (hHDR : R ^ 2 = D ^ 2 + H ^ 2) (t : ℝ) (ht : |t| ≤ D / 4) : H < R + D * t / R := by
  have h := (range_near hD hR hHDR t ht).1
  have h1 : 0 < (R + D * t / R) ^ 2 - H ^ 2 := Real.sqrt_pos.1 (by linarith)
  have h2 : 0 < R + D * t / R := by
    have e : R + D * t / R = (R ^ 2 + D * t) / R := by field_simp
    rw [e]
    apply div_pos _ hR
    nlinarith [(abs_le.1 ht).1, sq_nonneg H]
  nlinarith

end

/-- For the level track the hypotheses of `round_trip` hold for every pixel whose foot lies within a sixteenth of the ground range of the scene center, in range. -/
theorem slant_flat (H D R v scpRow scpCol rowSS colSS firstRow firstCol : ℝ) (hH : 0 < H) (hD : 0 < D) (hR : 0 < R) (hv : v ≠ 0) (hHDR : R ^ 2 = D ^ 2 + H ^ 2)
    (row col t κ : ℝ) (ht : |t| ≤ D / 16) (hrow : (row + firstRow - scpRow) * rowSS = D * t / R) (hκ : κ = 16 * (H ^ 2 / R ^ 2) * (|t| / D)) :
    let M := slantModel H D R v scpRow scpCol rowSS colSS firstRow firstCol
    0 ≤ κ ∧ κ < 1 ∧ ∃ S g0, M.project (M.conv.toGrid ((row, col).1 + M.conv.firstRow, (row, col).2 + M.conv.firstCol)) = .ok (some S)
      ∧ Foot M (M.conv.toGrid ((row, col).1 + M.conv.firstRow, (row, col).2 + M.conv.firstCol)) g0 ∧ Flat M S g0 κ ∧ norm (sub S g0) ≤ 3 * |t| := by
  intro M
  set s := H ^ 2 / R ^ 2 with hsd
  have hs0 : 0 < s := by positivity
  have hs1 : s < 1 := by rw [hsd, div_lt_one (by positivity)]; nlinarith
  have hsc : D ^ 2 / R ^ 2 = 1 - s := by rw [hsd]; field_simp; linarith
  have hta : 0 ≤ |t| := abs_nonneg t
  have htD : |t| / D ≤ 1 / 16 := by rw [div_le_iff₀ hD]; linarith
  have hk0 : 0 ≤ κ := by rw [hκ]; positivity
  have hk1 : κ < 1 := by rw [hκ]; nlinarith
  set b := (col + firstCol - scpCol) * colSS with hb
  have hxy : M.conv.toGrid (row + M.conv.firstRow, col + M.conv.firstCol) = (D * t / R, b) := by
    simp only [Converter.toGrid, M, slantModel]
    rw [hrow]
  have ht4 : |t| ≤ D / 4 := by linarith
  have hSp := slant_project (scpRow := scpRow) (scpCol := scpCol) (rowSS := rowSS) (colSS := colSS) (firstRow := firstRow) (firstCol := firstCol) hH hD hR hv hHDR (D * t / R) b
    (below_range hH hD hR hHDR t ht4)
  set y := √((R + D * t / R) ^ 2 - H ^ 2) with hy
  have hdel : |y - (D + t)| ≤ 3 * |t| := by
    have h1 := (range_near hD hR hHDR t ht4).2
    rw [← hsd, ← hy] at h1
    have e : y - (D + t) = (y - (D + D ^ 2 / R ^ 2 * t)) + -(s * t) := by rw [hsc]; ring
    rw [e]
    refine (abs_add_le _ _).trans ?_
    rw [abs_neg, abs_mul, abs_of_pos hs0]
    nlinarith
  have hSg : norm (sub (⟨b, y, 0⟩ : V3) ⟨b, D + t, 0⟩) = |y - (D + t)| := by
    apply norm_eq_of (abs_nonneg _)
    rw [sq_abs]
    simp only [dot, sub]; ring
  have hfoot : Foot M (M.conv.toGrid ((row, col).1 + M.conv.firstRow, (row, col).2 + M.conv.firstCol)) ⟨b, D + t, 0⟩ := by
    simp only
    rw [hxy]
    refine ⟨by simp [OnPlane, along, M, slantModel], H * t / R, ?_⟩
    ext
    · simp [M, slantModel, Converter.toPlane, add, smul]
    · simp only [M, slantModel, Converter.toPlane, add, smul]
      field_simp
      rw [hHDR]; ring
    · simp only [M, slantModel, Converter.toPlane, add, smul]
      field_simp; ring
  have hflat : Flat M ⟨b, y, 0⟩ ⟨b, D + t, 0⟩ κ := by
    intro g hg hd
    obtain ⟨gx, gy, gz⟩ := g
    have hz : gz = 0 := by simpa [OnPlane, along, M, slantModel] using hg
    subst hz
    obtain ⟨u, rfl⟩ : ∃ u, gy = D + u := ⟨gy - D, by ring⟩
    rw [hSg] at hd
    have hcomp : |u - t| ≤ norm (sub (⟨gx, D + u, 0⟩ : V3) ⟨b, D + t, 0⟩) := by
      apply Real.abs_le_sqrt
      simp only [dot, sub]
      nlinarith [sq_nonneg (gx - b)]
    have hu4 : |u| ≤ 4 * |t| := by
      have : |u| ≤ |u - t| + |t| := by
        have := abs_add_le (u - t) t
        rwa [sub_add_cancel] at this
      linarith
    have huD : |u| ≤ D / 4 := by linarith
    refine ⟨⟨gx, √((R + D * u / R) ^ 2 - H ^ 2), 0⟩, ?_, ?_⟩
    · show M.project (M.gridOf _) = _
      rw [slant_gridOf hR hHDR]
      exact slant_project hH hD hR hv hHDR _ _ (below_range hH hD hR hHDR u huD)
    · have hfl := range_flat hD hR hHDR (4 * |t|) u t (by linarith) hu4 (by linarith)
      rw [← hy, ← hsd] at hfl
      have e : 4 * s * (4 * |t| / D) = κ := by rw [hκ]; ring
      rw [e] at hfl
      have : norm (sub (sub (⟨gx, √((R + D * u / R) ^ 2 - H ^ 2), 0⟩ : V3) ⟨b, y, 0⟩) (sub ⟨gx, D + u, 0⟩ ⟨b, D + t, 0⟩))
          = |√((R + D * u / R) ^ 2 - H ^ 2) - y - (u - t)| := by
        apply norm_eq_of (abs_nonneg _)
        rw [sq_abs]
        simp only [dot, sub]; ring
      rw [this]
      exact hfl.trans (mul_le_mul_of_nonneg_left hcomp hk0)
  have hS : M.project (M.conv.toGrid ((row, col).1 + M.conv.firstRow, (row, col).2 + M.conv.firstCol)) = .ok (some ⟨b, y, 0⟩) := by
    simp only
    rw [hxy]; exact hSp
  exact ⟨hk0, hk1, _, _, hS, hfoot, hflat, by rw [hSg]; exact hdel⟩

/-- **C121** For the level track the hypotheses hold: every pixel whose foot lies within a sixteenth of the ground range `D` of the scene center, in range, is found again with an error as stated, with
`κ` sixteen times the squared sine of the elevation angle times the distance relative to `D`; this is always less than 1.  The distance to the foot is at most three times the distance to the scene center. -/
theorem slant_round_trip (H D R v scpRow scpCol rowSS colSS firstRow firstCol : ℝ) (hH : 0 < H) (hD : 0 < D) (hR : 0 < R) (hv : v ≠ 0) (hHDR : R ^ 2 = D ^ 2 + H ^ 2)
    (hrs : rowSS ≠ 0) (hcs : colSS ≠ 0) (G : Geo) (hG : ∀ p, G.toEcf (G.toLle p) = p) (row col t κ : ℝ) (ht : |t| ≤ D / 16) (hrow : (row + firstRow - scpRow) * rowSS = D * t / R)
    (hκ : κ = 16 * (H ^ 2 / R ^ 2) * (|t| / D)) :
    let M := slantModel H D R v scpRow scpCol rowSS colSS firstRow firstCol
    κ < 1 ∧ ∃ S rc', M.toWorld G (row, col) = .ok (some (G.toLle S)) ∧ M.toImage G (G.toLle S) = .ok rc' ∧
      (rowSS * (rc'.1 - row)) ^ 2 + (colSS * (rc'.2 - col)) ^ 2 ≤ max (1 / 100 / (1 - κ)) (κ ^ 9 * (3 * |t|)) ^ 2 := by
  intro M
  obtain ⟨hk0, hk1, S, g0, hS, hfoot, hflat, hd⟩ := slant_flat H D R v scpRow scpCol rowSS colSS firstRow firstCol hH hD hR hv hHDR row col t κ ht hrow hκ
  obtain ⟨h1, rc', h2, h3⟩ := round_trip M G (slant_axes hR hHDR) hrs hcs (by simp [M, slantModel]) (row, col) S g0 hS (hG _) hfoot κ hk0 hk1 hflat
  refine ⟨hk1, S, rc', h1, h2, h3.trans ?_⟩
  have hcos : dot M.spn M.conv.uIpn = -1 := slant_cos hR hHDR
  rw [hcos, div_neg, div_one, neg_sq]
  have hm : 0 ≤ max (1 / 100 / (1 - κ)) (κ ^ 9 * norm (sub S g0)) := le_max_of_le_left (div_nonneg (by norm_num) (by linarith))
  refine pow_le_pow_left₀ hm (max_le_max (le_refl _) ?_) 2
  exact mul_le_mul_of_nonneg_left hd (by positivity)

/-- Coordinates of world positions taken as they are. -/
def plainGeo : Geo := ⟨fun p => ⟨p.x, p.y, p.z⟩, fun l => ⟨l.lon, l.lat, l.h⟩⟩

/-- A satellite at 400 kilometers height and 300 kilometers ground range, pixels of half a meter: a pixel 600 meters of ground range behind the scene center comes back with an error of less than 11 millimeters. -/
example : ∃ S rc', (slantModel 400000 300000 500000 7500 1000 2000 (1 / 2) (1 / 2) 100 200).toWorld plainGeo (1620, 7) = .ok (some (plainGeo.toLle S))
    ∧ (slantModel 400000 300000 500000 7500 1000 2000 (1 / 2) (1 / 2) 100 200).toImage plainGeo (plainGeo.toLle S) = .ok rc'
    ∧ (1 / 2 * (rc'.1 - 1620)) ^ 2 + (1 / 2 * (rc'.2 - 7)) ^ 2 ≤ (11 / 1000 : ℝ) ^ 2 := by
  obtain ⟨_, S, rc', h1, h2, h3⟩ := slant_round_trip 400000 300000 500000 7500 1000 2000 (1 / 2) (1 / 2) 100 200 (by norm_num) (by norm_num) (by norm_num) (by norm_num) (by norm_num)
    (by norm_num) (by norm_num) plainGeo (fun _ => rfl) 1620 7 600 _ (by norm_num [abs_of_pos]) (by norm_num) rfl
  refine ⟨S, rc', h1, h2, h3.trans ?_⟩
  rw [abs_of_pos (by norm_num : (0 : ℝ) < 600)]
  norm_num

/-- The hypotheses of `round_trip` and `search_converges` for that pixel: the search needs at most five iterations. -/
example : ∃ S rc p m xy, (slantModel 400000 300000 500000 7500 1000 2000 (1 / 2) (1 / 2) 100 200).toImage plainGeo (plainGeo.toLle S) = .ok rc
    ∧ (slantModel 400000 300000 500000 7500 1000 2000 (1 / 2) (1 / 2) 100 200).search S 9 1 S = .ok (xy, m) ∧ m ≤ 4 + 1
    ∧ (slantModel 400000 300000 500000 7500 1000 2000 (1 / 2) (1 / 2) 100 200).toWorld plainGeo rc = .ok (some (plainGeo.toLle p)) ∧ sqDist S p ≤ (1 / 100) ^ 2 := by
  obtain ⟨hk0, hk1, S, g0, hS, hfoot, hflat, hd⟩ := slant_flat 400000 300000 500000 7500 1000 2000 (1 / 2) (1 / 2) 100 200 (by norm_num) (by norm_num) (by norm_num) (by norm_num) (by norm_num)
    1620 7 600 _ (by norm_num [abs_of_pos]) (by norm_num) rfl
  have hu : ¬ ((slantModel 400000 300000 500000 7500 1000 2000 (1 / 2) (1 / 2) 100 200).plane.u.x = 0 ∧ (slantModel 400000 300000 500000 7500 1000 2000 (1 / 2) (1 / 2) 100 200).plane.u.y = 0
      ∧ (slantModel 400000 300000 500000 7500 1000 2000 (1 / 2) (1 / 2) 100 200).plane.u.z = 0) := by simp [slantModel]
  refine ⟨S, search_converges _ plainGeo (by norm_num [slantModel]) (by norm_num [slantModel]) hu S g0 (project_onPlane hu hS) rfl _ hk0 hk1 hflat 4 (by norm_num) ?_⟩
  rw [abs_of_pos (by norm_num : (0 : ℝ) < 600)] at hd ⊢
  have := norm_nonneg (sub S g0)
  norm_num
  linarith

end Verif.Props.SicdRoundTrip
