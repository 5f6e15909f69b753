import Verif.Props.SicdDem

/-!
# The side of the track on which terrain is found

`side k.P k.V k.P p` is positive for points `p` to the left of a platform at `k.P` that flies along `k.V`, negative to the right.
-/

namespace Verif.Props.SicdSide

open Verif.Sicd Verif.Sicd.V3 Verif.Spec.Sicd Verif.Props.Sicd Verif.Props.SicdSurface Verif.Props.SicdDem

theorem side_eq_dot (P V q : V3) : side P V P q = dot (sub q P) (cross P V) := by
  simp only [side, dot, sub, cross]; ring

theorem point_side {k : Contour} (h : Independent k.P k.V) (look c : ℝ) :
    ∃ w : ℝ, 0 < w ∧ side k.P k.V k.P ((circleOf k).point look c) = look * ((circleOf k).radius * √(1 - c * c) * w) := by
  have h' := (independent_iff _ _).1 h
  have hV := norm_pos (ne_zero_of_independent h)
  have hP0 : dot k.P k.P ≠ 0 := by
    intro e
    rw [dot_self_eq_zero] at e
    rw [e] at h'
    simp [dot, cross] at h'
  have hP := norm_pos hP0
  obtain ⟨a, ha, hc⟩ : ∃ a : ℝ, 0 < a ∧ cross (unit k.P) (smul (1 / norm k.V) k.V) = smul a (cross k.P k.V) :=
    ⟨1 / norm k.P * (1 / norm k.V), by positivity, by ext <;> simp only [cross, unit, smul] <;> ring⟩
  have hcne : dot (smul a (cross k.P k.V)) (smul a (cross k.P k.V)) ≠ 0 := by
    rw [dot_smul_left, dot_smul_right]
    exact mul_ne_zero ha.ne' (mul_ne_zero ha.ne' h')
  obtain ⟨b, hb, hey⟩ : ∃ b : ℝ, 0 < b ∧ (circleOf k).ey = smul b (cross k.P k.V) := by
    refine ⟨1 / norm (smul a (cross k.P k.V)) * a, mul_pos (one_div_pos.2 (norm_pos hcne)) ha, ?_⟩
    have : (circleOf k).ey = unit (cross (unit k.P) (smul (1 / norm k.V) k.V)) := rfl
    rw [this, hc]
    ext <;> simp only [unit, smul] <;> ring
  have hex : dot (circleOf k).ex (cross k.P k.V) = 0 := by
    have : (circleOf k).ex = cross (circleOf k).ey (smul (1 / norm k.V) k.V) := rfl
    rw [this, hey]
    simp only [dot, cross, smul]; ring
  obtain ⟨q, hq⟩ : ∃ q : ℝ, (circleOf k).ctr = add k.P (smul q k.V) :=
    ⟨k.r * (-1 * k.rdot / norm k.V) * (1 / norm k.V), by
      have : (circleOf k).ctr = add k.P (smul (k.r * (-1 * k.rdot / norm k.V)) (smul (1 / norm k.V) k.V)) := rfl
      rw [this]; ext <;> simp only [add, smul] <;> ring⟩
  refine ⟨b * dot (cross k.P k.V) (cross k.P k.V), mul_pos hb (lt_of_le_of_ne (dot_self_nonneg _) (Ne.symm h')), ?_⟩
  have hv : dot k.V (cross k.P k.V) = 0 := by simp only [dot, cross]; ring
  have e : sub ((circleOf k).point look c) k.P = add (smul q k.V) (smul (circleOf k).radius (add (smul c (circleOf k).ex) (smul (look * √(1 - c * c)) (circleOf k).ey))) := by
    rw [Circle.point, hq]
    ext <;> simp only [sub, add, smul] <;> ring
  rw [side_eq_dot, e, dot_add_left, dot_smul_left, hv, dot_smul_left, dot_add_left, dot_smul_left, hex, dot_smul_left, hey, dot_smul_left]
  ring

/-- A point of the range and range rate of the contour, on the side in question, is the point of the circle with its own cosine. -/
theorem point_of_seen {k : Contour} (h : Independent k.P k.V) (hr : 0 < (circleOf k).radius) (hrate : k.rdot ^ 2 ≤ dot k.V k.V) {look : ℝ} (hl : look = 1 ∨ look = -1) {q : V3}
    (hq : Seen k.P k.V k.r k.rdot q) (hs : 0 ≤ look * side k.P k.V k.P q) :
    (circleOf k).point look ((circleOf k).cosine q) = q := by
  obtain ⟨h1, h2, h3, h4, h5, h6⟩ := circle_frame h
  have h' := (independent_iff _ _).1 h
  have hV0 := ne_zero_of_independent h
  have hV := norm_pos hV0
  have hvv := norm_mul_self k.V
  obtain ⟨w, hw, hw'⟩ : ∃ w : ℝ, 0 < w ∧ ∀ q, side k.P k.V k.P q = w * dot (sub q (circleOf k).ctr) (circleOf k).ey := by
    have hP0 : dot k.P k.P ≠ 0 := by
      intro e
      rw [dot_self_eq_zero] at e
      rw [e] at h'
      simp [dot, cross] at h'
    have hP := norm_pos hP0
    have hc : cross (unit k.P) (smul (1 / norm k.V) k.V) = smul (1 / norm k.P * (1 / norm k.V)) (cross k.P k.V) := by
      ext <;> simp only [cross, unit, smul] <;> ring
    have ha : 0 < 1 / norm k.P * (1 / norm k.V) := by positivity
    generalize 1 / norm k.P * (1 / norm k.V) = a at ha hc
    have hcne : dot (smul a (cross k.P k.V)) (smul a (cross k.P k.V)) ≠ 0 := by
      rw [dot_smul_left, dot_smul_right]
      exact mul_ne_zero ha.ne' (mul_ne_zero ha.ne' h')
    have hn := norm_pos hcne
    refine ⟨norm (smul a (cross k.P k.V)) / a, by positivity, fun q => ?_⟩
    have e1 : (circleOf k).ey = smul (1 / norm (smul a (cross k.P k.V))) (smul a (cross k.P k.V)) := by
      have : (circleOf k).ey = unit (cross (unit k.P) (smul (1 / norm k.V) k.V)) := rfl
      rw [this, hc, unit]
    have e2 : (circleOf k).ctr = add k.P (smul (k.r * (-1 * k.rdot / norm k.V)) (smul (1 / norm k.V) k.V)) := rfl
    rw [e1, dot_smul_right, dot_smul_right, side_eq_dot, e2]
    have e3 : dot (sub q (add k.P (smul (k.r * (-1 * k.rdot / norm k.V)) (smul (1 / norm k.V) k.V)))) (cross k.P k.V) = dot (sub q k.P) (cross k.P k.V) := by
      simp only [dot, sub, add, smul, cross]; ring
    rw [e3]
    field_simp
  rw [hw'] at hs
  -- coordinates of the point relative to the center
  obtain ⟨hd, hv⟩ := hq
  rw [sqDist_eq] at hd
  rw [along_eq] at hv
  have hctr : (circleOf k).ctr = add k.P (smul (k.r * (-1 * k.rdot / norm k.V)) (smul (1 / norm k.V) k.V)) := rfl
  have hrad : (circleOf k).radius = k.r * √(1 - -1 * k.rdot / norm k.V * (-1 * k.rdot / norm k.V)) := rfl
  have hcd : 0 ≤ 1 - -1 * k.rdot / norm k.V * (-1 * k.rdot / norm k.V) := by
    have : -1 * k.rdot / norm k.V * (-1 * k.rdot / norm k.V) = k.rdot ^ 2 / dot k.V k.V := by
      rw [← hvv]; field_simp
    rw [this, sub_nonneg, div_le_one (by rw [← hvv]; positivity)]
    exact hrate
  have hvq : dot (sub q k.P) (smul (1 / norm k.V) k.V) = k.r * (-1 * k.rdot / norm k.V) := by
    have : dot (sub q k.P) k.V = -(k.r * k.rdot) := by rw [← hv]; simp only [dot, sub]; ring
    rw [dot_smul_right, this]; field_simp
  have hz : dot (sub q (circleOf k).ctr) (smul (1 / norm k.V) k.V) = 0 := by
    have : sub q (circleOf k).ctr = sub (sub q k.P) (smul (k.r * (-1 * k.rdot / norm k.V)) (smul (1 / norm k.V) k.V)) := by
      rw [hctr]; ext <;> simp only [sub, add, smul] <;> ring
    rw [this, dot_sub_left, dot_smul_left, h1, hvq]; ring
  have hlen : dot (sub q (circleOf k).ctr) (sub q (circleOf k).ctr) = (circleOf k).radius * (circleOf k).radius := by
    have e1 : sub q (circleOf k).ctr = sub (sub q k.P) (smul (k.r * (-1 * k.rdot / norm k.V)) (smul (1 / norm k.V) k.V)) := by
      rw [hctr]; ext <;> simp only [sub, add, smul] <;> ring
    have e2 : dot (sub q k.P) (sub q k.P) = k.r ^ 2 := by rw [← hd]; simp only [dot, sub]; ring
    have e3 : ∀ (d u : V3) (t : ℝ), dot (sub d (smul t u)) (sub d (smul t u)) = dot d d - 2 * t * dot d u + t * t * dot u u := by
      intro d u t; simp only [dot, sub, smul]; ring
    have e4 := Real.mul_self_sqrt hcd
    rw [e1, e3, e2, hvq, h1, hrad]
    generalize √(1 - -1 * k.rdot / norm k.V * (-1 * k.rdot / norm k.V)) = y at *
    linear_combination (-(k.r ^ 2)) * e4
  have hex : (circleOf k).ex = cross (circleOf k).ey (smul (1 / norm k.V) k.V) := rfl
  have key := expand_orthonormal h2 h1 h4 (sub q (circleOf k).ctr)
  rw [← hex, hz] at key
  have hcos : (circleOf k).cosine q = dot (sub q (circleOf k).ctr) (circleOf k).ex / (circleOf k).radius := rfl
  generalize hD : sub q (circleOf k).ctr = D at *
  have hαβ : dot D (circleOf k).ex * dot D (circleOf k).ex + dot D (circleOf k).ey * dot D (circleOf k).ey = (circleOf k).radius * (circleOf k).radius := by
    have h7 := dot_comm (circleOf k).ey (circleOf k).ex
    rw [h6] at h7
    rw [← hlen]
    conv_rhs => rw [key]
    simp only [dot_add_left, dot_add_right, dot_smul_left, dot_smul_right, h2, h3, h6, h7]
    ring
  rw [hcos]
  generalize dot D (circleOf k).ex = α at *
  generalize dot D (circleOf k).ey = β at *
  have hβ : 0 ≤ look * β := by
    have : look * (w * β) = w * (look * β) := by ring
    rw [this] at hs
    exact nonneg_of_mul_nonneg_right hs hw
  have hroot : look * √(1 - α / (circleOf k).radius * (α / (circleOf k).radius)) = β / (circleOf k).radius := by
    have : 1 - α / (circleOf k).radius * (α / (circleOf k).radius) = (look * β / (circleOf k).radius) ^ 2 := by
      have hl2 : look * look = 1 := by rcases hl with rfl | rfl <;> norm_num
      have : (look * β / (circleOf k).radius) ^ 2 = β * β / ((circleOf k).radius * (circleOf k).radius) := by
        rw [div_pow, mul_pow, pow_two look, hl2]; ring
      rw [this, ← sub_eq_zero]
      field_simp
      linarith
    rw [this, Real.sqrt_sq (by positivity)]
    have hl2 : look * look = 1 := by rcases hl with rfl | rfl <;> norm_num
    rw [← mul_div_assoc, ← mul_assoc, hl2, one_mul]
  have hqe : q = add (circleOf k).ctr D := by rw [← hD]; ext <;> simp only [sub, add] <;> ring
  rw [Circle.point, hroot, hqe, key]
  ext <;> simp only [add, smul] <;> field_simp <;> ring

/-- **C124** The samples start at the lowest elevation and go beyond the highest: where the constant height projections to these elevations give points of the contour on the side in question, the first sample is the one for the
lowest elevation and the last one is farther from the center of the Earth than the one for the highest. -/
theorem samples_from_lowest (G : Geo) (scp : V3) (right : Bool) (dem : DemModel) (maxAdjacent lim : ℝ) (k : Contour) (ps : List V3) (hm : 0 < maxAdjacent) (hr : 0 < k.r)
    (h : demToGround G scp right dem maxAdjacent lim k = .ok ps) :
    ∃ s cosA cosB step a b, Sampled G scp right dem maxAdjacent k s cosA cosB step ∧ (∃ m, haeToGround G scp right s.highest 1 3 k = .ok (some (a, m))) ∧ (∃ m, haeToGround G scp right s.lowest 1 3 k = .ok (some (b, m)))
      ∧ ∀ look : ℝ, look = (if right then -1 else 1) → ∀ pts, pts = (List.range (samples cosA cosB step).toNat).map (fun n : Nat => (circleOf k).point look (cosB + n * step)) →
        0 < s.postSpacing → 0 < cosB → cosA ≤ cosB → -cosB ≤ cosB + ((samples cosA cosB step - 1 : Int) : ℝ) * step →
        (Seen k.P k.V k.r k.rdot b → 0 ≤ look * side k.P k.V k.P b → pts.head? = some b)
        ∧ (Seen k.P k.V k.r k.rdot a → 0 ≤ look * side k.P k.V k.P a → ∀ q, pts.getLast? = some q → sqDist ⟨0, 0, 0⟩ a < sqDist ⟨0, 0, 0⟩ q) := by
  obtain ⟨s, cosA, cosB, step, hS, -⟩ := demToGround_ok h
  obtain ⟨a, ma, ha, hA⟩ := hS.a
  obtain ⟨b, mb, hb, hB⟩ := hS.b
  refine ⟨s, cosA, cosB, step, a, b, hS, ⟨ma, ha⟩, ⟨mb, hb⟩, ?_⟩
  intro look hlook pts hpts hsp hcB hAB hend
  have hl : look = 1 ∨ look = -1 := by cases right <;> simp [hlook]
  have hrad : 0 < (circleOf k).radius := lt_of_le_of_ne (mul_nonneg hr.le (Real.sqrt_nonneg _)) (Ne.symm hS.radius)
  have hB1 := abs_le.1 hS.cos_le
  obtain ⟨hstep, -, -, -⟩ := step_bounds hm hsp hrad hcB hB1.2 hS.step_eq hS.step_ne
  obtain ⟨hN2, hlast, -⟩ := samples_span cosA cosB step hstep hAB
  obtain ⟨N, hN⟩ : ∃ N : Nat, samples cosA cosB step = ((N + 1 : Nat) : Int) := ⟨(samples cosA cosB step - 1).toNat, by omega⟩
  have hcast : (((samples cosA cosB step - 1 : Int)) : ℝ) = (N : ℝ) := by rw [hN]; push_cast; ring
  rw [hcast] at hlast hend
  have htoNat : (samples cosA cosB step).toNat = N + 1 := by omega
  rw [htoNat] at hpts
  constructor
  · intro h1 h2
    rw [hpts, List.range_succ_eq_map]
    simp only [List.map_cons, List.head?_cons, Nat.cast_zero, zero_mul, add_zero, Option.some.injEq]
    rw [hB]
    exact point_of_seen hS.indep hrad hS.rate hl h1 h2
  · intro h1 h2 q hq
    rw [hpts, List.range_succ] at hq
    simp only [List.map_append, List.map_cons, List.map_nil, List.getLast?_append, List.getLast?_singleton, Option.some_or, Option.some.injEq] at hq
    have e := point_of_seen hS.indep hrad hS.rate hl h1 h2
    rw [← hA] at e
    obtain ⟨A, B, hB0, hd⟩ := point_dist hS.indep hrad hl
    rw [← e, ← hq, hd _ (by nlinarith), hd _ (by nlinarith)]
    nlinarith

/-- The points of the projection to terrain are all on the side that it was made for. -/
theorem terrain_points_side (G : Geo) (scp : V3) (right : Bool) (dem : DemModel) (maxAdjacent lim : ℝ) (k : Contour) (ps : List V3) (hr : 0 ≤ k.r)
    (h : demToGround G scp right dem maxAdjacent lim k = .ok ps) (p : V3) (hp : p ∈ ps) :
    (right = true → side k.P k.V k.P p ≤ 0) ∧ (right = false → 0 ≤ side k.P k.V k.P p) := by
  obtain ⟨s, cosA, cosB, step, hS, rfl⟩ := demToGround_ok h
  simp only [demPoints, List.mem_map] at hp
  obtain ⟨u, -, rfl⟩ := hp
  obtain ⟨w, hw, e⟩ := point_side hS.indep (if right then -1 else 1) (cosB + u * step)
  have hrad : 0 ≤ (circleOf k).radius := mul_nonneg hr (Real.sqrt_nonneg _)
  have h0 : 0 ≤ (circleOf k).radius * √(1 - (cosB + u * step) * (cosB + u * step)) * w := mul_nonneg (mul_nonneg hrad (Real.sqrt_nonneg _)) hw.le
  rw [e]
  constructor <;> rintro rfl <;> simp <;> linarith

/-- What `image_to_world` answers with an elevation model is one of the points of the projection. -/
theorem toWorldDem_ok {M : Model} {G : Geo} {right : Bool} {dem : DemModel} {rc : ℝ × ℝ} {l : Lle} (h : M.toWorldDem G right dem rc = .ok l) :
    ∃ ps p, demToGround G M.conv.scp right dem 10 (1 / 1000) (M.coa.contour (M.conv.toGrid (rc.1 + M.conv.firstRow, rc.2 + M.conv.firstCol))) = .ok ps ∧ p ∈ ps ∧ l = G.toLle p := by
  unfold Model.toWorldDem at h
  cases hps : demToGround G M.conv.scp right dem 10 (1 / 1000) (M.coa.contour (M.conv.toGrid (rc.1 + M.conv.firstRow, rc.2 + M.conv.firstCol))) with
  | error e => rw [hps] at h; simp [bind, Except.bind] at h
  | ok ps =>
    rw [hps] at h
    cases ps with
    | nil => simp [bind, Except.bind] at h
    | cons p ps =>
      simp only [bind, Except.bind, Except.ok.injEq] at h
      exact ⟨_, p, rfl, by simp, h.symm⟩

/-- **C126** (in part) With an elevation model, a pixel of a SICD image is located on the side of the track that the metadata names, and a pixel of a SIDD image on the left.

Missing for the full claim: SIDD images of a radar that looks to the right, see `right_looking_sidd_misplaced`. -/
theorem terrain_side_partial (G : Geo) (dem : DemModel) (rc : ℝ × ℝ) (l : Lle) :
    (∀ m : Meta, m.toWorldDem G dem rc = .ok l → ∃ M, m.build G = some (.model M) ∧
      ∀ k, k = M.coa.contour (M.conv.toGrid (rc.1 + M.conv.firstRow, rc.2 + M.conv.firstCol)) → 0 ≤ k.r →
        ∃ p, l = G.toLle p ∧ (m.right = true → side k.P k.V k.P p ≤ 0) ∧ (m.right = false → 0 ≤ side k.P k.V k.P p))
    ∧ ∀ s : Sidd, s.toWorldDem G dem rc = .ok l →
      ∀ k, k = (s.model G).coa.contour ((s.model G).conv.toGrid rc) → 0 ≤ k.r → ∃ p, l = G.toLle p ∧ 0 ≤ side k.P k.V k.P p := by
  constructor
  · intro m h
    unfold Meta.toWorldDem at h
    cases hb : m.build G with
    | none => rw [hb] at h; simp at h
    | some b =>
      rw [hb] at h
      cases b with
      | noProjection c => simp at h
      | model M =>
        simp only at h
        refine ⟨M, rfl, fun k hk hr => ?_⟩
        subst hk
        obtain ⟨ps, p, h1, h2, h3⟩ := toWorldDem_ok h
        exact ⟨p, h3, terrain_points_side _ _ _ _ _ _ _ ps hr h1 p h2⟩
  · intro s h k hk hr
    obtain ⟨ps, p, h1, h2, h3⟩ := toWorldDem_ok h
    have e : (s.model G).conv.toGrid (rc.1 + (s.model G).conv.firstRow, rc.2 + (s.model G).conv.firstCol) = (s.model G).conv.toGrid rc := by
      simp [Sidd.model, Model.new]
    rw [e, ← hk] at h1
    exact ⟨p, h3, (terrain_points_side _ _ _ _ _ _ k ps hr h1 p h2).2 rfl⟩

/-- **C126** is false for SIDD images of a radar that looks to the right: when the pixel is to the right of the track (as its location without an elevation model shows), the location with an elevation
model is that of a point at least as far away from there as the distance of the right location to the vertical plane of the track, whatever the terrain. -/
theorem right_looking_sidd_misplaced (G : Geo) (s : Sidd) (dem : DemModel) (rc : ℝ × ℝ) (l : Lle) (k : Contour) (p0 : V3)
    (hk : k = (s.model G).coa.contour ((s.model G).conv.toGrid rc)) (hr : 0 ≤ k.r) (hp0 : (s.model G).plane.toGround k = .ok (some p0)) (hright : side k.P k.V k.P p0 < 0)
    (h : s.toWorldDem G dem rc = .ok l) :
    ∃ p, l = G.toLle p ∧ 0 ≤ side k.P k.V k.P p ∧ (∀ d, 0 ≤ d → d ^ 2 * dot (cross k.P k.V) (cross k.P k.V) = side k.P k.V k.P p0 ^ 2 → d ^ 2 ≤ sqDist p p0) := by
  obtain ⟨p, h1, h2⟩ := (terrain_side_partial G dem rc l).2 s h k hk hr
  refine ⟨p, h1, h2, fun d hd he => ?_⟩
  rw [side_eq_dot] at h2 hright he
  have hn : 0 < dot (cross k.P k.V) (cross k.P k.V) := by
    refine lt_of_le_of_ne (dot_self_nonneg _) fun e => ?_
    rw [eq_comm, dot_self_eq_zero] at e
    rw [e] at hright
    simp [dot] at hright
  have e : dot (sub p k.P) (cross k.P k.V) - dot (sub p0 k.P) (cross k.P k.V) = dot (sub p p0) (cross k.P k.V) := by
    simp only [dot, sub]; ring
  have h3 : dot (sub p0 k.P) (cross k.P k.V) ^ 2 ≤ dot (sub p p0) (cross k.P k.V) ^ 2 := by nlinarith
  have h4 := dot_self_nonneg (cross (sub p p0) (cross k.P k.V))
  rw [dot_cross_self] at h4
  rw [sqDist_eq]
  have : d ^ 2 * dot (cross k.P k.V) (cross k.P k.V) ≤ dot (sub p p0) (sub p p0) * dot (cross k.P k.V) (cross k.P k.V) := by nlinarith
  exact le_of_mul_le_mul_right this hn

/-! ## The image of the plain, seen to the right -/

theorem flat_points (right : Bool) : demToGround flatGeo ⟨3, 1, 0⟩ right flatDem 10 (1 / 1000) flatContour
    = .ok [(circleOf flatContour).point (if right then -1 else 1) (4 / 5 + 1 / 2 * -(1 / 5))] := by
  have hs : √(9 / 25 : ℝ) = 3 / 5 := by rw [show (9 / 25 : ℝ) = (3 / 5) ^ 2 by norm_num]; exact Real.sqrt_sq (by norm_num)
  have e2 := flat_hae_side right 3 4 (.inr ⟨rfl, rfl⟩)
  have e3 := flat_hae_side right 2 3 (.inl ⟨rfl, rfl⟩)
  simp only [demToGround, flatDem, e2, e3, bind, Except.bind]
  have cA : (circleOf flatContour).cosine ⟨1 + 3, 4, 0⟩ = 3 / 5 := by rw [flat_circle]; norm_num [Circle.cosine, dot, V3.sub]
  have cB : (circleOf flatContour).cosine ⟨1 + 2, 3, 0⟩ = 4 / 5 := by rw [flat_circle]; norm_num [Circle.cosine, dot, V3.sub]
  have hst : demStep 10 (8 / 3) (circleOf flatContour).radius (4 / 5) = -(1 / 5) := by
    rw [flat_circle]; norm_num [demStep, stepOf, hs]
  have hN : samples (3 / 5) (4 / 5) (-(1 / 5)) = 3 := by norm_num [samples]
  have hx : ∀ look c, ((circleOf flatContour).point look c).x = 7 - 5 * c := by
    intro look c; rw [flat_circle]; simp only [Circle.point, add, smul]; ring
  have h3 : List.range 3 = [0, 1, 2] := by decide
  have hscan : scan (1 / 1000) 0 none [(-(1 / 2) : ℝ), 1 / 2, 3 / 2] = [1 / 2] := by
    norm_num [scan, indicator, abs_of_neg]
  rw [cA, cB, hst, if_neg (by rw [flat_circle]; norm_num [flatContour, dot, cross, abs_of_pos]), if_neg (by norm_num)]
  have hh : List.map (heightAbove flatGeo fun _ _ => some (5 / 2)) (List.map (fun n : Nat => (circleOf flatContour).point (if right then -1 else 1) (4 / 5 + (n : ℝ) * -(1 / 5))) [0, 1, 2])
      = [(-(1 / 2) : ℝ), 1 / 2, 3 / 2] := by
    simp only [List.map_cons, List.map_nil, heightAbove, flatGeo, hx, Option.getD_some]
    norm_num
  simp only [Except.ok.injEq, demPoints, hN, show (3 : Int).toNat = 3 from rfl, h3]
  rw [hh, hscan]
  rfl

/-- The premises of `samples_from_lowest` are met: the points for the elevations 2 and 3 are (3, 3, 0) and (4, 4, 0), on the right. -/
example : (∃ ps, demToGround flatGeo ⟨3, 1, 0⟩ true flatDem 10 (1 / 1000) flatContour = .ok ps) ∧ Seen flatContour.P flatContour.V flatContour.r flatContour.rdot ⟨3, 3, 0⟩
    ∧ 0 ≤ -1 * side flatContour.P flatContour.V flatContour.P ⟨3, 3, 0⟩ ∧ (∃ m, haeToGround flatGeo ⟨3, 1, 0⟩ true 2 1 3 flatContour = .ok (some (⟨1 + 2, 3, 0⟩, m))) :=
  ⟨⟨_, flat_points true⟩, by constructor <;> norm_num [sqDist, along, flatContour], by norm_num [side, flatContour], ⟨1, flat_hae 2 3 (.inl ⟨rfl, rfl⟩)⟩⟩

/-- The image of `flatModel` as SIDD metadata. -/
noncomputable def flatSidd : Sidd := ⟨⟨3, 1, 0⟩, 0, 0, [[0]], ⟨[7], [0], [0, 1]⟩, ⟨0, 1, 0⟩, ⟨0, 0, 1⟩, 1, 1⟩

theorem flatSidd_contour : (flatSidd.model flatGeo).coa.contour ((flatSidd.model flatGeo).conv.toGrid (2, 0)) = flatContour := flat_contour

/-- The premises of `right_looking_sidd_misplaced` are met: the pixel is at (3, 3, 0), 3 to the right of the track, and over the terrain of `flatDem` it is located 3.57 to the left. -/
example : ∃ l p0, (flatSidd.model flatGeo).plane.toGround flatContour = .ok (some p0) ∧ side flatContour.P flatContour.V flatContour.P p0 < 0 ∧ flatSidd.toWorldDem flatGeo flatDem (2, 0) = .ok l := by
  have hu : unit ⟨1, 0, 0⟩ = ⟨1, 0, 0⟩ := unit_of_unit (by norm_num [dot])
  have hc : cross ⟨0, 1, 0⟩ ⟨0, 0, 1⟩ = (⟨1, 0, 0⟩ : V3) := by norm_num [cross]
  have hpl : (flatSidd.model flatGeo).plane = ⟨⟨3, 1, 0⟩, ⟨1, 0, 0⟩⟩ := by
    simp only [Sidd.model, Model.new, flatSidd, groundNormal, Plane.new, hc, hu]
    norm_num [dot, hu]
  refine ⟨flatGeo.toLle ((circleOf flatContour).point 1 (4 / 5 + 1 / 2 * -(1 / 5))), ⟨3, 3, 0⟩, ?_, by norm_num [side, flatContour], ?_⟩
  · rw [hpl]
    apply ground_point_found
    · norm_num [flatContour]
    · right; left; norm_num [flatContour]
    · right; right; norm_num [V3.sub, flatContour]
    · norm_num [OnPlane, along]
    · constructor <;> norm_num [sqDist, along, flatContour]
    · right; norm_num [side, flatContour]
  · have e : (flatSidd.model flatGeo).coa.contour ((flatSidd.model flatGeo).conv.toGrid (2 + (flatSidd.model flatGeo).conv.firstRow, 0 + (flatSidd.model flatGeo).conv.firstCol)) = flatContour := by
      rw [← flatSidd_contour]; simp [Sidd.model, Model.new]
    have hs : (flatSidd.model flatGeo).conv.scp = ⟨3, 1, 0⟩ := rfl
    simp only [Sidd.toWorldDem, Model.toWorldDem, e, hs, flat_points, bind, Except.bind]
    rfl

/-- The same image as SICD metadata, which name the right side. -/
noncomputable def flatMeta : Meta where
  scp := ⟨3, 1, 0⟩
  scpRow := 0
  scpCol := 0
  firstRow := 0
  firstCol := 0
  uRow := ⟨0, 1, 0⟩
  uCol := ⟨0, 0, 1⟩
  rowSS := 1
  colSS := 1
  timeCoa := ⟨0, 0, []⟩
  arp := ⟨⟨0, [(0, 7)]⟩, ⟨0, []⟩, ⟨1, [(1, 1)]⟩⟩
  gridType := .plane
  algo := .other
  pfa := none
  rgAzComp := none
  inca := none
  arpPos := ⟨7, 0, 0⟩
  arpVel := ⟨0, 0, 1⟩
  right := true

/-- The premises of `terrain_side_partial` are met: the SICD image locates the pixel to the right. -/
example : ∃ l, flatMeta.toWorldDem flatGeo flatDem (2, 0) = .ok l ∧ 0 ≤ flatContour.r := by
  refine ⟨flatGeo.toLle ((circleOf flatContour).point (-1) (4 / 5 + 1 / 2 * -(1 / 5))), ?_, by norm_num [flatContour]⟩
  obtain ⟨M, hM, h1, h2⟩ : ∃ M, flatMeta.build flatGeo = some (.model M) ∧ M.conv = flatModel.conv ∧ M.coa = flatModel.coa := ⟨_, rfl, rfl, rfl⟩
  have e : flatModel.coa.contour (flatModel.conv.toGrid (2 + flatModel.conv.firstRow, 0 + flatModel.conv.firstCol)) = flatContour := by
    rw [← flat_contour]; simp [flatModel]
  have hs : flatModel.conv.scp = ⟨3, 1, 0⟩ := rfl
  have hr : flatMeta.right = true := rfl
  simp only [Meta.toWorldDem, hM, Model.toWorldDem, h1, h2, e, hs, hr, flat_points, bind, Except.bind, if_true]

end Verif.Props.SicdSide
