import Verif.Lemmas.Nearby
import Verif.Spec.Nearby
import Verif.Props.Rpc

/-!
# Theorems about the accuracy of searched ground points
-/

namespace Verif.Props.Nearby

open Verif.Lemmas.Nearby Verif.Spec.Nearby Verif.Spec.Rpc Verif.Rpc Verif.Sensors Verif.Props.Rpc
open Verif.Dem (Geo)

theorem cubic_change {b s d l p h l' p' h' : ℝ} (H : Close b s d l p h l' p' h') (c : List ℝ) :
    |cubic c l p h - cubic c l' p' h'| ≤ variation c b s * d := by
  unfold cubic variation
  generalize c.zip rpc00b = ts
  induction ts with
  | nil => simp
  | cons t ts ih =>
    simp only [List.map_cons, List.sum_cons]
    have m := monomial_change H.hl H.hp H.hh H.hl' H.hp' H.hh' H.dl H.dp H.dh t.2.1 t.2.2.1 t.2.2.2
    have m' := mul_le_mul_of_nonneg_left m (abs_nonneg t.1)
    rw [← abs_mul] at m'
    have e : ∀ A B A' B' : ℝ, A + B - (A' + B') = (A - A') + (B - B') := by intros; ring
    rw [e]
    refine le_trans (abs_add_le _ _) ?_
    rw [add_mul]
    refine add_le_add ?_ ih
    rw [← mul_sub]
    refine le_trans m' (le_of_eq ?_)
    ring

theorem cubic_split {c : List ℝ} (hc : c.length = 20) (l p h : ℝ) : cubic c l p h = straight c l p + cubic (bent c) l p h := by
  match c, hc with
  | [c0, c1, c2, c3, c4, c5, c6, c7, c8, c9, c10, c11, c12, c13, c14, c15, c16, c17, c18, c19], _ =>
    simp only [cubic, straight, bent, rpc00b, List.set, List.getD_cons_succ, List.getD_cons_zero, List.zip_cons_cons, List.zip_nil_left,
      List.map_cons, List.map_nil, List.sum_cons, List.sum_nil]
    ring

theorem bends_rational {num den : List ℝ} {b s steep q most gain : ℝ} (B : Bends num den b s steep q most gain) :
    Rational (cubic num) (cubic den) (num.getD 1 0) (num.getD 2 0) (variation (bent num) b s) (variation den b s) b s steep q most gain := by
  refine ⟨?_, fun H => cubic_change H den, B.den_ne, B.den_le, B.quotient, B.slack⟩
  intro d l p h l' p' h' H
  have e1 := cubic_split B.lengths.1 l p h
  have e2 := cubic_split B.lengths.1 l' p' h'
  have e : cubic num l p h - (num.getD 1 0 * l + num.getD 2 0 * p) - (cubic num l' p' h' - (num.getD 1 0 * l' + num.getD 2 0 * p'))
      = cubic (bent num) l p h - cubic (bent num) l' p' h' := by
    rw [e1, e2]; unfold straight; ring
  rw [e]
  exact cubic_change H (bent num)

theorem variation_nonneg (c : List ℝ) {b s : ℝ} (hb : 0 ≤ b) (hs : 0 ≤ s) : 0 ≤ variation c b s := by
  unfold variation
  refine List.sum_nonneg ?_
  intro y hy
  obtain ⟨t, _, rfl⟩ := List.mem_map.mp hy
  positivity

theorem rpc_camera {r : RpcModel} {b s steep q most gain : ℝ} (N : NearlyAffine r b s steep q most gain) {e : Option (Elev ℝ)}
    {height : ℝ → ℝ → ℝ} (S : Surface r e b s height) :
    Camera (cubic r.sampNum) (cubic r.sampDen) (cubic r.lineNum) (cubic r.lineDen) (r.sampNum.getD 1 0) (r.sampNum.getD 2 0) (r.lineNum.getD 1 0)
      (r.lineNum.getD 2 0) (variation (bent r.sampNum) b s) (variation r.sampDen b s) (variation (bent r.lineNum) b s) (variation r.lineDen b s)
      b s steep q most gain height :=
  ⟨bends_rational N.samp, bends_rational N.line, ⟨variation_nonneg _ N.positive.1.le N.positive.2.1, variation_nonneg _ N.positive.1.le N.positive.2.1⟩,
    N.positive, N.regular, S.inside, S.gentle⟩

theorem projects {r : RpcModel} {b s steep q most gain : ℝ} (N : NearlyAffine r b s steep q most gain) {l p h : ℝ} (hl : |l| ≤ b) (hp : |p| ≤ b)
    (hh : |h| ≤ b) : r.worldToImage ⟨lonOf r l, latOf r p, h * r.heightScale + r.heightOff⟩ =
      .ok (r.sampOff + r.sampScale * (cubic r.sampNum l p h / cubic r.sampDen l p h),
        r.lineOff + r.lineScale * (cubic r.lineNum l p h / cubic r.lineDen l p h)) := by
  have pi0 : Real.pi ≠ 0 := Real.pi_ne_zero
  refine rpc_world_to_image r _ N.line.lengths.1 N.line.lengths.2 N.samp.lengths.1 N.samp.lengths.2 N.scales.1 N.scales.2.1 N.scales.2.2.1 l p h
    ?_ ?_ rfl (N.line.den_ne l p h hl hp hh) (N.samp.den_ne l p h hl hp hh)
  · simp only [lonOf]; field_simp
  · simp only [latOf]; field_simp

/-- **C135**: two places on the ground whose pixels are close are close: the model gains at least `gain / most` normalised pixels per normalised
unit of distance. -/
theorem rpc_pixels_separate_places (r : RpcModel) (b s steep q most gain : ℝ) (N : NearlyAffine r b s steep q most gain) (e : Option (Elev ℝ))
    (height : ℝ → ℝ → ℝ) (S : Surface r e b s height) (l p l' p' : ℝ) (hl : |l| ≤ b) (hp : |p| ≤ b) (hl' : |l'| ≤ b) (hp' : |p'| ≤ b) :
    ∃ g g' x x', ground r.heightOff e (lonOf r l) (latOf r p) = .ok g ∧ ground r.heightOff e (lonOf r l') (latOf r p') = .ok g' ∧
      r.worldToImage g = .ok x ∧ r.worldToImage g' = .ok x' ∧
      gain * max |l - l'| |p - p'| ≤ most * max (|x.1 - x'.1| / |r.sampScale|) (|x.2 - x'.2| / |r.lineScale|) := by
  refine ⟨_, _, _, _, S.ground l p hl hp, S.ground l' p' hl' hp', projects N hl hp (S.inside l p hl hp), projects N hl' hp' (S.inside l' p' hl' hp'), ?_⟩
  have quot : ∀ (o sc u v : ℝ), sc ≠ 0 → |o + sc * u - (o + sc * v)| / |sc| = |u - v| := by
    intro o sc u v h
    have : o + sc * u - (o + sc * v) = sc * (u - v) := by ring
    rw [this, abs_mul]
    exact mul_div_cancel_left₀ _ (by rwa [ne_eq, abs_eq_zero])
  simp only
  rw [quot _ _ _ _ N.scales.2.2.2.1, quot _ _ _ _ N.scales.2.2.2.2]
  exact (rpc_camera N S).separates hl hp hl' hp'

/-- **C135**: every pixel that is seen from inside the box has exactly one place on the ground in the box. -/
theorem rpc_one_place_per_pixel (r : RpcModel) (b s steep q most gain : ℝ) (N : NearlyAffine r b s steep q most gain) (e : Option (Elev ℝ))
    (height : ℝ → ℝ → ℝ) (S : Surface r e b s height) (x : ℝ × ℝ) (hx : Reached r b q gain (height 0 0) x) :
    ∃! u : ℝ × ℝ, (|u.1| ≤ b ∧ |u.2| ≤ b) ∧
      ∃ g, ground r.heightOff e (lonOf r u.1) (latOf r u.2) = .ok g ∧ r.worldToImage g = .ok x := by
  obtain ⟨q1, q2, r1, r2⟩ := hx
  have comp : ∀ (o sc t w : ℝ), sc ≠ 0 → (o + sc * w = t ↔ w = (t - o) / sc) := by
    intro o sc t w hs
    rw [eq_div_iff hs]
    constructor <;> intro h <;> linarith
  have same : ∀ u : ℝ × ℝ, |u.1| ≤ b → |u.2| ≤ b →
      ((∃ g, ground r.heightOff e (lonOf r u.1) (latOf r u.2) = .ok g ∧ r.worldToImage g = .ok x) ↔
        cubic r.sampNum u.1 u.2 (height u.1 u.2) / cubic r.sampDen u.1 u.2 (height u.1 u.2) = sampOf r x.1 ∧
        cubic r.lineNum u.1 u.2 (height u.1 u.2) / cubic r.lineDen u.1 u.2 (height u.1 u.2) = lineOf r x.2) := by
    intro u u1 u2
    have pr := projects N u1 u2 (S.inside _ _ u1 u2)
    have i1 := comp r.sampOff r.sampScale x.1 (cubic r.sampNum u.1 u.2 (height u.1 u.2) / cubic r.sampDen u.1 u.2 (height u.1 u.2)) N.scales.2.2.2.1
    have i2 := comp r.lineOff r.lineScale x.2 (cubic r.lineNum u.1 u.2 (height u.1 u.2) / cubic r.lineDen u.1 u.2 (height u.1 u.2)) N.scales.2.2.2.2
    unfold sampOf lineOf
    rw [← i1, ← i2]
    constructor
    · rintro ⟨g, hg, hw⟩
      rw [S.ground _ _ u1 u2] at hg
      cases hg
      rw [pr] at hw
      simpa only [Except.ok.injEq, Prod.ext_iff] using hw
    · intro h
      refine ⟨_, S.ground _ _ u1 u2, ?_⟩
      rw [pr]
      simpa only [Except.ok.injEq, Prod.ext_iff] using h
  obtain ⟨u, ⟨hu, h1⟩, uniq⟩ := (rpc_camera N S).one_place q1 q2 r1 r2
  refine ⟨u, ⟨hu, (same u hu.1 hu.2).mpr h1⟩, ?_⟩
  rintro v ⟨hv, h2⟩
  exact uniq v ⟨hv, (same v hv.1 hv.2).mp h2⟩

/-- **C135**: if the place that `image_to_world` returns is in the box and its pixel is within `ε` of the given one, then it is within
`most ε / gain` normalised units of the true place, which is on the same surface and has exactly the given pixel. -/
theorem rpc_search_accuracy (minimise : Minimiser) (r : RpcModel) (b s steep q most gain : ℝ) (N : NearlyAffine r b s steep q most gain)
    (e : Option (Elev ℝ)) (height : ℝ → ℝ → ℝ) (S : Surface r e b s height) (x : ℝ × ℝ) (hx : Reached r b q gain (height 0 0) x)
    (o : Option (Dict ℝ)) (l p : ℝ) (z : ℝ) (hfound : (r.model minimise).imageToWorld x e o = .ok ⟨lonOf r l, latOf r p, z⟩)
    (hl : |l| ≤ b) (hp : |p| ≤ b) (y : ℝ × ℝ) (hy : (r.model minimise).worldToImage ⟨lonOf r l, latOf r p, z⟩ = .ok y) (ε : ℝ)
    (h1 : |y.1 - x.1| ≤ ε * |r.sampScale|) (h2 : |y.2 - x.2| ≤ ε * |r.lineScale|) :
    ∃ l0 p0 g0, |l0| ≤ b ∧ |p0| ≤ b ∧ ground r.heightOff e (lonOf r l0) (latOf r p0) = .ok g0 ∧ r.worldToImage g0 = .ok x ∧
      gain * |l - l0| ≤ most * ε ∧ gain * |p - p0| ≤ most * ε := by
  obtain ⟨u, ⟨⟨u1, u2⟩, g0, hg0, hw0⟩, _⟩ := rpc_one_place_per_pixel r b s steep q most gain N e height S x hx
  obtain ⟨start, size, lon, lat, _, _, _, hg⟩ := (rpc_image_to_world minimise r x e o).2 _ hfound
  have same : lon = lonOf r l ∧ lat = latOf r p := by
    unfold ground at hg
    cases e with
    | none => simp only [Except.ok.injEq, Geo.mk.injEq] at hg; exact ⟨hg.1, hg.2.1⟩
    | some f => have := S.keeps f rfl _ _ hg; exact ⟨this.1.symm, this.2.symm⟩
  rw [same.1, same.2] at hg
  obtain ⟨ga, gb, xa, xb, k1, k2, k3, k4, k5⟩ := rpc_pixels_separate_places r b s steep q most gain N e height S l p u.1 u.2 hl hp u1 u2
  rw [hg] at k1; cases k1
  have hy' : r.worldToImage ⟨lonOf r l, latOf r p, z⟩ = .ok y := hy
  rw [hy'] at k3; cases k3
  rw [hg0] at k2; cases k2
  rw [hw0] at k4; cases k4
  have m0 : 0 ≤ most := le_trans (abs_nonneg _) (N.samp.den_le 0 0 0 (by simpa using N.positive.1.le) (by simpa using N.positive.1.le) (by simpa using N.positive.1.le))
  have f1 : |y.1 - x.1| / |r.sampScale| ≤ ε := by rw [div_le_iff₀ (abs_pos.mpr N.scales.2.2.2.1)]; exact h1
  have f2 : |y.2 - x.2| / |r.lineScale| ≤ ε := by rw [div_le_iff₀ (abs_pos.mpr N.scales.2.2.2.2)]; exact h2
  have k6 := le_trans k5 (mul_le_mul_of_nonneg_left (max_le f1 f2) m0)
  refine ⟨u.1, u.2, g0, u1, u2, hg0, hw0, le_trans ?_ k6, le_trans ?_ k6⟩
  · exact mul_le_mul_of_nonneg_left (le_max_left _ _) N.positive.2.2.le
  · exact mul_le_mul_of_nonneg_left (le_max_right _ _) N.positive.2.2.le

/-- A camera with a little perspective and terrain that rises to the east. -/
noncomputable def tilted : RpcModel where
  lineOff := 5000
  sampOff := 6000
  latOff := 40
  longOff := -105
  heightOff := 1600
  lineScale := 5000
  sampScale := 6000
  latScale := 1 / 10
  longScale := 1 / 8
  heightScale := 500
  lineNum := [0, 1 / 25, -19 / 20, 1 / 100, 1 / 100, 0, 0, 0, 0, 0, 0, 0, 0, 0, 0, 0, 0, 0, 0, 0]
  lineDen := [1, 0, 1 / 1000, 0, 0, 0, 0, 0, 0, 0, 0, 0, 0, 0, 0, 0, 0, 0, 0, 0]
  sampNum := [0, 1, 1 / 20, 1 / 100, 0, 0, 0, 1 / 500, 0, 0, 0, 0, 0, 0, 0, 0, 0, 0, 0, 0]
  sampDen := [1, 0, 1 / 1000, 0, 0, 0, 0, 0, 0, 0, 0, 0, 0, 0, 0, 0, 0, 0, 0, 0]

noncomputable def hillside : Elev ℝ := fun g => .ok ⟨g.longitude, g.latitude, (180 / Real.pi * g.longitude + 105) * 8 / 2 * 500 + 1600⟩

theorem tilted_nearly_affine : NearlyAffine tilted 1 (1 / 2) (9 / 10) 2 (1001 / 1000) (17 / 20) := by
  have prod : ∀ {x y : ℝ}, |x| ≤ 1 → |y| ≤ 1 → |x * y| ≤ 1 := by
    intro x y hx hy; rw [abs_mul]; exact mul_le_one₀ hx (abs_nonneg _) hy
  have bend : ∀ num : List ℝ, num.length = 20 → (∀ l p h : ℝ, |l| ≤ 1 → |p| ≤ 1 → |h| ≤ 1 → |cubic num l p h| ≤ 3 / 2) →
      17 / 20 + variation (bent num) 1 (1 / 2) + 2 * variation tilted.sampDen 1 (1 / 2) ≤ 9 / 10 →
      Bends num tilted.sampDen 1 (1 / 2) (9 / 10) 2 (1001 / 1000) (17 / 20) := by
    intro num hn hb hs
    have den : ∀ l p h : ℝ, cubic tilted.sampDen l p h = 1 + 1 / 1000 * p := by
      intro l p h; simp [cubic, tilted, rpc00b]
    have low : ∀ l p h : ℝ, |p| ≤ 1 → 999 / 1000 ≤ cubic tilted.sampDen l p h ∧ cubic tilted.sampDen l p h ≤ 1001 / 1000 := by
      intro l p h hp
      have := abs_le.mp hp
      rw [den]; constructor <;> linarith
    refine ⟨⟨hn, rfl⟩, ?_, ?_, ?_, hs⟩
    · intro l p h _ hp _ h0
      have := (low l p h hp).1
      linarith
    · intro l p h _ hp _
      have := low l p h hp
      rw [abs_of_pos (by linarith)]; exact this.2
    · intro l p h hl hp hh
      have k := low l p h hp
      rw [abs_div, abs_of_pos (show 0 < cubic tilted.sampDen l p h by linarith), div_le_iff₀ (by linarith)]
      have := hb l p h hl hp hh
      linarith
  refine ⟨⟨?_, ?_, ?_, ?_, ?_⟩, ⟨by norm_num, by norm_num, by norm_num⟩, bend _ rfl ?_ ?_, bend _ rfl ?_ ?_, ?_⟩
  · norm_num [tilted]
  · norm_num [tilted]
  · norm_num [tilted]
  · norm_num [tilted]
  · norm_num [tilted]
  · intro l p h hl hp hh
    have e : cubic tilted.sampNum l p h = l + 1 / 20 * p + 1 / 100 * h + 1 / 500 * (l * l) := by
      simp [cubic, tilted, rpc00b]; ring
    have h1 := abs_le.mp hl
    have h2 := abs_le.mp hp
    have h3 := abs_le.mp hh
    have h4 := abs_le.mp (prod hl hl)
    rw [e, abs_le]; constructor <;> linarith
  · norm_num [variation, bent, tilted, rpc00b]
  · intro l p h hl hp hh
    have e : cubic tilted.lineNum l p h = 1 / 25 * l - 19 / 20 * p + 1 / 100 * h + 1 / 100 * (l * p) := by
      simp [cubic, tilted, rpc00b]; ring
    have h1 := abs_le.mp hl
    have h2 := abs_le.mp hp
    have h3 := abs_le.mp hh
    have h4 := abs_le.mp (prod hl hp)
    rw [e, abs_le]; constructor <;> linarith
  · norm_num [variation, bent, tilted, rpc00b]
  · intro l p
    have e1 : straight tilted.sampNum l p = l + 1 / 20 * p := by simp [straight, tilted]
    have e2 : straight tilted.lineNum l p = 1 / 25 * l + -(19 / 20 * p) := by simp [straight, tilted]; ring
    rw [e1, e2]
    have sub : ∀ x y : ℝ, |x| - |y| ≤ |x + y| := by
      intro x y; have := abs_sub_abs_le_abs_sub x (-y); rwa [abs_neg, sub_neg_eq_add] at this
    have a1 := sub l (1 / 20 * p)
    have a2 := sub (-(19 / 20 * p)) (1 / 25 * l)
    rw [abs_neg] at a2
    rw [add_comm] at a2
    have c1 : |1 / 20 * p| = 1 / 20 * |p| := by rw [abs_mul, abs_of_pos (by norm_num)]
    have c2 : |19 / 20 * p| = 19 / 20 * |p| := by rw [abs_mul, abs_of_pos (by norm_num)]
    have c3 : |1 / 25 * l| = 1 / 25 * |l| := by rw [abs_mul, abs_of_pos (by norm_num)]
    rw [c1] at a1
    rw [c2, c3] at a2
    have n1 := abs_nonneg l
    have n2 := abs_nonneg p
    rcases le_total |l| |p| with h | h
    · rw [max_eq_right h]; refine le_trans ?_ (le_max_right _ _); linarith
    · rw [max_eq_left h]; refine le_trans ?_ (le_max_left _ _); linarith

theorem hillside_surface : Surface tilted (some hillside) 1 (1 / 2) (fun l _ => l / 2) := by
  refine ⟨?_, ?_, ?_, ?_⟩
  · intro f hf g g' hg
    cases hf
    simp only [hillside, Except.ok.injEq] at hg
    rw [← hg]; exact ⟨rfl, rfl⟩
  · intro l p hl hp
    simp only [Verif.Spec.Rpc.ground, hillside, Except.ok.injEq, Geo.mk.injEq, true_and]
    have : 180 / Real.pi * lonOf tilted l = l / 8 - 105 := by
      have := Real.pi_ne_zero
      simp only [lonOf, tilted]; field_simp; ring
    rw [this]; simp only [tilted]; ring
  · intro l p hl hp
    rw [abs_div, abs_of_pos (show (0:ℝ) < 2 by norm_num)]; linarith
  · intro l p l' p' _ _ _ _
    have : l / 2 - l' / 2 = 1 / 2 * (l - l') := by ring
    rw [this, abs_mul, abs_of_pos (show (0:ℝ) < 1 / 2 by norm_num)]
    exact mul_le_mul_of_nonneg_left (le_max_left _ _) (by norm_num)

/-- A minimiser that stops near the place. -/
def guess (l p : ℝ) : Minimiser := fun _ _ _ => .done (l, p)

/-- What `rpc_search_accuracy` assumes of the search: it found a place of the box. -/
example (l p : ℝ) (hl : |l| ≤ 1) (hp : |p| ≤ 1) : (tilted.model (guess (lonOf tilted l) (latOf tilted p))).imageToWorld (9000, 2000) (some hillside) none =
    .ok ⟨lonOf tilted l, latOf tilted p, l / 2 * 500 + 1600⟩ := by
  have g := hillside_surface.ground l p hl hp
  simp only [ground, tilted] at g
  show (RpcModel.locate _ _ _ _ _).2 = _
  simp only [RpcModel.locate, searchImageToWorld, startFrom, distanceFrom, hint, guess, Search.run, onSurface, constantElevation, bind, Except.bind,
    withElevation]
  simpa only [tilted] using g

example : Reached tilted 1 2 (17 / 20) (0 / 2) (9000, 2000) := by
  refine ⟨?_, ?_, ?_, ?_⟩ <;> norm_num [sampOf, lineOf, tilted, cubic, rpc00b, abs_div, abs_of_pos, abs_of_neg]

end Verif.Props.Nearby
