import Verif.Props.RoundedRsm

/-!
# Theorems about rounding errors of affine models
-/

namespace Verif.Props.RoundedAffine

open Verif.Rounded Verif.Spec.Rounded Verif.Lemmas.Rounded Verif.Props.Rounded Verif.Props.RoundedRsm

theorem grow4 (w d : ℝ) (hw : 0 ≤ w) (hd : 0 ≤ d) : 4 / 2 ^ 53 * w + d ≤ grow ^ 4 * (w + d) - w := by
  have : 1 + 4 / 2 ^ 53 ≤ grow ^ 4 := by unfold grow; norm_num
  have h := mul_le_mul_of_nonneg_right this (show 0 ≤ w + d by linarith)
  have : 0 ≤ 4 / 2 ^ 53 * d := by positivity
  linarith

theorem absInner_nonneg (a x : ℝ × ℝ × ℝ) : 0 ≤ absInner a x := by unfold absInner; positivity

theorem abs_inner_le (a x : ℝ × ℝ × ℝ) : |inner a x| ≤ absInner a x := by
  unfold inner absInner
  have h1 := abs_add_le (a.1 * x.1 + a.2.1 * x.2.1) (a.2.2 * x.2.2)
  have h2 := abs_add_le (a.1 * x.1) (a.2.1 * x.2.1)
  rw [abs_mul] at h1 h2
  rw [abs_mul] at h2
  linarith

theorem dot_approx {dot : ℝ × ℝ × ℝ → ℝ × ℝ × ℝ → ℝ} (hd : DotRounds dot) (a x : ℝ × ℝ × ℝ) (h : absInner a x ≤ 2 ^ 200) :
    Approx 4 (1 / 2 ^ 190) (dot a x) (inner a x) (absInner a x) :=
  ⟨abs_inner_le a x, by positivity, le_trans (hd.err a x h) (grow4 _ _ (absInner_nonneg a x) (by positivity))⟩

/-- The assumption about `np.matmul` holds of the plain loop: products and sums from left to right, each rounded. -/
theorem left_dot_rounds {rnd : ℝ → ℝ} (hr : Rounds rnd) :
    DotRounds fun a x => rnd (rnd (rnd (a.1 * x.1) + rnd (a.2.1 * x.2.1)) + rnd (a.2.2 * x.2.2)) := by
  refine ⟨fun a x h => ?_⟩
  have n1 : 0 ≤ |a.1| * |x.1| := by positivity
  have n2 : 0 ≤ |a.2.1| * |x.2.1| := by positivity
  have n3 : 0 ≤ |a.2.2| * |x.2.2| := by positivity
  have hA : absInner a x = |a.1| * |x.1| + |a.2.1| * |x.2.1| + |a.2.2| * |x.2.2| := rfl
  have g2 : ∀ {n : ℕ}, n ≤ 1000 → grow ^ n ≤ 2 := fun h => grow_pow_le_two h
  have lim : ∀ {n : ℕ} {w d : ℝ}, n ≤ 1000 → 0 ≤ w + d → w ≤ absInner a x → d ≤ 1 → grow ^ n * (w + d) ≤ 2 ^ 250 := by
    intro n w d hn h0 h1 h2
    calc grow ^ n * (w + d) ≤ 2 * (2 ^ 200 + 1) := mul_le_mul (g2 hn) (by linarith) h0 (by norm_num)
      _ ≤ 2 ^ 250 := by norm_num
  have p : ∀ (u v : ℝ), |u| * |v| ≤ absInner a x → Approx 1 (1 / 2 ^ 200) (rnd (u * v)) (u * v) (|u| * |v|) := by
    intro u v huv
    have := (Approx.exact (u * v)).round hr (lim (by norm_num) (by positivity) (by rwa [abs_mul]) (by norm_num))
    rw [abs_mul] at this
    simpa using this
  have s1 := ((p a.1 x.1 (by linarith)).add (p a.2.1 x.2.1 (by linarith))).round hr
    (lim (by norm_num) (by positivity) (by linarith) (by norm_num))
  have s2 := (s1.add ((p a.2.2 x.2.2 (by linarith)).weaken (show 1 ≤ 1 + 1 by norm_num) (le_refl _))).round hr
    (lim (by norm_num) (by positivity) (by linarith) (by norm_num))
  have e : a.1 * x.1 + a.2.1 * x.2.1 + a.2.2 * x.2.2 = inner a x := rfl
  rw [e, ← hA] at s2
  refine le_trans s2.2.2 ?_
  have g3 : grow ^ (1 + 1 + 1) ≤ 1 + 4 / 2 ^ 53 := by unfold grow; norm_num
  have m := mul_le_mul_of_nonneg_right g3
    (show 0 ≤ absInner a x + ((1:ℝ) / 2 ^ 200 + 1 / 2 ^ 200 + 1 / 2 ^ 200 + 1 / 2 ^ 200 + 1 / 2 ^ 200) by linarith [show (0:ℝ) ≤ 1 / 2 ^ 200 by positivity])
  have c : (1 + 4 / 2 ^ 53) * ((1:ℝ) / 2 ^ 200 + 1 / 2 ^ 200 + 1 / 2 ^ 200 + 1 / 2 ^ 200 + 1 / 2 ^ 200) ≤ 1 / 2 ^ 190 := by norm_num
  linarith

theorem piDouble_bounds : (3:ℝ) ≤ (Verif.Float64.piDouble : ℝ) ∧ (Verif.Float64.piDouble : ℝ) ≤ 4 := by
  unfold Verif.Float64.piDouble; push_cast; norm_num

/-- To radians and back. -/
theorem through_radians {rnd : ℝ → ℝ} (hr : Rounds rnd) {s S a : ℝ} (h : Approx 4 (1 / 2 ^ 190) s S a) (ha : a ≤ 2 ^ 82) :
    Approx 8 (1 / 2 ^ 109) (degrees rnd (radians rnd s)) S a := by
  obtain ⟨p3, p4⟩ := piDouble_bounds
  have a0 := h.nonneg
  have g2 : ∀ {n : ℕ}, n ≤ 1000 → grow ^ n ≤ 2 := fun h => grow_pow_le_two h
  unfold degrees radians
  set π := (Verif.Float64.piDouble : ℝ)
  have π0 : (0:ℝ) < π := by linarith
  have c1 : π / 180 ≤ 1 := by rw [div_le_one (by norm_num)]; linarith
  have c1' : 0 ≤ π / 180 := by positivity
  have c2 : 180 / π ≤ 60 := by rw [div_le_iff₀ π0]; linarith
  have c2' : 0 ≤ 180 / π := by positivity
  have k1 := (Approx.exact (π / 180)).round hr (by
    rw [abs_of_nonneg c1']; simp only [pow_zero, one_mul, add_zero]; exact le_trans c1 (by norm_num))
  have k2 := (Approx.exact (180 / π)).round hr (by
    rw [abs_of_nonneg c2']; simp only [pow_zero, one_mul, add_zero]; exact le_trans c2 (by norm_num))
  rw [abs_of_nonneg c1'] at k1
  rw [abs_of_nonneg c2'] at k2
  simp only [zero_add] at k1 k2
  set q1 := rnd (π / 180)
  set q2 := rnd (180 / π)
  have A1 : a * (π / 180) ≤ 2 ^ 82 := by
    calc a * (π / 180) ≤ a * 1 := mul_le_mul_of_nonneg_left c1 a0
      _ ≤ 2 ^ 82 := by linarith
  have A1' : 0 ≤ a * (π / 180) := mul_nonneg a0 c1'
  have m1 := (h.mul k1).weaken (k' := 5) (d' := 1 / 2 ^ 117) (by norm_num) (by
    have h1 : a * (1 / 2 ^ 200) ≤ 2 ^ 82 * (1 / 2 ^ 200) := mul_le_mul_of_nonneg_right ha (by positivity)
    have h2 : (1:ℝ) / 2 ^ 190 * (π / 180) ≤ 1 / 2 ^ 190 * 1 := mul_le_mul_of_nonneg_left c1 (by positivity)
    have : (2:ℝ) ^ 82 * (1 / 2 ^ 200) + 1 / 2 ^ 190 * 1 + 1 / 2 ^ 190 * (1 / 2 ^ 200) ≤ 1 / 2 ^ 117 := by norm_num
    linarith)
  have r1 := (m1.round hr (by
    calc grow ^ 5 * (a * (π / 180) + 1 / 2 ^ 117) ≤ 2 * (2 ^ 82 + 1) := by
          refine mul_le_mul (g2 (by norm_num)) ?_ (by positivity) (by norm_num)
          have : (1:ℝ) / 2 ^ 117 ≤ 1 := by norm_num
          linarith
      _ ≤ 2 ^ 250 := by norm_num)).weaken (k' := 6) (d' := 1 / 2 ^ 116) (by norm_num) (by norm_num)
  have m2 := (r1.mul k2).weaken (k' := 7) (d' := 1 / 2 ^ 110) (by norm_num) (by
    have h1 : a * (π / 180) * (1 / 2 ^ 200) ≤ 2 ^ 82 * (1 / 2 ^ 200) := mul_le_mul_of_nonneg_right A1 (by positivity)
    have h2 : (1:ℝ) / 2 ^ 116 * (180 / π) ≤ 1 / 2 ^ 116 * 60 := mul_le_mul_of_nonneg_left c2 (by positivity)
    have : (2:ℝ) ^ 82 * (1 / 2 ^ 200) + 1 / 2 ^ 116 * 60 + 1 / 2 ^ 116 * (1 / 2 ^ 200) ≤ 1 / 2 ^ 110 := by norm_num
    linarith)
  have r2 := (m2.round hr (by
    calc grow ^ 7 * (a * (π / 180) * (180 / π) + 1 / 2 ^ 110) ≤ 2 * (2 ^ 82 * 60 + 1) := by
          refine mul_le_mul (g2 (by norm_num)) ?_ (by positivity) (by norm_num)
          have h1 : a * (π / 180) * (180 / π) ≤ 2 ^ 82 * 60 := mul_le_mul A1 c2 c2' (by positivity)
          have : (1:ℝ) / 2 ^ 110 ≤ 1 := by norm_num
          linarith
      _ ≤ 2 ^ 250 := by norm_num)).weaken (k' := 8) (d' := 1 / 2 ^ 109) (by norm_num) (by norm_num)
  have e1 : S * (π / 180) * (180 / π) = S := by field_simp
  have e2 : a * (π / 180) * (180 / π) = a := by field_simp
  rwa [e1, e2] at r2

theorem absInner_le {a x : ℝ × ℝ × ℝ} {m n : ℝ} (n0 : 0 ≤ n) (h1 : |a.1| ≤ m) (h2 : |a.2.1| ≤ m) (h3 : |a.2.2| ≤ m) (k1 : |x.1| ≤ n)
    (k2 : |x.2.1| ≤ n) (k3 : |x.2.2| ≤ n) : absInner a x ≤ 3 * (m * n) := by
  have m0 : 0 ≤ m := le_trans (abs_nonneg _) h1
  have e1 := mul_le_mul h1 k1 (abs_nonneg _) m0
  have e2 := mul_le_mul h2 k2 (abs_nonneg _) m0
  have e3 := mul_le_mul h3 k3 (abs_nonneg _) m0
  unfold absInner
  linarith

/-- One component of the way back. -/
theorem component_back {dot : ℝ × ℝ × ℝ → ℝ × ℝ × ℝ → ℝ} (hd : DotRounds dot) {G : ℝ × ℝ × ℝ} (hG : Small G) {s t S T a b : ℝ}
    (hs : Approx 8 (1 / 2 ^ 109) s S a) (ht : Approx 8 (1 / 2 ^ 109) t T b) (ha : a ≤ 2 ^ 82) (hb : b ≤ 2 ^ 82) (v ρ : ℝ)
    (hv : |inner G (S, T, 1) - v| ≤ ρ) :
    |dot G (s, t, 1) - v| ≤ ρ + 13 / 2 ^ 53 * absInner G (a, b, 1) + 1 / 2 ^ 60 := by
  obtain ⟨g1, g2, g3⟩ := hG
  have a0 := hs.nonneg
  have b0 := ht.nonneg
  -- the exact inner product of the computed values
  have one := ((Approx.exact 1).weaken (k' := 8) (d' := 1 / 2 ^ 109) (by norm_num) (by norm_num)).scale G.2.2
  have sum := ((hs.scale G.1).add (ht.scale G.2.1)).add one
  have D : 1 / 2 ^ 109 * |G.1| + 1 / 2 ^ 109 * |G.2.1| + 1 / 2 ^ 109 * |G.2.2| ≤ 1 / 2 ^ 66 := by
    have : 1 / 2 ^ 109 * |G.1| + 1 / 2 ^ 109 * |G.2.1| + 1 / 2 ^ 109 * |G.2.2| = 1 / 2 ^ 109 * (|G.1| + |G.2.1| + |G.2.2|) := by ring
    rw [this]
    calc 1 / 2 ^ 109 * (|G.1| + |G.2.1| + |G.2.2|) ≤ 1 / 2 ^ 109 * (2 ^ 40 + 2 ^ 40 + 2 ^ 40) :=
          mul_le_mul_of_nonneg_left (by linarith) (by positivity)
      _ ≤ 1 / 2 ^ 66 := by norm_num
  have sum' := sum.weaken (le_refl 8) D
  have eS : S * G.1 + T * G.2.1 + 1 * G.2.2 = inner G (S, T, 1) := by unfold inner; ring
  have es : s * G.1 + t * G.2.1 + 1 * G.2.2 = inner G (s, t, 1) := by unfold inner; ring
  have eA : a * |G.1| + b * |G.2.1| + |(1:ℝ)| * |G.2.2| = absInner G (a, b, 1) := by
    unfold absInner; rw [abs_of_nonneg a0, abs_of_nonneg b0]; ring
  rw [eS, es, eA] at sum'
  -- the magnitude of the terms of the computed values
  set M := absInner G (a, b, 1) with hM
  have M0 : 0 ≤ M := absInner_nonneg _ _
  have big : M ≤ 3 * (2 ^ 40 * 2 ^ 82) := absInner_le (by positivity) g1 g2 g3 (by simpa [abs_of_nonneg a0] using ha)
    (by simpa [abs_of_nonneg b0] using hb) (by norm_num)
  have g8 : grow ^ 8 ≤ 1 + 8.01 / 2 ^ 53 := by unfold grow; norm_num
  have mag : absInner G (s, t, 1) ≤ (1 + 8.01 / 2 ^ 53) * (M + 1 / 2 ^ 66) := by
    have q1 := hs.size
    have q2 := ht.size
    have w1 : |G.1| * |s| ≤ |G.1| * (grow ^ 8 * (a + 1 / 2 ^ 109)) := mul_le_mul_of_nonneg_left q1 (abs_nonneg _)
    have w2 : |G.2.1| * |t| ≤ |G.2.1| * (grow ^ 8 * (b + 1 / 2 ^ 109)) := mul_le_mul_of_nonneg_left q2 (abs_nonneg _)
    have w3 : |G.2.2| * |(1:ℝ)| ≤ |G.2.2| * (grow ^ 8 * (1 + 1 / 2 ^ 109)) := by
      refine mul_le_mul_of_nonneg_left ?_ (abs_nonneg _)
      rw [abs_one]
      have := one_le_pow 8
      have h2 : (1:ℝ) ≤ 1 + 1 / 2 ^ 109 := by norm_num
      nlinarith
    have total : absInner G (s, t, 1) ≤ grow ^ 8 * (M + (1 / 2 ^ 109 * |G.1| + 1 / 2 ^ 109 * |G.2.1| + 1 / 2 ^ 109 * |G.2.2|)) := by
      have : grow ^ 8 * (M + (1 / 2 ^ 109 * |G.1| + 1 / 2 ^ 109 * |G.2.1| + 1 / 2 ^ 109 * |G.2.2|))
          = |G.1| * (grow ^ 8 * (a + 1 / 2 ^ 109)) + |G.2.1| * (grow ^ 8 * (b + 1 / 2 ^ 109)) + |G.2.2| * (grow ^ 8 * (1 + 1 / 2 ^ 109)) := by
        rw [← eA, abs_one]; ring
      rw [this]
      unfold absInner
      linarith
    refine le_trans total ?_
    refine mul_le_mul g8 (by linarith) ?_ (by norm_num)
    have : 0 ≤ 1 / 2 ^ 109 * |G.1| := by positivity
    have : 0 ≤ 1 / 2 ^ 109 * |G.2.1| := by positivity
    have : 0 ≤ 1 / 2 ^ 109 * |G.2.2| := by positivity
    linarith
  have e := hd.err G (s, t, 1) (by
    refine le_trans mag ?_
    calc (1 + 8.01 / 2 ^ 53) * (M + 1 / 2 ^ 66) ≤ (1 + 8.01 / 2 ^ 53) * (3 * (2 ^ 40 * 2 ^ 82) + 1 / 2 ^ 66) :=
          mul_le_mul_of_nonneg_left (by linarith) (by norm_num)
      _ ≤ 2 ^ 200 := by norm_num)
  have s3 : |inner G (s, t, 1) - inner G (S, T, 1)| ≤ 8.01 / 2 ^ 53 * M + (1 + 8.01 / 2 ^ 53) * (1 / 2 ^ 66) := by
    refine le_trans sum'.2.2 ?_
    have := mul_le_mul_of_nonneg_right g8 (show 0 ≤ M + 1 / 2 ^ 66 by positivity)
    linarith
  have t1 := abs_add_le (dot G (s, t, 1) - inner G (s, t, 1)) (inner G (s, t, 1) - v)
  have t2 := abs_add_le (inner G (s, t, 1) - inner G (S, T, 1)) (inner G (S, T, 1) - v)
  rw [sub_add_sub_cancel] at t1 t2
  have m2 : 4 / 2 ^ 53 * absInner G (s, t, 1) ≤ 4 / 2 ^ 53 * ((1 + 8.01 / 2 ^ 53) * (M + 1 / 2 ^ 66)) :=
    mul_le_mul_of_nonneg_left mag (by positivity)
  have c1 : 4 / 2 ^ 53 * ((1 + 8.01 / 2 ^ 53) * M) ≤ 4.99 / 2 ^ 53 * M := by
    have : 4 / 2 ^ 53 * ((1 + 8.01 / 2 ^ 53) * M) = (4 / 2 ^ 53 * (1 + 8.01 / 2 ^ 53)) * M := by ring
    rw [this]
    exact mul_le_mul_of_nonneg_right (by norm_num) M0
  have c2 : 4 / 2 ^ 53 * ((1 + 8.01 / 2 ^ 53) * (1 / 2 ^ 66)) + 1 / 2 ^ 190 + (1 + 8.01 / 2 ^ 53) * (1 / 2 ^ 66) ≤ (1:ℝ) / 2 ^ 60 := by norm_num
  have c3 : 13 / 2 ^ 53 * M = 8.01 / 2 ^ 53 * M + 4.99 / 2 ^ 53 * M := by ring
  rw [c3]
  have c4 : 4 / 2 ^ 53 * ((1 + 8.01 / 2 ^ 53) * (M + 1 / 2 ^ 66))
      = 4 / 2 ^ 53 * ((1 + 8.01 / 2 ^ 53) * M) + 4 / 2 ^ 53 * ((1 + 8.01 / 2 ^ 53) * (1 / 2 ^ 66)) := by ring
  linarith

/-- **C134**: in doubles, whatever the order of the operations of `np.matmul`, `world_to_image` after `image_to_world` of an affine model without
projection returns the pixel up to the error (`ρ`, `σ`) that the inverse matrix from `np.linalg.inv` has for this pixel and 13 roundings of the sum of the
magnitudes of the terms. -/
theorem affine_round_trip {rnd : ℝ → ℝ} (hr : Rounds rnd) {dot : ℝ × ℝ × ℝ → ℝ × ℝ × ℝ → ℝ} (hd : DotRounds dot) (A : Affine) (p : ℝ × ℝ)
    (h0 : Small A.row0) (h1 : Small A.row1) (hi : Small A.inv0) (hj : Small A.inv1) (hp : |p.1| ≤ 2 ^ 40 ∧ |p.2| ≤ 2 ^ 40) (ρ σ : ℝ)
    (hx : |inner A.inv0 (inner A.row0 (p.1, p.2, 1), inner A.row1 (p.1, p.2, 1), 1) - p.1| ≤ ρ)
    (hy : |inner A.inv1 (inner A.row0 (p.1, p.2, 1), inner A.row1 (p.1, p.2, 1), 1) - p.2| ≤ σ) :
    |(A.worldToImage rnd dot (A.imageToWorld rnd dot p)).1 - p.1| ≤
      ρ + 13 / 2 ^ 53 * absInner A.inv0 (absInner A.row0 (p.1, p.2, 1), absInner A.row1 (p.1, p.2, 1), 1) + 1 / 2 ^ 60 ∧
    |(A.worldToImage rnd dot (A.imageToWorld rnd dot p)).2 - p.2| ≤
      σ + 13 / 2 ^ 53 * absInner A.inv1 (absInner A.row0 (p.1, p.2, 1), absInner A.row1 (p.1, p.2, 1), 1) + 1 / 2 ^ 60 := by
  obtain ⟨p1, p2⟩ := hp
  have b0 : absInner A.row0 (p.1, p.2, 1) ≤ 2 ^ 82 := by
    have := absInner_le (x := (p.1, p.2, 1)) (n := 2 ^ 40) (by positivity) h0.1 h0.2.1 h0.2.2 p1 p2 (by norm_num)
    exact le_trans this (by norm_num)
  have b1 : absInner A.row1 (p.1, p.2, 1) ≤ 2 ^ 82 := by
    have := absInner_le (x := (p.1, p.2, 1)) (n := 2 ^ 40) (by positivity) h1.1 h1.2.1 h1.2.2 p1 p2 (by norm_num)
    exact le_trans this (by norm_num)
  have s0 := through_radians hr (dot_approx hd A.row0 (p.1, p.2, 1) (le_trans b0 (by norm_num))) b0
  have s1 := through_radians hr (dot_approx hd A.row1 (p.1, p.2, 1) (le_trans b1 (by norm_num))) b1
  exact ⟨component_back hd hi s0 s1 b0 b1 p.1 ρ hx, component_back hd hj s0 s1 b0 b1 p.2 σ hy⟩

/-- **C134** for the usual case: the image is aligned with north (`x` and `y` do not mix) and the elements of the inverse matrix are right up to four
roundings.  Then the pixel comes back up to 40 roundings of its number plus the distance of the image from the origin in pixels. -/
theorem north_up_round_trip {rnd : ℝ → ℝ} (hr : Rounds rnd) {dot : ℝ × ℝ × ℝ → ℝ × ℝ × ℝ → ℝ} (hd : DotRounds dot) (a c e f g h k m : ℝ) (p : ℝ × ℝ)
    (ha : a ≠ 0) (he : e ≠ 0) (h0 : Small (a, 0, c)) (h1 : Small (0, e, f)) (hi : Small (g, 0, h)) (hj : Small (0, k, m))
    (hp : |p.1| ≤ 2 ^ 40 ∧ |p.2| ≤ 2 ^ 40) (hg : |g * a - 1| ≤ 4 / 2 ^ 53) (hh : |h + c / a| ≤ 4 / 2 ^ 53 * |c / a|)
    (hk : |k * e - 1| ≤ 4 / 2 ^ 53) (hm : |m + f / e| ≤ 4 / 2 ^ 53 * |f / e|) :
    let A : Affine := ⟨(a, 0, c), (0, e, f), (g, 0, h), (0, k, m)⟩
    |(A.worldToImage rnd dot (A.imageToWorld rnd dot p)).1 - p.1| ≤ 40 / 2 ^ 53 * (|p.1| + |c / a|) + 1 / 2 ^ 60 ∧
    |(A.worldToImage rnd dot (A.imageToWorld rnd dot p)).2 - p.2| ≤ 40 / 2 ^ 53 * (|p.2| + |f / e|) + 1 / 2 ^ 60 := by
  intro A
  have part : ∀ {a c g h x : ℝ}, a ≠ 0 → |g * a - 1| ≤ 4 / 2 ^ 53 → |h + c / a| ≤ 4 / 2 ^ 53 * |c / a| →
      |g * (a * x + c) + h - x| ≤ 8 / 2 ^ 53 * (|x| + |c / a|) ∧ |g| * (|a| * |x| + |c|) + |h| ≤ 2.01 * (|x| + |c / a|) := by
    intro a c g h x ha hg hh
    have x0 := abs_nonneg x
    have q0 := abs_nonneg (c / a)
    have ec : c = a * (c / a) := by field_simp
    set q := c / a with hq
    have e1 : g * (a * x + c) + h - x = (g * a - 1) * x + ((g * a - 1) * q + (h + q)) := by rw [ec]; ring
    have t1 := abs_add_le ((g * a - 1) * x) ((g * a - 1) * q + (h + q))
    have t2 := abs_add_le ((g * a - 1) * q) (h + q)
    rw [abs_mul] at t1 t2
    have u1 := mul_le_mul_of_nonneg_right hg x0
    have u2 := mul_le_mul_of_nonneg_right hg q0
    have ga : |g| * |a| ≤ 1 + 4 / 2 ^ 53 := by
      rw [← abs_mul]
      exact size_of hg (by norm_num)
    have hb : |h| ≤ |q| + 4 / 2 ^ 53 * |q| := by
      have : |h - -q| ≤ 4 / 2 ^ 53 * |q| := by simpa using hh
      exact size_of this (by rw [abs_neg])
    constructor
    · rw [e1]
      have : 8 / 2 ^ 53 * (|x| + |q|) = 4 / 2 ^ 53 * |x| + 4 / 2 ^ 53 * |x| + 8 / 2 ^ 53 * |q| := by ring
      have : 0 ≤ 4 / 2 ^ 53 * |x| := by positivity
      linarith
    · have ec' : |c| = |a| * |q| := by rw [ec, abs_mul]
      rw [ec']
      have e2 : |g| * (|a| * |x| + |a| * |q|) = (|g| * |a|) * (|x| + |q|) := by ring
      rw [e2]
      have := mul_le_mul_of_nonneg_right ga (show 0 ≤ |x| + |q| by positivity)
      have : (1 + 4 / 2 ^ 53) * (|x| + |q|) + (|q| + 4 / 2 ^ 53 * |q|) ≤ 2.01 * (|x| + |q|) := by
        have : (2.01:ℝ) * (|x| + |q|) = (1 + 4 / 2 ^ 53) * (|x| + |q|) + (1.01 - 4 / 2 ^ 53) * (|x| + |q|) := by ring
        rw [this]
        have : (1 + 4 / 2 ^ 53) * |q| ≤ (1.01 - 4 / 2 ^ 53) * |q| := mul_le_mul_of_nonneg_right (by norm_num) q0
        have : 0 ≤ (1.01 - 4 / 2 ^ 53) * |x| := mul_nonneg (by norm_num) x0
        linarith
      linarith
  obtain ⟨r1, w1⟩ := part (x := p.1) ha hg hh
  obtain ⟨r2, w2⟩ := part (x := p.2) he hk hm
  have n1 := abs_nonneg p.1
  have n2 := abs_nonneg p.2
  have n3 := abs_nonneg (c / a)
  have n4 := abs_nonneg (f / e)
  have m1 : inner A.inv0 (inner A.row0 (p.1, p.2, 1), inner A.row1 (p.1, p.2, 1), 1) - p.1 = g * (a * p.1 + c) + h - p.1 := by
    simp only [A, inner]; ring
  have m2 : inner A.inv1 (inner A.row0 (p.1, p.2, 1), inner A.row1 (p.1, p.2, 1), 1) - p.2 = k * (e * p.2 + f) + m - p.2 := by
    simp only [A, inner]; ring
  rw [← m1] at r1
  rw [← m2] at r2
  have key := affine_round_trip hr hd A p h0 h1 hi hj hp _ _ r1 r2
  have fin : ∀ {y M Q : ℝ}, 0 ≤ Q → |y| ≤ 8 / 2 ^ 53 * Q + 13 / 2 ^ 53 * M + 1 / 2 ^ 60 → M ≤ 2.01 * Q → |y| ≤ 40 / 2 ^ 53 * Q + 1 / 2 ^ 60 := by
    intro y M Q q0 h1 h2
    have h3 := mul_le_mul_of_nonneg_left h2 (show (0:ℝ) ≤ 13 / 2 ^ 53 by positivity)
    have h4 : 8 / 2 ^ 53 * Q + 13 / 2 ^ 53 * (2.01 * Q) ≤ 40 / 2 ^ 53 * Q := by
      have : 8 / 2 ^ 53 * Q + 13 / 2 ^ 53 * (2.01 * Q) = (8 / 2 ^ 53 + 13 / 2 ^ 53 * 2.01) * Q := by ring
      rw [this]
      exact mul_le_mul_of_nonneg_right (by norm_num) q0
    linarith
  refine ⟨fin (by positivity) key.1 ?_, fin (by positivity) key.2 ?_⟩
  · have : absInner A.inv0 (absInner A.row0 (p.1, p.2, 1), absInner A.row1 (p.1, p.2, 1), 1) = |g| * (|a| * |p.1| + |c|) + |h| := by
      simp only [A, absInner, abs_zero, zero_mul, add_zero, abs_one, mul_one]
      rw [abs_of_nonneg (show 0 ≤ |a| * |p.1| + |c| by positivity)]
    rw [this]; exact w1
  · have : absInner A.inv1 (absInner A.row0 (p.1, p.2, 1), absInner A.row1 (p.1, p.2, 1), 1) = |k| * (|e| * |p.2| + |f|) + |m| := by
      simp only [A, absInner, abs_zero, zero_mul, zero_add, abs_one, mul_one]
      rw [abs_of_nonneg (show 0 ≤ |e| * |p.2| + |f| by positivity)]
    rw [this]; exact w2

/-- A map of 10 m pixels near 30° E, 60° N, in doubles with the plain loop: a pixel of a 20000 by 20000 image comes back to within 10⁻⁸ pixels. -/
example (p : ℝ × ℝ) (h : 0 ≤ p.1 ∧ p.1 ≤ 20000 ∧ 0 ≤ p.2 ∧ p.2 ≤ 20000) :
    let dot : ℝ × ℝ × ℝ → ℝ × ℝ × ℝ → ℝ :=
      fun a x => double (double (double (a.1 * x.1) + double (a.2.1 * x.2.1)) + double (a.2.2 * x.2.2))
    let A : Affine := ⟨(1 / 2 ^ 13, 0, 30), (0, -1 / 2 ^ 13, 60), (2 ^ 13, 0, -30 * 2 ^ 13), (0, -2 ^ 13, 60 * 2 ^ 13)⟩
    |(A.worldToImage double dot (A.imageToWorld double dot p)).1 - p.1| ≤ 1 / 10 ^ 8 ∧
    |(A.worldToImage double dot (A.imageToWorld double dot p)).2 - p.2| ≤ 1 / 10 ^ 8 := by
  intro dot A
  obtain ⟨h1, h2, h3, h4⟩ := h
  have a1 : |p.1| ≤ 20000 := by rw [abs_of_nonneg h1]; exact h2
  have a2 : |p.2| ≤ 20000 := by rw [abs_of_nonneg h3]; exact h4
  have key := north_up_round_trip double_rounds (left_dot_rounds double_rounds) (1 / 2 ^ 13) 30 (-1 / 2 ^ 13) 60 (2 ^ 13) (-30 * 2 ^ 13) (-2 ^ 13)
    (60 * 2 ^ 13) p (by norm_num) (by norm_num) (by refine ⟨?_, ?_, ?_⟩ <;> norm_num [abs_of_neg, abs_of_pos])
    (by refine ⟨?_, ?_, ?_⟩ <;> norm_num [abs_of_neg, abs_of_pos, abs_div])
    (by refine ⟨?_, ?_, ?_⟩ <;> norm_num [abs_of_neg, abs_of_pos]) (by refine ⟨?_, ?_, ?_⟩ <;> norm_num [abs_of_neg, abs_of_pos])
    ⟨by linarith, by linarith⟩ (by norm_num) (by norm_num) (by norm_num) (by norm_num)
  refine ⟨le_trans key.1 ?_, le_trans key.2 ?_⟩
  · have : |(30:ℝ) / (1 / 2 ^ 13)| = 30 * 2 ^ 13 := by norm_num
    rw [this]
    calc _ ≤ 40 / 2 ^ 53 * (20000 + 30 * 2 ^ 13) + (1:ℝ) / 2 ^ 60 := by
          have := mul_le_mul_of_nonneg_left (add_le_add_left a1 (30 * 2 ^ 13)) (show (0:ℝ) ≤ 40 / 2 ^ 53 by positivity)
          linarith
      _ ≤ 1 / 10 ^ 8 := by norm_num
  · have : |(60:ℝ) / (-1 / 2 ^ 13)| = 60 * 2 ^ 13 := by norm_num [abs_of_neg]
    rw [this]
    calc _ ≤ 40 / 2 ^ 53 * (20000 + 60 * 2 ^ 13) + (1:ℝ) / 2 ^ 60 := by
          have := mul_le_mul_of_nonneg_left (add_le_add_left a2 (60 * 2 ^ 13)) (show (0:ℝ) ≤ 40 / 2 ^ 53 by positivity)
          linarith
      _ ≤ 1 / 10 ^ 8 := by norm_num

end Verif.Props.RoundedAffine
