import Mathlib.Tactic.Linarith
import Mathlib.Tactic.FieldSimp
import Mathlib.Tactic.Positivity
import Verif.Spec.RoundedTransforms
import Verif.Props.RoundedAffine
import Verif.Model.RoundedTransforms

/-!
# How well a nearly exact fit of the corners of a chip fits the chip
-/

namespace Verif.Lemmas.RoundedTransforms

open Verif.Transforms Verif.Spec.RoundedTransforms

/-- Four numbers with a sign. -/
theorem alternating {a b c d ρ : ℝ} (ha : |a| ≤ ρ) (hb : |b| ≤ ρ) (hc : |c| ≤ ρ) (hd : |d| ≤ ρ) : |a - b + c - d| ≤ 4 * ρ := by
  rw [abs_le] at *
  constructor <;> linarith

/-- Bilinear interpolation of small numbers. -/
theorem interpolated {a b c d ρ l m : ℝ} (ha : |a| ≤ ρ) (hb : |b| ≤ ρ) (hc : |c| ≤ ρ) (hd : |d| ≤ ρ) (l0 : 0 ≤ l) (l1 : l ≤ 1) (m0 : 0 ≤ m) (m1 : m ≤ 1) :
    |(1 - m) * ((1 - l) * a + l * b) + m * ((1 - l) * d + l * c)| ≤ ρ := by
  rw [abs_le] at *
  have e1 := mul_nonneg (sub_nonneg.mpr m1) (sub_nonneg.mpr l1)
  have e2 := mul_nonneg (sub_nonneg.mpr m1) l0
  have e3 := mul_nonneg m0 (sub_nonneg.mpr l1)
  have e4 := mul_nonneg m0 l0
  constructor <;> nlinarith

/-- The residuals of the two equations at a point. -/
noncomputable def ex (c : Chip) (t : Projective ℝ) (x y : ℝ) : ℝ :=
  t.a0 + t.a1 * x + t.a2 * y - (c.u + (x - c.x) * (c.s / c.w)) * (1 + t.c0 * x + t.c1 * y)
noncomputable def ey (c : Chip) (t : Projective ℝ) (x y : ℝ) : ℝ :=
  t.b0 + t.b1 * x + t.b2 * y - (c.v + (y - c.y) * (c.k / c.h)) * (1 + t.c0 * x + t.c1 * y)

structure Small4 (ρ : ℝ) (f : ℝ → ℝ → ℝ) (c : Chip) : Prop where
  e1 : |f c.x c.y| ≤ ρ
  e2 : |f (c.x + c.w) c.y| ≤ ρ
  e3 : |f (c.x + c.w) (c.y + c.h)| ≤ ρ
  e4 : |f c.x (c.y + c.h)| ≤ ρ

section
variable {c : Chip} {X U κ ρ : ℝ} {t : Projective ℝ}

theorem pos (hs : Sized c X U κ) : 0 < c.w ∧ 0 < c.h ∧ 0 < c.s ∧ 0 < c.k :=
  ⟨by linarith [hs.pixel.1], by linarith [hs.pixel.2.1], by linarith [hs.pixel.2.2.1], by linarith [hs.pixel.2.2.2]⟩

theorem corner_residuals (hs : Sized c X U κ) {pairs : List ((ℝ × ℝ) × (ℝ × ℝ))} (hf : Fits ρ t pairs) (hc : ∀ p ∈ c.corners, p ∈ pairs) :
    Small4 ρ (ex c t) c ∧ Small4 ρ (ey c t) c := by
  obtain ⟨hw, hh, hs', hk⟩ := pos hs
  have f1 := hf _ (hc ((c.x, c.y), (c.u, c.v)) (by simp [Chip.corners]))
  have f2 := hf _ (hc ((c.x + c.w, c.y), (c.u + c.s, c.v)) (by simp [Chip.corners]))
  have f3 := hf _ (hc ((c.x + c.w, c.y + c.h), (c.u + c.s, c.v + c.k)) (by simp [Chip.corners]))
  have f4 := hf _ (hc ((c.x, c.y + c.h), (c.u, c.v + c.k)) (by simp [Chip.corners]))
  have e1 : (c.x + c.w - c.x) * (c.s / c.w) = c.s := by field_simp; ring
  have e2 : (c.y + c.h - c.y) * (c.k / c.h) = c.k := by field_simp; ring
  refine ⟨⟨?_, ?_, ?_, ?_⟩, ⟨?_, ?_, ?_, ?_⟩⟩ <;> simp only [ex, ey, e1, e2, sub_self, zero_mul, add_zero]
  · exact f1.1
  · exact f2.1
  · exact f3.1
  · exact f4.1
  · exact f1.2
  · exact f2.2
  · exact f3.2
  · exact f4.2

/-- The perspective terms of a fit are small. -/
theorem c_small (hs : Sized c X U κ) (h1 : Small4 ρ (ex c t) c) (h2 : Small4 ρ (ey c t) c) :
    |t.c0| * (c.k * c.w) ≤ 4 * ρ ∧ |t.c1| * (c.s * c.h) ≤ 4 * ρ := by
  obtain ⟨hw, hh, hs', hk⟩ := pos hs
  constructor
  · have a := alternating h2.e1 h2.e2 h2.e3 h2.e4
    have e : ey c t c.x c.y - ey c t (c.x + c.w) c.y + ey c t (c.x + c.w) (c.y + c.h) - ey c t c.x (c.y + c.h) = -(t.c0 * (c.k * c.w)) := by
      unfold ey; field_simp; ring
    rw [e, abs_neg, abs_mul, abs_of_pos (mul_pos hk hw)] at a
    exact a
  · have a := alternating h1.e1 h1.e2 h1.e3 h1.e4
    have e : ex c t c.x c.y - ex c t (c.x + c.w) c.y + ex c t (c.x + c.w) (c.y + c.h) - ex c t c.x (c.y + c.h) = -(t.c1 * (c.s * c.h)) := by
      unfold ex; field_simp; ring
    rw [e, abs_neg, abs_mul, abs_of_pos (mul_pos hs' hh)] at a
    exact a

/-- The residuals inside the rectangle. -/
theorem residual_inside (hs : Sized c X U κ) (h1 : Small4 ρ (ex c t) c) (h2 : Small4 ρ (ey c t) c) {p : ℝ × ℝ} (hp : c.Shows p) :
    |ex c t p.1 p.2| ≤ (1 + c.s / c.k) * ρ ∧ |ey c t p.1 p.2| ≤ (1 + c.k / c.s) * ρ := by
  obtain ⟨hw, hh, hs', hk⟩ := pos hs
  obtain ⟨hc0, hc1⟩ := c_small hs h1 h2
  obtain ⟨⟨a1, a2⟩, a3, a4⟩ := hp
  have l0 : 0 ≤ (p.1 - c.x) / c.w := div_nonneg (by linarith) hw.le
  have l1 : (p.1 - c.x) / c.w ≤ 1 := by rw [div_le_one hw]; linarith
  have m0 : 0 ≤ (p.2 - c.y) / c.h := div_nonneg (by linarith) hh.le
  have m1 : (p.2 - c.y) / c.h ≤ 1 := by rw [div_le_one hh]; linarith
  have bub : ∀ a : ℝ, a * (1 - a) ≤ 1 / 4 := fun a => by nlinarith [sq_nonneg (a - 1 / 2)]
  constructor
  · have i := interpolated h1.e1 h1.e2 h1.e3 h1.e4 l0 l1 m0 m1
    set l := (p.1 - c.x) / c.w with hl
    set m := (p.2 - c.y) / c.h with hm
    have ep : p.1 = c.x + l * c.w := by rw [hl]; field_simp; ring
    have eq : p.2 = c.y + m * c.h := by rw [hm]; field_simp; ring
    have e : ex c t p.1 p.2 = (1 - m) * ((1 - l) * ex c t c.x c.y + l * ex c t (c.x + c.w) c.y) + m * ((1 - l) * ex c t c.x (c.y + c.h) + l * ex c t (c.x + c.w) (c.y + c.h))
        + t.c0 * (c.s * c.w * (l * (1 - l))) := by
      rw [ep, eq]; unfold ex; field_simp; ring
    rw [e]
    have b : |t.c0 * (c.s * c.w * (l * (1 - l)))| ≤ c.s / c.k * ρ := by
      rw [abs_mul, abs_of_nonneg (show 0 ≤ c.s * c.w * (l * (1 - l)) from mul_nonneg (by positivity) (mul_nonneg l0 (by linarith)))]
      have f1 : c.s * c.w * (l * (1 - l)) ≤ c.s * c.w * (1 / 4) := mul_le_mul_of_nonneg_left (bub l) (by positivity)
      have f2 : |t.c0| * (c.s * c.w * (l * (1 - l))) ≤ |t.c0| * (c.s * c.w * (1 / 4)) := mul_le_mul_of_nonneg_left f1 (abs_nonneg _)
      have f3 : |t.c0| * (c.s * c.w * (1 / 4)) = c.s / c.k * (|t.c0| * (c.k * c.w) * (1 / 4)) := by field_simp
      have f4 : c.s / c.k * (|t.c0| * (c.k * c.w) * (1 / 4)) ≤ c.s / c.k * ρ := mul_le_mul_of_nonneg_left (by linarith) (by positivity)
      linarith
    have := abs_add_le ((1 - m) * ((1 - l) * ex c t c.x c.y + l * ex c t (c.x + c.w) c.y) + m * ((1 - l) * ex c t c.x (c.y + c.h) + l * ex c t (c.x + c.w) (c.y + c.h)))
      (t.c0 * (c.s * c.w * (l * (1 - l))))
    linarith
  · have i := interpolated h2.e1 h2.e2 h2.e3 h2.e4 l0 l1 m0 m1
    set l := (p.1 - c.x) / c.w with hl
    set m := (p.2 - c.y) / c.h with hm
    have ep : p.1 = c.x + l * c.w := by rw [hl]; field_simp; ring
    have eq : p.2 = c.y + m * c.h := by rw [hm]; field_simp; ring
    have e : ey c t p.1 p.2 = (1 - m) * ((1 - l) * ey c t c.x c.y + l * ey c t (c.x + c.w) c.y) + m * ((1 - l) * ey c t c.x (c.y + c.h) + l * ey c t (c.x + c.w) (c.y + c.h))
        + t.c1 * (c.k * c.h * (m * (1 - m))) := by
      rw [ep, eq]; unfold ey; field_simp; ring
    rw [e]
    have b : |t.c1 * (c.k * c.h * (m * (1 - m)))| ≤ c.k / c.s * ρ := by
      rw [abs_mul, abs_of_nonneg (show 0 ≤ c.k * c.h * (m * (1 - m)) from mul_nonneg (by positivity) (mul_nonneg m0 (by linarith)))]
      have f1 : c.k * c.h * (m * (1 - m)) ≤ c.k * c.h * (1 / 4) := mul_le_mul_of_nonneg_left (bub m) (by positivity)
      have f2 : |t.c1| * (c.k * c.h * (m * (1 - m))) ≤ |t.c1| * (c.k * c.h * (1 / 4)) := mul_le_mul_of_nonneg_left f1 (abs_nonneg _)
      have f3 : |t.c1| * (c.k * c.h * (1 / 4)) = c.k / c.s * (|t.c1| * (c.s * c.h) * (1 / 4)) := by field_simp
      have f4 : c.k / c.s * (|t.c1| * (c.s * c.h) * (1 / 4)) ≤ c.k / c.s * ρ := mul_le_mul_of_nonneg_left (by linarith) (by positivity)
      linarith
    have := abs_add_le ((1 - m) * ((1 - l) * ey c t c.x c.y + l * ey c t (c.x + c.w) c.y) + m * ((1 - l) * ey c t c.x (c.y + c.h) + l * ey c t (c.x + c.w) (c.y + c.h)))
      (t.c1 * (c.k * c.h * (m * (1 - m))))
    linarith

end

/-! ## Sizes of the parameters of a fit -/

/-- Both axes exchanged. -/
def swapChip (c : Chip) : Chip := ⟨c.y, c.x, c.h, c.w, c.v, c.u, c.k, c.s⟩
def swapMap (t : Projective ℝ) : Projective ℝ := ⟨t.b0, t.b2, t.b1, t.a0, t.a2, t.a1, t.c1, t.c0⟩

theorem swap_sized {c : Chip} {X U κ : ℝ} (hs : Sized c X U κ) : Sized (swapChip c) X U κ :=
  ⟨⟨hs.pixel.2.1, hs.pixel.1, hs.pixel.2.2.2, hs.pixel.2.2.1⟩, ⟨hs.full.2.2.1, hs.full.2.2.2, hs.full.1, hs.full.2.1⟩,
    ⟨hs.chip.2.2.1, hs.chip.2.2.2, hs.chip.1, hs.chip.2.1⟩, ⟨hs.ratio_full.2, hs.ratio_full.1⟩, ⟨hs.ratio_chip.2, hs.ratio_chip.1⟩, hs.one, hs.limit⟩

theorem swap_ex (c : Chip) (t : Projective ℝ) (x y : ℝ) : ex (swapChip c) (swapMap t) y x = ey c t x y := by
  simp only [ex, ey, swapChip, swapMap]; ring

theorem swap_ey (c : Chip) (t : Projective ℝ) (x y : ℝ) : ey (swapChip c) (swapMap t) y x = ex c t x y := by
  simp only [ex, ey, swapChip, swapMap]; ring

theorem swap_small {c : Chip} {t : Projective ℝ} {ρ : ℝ} (h1 : Small4 ρ (ex c t) c) (h2 : Small4 ρ (ey c t) c) :
    Small4 ρ (ex (swapChip c) (swapMap t)) (swapChip c) ∧ Small4 ρ (ey (swapChip c) (swapMap t)) (swapChip c) := by
  have a := h1; have b := h2
  obtain ⟨a1, a2, a3, a4⟩ := a
  obtain ⟨b1, b2, b3, b4⟩ := b
  refine ⟨⟨?_, ?_, ?_, ?_⟩, ⟨?_, ?_, ?_, ?_⟩⟩
  · have := swap_ex c t c.x c.y; exact (this ▸ b1 : _)
  · have := swap_ex c t c.x (c.y + c.h); exact (this ▸ b4 : _)
  · have := swap_ex c t (c.x + c.w) (c.y + c.h); exact (this ▸ b3 : _)
  · have := swap_ex c t (c.x + c.w) c.y; exact (this ▸ b2 : _)
  · have := swap_ey c t c.x c.y; exact (this ▸ a1 : _)
  · have := swap_ey c t c.x (c.y + c.h); exact (this ▸ a4 : _)
  · have := swap_ey c t (c.x + c.w) (c.y + c.h); exact (this ▸ a3 : _)
  · have := swap_ey c t (c.x + c.w) c.y; exact (this ▸ a2 : _)

/-- What is known of the parameters of one axis. -/
structure Axis (c : Chip) (t : Projective ℝ) (X U κ : ℝ) : Prop where
  c0X : |t.c0| * X ≤ 1 / 32
  c1X : |t.c1| * X ≤ 1 / 32
  c0U : κ * (c.w * (|t.c0| * U)) ≤ 1 / 32
  c1U : κ * (c.h * (|t.c1| * U)) ≤ 1 / 32
  a1 : |t.a1 - c.s / c.w| ≤ c.s / c.w / 8
  a2 : κ * (c.h * |t.a2|) ≤ 1 / 20
  a0 : |t.a0| ≤ 1.2 * (U + c.s / c.w * X + 1)

theorem axis {c : Chip} {t : Projective ℝ} {X U κ ρ : ℝ} (hs : Sized c X U κ) (hρ : 128 * ρ * κ ^ 2 ≤ 1) (h1 : Small4 ρ (ex c t) c) (h2 : Small4 ρ (ey c t) c) :
    Axis c t X U κ := by
  obtain ⟨hw, hh, hs', hk⟩ := pos hs
  obtain ⟨hc0, hc1⟩ := c_small hs h1 h2
  have ρ0 : 0 ≤ ρ := le_trans (abs_nonneg _) h1.e1
  have κ1 := hs.one
  have κ0 : 0 < κ := by linarith
  have X0 : 0 ≤ X := le_trans (abs_nonneg _) hs.full.1
  have U0 : 0 ≤ U := le_trans (abs_nonneg _) hs.chip.1
  have ρκ : ρ * κ ≤ 1 / 128 := by nlinarith [mul_nonneg ρ0 κ0.le]
  have ρs : ρ ≤ 1 / 128 := by nlinarith
  have n0 := abs_nonneg t.c0
  have n1 := abs_nonneg t.c1
  obtain ⟨p1, p2, p3, p4⟩ := hs.pixel
  -- the perspective terms
  have c0w : |t.c0| * c.w ≤ 4 * ρ := by
    have : |t.c0| * c.w * 1 ≤ |t.c0| * c.w * c.k := mul_le_mul_of_nonneg_left p4 (by positivity)
    linarith [show |t.c0| * c.w * c.k = |t.c0| * (c.k * c.w) by ring]
  have c1h : |t.c1| * c.h ≤ 4 * ρ := by
    have : |t.c1| * c.h * 1 ≤ |t.c1| * c.h * c.s := mul_le_mul_of_nonneg_left p3 (by positivity)
    linarith [show |t.c1| * c.h * c.s = |t.c1| * (c.s * c.h) by ring]
  have c0X : |t.c0| * X ≤ 1 / 32 := by
    have e1 := mul_le_mul_of_nonneg_left hs.ratio_full.1 n0
    have e2 := mul_le_mul_of_nonneg_right c0w κ0.le
    linarith [show |t.c0| * (κ * c.w) = |t.c0| * c.w * κ by ring]
  have c1X : |t.c1| * X ≤ 1 / 32 := by
    have e1 := mul_le_mul_of_nonneg_left hs.ratio_full.2 n1
    have e2 := mul_le_mul_of_nonneg_right c1h κ0.le
    linarith [show |t.c1| * (κ * c.h) = |t.c1| * c.h * κ by ring]
  have c0U : κ * (c.w * (|t.c0| * U)) ≤ 1 / 32 := by
    have e1 := mul_le_mul_of_nonneg_left hs.ratio_chip.2 (show 0 ≤ κ * (c.w * |t.c0|) by positivity)
    have e2 := mul_le_mul_of_nonneg_left hc0 (show 0 ≤ κ ^ 2 by positivity)
    linarith [show κ * (c.w * |t.c0|) * (κ * c.k) = κ ^ 2 * (|t.c0| * (c.k * c.w)) by ring, show κ * (c.w * |t.c0|) * U = κ * (c.w * (|t.c0| * U)) by ring,
      show κ ^ 2 * (4 * ρ) = (128 * ρ * κ ^ 2) / 32 by ring]
  have c1U : κ * (c.h * (|t.c1| * U)) ≤ 1 / 32 := by
    have e1 := mul_le_mul_of_nonneg_left hs.ratio_chip.1 (show 0 ≤ κ * (c.h * |t.c1|) by positivity)
    have e2 := mul_le_mul_of_nonneg_left hc1 (show 0 ≤ κ ^ 2 by positivity)
    linarith [show κ * (c.h * |t.c1|) * (κ * c.s) = κ ^ 2 * (|t.c1| * (c.s * c.h)) by ring, show κ * (c.h * |t.c1|) * U = κ * (c.h * (|t.c1| * U)) by ring,
      show κ ^ 2 * (4 * ρ) = (128 * ρ * κ ^ 2) / 32 by ring]
  have c0U' : c.w * (|t.c0| * U) ≤ 1 / 32 := by
    have : 0 ≤ c.w * (|t.c0| * U) := by positivity
    nlinarith
  have sm : ∀ a b : ℝ, |a| ≤ X → |b| ≤ X → |t.c0 * a + t.c1 * b| ≤ 1 / 16 := by
    intro a b ha hb
    have e0 := abs_add_le (t.c0 * a) (t.c1 * b)
    rw [abs_mul, abs_mul] at e0
    have e1 := mul_le_mul_of_nonneg_left ha n0
    have e2 := mul_le_mul_of_nonneg_left hb n1
    linarith
  have a1w : |t.a1 * c.w - c.s| ≤ c.s / 8 := by
    have e : t.a1 * c.w - c.s = ex c t (c.x + c.w) c.y - ex c t c.x c.y + (c.s * (t.c0 * (c.x + c.w) + t.c1 * c.y) + c.u * t.c0 * c.w) := by
      unfold ex; field_simp; ring
    have f1 := abs_sub (ex c t (c.x + c.w) c.y) (ex c t c.x c.y)
    have f2 := abs_add_le (c.s * (t.c0 * (c.x + c.w) + t.c1 * c.y)) (c.u * t.c0 * c.w)
    have f3 := abs_add_le (ex c t (c.x + c.w) c.y - ex c t c.x c.y) (c.s * (t.c0 * (c.x + c.w) + t.c1 * c.y) + c.u * t.c0 * c.w)
    rw [← e] at f3
    rw [abs_mul, abs_mul, abs_mul, abs_of_pos hs', abs_of_pos hw] at f2
    have f4 := mul_le_mul_of_nonneg_left (sm (c.x + c.w) c.y hs.full.2.1 hs.full.2.2.1) hs'.le
    have f5 : |c.u| * |t.c0| * c.w ≤ c.w * (|t.c0| * U) := by
      have := mul_le_mul_of_nonneg_right hs.chip.1 (show 0 ≤ |t.c0| * c.w by positivity)
      linarith
    linarith [h1.e1, h1.e2]
  have a1 : |t.a1 - c.s / c.w| ≤ c.s / c.w / 8 := by
    have e : t.a1 - c.s / c.w = (t.a1 * c.w - c.s) / c.w := by field_simp
    rw [e, abs_div, abs_of_pos hw, div_div, div_le_div_iff₀ hw (by positivity)]
    nlinarith
  have a2h : |t.a2 * c.h| ≤ 2 * ρ + c.h * (|t.c1| * U) := by
    have e : t.a2 * c.h = ex c t c.x (c.y + c.h) - ex c t c.x c.y + c.u * t.c1 * c.h := by
      unfold ex; ring
    have f1 := abs_sub (ex c t c.x (c.y + c.h)) (ex c t c.x c.y)
    have f3 := abs_add_le (ex c t c.x (c.y + c.h) - ex c t c.x c.y) (c.u * t.c1 * c.h)
    rw [← e, abs_mul (c.u * t.c1), abs_mul c.u, abs_of_pos hh] at f3
    have f5 : |c.u| * |t.c1| * c.h ≤ c.h * (|t.c1| * U) := by
      have := mul_le_mul_of_nonneg_right hs.chip.1 (show 0 ≤ |t.c1| * c.h by positivity)
      linarith
    linarith [h1.e1, h1.e4]
  have a2 : κ * (c.h * |t.a2|) ≤ 1 / 20 := by
    rw [abs_mul, abs_of_pos hh] at a2h
    have := mul_le_mul_of_nonneg_left a2h κ0.le
    nlinarith
  have a2X : |t.a2| * X ≤ 1 / 20 := by
    have e1 := mul_le_mul_of_nonneg_left hs.ratio_full.2 (abs_nonneg t.a2)
    linarith [show |t.a2| * (κ * c.h) = κ * (c.h * |t.a2|) by ring]
  have r0 : 0 < c.s / c.w := by positivity
  have a1s : |t.a1| ≤ 9 / 8 * (c.s / c.w) := by
    have := abs_add_le (t.a1 - c.s / c.w) (c.s / c.w)
    rw [sub_add_cancel, abs_of_pos r0] at this
    linarith
  refine ⟨c0X, c1X, c0U, c1U, a1, a2, ?_⟩
  have e : t.a0 = ex c t c.x c.y + c.u * (1 + (t.c0 * c.x + t.c1 * c.y)) - t.a1 * c.x - t.a2 * c.y := by
    unfold ex; ring
  have f1 := abs_sub (ex c t c.x c.y + c.u * (1 + (t.c0 * c.x + t.c1 * c.y)) - t.a1 * c.x) (t.a2 * c.y)
  have f2 := abs_sub (ex c t c.x c.y + c.u * (1 + (t.c0 * c.x + t.c1 * c.y))) (t.a1 * c.x)
  have f3 := abs_add_le (ex c t c.x c.y) (c.u * (1 + (t.c0 * c.x + t.c1 * c.y)))
  rw [← e] at f1
  rw [abs_mul t.a2] at f1
  rw [abs_mul t.a1] at f2
  rw [abs_mul c.u] at f3
  have g1 : |1 + (t.c0 * c.x + t.c1 * c.y)| ≤ 17 / 16 := by
    have := abs_add_le 1 (t.c0 * c.x + t.c1 * c.y)
    rw [abs_one] at this
    linarith [sm c.x c.y hs.full.1 hs.full.2.2.1]
  have g2 : |c.u| * |1 + (t.c0 * c.x + t.c1 * c.y)| ≤ U * (17 / 16) := mul_le_mul hs.chip.1 g1 (abs_nonneg _) U0
  have g3 : |t.a1| * |c.x| ≤ 9 / 8 * (c.s / c.w) * X := mul_le_mul a1s hs.full.1 (abs_nonneg _) (by positivity)
  have g4 : |t.a2| * |c.y| ≤ |t.a2| * X := mul_le_mul_of_nonneg_left hs.full.2.2.1 (abs_nonneg _)
  have g5 : 0 ≤ c.s / c.w * X := by positivity
  linarith [h1.e1]

/-! ## Rounding -/

open Verif.Lemmas.Rounded Verif.Spec.Rounded Verif.Props.Rounded

section
variable {rnd : ℝ → ℝ}

theorem lim {n : ℕ} {w d : ℝ} (hn : n ≤ 1000) (h0 : 0 ≤ w + d) (h1 : w ≤ 2 ^ 200) (h2 : d ≤ 1) : grow ^ n * (w + d) ≤ 2 ^ 250 := by
  calc grow ^ n * (w + d) ≤ 2 * (2 ^ 200 + 1) := mul_le_mul (Verif.Props.RoundedRsm.grow_pow_le_two hn) (by linarith) h0 (by norm_num)
    _ ≤ 2 ^ 250 := by norm_num

/-- A coefficient: at most two rounded operations. -/
def Coef (m M A : ℝ) : Prop := Approx 2 (1 / 2 ^ 198) m M A ∧ A ≤ 2 ^ 130

theorem coef_exact {a : ℝ} (h : |a| ≤ 2 ^ 130) : Coef a a |a| := ⟨(Approx.exact a).weaken (by norm_num) (by positivity), h⟩

theorem product (hr : Rounds rnd) {a b : ℝ} (h : |a| * |b| ≤ 2 ^ 130) : Approx 1 (1 / 2 ^ 200) (rnd (a * b)) (a * b) (|a| * |b|) := by
  have := (Approx.exact (a * b)).round hr (lim (by norm_num) (by positivity) (by rw [abs_mul]; exact le_trans h (by norm_num)) (by norm_num))
  rw [abs_mul] at this
  simpa using this

theorem difference (hr : Rounds rnd) {s S a t T b : ℝ} (h : Approx 1 (1 / 2 ^ 200) s S a) (g : Approx 1 (1 / 2 ^ 200) t T b) (hs : a + b ≤ 2 ^ 130) :
    Coef (rnd (s - t)) (S - T) (a + b) := by
  have ha := h.nonneg
  have hb := g.nonneg
  have := (h.add g.neg).round hr (lim (by norm_num) (by positivity) (le_trans hs (by norm_num)) (by norm_num))
  rw [← sub_eq_add_neg, ← sub_eq_add_neg] at this
  exact ⟨this.weaken (by norm_num) (by norm_num), hs⟩

theorem minor_coef (hr : Rounds rnd) {a b c d : ℝ} (h : |a| * |b| + |c| * |d| ≤ 2 ^ 130) :
    Coef (Verif.RoundedTransforms.minor rnd a b c d) (a * b - c * d) (|a| * |b| + |c| * |d|) := by
  have h1 : 0 ≤ |a| * |b| := by positivity
  have h2 : 0 ≤ |c| * |d| := by positivity
  exact difference hr (product hr (by linarith)) (product hr (by linarith)) h

theorem minorL_coef (hr : Rounds rnd) {a c d : ℝ} (h : |a| + |c| * |d| ≤ 2 ^ 130) :
    Coef (Verif.RoundedTransforms.minorL rnd a c d) (a - c * d) (|a| + |c| * |d|) := by
  have h1 : 0 ≤ |a| := by positivity
  exact difference hr ((Approx.exact a).weaken (by norm_num) (by positivity)) (product hr (by linarith)) h

theorem minorR_coef (hr : Rounds rnd) {a b c : ℝ} (h : |a| * |b| + |c| ≤ 2 ^ 130) :
    Coef (Verif.RoundedTransforms.minorR rnd a b c) (a * b - c) (|a| * |b| + |c|) := by
  have h1 : 0 ≤ |c| := by positivity
  exact difference hr (product hr (by linarith)) ((Approx.exact c).weaken (by norm_num) (by positivity)) h

theorem linear_err (hr : Rounds rnd) {m0 m1 m2 M0 M1 M2 A0 A1 A2 x y : ℝ} (h0 : Coef m0 M0 A0) (h1 : Coef m1 M1 A1) (h2 : Coef m2 M2 A2)
    (hx : |x| ≤ 2 ^ 31) (hy : |y| ≤ 2 ^ 31) :
    |Verif.RoundedTransforms.linear rnd m0 m1 m2 x y - (M0 + M1 * x + M2 * y)| ≤ 6 / 2 ^ 53 * (A0 + A1 * |x| + A2 * |y|) + 1 / 2 ^ 160 := by
  obtain ⟨h0, k0⟩ := h0
  obtain ⟨h1, k1⟩ := h1
  obtain ⟨h2, k2⟩ := h2
  have n0 := h0.nonneg
  have n1 := h1.nonneg
  have n2 := h2.nonneg
  have nx := abs_nonneg x
  have ny := abs_nonneg y
  have s1 : A1 * |x| ≤ 2 ^ 161 := le_trans (mul_le_mul k1 hx nx (by norm_num)) (by norm_num)
  have s2 : A2 * |y| ≤ 2 ^ 161 := le_trans (mul_le_mul k2 hy ny (by norm_num)) (by norm_num)
  have t1 : 1 / 2 ^ 198 * |x| ≤ 1 / 2 ^ 167 := le_trans (mul_le_mul_of_nonneg_left hx (by positivity)) (by norm_num)
  have t2 : 1 / 2 ^ 198 * |y| ≤ 1 / 2 ^ 167 := le_trans (mul_le_mul_of_nonneg_left hy (by positivity)) (by norm_num)
  have q1 := ((h1.scale x).weaken (le_refl _) t1).round hr (lim (by norm_num) (by positivity) (le_trans s1 (by norm_num)) (by norm_num))
  have q2 := ((h2.scale y).weaken (le_refl _) t2).round hr (lim (by norm_num) (by positivity) (le_trans s2 (by norm_num)) (by norm_num))
  have r1 := ((h0.weaken (show 2 ≤ 2 + 1 by norm_num) (le_refl _)).add q1).round hr
    (lim (by norm_num) (by positivity) (le_trans (add_le_add k0 s1) (by norm_num)) (by norm_num))
  have r2 := (r1.add (q2.weaken (show 2 + 1 ≤ 2 + 1 + 1 by norm_num) (le_refl _))).round hr
    (lim (by norm_num) (by positivity) (le_trans (add_le_add (add_le_add k0 s1) s2) (by norm_num)) (by norm_num))
  have := r2.2.2
  refine le_trans this ?_
  have A0' : 0 ≤ A0 + A1 * |x| + A2 * |y| := by positivity
  generalize A0 + A1 * |x| + A2 * |y| = A at *
  have g : grow ^ (2 + 1 + 1 + 1) ≤ 1 + 6 / 2 ^ 53 := by unfold grow; norm_num
  have m := mul_le_mul_of_nonneg_right g (show 0 ≤ A + ((1:ℝ) / 2 ^ 198 + (1 / 2 ^ 167 + 1 / 2 ^ 200) + 1 / 2 ^ 200 + (1 / 2 ^ 167 + 1 / 2 ^ 200) + 1 / 2 ^ 200) by positivity)
  have c : (1 + 6 / 2 ^ 53) * ((1:ℝ) / 2 ^ 198 + (1 / 2 ^ 167 + 1 / 2 ^ 200) + 1 / 2 ^ 200 + (1 / 2 ^ 167 + 1 / 2 ^ 200) + 1 / 2 ^ 200) ≤ 1 / 2 ^ 160 := by norm_num
  linarith

/-- A quotient of two linear forms. -/
theorem quotient_err (hr : Rounds rnd) {n N M d D E m : ℝ} (hn : |n - N| ≤ 6 / 2 ^ 53 * M + 1 / 2 ^ 160) (hN : |N| ≤ M)
    (hd : |d - D| ≤ 6 / 2 ^ 53 * E + 1 / 2 ^ 160) (hM : M ≤ m * |D|) (hE : E ≤ 4 * |D|) (hD : 1 / 2 ^ 64 ≤ |D|) (hm : 1 / 2 ^ 32 ≤ m) (hm' : m ≤ 2 ^ 150) :
    d ≠ 0 ∧ |rnd (n / d) - N / D| ≤ 40 / 2 ^ 53 * m := by
  have Dp : 0 < |D| := lt_of_lt_of_le (by positivity) hD
  have Dne : D ≠ 0 := abs_pos.mp Dp
  have m0 : 0 < m := lt_of_lt_of_le (by positivity) hm
  have mD : 1 / 2 ^ 96 ≤ m * |D| := by
    have := mul_le_mul hm hD (by positivity) m0.le
    refine le_trans (by norm_num) this
  have d1 : |d - D| ≤ 25 / 2 ^ 53 * |D| := by
    have : (1:ℝ) / 2 ^ 160 ≤ 1 / 2 ^ 53 * |D| := by
      have := mul_le_mul_of_nonneg_left hD (show (0:ℝ) ≤ 1 / 2 ^ 53 by positivity)
      refine le_trans ?_ this; norm_num
    have := mul_le_mul_of_nonneg_left hE (show (0:ℝ) ≤ 6 / 2 ^ 53 by positivity)
    linarith
  have n1 : |n - N| ≤ 7 / 2 ^ 53 * (m * |D|) := by
    have : (1:ℝ) / 2 ^ 160 ≤ 1 / 2 ^ 53 * (m * |D|) := by
      have := mul_le_mul_of_nonneg_left mD (show (0:ℝ) ≤ 1 / 2 ^ 53 by positivity)
      refine le_trans ?_ this; norm_num
    have := mul_le_mul_of_nonneg_left hM (show (0:ℝ) ≤ 6 / 2 ^ 53 by positivity)
    linarith
  have d2 : 0.99 * |D| ≤ |d| := by
    have := abs_sub_abs_le_abs_sub D d
    rw [abs_sub_comm] at this
    have : 25 / 2 ^ 53 * |D| ≤ 0.01 * |D| := mul_le_mul_of_nonneg_right (by norm_num) Dp.le
    linarith
  have dp : 0 < |d| := by linarith
  have dne : d ≠ 0 := abs_pos.mp dp
  refine ⟨dne, ?_⟩
  have e1 : |n / d - N / D| ≤ 33 / 2 ^ 53 * m := by
    have e : n / d - N / D = ((n - N) * D - N * (d - D)) / (d * D) := by field_simp; ring
    rw [e, abs_div, abs_mul d, div_le_iff₀ (by positivity)]
    have f := abs_sub ((n - N) * D) (N * (d - D))
    rw [abs_mul, abs_mul] at f
    have f1 : |n - N| * |D| ≤ 7 / 2 ^ 53 * (m * |D|) * |D| := mul_le_mul_of_nonneg_right n1 Dp.le
    have f2 : |N| * |d - D| ≤ m * |D| * (25 / 2 ^ 53 * |D|) := mul_le_mul (le_trans hN hM) d1 (abs_nonneg _) (by positivity)
    have f3 : 33 / 2 ^ 53 * m * (0.99 * |D| * |D|) ≤ 33 / 2 ^ 53 * m * (|d| * |D|) :=
      mul_le_mul_of_nonneg_left (mul_le_mul_of_nonneg_right d2 Dp.le) (by positivity)
    have f4 : 0 ≤ 1 / 2 ^ 53 * m * (|D| * |D|) := by positivity
    linarith [show 7 / 2 ^ 53 * (m * |D|) * |D| = 7 * (1 / 2 ^ 53 * m * (|D| * |D|)) by ring, show m * |D| * (25 / 2 ^ 53 * |D|) = 25 * (1 / 2 ^ 53 * m * (|D| * |D|)) by ring,
      show 33 / 2 ^ 53 * m * (0.99 * |D| * |D|) = 33 * 0.99 * (1 / 2 ^ 53 * m * (|D| * |D|)) by ring]
  have e2 : |N / D| ≤ m := by rw [abs_div, div_le_iff₀ Dp]; linarith
  have e3 : |n / d| ≤ 2 * m := by
    have := size_of e1 e2
    have : 33 / 2 ^ 53 * m ≤ 1 * m := mul_le_mul_of_nonneg_right (by norm_num) m0.le
    linarith
  have e4 := near hr e1 e3 (by linarith [show (2:ℝ) * 2 ^ 150 ≤ 2 ^ 250 by norm_num])
  have e5 : (1:ℝ) / 2 ^ 200 ≤ 1 / 2 ^ 53 * m := by
    have := mul_le_mul_of_nonneg_left hm (show (0:ℝ) ≤ 1 / 2 ^ 53 by positivity)
    refine le_trans ?_ this; norm_num
  have e6 : 33 / 2 ^ 53 * m + 2 * m / 2 ^ 53 + 1 / 2 ^ 53 * m = 36 * (m / 2 ^ 53) := by ring
  have e7 : 40 / 2 ^ 53 * m = 40 * (m / 2 ^ 53) := by ring
  have e8 : 0 ≤ m / 2 ^ 53 := by positivity
  linarith

end

end Verif.Lemmas.RoundedTransforms
