import Verif.Model.Remap
import Verif.Lemmas.Float32
import Verif.Props.OrthophotoSeams

/-!
# What `cv2.remap` shows, and where orthophoto tiles are transparent

`Props.Orthophoto`, `Props.OrthophotoNear`, `Props.OrthophotoSeams` and `Props.Mercator` assume that `cv2.remap` interpolates.  Here this is shown of the model of `cv2.remap`, and its error is bounded.
-/

namespace Verif.Props.Remap

open Verif.Remap Verif.Orthophoto Verif.TileFactory Verif.GdalUtils Verif.Updaters Verif.Float64 Verif.Float32 Verif.Sar
open Verif.Props.TileFactory Verif.Props.Orthophoto Verif.Props.OrthophotoNear

/-! ## The position in 32nds of a pixel -/

theorem fixed_le (x : ℚ) (n : Int) (hn : |n| ≤ 2 ^ 23) (h : x ≤ n) : fixed x ≤ 32 * n := by
  have := rne32_le_int x n hn h
  unfold fixed
  rw [← rint_intCast (32 * n)]
  apply rint_mono
  push_cast
  linarith

theorem le_fixed (x : ℚ) (n : Int) (hn : |n| ≤ 2 ^ 23) (h : (n : ℚ) ≤ x) : 32 * n ≤ fixed x := by
  have := int_le_rne32 x n hn h
  unfold fixed
  rw [← rint_intCast (32 * n)]
  apply rint_mono
  push_cast
  linarith

theorem fixed_int (n : Int) (hn : |n| ≤ 2 ^ 23) : fixed n = 32 * n := le_antisymm (fixed_le _ n hn le_rfl) (le_fixed _ n hn le_rfl)

theorem fixed_error (x : ℚ) (h : |x| < 2 ^ 15) : |(fixed x : ℚ) / 32 - x| ≤ 17 / 1024 := by
  have h1 := rint_spec (32 * rne32 x)
  have h2 := rne32_error x h
  unfold fixed
  rw [abs_le] at *
  constructor <;> linarith [h1.1, h1.2, h2.1, h2.2]

/-- In one dimension: at a position inside an array, both the fixed-point and the exact interpolation are between the same two pixels, which are pixels of the array within one pixel of the position; the shares
differ by at most 17/1024. -/
theorem axis (w : Nat) (hw : w < 32767) (x : ℚ) (h0 : 0 ≤ x) (h1 : x ≤ (w : ℚ) - 1) :
    ∃ (n n' : Int) (s u : ℚ), (0 ≤ n ∧ n < w ∧ |(n : ℚ) - x| ≤ 1) ∧ (0 ≤ n' ∧ n' < w ∧ |(n' : ℚ) - x| ≤ 1) ∧ (0 ≤ s ∧ s ≤ 1) ∧ (0 ≤ u ∧ u ≤ 1) ∧ |s - u| ≤ 17 / 1024 ∧
      (∀ f : Int → ℚ, ((32 - (frac x : ℚ)) * f (cell x) + frac x * f (cell x + 1)) / 32 = (1 - s) * f n + s * f n') ∧
      (∀ f : Int → ℚ, (1 - (x - ⌊x⌋)) * f ⌊x⌋ + (x - ⌊x⌋) * f (⌊x⌋ + 1) = (1 - u) * f n + u * f n') := by
  have hw' : (w : ℚ) < 32767 := by exact_mod_cast hw
  have fl := Int.floor_le x
  have lf := Int.lt_floor_add_one x
  generalize hN : ⌊x⌋ = N at *
  have N0 : 0 ≤ N := by rw [← hN]; exact Int.floor_nonneg.2 h0
  have N1 : N < w := by
    have : (N : ℚ) < w := by linarith
    exact_mod_cast this
  have aN : |N| ≤ 2 ^ 23 := by rw [abs_of_nonneg N0]; omega
  have aN1 : |N + 1| ≤ 2 ^ 23 := by rw [abs_of_nonneg (by omega)]; omega
  have g0 := le_fixed x N aN fl
  have g1 := fixed_le x (N + 1) aN1 (by push_cast; linarith)
  have ge := fixed_error x (by rw [abs_of_nonneg h0]; norm_num; linarith)
  have hcell : cell x = fixed x / 32 := by unfold cell; omega
  have hfrac : frac x = fixed x % 32 := rfl
  by_cases hx : x = N
  · have hf : fixed x = 32 * N := by rw [hx]; exact fixed_int N aN
    have c1 : cell x = N := by omega
    have c2 : frac x = 0 := by omega
    refine ⟨N, N, 0, 0, ⟨N0, N1, ?_⟩, ⟨N0, N1, ?_⟩, ⟨le_rfl, zero_le_one⟩, ⟨le_rfl, zero_le_one⟩, by norm_num, ?_, ?_⟩
    · rw [hx, sub_self, abs_zero]; exact zero_le_one
    · rw [hx, sub_self, abs_zero]; exact zero_le_one
    · intro f; rw [c1, c2]; push_cast; ring
    · intro f; rw [hx]; ring
  · have N2 : N + 1 < w := by
      have a : (N : ℚ) < x := lt_of_le_of_ne fl (Ne.symm hx)
      have : (N : ℚ) + 1 < w := by linarith
      exact_mod_cast this
    refine ⟨N, N + 1, (fixed x : ℚ) / 32 - N, x - N, ⟨N0, N1, ?_⟩, ⟨by omega, N2, ?_⟩, ⟨?_, ?_⟩, ⟨by linarith, by linarith⟩, ?_, ?_, ?_⟩
    · rw [abs_le]; constructor <;> linarith
    · push_cast; rw [abs_le]; constructor <;> linarith
    · have : (32 * N : ℚ) ≤ fixed x := by exact_mod_cast g0
      linarith
    · have : (fixed x : ℚ) ≤ 32 * (N + 1) := by exact_mod_cast g1
      linarith
    · rw [show (fixed x : ℚ) / 32 - N - (x - N) = fixed x / 32 - x by ring]; exact ge
    · intro f
      by_cases hc : fixed x = 32 * (N + 1)
      · have c1 : cell x = N + 1 := by omega
        have c2 : frac x = 0 := by omega
        rw [c1, c2, hc]; push_cast; ring
      · have c1 : cell x = N := by omega
        have c2 : frac x = fixed x - 32 * N := by omega
        rw [c1, c2]; push_cast; ring
    · intro f; ring

/-- Exact bilinear interpolation at a position: whole positions are the centres of pixels. -/
def smooth (c : Channel) (x y : ℚ) : ℚ :=
  (1 - (y - ⌊y⌋)) * ((1 - (x - ⌊x⌋)) * c ⌊y⌋ ⌊x⌋ + (x - ⌊x⌋) * c ⌊y⌋ (⌊x⌋ + 1)) + (y - ⌊y⌋) * ((1 - (x - ⌊x⌋)) * c (⌊y⌋ + 1) ⌊x⌋ + (x - ⌊x⌋) * c (⌊y⌋ + 1) (⌊x⌋ + 1))

/-- Both interpolations between the same four pixels of the array, with nearly the same shares. -/
theorem remap_between (w h : Nat) (hw : w < 32767) (hh : h < 32767) (c : Channel) (x y : ℚ) (x0 : 0 ≤ x) (x1 : x ≤ (w : ℚ) - 1) (y0 : 0 ≤ y) (y1 : y ≤ (h : ℚ) - 1) :
    ∃ (n n' m m' : Int) (s u t v : ℚ), ((0 ≤ n ∧ n < w ∧ |(n : ℚ) - x| ≤ 1) ∧ (0 ≤ n' ∧ n' < w ∧ |(n' : ℚ) - x| ≤ 1)) ∧ ((0 ≤ m ∧ m < h ∧ |(m : ℚ) - y| ≤ 1) ∧ (0 ≤ m' ∧ m' < h ∧ |(m' : ℚ) - y| ≤ 1)) ∧
      ((0 ≤ s ∧ s ≤ 1) ∧ (0 ≤ u ∧ u ≤ 1) ∧ |s - u| ≤ 17 / 1024) ∧ ((0 ≤ t ∧ t ≤ 1) ∧ (0 ≤ v ∧ v ≤ 1) ∧ |t - v| ≤ 17 / 1024) ∧
      remap w h c x y = ⌊(1 - t) * ((1 - s) * (c m n : ℚ) + s * c m n') + t * ((1 - s) * c m' n + s * c m' n') + 1 / 2⌋ ∧
      smooth c x y = (1 - v) * ((1 - u) * (c m n : ℚ) + u * c m n') + v * ((1 - u) * c m' n + u * c m' n') := by
  obtain ⟨n, n', s, u, hn, hn', hs, hu, hsu, ef, es⟩ := axis w hw x x0 x1
  obtain ⟨m, m', t, v, hm, hm', ht, hv, htv, gf, gs⟩ := axis h hh y y0 y1
  have tin : ∀ X Y : Int, 0 ≤ X → X < w → 0 ≤ Y → Y < h → tap w h c Y X = c Y X := by
    intro X Y a b d e
    unfold tap
    rw [if_pos ⟨a, b, d, e⟩]
  refine ⟨n, n', m, m', s, u, t, v, ⟨hn, hn'⟩, ⟨hm, hm'⟩, ⟨hs, hu, hsu⟩, ⟨ht, hv, htv⟩, ?_, ?_⟩
  · have key : (1 - t) * ((1 - s) * (c m n : ℚ) + s * c m n') + t * ((1 - s) * c m' n + s * c m' n') =
        ((32 - (frac y : ℚ)) * (((32 - (frac x : ℚ)) * tap w h c (cell y) (cell x) + frac x * tap w h c (cell y) (cell x + 1)) / 32) +
          frac y * (((32 - (frac x : ℚ)) * tap w h c (cell y + 1) (cell x) + frac x * tap w h c (cell y + 1) (cell x + 1)) / 32)) / 32 := by
      rw [ef (fun X => (tap w h c (cell y) X : ℚ)), ef (fun X => (tap w h c (cell y + 1) X : ℚ)), gf (fun Y => (1 - s) * (tap w h c Y n : ℚ) + s * tap w h c Y n'),
        tin n m hn.1 hn.2.1 hm.1 hm.2.1, tin n' m hn'.1 hn'.2.1 hm.1 hm.2.1, tin n m' hn.1 hn.2.1 hm'.1 hm'.2.1, tin n' m' hn'.1 hn'.2.1 hm'.1 hm'.2.1]
    rw [key]
    unfold remap
    have e := Rat.floor_intCast_div_natCast
      (32 * (32 - frac y) * (32 - frac x) * tap w h c (cell y) (cell x) + 32 * (32 - frac y) * frac x * tap w h c (cell y) (cell x + 1) +
        32 * frac y * (32 - frac x) * tap w h c (cell y + 1) (cell x) + 32 * frac y * frac x * tap w h c (cell y + 1) (cell x + 1) + 2 ^ 14) (2 ^ 15)
    rw [show (((2 ^ 15 : Nat)) : Int) = 2 ^ 15 by norm_num] at e
    rw [← e]
    congr 1
    push_cast
    ring
  · unfold smooth
    rw [es (fun X => (c ⌊y⌋ X : ℚ)), es (fun X => (c (⌊y⌋ + 1) X : ℚ)), gs (fun Y => (1 - u) * (c Y n : ℚ) + u * c Y n')]

/-! ## The assumptions about `cv2.remap` hold (C150) -/

theorem mean2 (t a b lo hi : ℚ) (h : 0 ≤ t ∧ t ≤ 1) (ha : lo ≤ a ∧ a ≤ hi) (hb : lo ≤ b ∧ b ≤ hi) : lo ≤ (1 - t) * a + t * b ∧ (1 - t) * a + t * b ≤ hi := by
  constructor <;> nlinarith [h.1, h.2, ha.1, ha.2, hb.1, hb.2, mul_nonneg h.1 (sub_nonneg.2 hb.1), mul_nonneg (sub_nonneg.2 h.2) (sub_nonneg.2 ha.1),
    mul_nonneg h.1 (sub_nonneg.2 hb.2), mul_nonneg (sub_nonneg.2 h.2) (sub_nonneg.2 ha.2)]

/-- **C150**: the 8-bit `cv2.remap` never leaves the range of the pixels of the array within one pixel of the position, in spite of float32 positions, the grid of 1/32 pixels and integer weights. -/
theorem remap_interpolates : Interpolates remap := by
  intro w h c x y lo hi hw hh x0 x1 y0 y1 hall
  obtain ⟨n, n', m, m', s, u, t, v, ⟨hn, hn'⟩, ⟨hm, hm'⟩, ⟨hs, _, _⟩, ⟨ht, _, _⟩, hr, _⟩ := remap_between w h hw hh c x y x0 x1 y0 y1
  have q : ∀ X Y : Int, (0 ≤ X ∧ X < w ∧ |(X : ℚ) - x| ≤ 1) → (0 ≤ Y ∧ Y < h ∧ |(Y : ℚ) - y| ≤ 1) → (lo : ℚ) ≤ c Y X ∧ (c Y X : ℚ) ≤ hi := by
    intro X Y hX hY
    have := hall X Y hX.1 hX.2.1 hY.1 hY.2.1 hX.2.2 hY.2.2
    exact ⟨by exact_mod_cast this.1, by exact_mod_cast this.2⟩
  have P := mean2 t _ _ lo hi ht (mean2 s _ _ lo hi hs (q n m hn hm) (q n' m hn' hm)) (mean2 s _ _ lo hi hs (q n m' hn hm') (q n' m' hn' hm'))
  rw [hr]
  constructor
  · rw [Int.le_floor]; linarith [P.1]
  · rw [← Int.lt_add_one_iff, Int.floor_lt]; push_cast; linarith [P.2]

/-- **C150**: at a whole position the 8-bit `cv2.remap` gives the pixel there. -/
theorem remap_samples : Samples remap := by
  intro w h c x y hw hh x0 x1 y0 y1
  have cellInt : ∀ n : Int, 0 ≤ n → n < 32767 → cell n = n ∧ frac n = 0 := by
    intro n h0 h1
    have := fixed_int n (by rw [abs_of_nonneg h0]; omega)
    unfold cell frac
    omega
  obtain ⟨a, b⟩ := cellInt x x0 (by omega)
  obtain ⟨d, e⟩ := cellInt y y0 (by omega)
  unfold remap tap
  rw [a, b, d, e, if_pos ⟨x0, x1, y0, y1⟩]
  omega

/-- **C150**: the error of the 8-bit `cv2.remap`.  It differs from exact bilinear interpolation at the exact position by at most half a grey level and 17/512 of the contrast `M` of the surrounding pixels. -/
theorem remap_accuracy (w h : Nat) (hw : w < 32767) (hh : h < 32767) (c : Channel) (x y : ℚ) (x0 : 0 ≤ x) (x1 : x ≤ (w : ℚ) - 1) (y0 : 0 ≤ y) (y1 : y ≤ (h : ℚ) - 1) (M : ℚ)
    (hM : ∀ X Y X' Y' : Int, 0 ≤ X → X < w → 0 ≤ Y → Y < h → |(X : ℚ) - x| ≤ 1 → |(Y : ℚ) - y| ≤ 1 → 0 ≤ X' → X' < w → 0 ≤ Y' → Y' < h → |(X' : ℚ) - x| ≤ 1 → |(Y' : ℚ) - y| ≤ 1 →
      (c Y X : ℚ) - c Y' X' ≤ M) :
    |(remap w h c x y : ℚ) - smooth c x y| ≤ 1 / 2 + 17 / 512 * M := by
  obtain ⟨n, n', m, m', s, u, t, v, ⟨hn, hn'⟩, ⟨hm, hm'⟩, ⟨hs, hu, hsu⟩, ⟨ht, hv, htv⟩, hr, hsm⟩ := remap_between w h hw hh c x y x0 x1 y0 y1
  have q : ∀ X Y X' Y' : Int, (0 ≤ X ∧ X < w ∧ |(X : ℚ) - x| ≤ 1) → (0 ≤ Y ∧ Y < h ∧ |(Y : ℚ) - y| ≤ 1) → (0 ≤ X' ∧ X' < w ∧ |(X' : ℚ) - x| ≤ 1) → (0 ≤ Y' ∧ Y' < h ∧ |(Y' : ℚ) - y| ≤ 1) →
      -M ≤ (c Y X : ℚ) - c Y' X' ∧ (c Y X : ℚ) - c Y' X' ≤ M := by
    intro X Y X' Y' a b d e
    exact ⟨by linarith [hM X' Y' X Y d.1 d.2.1 e.1 e.2.1 d.2.2 e.2.2 a.1 a.2.1 b.1 b.2.1 a.2.2 b.2.2], hM X Y X' Y' a.1 a.2.1 b.1 b.2.1 a.2.2 b.2.2 d.1 d.2.1 e.1 e.2.1 d.2.2 e.2.2⟩
  have A := mean2 t _ _ (-M) M ht (q n' m n m hn' hm hn hm) (q n' m' n m' hn' hm' hn hm')
  have B := mean2 u _ _ (-M) M hu (q n m' n m hn hm' hn hm) (q n' m' n' m hn' hm' hn' hm)
  have M0 : 0 ≤ M := by linarith [(q n m n m hn hm hn hm).2]
  have fl := Int.floor_le ((1 - t) * ((1 - s) * (c m n : ℚ) + s * c m n') + t * ((1 - s) * c m' n + s * c m' n') + 1 / 2)
  have lf := Int.lt_floor_add_one ((1 - t) * ((1 - s) * (c m n : ℚ) + s * c m n') + t * ((1 - s) * c m' n + s * c m' n') + 1 / 2)
  rw [← hr] at fl lf
  have split : (1 - t) * ((1 - s) * (c m n : ℚ) + s * c m n') + t * ((1 - s) * c m' n + s * c m' n') - smooth c x y =
      (s - u) * ((1 - t) * ((c m n' : ℚ) - c m n) + t * ((c m' n' : ℚ) - c m' n)) + (t - v) * ((1 - u) * ((c m' n : ℚ) - c m n) + u * ((c m' n' : ℚ) - c m n')) := by
    rw [hsm]; ring
  have e1 : |(s - u) * ((1 - t) * ((c m n' : ℚ) - c m n) + t * ((c m' n' : ℚ) - c m' n))| ≤ 17 / 1024 * M := by
    rw [abs_mul]; exact mul_le_mul hsu (abs_le.2 A) (abs_nonneg _) (by norm_num)
  have e2 : |(t - v) * ((1 - u) * ((c m' n : ℚ) - c m n) + u * ((c m' n' : ℚ) - c m n'))| ≤ 17 / 1024 * M := by
    rw [abs_mul]; exact mul_le_mul htv (abs_le.2 B) (abs_nonneg _) (by norm_num)
  rw [abs_le] at e1 e2 ⊢
  constructor <;> linarith [e1.1, e1.2, e2.1, e2.2]

/-- Outside the array by a pixel or more, `cv2.remap` gives 0. -/
theorem remap_outside (w h : Nat) (hw : w < 32767) (hh : h < 32767) (c : Channel) (x y : ℚ) (hout : x ≤ -1 ∨ (w : ℚ) ≤ x ∨ y ≤ -1 ∨ (h : ℚ) ≤ y) : remap w h c x y = 0 := by
  have low : ∀ x : ℚ, x ≤ -1 → (cell x = -1 ∧ frac x = 0) ∨ cell x + 1 < 0 := by
    intro x hx
    have := fixed_le x (-1) (by norm_num) (by push_cast; exact hx)
    unfold cell frac
    omega
  have high : ∀ (w : Nat) (x : ℚ), w < 32767 → (w : ℚ) ≤ x → (w : Int) ≤ cell x := by
    intro w x hw hx
    have := le_fixed x w (by rw [abs_of_nonneg (by omega)]; omega) (by exact_mod_cast hx)
    unfold cell
    omega
  have zero : ∀ row col : Int, (col < 0 ∨ (w : Int) ≤ col ∨ row < 0 ∨ (h : Int) ≤ row) → tap w h c row col = 0 := by
    intro row col hz
    unfold tap
    rw [if_neg (by omega)]
  unfold remap
  rcases hout with hx | hx | hy | hy
  · rcases low x hx with ⟨a, b⟩ | a
    · rw [b, zero (cell y) (cell x) (by omega), zero (cell y + 1) (cell x) (by omega)]; norm_num
    · rw [zero (cell y) (cell x) (by omega), zero (cell y + 1) (cell x) (by omega), zero (cell y) (cell x + 1) (by omega), zero (cell y + 1) (cell x + 1) (by omega)]; norm_num
  · have := high w x hw hx
    rw [zero (cell y) (cell x) (by omega), zero (cell y + 1) (cell x) (by omega), zero (cell y) (cell x + 1) (by omega), zero (cell y + 1) (cell x + 1) (by omega)]; norm_num
  · rcases low y hy with ⟨a, b⟩ | a
    · rw [b, zero (cell y) (cell x) (by omega), zero (cell y) (cell x + 1) (by omega)]; norm_num
    · rw [zero (cell y) (cell x) (by omega), zero (cell y + 1) (cell x) (by omega), zero (cell y) (cell x + 1) (by omega), zero (cell y + 1) (cell x + 1) (by omega)]; norm_num
  · have := high h y hh hy
    rw [zero (cell y) (cell x) (by omega), zero (cell y + 1) (cell x) (by omega), zero (cell y) (cell x + 1) (by omega), zero (cell y + 1) (cell x + 1) (by omega)]; norm_num

/-! ## The values of a tile (C150) -/

theorem smooth_shift (c c' : Channel) (x y : ℚ) (k l : Int) (hc : ∀ Y X, c (Y + l) (X + k) = c' Y X) : smooth c (x + k) (y + l) = smooth c' x y := by
  unfold smooth
  rw [Int.floor_add_intCast, Int.floor_add_intCast, ← hc, ← hc, ← hc, ← hc, show ⌊x⌋ + 1 + k = ⌊x⌋ + k + 1 by ring, show ⌊y⌋ + 1 + l = ⌊y⌋ + l + 1 by ring]
  push_cast
  ring

/-- The pixels of a window of a level, adjusted; the window is continued with the pixels of its edge. -/
def continued (R : Raster) (f : ℚ → Int) (r : Nat) (X0 Y0 X1 Y1 : Int) : Channel := fun Y X => f (R.pixel 1 r (max X0 (min X (X1 - 1))) (max Y0 (min Y (Y1 - 1))))

theorem adjusted_range (adj : Adjust) (R : Raster) (band : Nat) (ps : List ℚ) (f : ℚ → Int) (h : Adjusted adj R band ps f) (p : ℚ) : 0 ≤ f p ∧ f p ≤ 255 := by
  obtain ⟨lo, hi, _, _, ⟨_, hf⟩ | ⟨_, _, _, _, _, hf⟩⟩ := h
  · rw [hf]; exact Verif.Props.TileFactory.clip8_range _
  · rw [hf]; exact Verif.Props.TileFactory.clip8_range _

theorem two_le (R : Raster) (S : Sensor) (adj : Adjust) (sar : Channel → Channel → Except PyErr Channel) (sample : Nat → Nat → Channel → ℚ → ℚ → Int) (minLon minLat maxLon maxLat : ℚ) (n : Nat)
    (rows : List (List Rgba)) (h : createOrthophotoTile R S adj sar sample minLon minLat maxLon maxLat n n = .ok (some rows)) : 2 ≤ n := by
  obtain ⟨_, zs, _, full, r, o, _, _, _, _, hr⟩ := create_ok R S adj sar sample minLon minLat maxLon maxLat n n rows h
  obtain ⟨_, _, _, _, _, _, hm1, _, _⟩ := render_ok R adj sar sample zs n n full r o rows hr
  exact (remapArray_ok _ _ _ _ hm1).1

/-- **C150**: the values of a square tile of a grey image.  They differ by at most 9 of 255 grey levels from the exact bilinear interpolation of the adjusted pixels that were read, at a position within `2 δ` image pixels of the
true one, but for a shift (`dx`, `dy`) of less than one pixel of the level, the same for the whole tile. Here for any projection that interpolation on the grid follows. -/
theorem grey_values_follow (R : Raster) (hb : R.bands = 1) (S : Sensor) (adj : Adjust) (hadj : adj = .minmax ∨ adj = .dra) (sar : Channel → Channel → Except PyErr Channel)
    (minLon minLat maxLon maxLat : ℚ) (hlon : minLon ≤ maxLon) (hlat : minLat ≤ maxLat) (n : Nat) (g : ℚ × ℚ × ℚ) (hg : S.toWorld ((R.height : ℚ) / 2, (R.width : ℚ) / 2) = .ok g)
    (tx ty : ℚ → ℚ → ℚ) (δ : ℚ) (hS : GridFollows S g.2.2 minLon minLat maxLon maxLat n tx ty δ)
    (rows : List (List Rgba)) (h : createOrthophotoTile R S adj sar remap minLon minLat maxLon maxLat n n = .ok (some rows)) :
    ∃ (r : Nat) (X0 Y0 X1 Y1 : Int) (ps : List ℚ) (f : ℚ → Int) (dx dy : ℚ), r ≤ R.overviews ∧ (0 ≤ X0 ∧ X0 < X1 ∧ X1 * 2 ^ r ≤ R.width) ∧ (0 ≤ Y0 ∧ Y0 < Y1 ∧ Y1 * 2 ^ r ≤ R.height) ∧
      WindowValues R 1 r X0 Y0 X1 Y1 ps ∧ Adjusted adj R 1 ps f ∧ (0 ≤ dx ∧ dx < 1) ∧ (0 ≤ dy ∧ dy < 1) ∧ (r = 0 → dx = 0 ∧ dy = 0) ∧
      ∀ (i j : Nat) (lon lat : ℚ), i < n → j < n → lon = along minLon maxLon n j → lat = along maxLat minLat n i →
        2 * δ ≤ tx lon lat → tx lon lat ≤ R.width - 2 * δ → 2 * δ ≤ ty lon lat → ty lon lat ≤ R.height - 2 * δ →
        ∃ row p, rows[i]? = some row ∧ row[j]? = some p ∧ ∃ x y : ℚ, |x - tx lon lat| ≤ 2 * δ ∧ |y - ty lon lat| ≤ 2 * δ ∧
          |(p.red : ℚ) - smooth (continued R f r X0 Y0 X1 Y1) (x / 2 ^ r - dx) (y / 2 ^ r - dy)| ≤ 9 := by
  have hn := two_le _ _ _ _ _ _ _ _ _ _ _ h
  have gin : ∀ p q : Fin 3, minLon ≤ linspace3 minLon maxLon q ∧ linspace3 minLon maxLon q ≤ maxLon ∧ minLat ≤ linspace3 maxLat minLat p ∧ linspace3 maxLat minLat p ≤ maxLat := by
    intro p q
    have a := linspace3_inside minLon maxLon hlon q
    have b := linspace3_inside minLat maxLat hlat p
    exact ⟨a.1, a.2.1, b.2.2.1, b.2.2.2⟩
  obtain ⟨w, hw, hentries⟩ := remap_weights_of n hn
  obtain ⟨_, _, b, full, o, r, cs, hr, ⟨fx0, fx1, fy0, fy1⟩, ⟨nx0, nx1, ny0, ny1⟩, ⟨ex0, ex1, ey0, ey1⟩, hox, hoy, limx, limy, hcs, hpos⟩ :=
    tile_positions R S adj sar remap minLon minLat maxLon maxLat n w (fun i hi => (hw i hi).1) hentries g hg tx ty
      (fun p q => hS.projects _ _ (gin p q).1 (gin p q).2.1 (gin p q).2.2.1 (gin p q).2.2.2) rows h
  rw [hb] at hcs
  obtain ⟨f, hf, hcs'⟩ := ((displayed_channels adj R sar _ _ _ cs hcs).2 hadj).1 (readBand R r o 1) rfl
  have hpow : (0 : Int) < 2 ^ r := by positivity
  have hq : (0 : ℚ) < 2 ^ r := by positivity
  have shift : ∀ f0 o0 : Int, o0 = f0 / 2 ^ r → 0 ≤ (f0 : ℚ) / 2 ^ r - o0 ∧ (f0 : ℚ) / 2 ^ r - o0 < 1 := by
    intro f0 o0 e
    have a0 : (2 ^ r : Int) * o0 ≤ f0 := by rw [e]; exact Int.mul_ediv_self_le hpow.ne'
    have a1 : f0 < 2 ^ r * o0 + 2 ^ r := by rw [e]; exact Int.lt_mul_ediv_self_add hpow
    have a0' : ((2 : ℚ) ^ r) * o0 ≤ f0 := by exact_mod_cast a0
    have a1' : (f0 : ℚ) < 2 ^ r * o0 + 2 ^ r := by exact_mod_cast a1
    constructor
    · have : (o0 : ℚ) ≤ f0 / 2 ^ r := by rw [le_div_iff₀ hq]; linarith
      linarith
    · have : (f0 : ℚ) / 2 ^ r < o0 + 1 := by rw [div_lt_iff₀ hq]; linarith
      linarith
  refine ⟨r, o.x0, o.y0, o.x1, o.y1, _, f, (full.x0 : ℚ) / 2 ^ r - o.x0, (full.y0 : ℚ) / 2 ^ r - o.y0, hr, ⟨?_, hox, ?_⟩, ⟨?_, hoy, ?_⟩, mem_values R r o 1 hox hoy, hf, shift _ _ ex0, shift _ _ ey0, ?_, ?_⟩
  · rw [ex0]; exact Int.ediv_nonneg nx0 hpow.le
  · rw [ex1]; exact (Int.ediv_mul_le _ hpow.ne').trans (by rw [fx1]; exact min_le_right _ _)
  · rw [ey0]; exact Int.ediv_nonneg ny0 hpow.le
  · rw [ey1]; exact (Int.ediv_mul_le _ hpow.ne').trans (by rw [fy1]; exact min_le_right _ _)
  · intro h0
    rw [ex0, ey0, h0]
    simp
  intro i j lon lat hi hj elon elat hx0 hx1 hy0 hy1
  obtain ⟨nearx, neary⟩ := hS.close hn i j _ _ hi hj (hw i hi) (hw j hj) lon lat elon elat
  obtain ⟨bx0, bx1, by0, by1, row, p, hrow, hp, hpix⟩ := hpos i j _ _ hi hj rfl rfl
  generalize mix (w i) (w j) (grid tx minLon minLat maxLon maxLat) = x at *
  generalize mix (w i) (w j) (grid ty minLon minLat maxLon maxLat) = y at *
  have nx := abs_le.1 nearx
  have ny := abs_le.1 neary
  have gx0 : (full.x0 : ℚ) ≤ x := by rw [fx0]; push_cast; exact max_le bx0 (by linarith)
  have gx1 : x ≤ full.x1 := by rw [fx1]; push_cast; exact le_min bx1 (by linarith)
  have gy0 : (full.y0 : ℚ) ≤ y := by rw [fy0]; push_cast; exact max_le by0 (by linarith)
  have gy1 : y ≤ full.y1 := by rw [fy1]; push_cast; exact le_min by1 (by linarith)
  have ix := toRead_inside r full.x0 full.x1 o.x0 o.x1 ex0 ex1 hox x gx0 gx1
  have iy := toRead_inside r full.y0 full.y1 o.y0 o.y1 ey0 ey1 hoy y gy0 gy1
  refine ⟨row, p, hrow, hp, x, y, nearx, neary, ?_⟩
  unfold outputPixel at hpix
  rw [hcs', List.map_singleton, (written_pixel_partial _ 0 0 0).1] at hpix
  injection hpix with hpix
  have hred := congrArg Rgba.red hpix
  simp only at hred
  have acc := remap_accuracy _ _ limx limy (bordered (o.x1 - o.x0).toNat (o.y1 - o.y0).toNat (fun row col => f (readBand R r o 1 row col))) (toRead full.x0 r x) (toRead full.y0 r y) ix.1 ix.2 iy.1 iy.2 255 (by
    intro X Y X' Y' _ _ _ _ _ _ _ _ _ _ _ _
    unfold bordered
    have a := (adjusted_range adj R 1 _ f hf (readBand R r o 1 (max 0 (min (Y - 2) (((o.y1 - o.y0).toNat : Int) - 1))) (max 0 (min (X - 2) (((o.x1 - o.x0).toNat : Int) - 1))) : ℚ)).2
    have b := (adjusted_range adj R 1 _ f hf (readBand R r o 1 (max 0 (min (Y' - 2) (((o.y1 - o.y0).toNat : Int) - 1))) (max 0 (min (X' - 2) (((o.x1 - o.x0).toNat : Int) - 1))) : ℚ)).1
    have a' : ((f (readBand R r o 1 (max 0 (min (Y - 2) (((o.y1 - o.y0).toNat : Int) - 1))) (max 0 (min (X - 2) (((o.x1 - o.x0).toNat : Int) - 1))) : ℚ) : Int) : ℚ) ≤ 255 := by exact_mod_cast a
    have b' : (0 : ℚ) ≤ (f (readBand R r o 1 (max 0 (min (Y' - 2) (((o.y1 - o.y0).toNat : Int) - 1))) (max 0 (min (X' - 2) (((o.x1 - o.x0).toNat : Int) - 1))) : ℚ) : Int) := by exact_mod_cast b
    linarith)
  rw [hred] at acc
  have px : toRead full.x0 r x = (x / 2 ^ r - ((full.x0 : ℚ) / 2 ^ r - o.x0)) + ((2 - o.x0 : Int) : ℚ) := by unfold toRead; push_cast; ring
  have py : toRead full.y0 r y = (y / 2 ^ r - ((full.y0 : ℚ) / 2 ^ r - o.y0)) + ((2 - o.y0 : Int) : ℚ) := by unfold toRead; push_cast; ring
  rw [px, py, smooth_shift _ (continued R f r o.x0 o.y0 o.x1 o.y1)] at acc
  · refine acc.trans ?_
    norm_num
  · intro Y X
    unfold bordered continued readBand
    have e1 : o.x0 + max 0 (min (X + (2 - o.x0) - 2) (((o.x1 - o.x0).toNat : Int) - 1)) = max o.x0 (min X (o.x1 - 1)) := by omega
    have e2 : o.y0 + max 0 (min (Y + (2 - o.y0) - 2) (((o.y1 - o.y0).toNat : Int) - 1)) = max o.y0 (min Y (o.y1 - 1)) := by omega
    beta_reduce
    rw [e1, e2]

/-- **C150**: the values of a square tile of a grey image.  They differ by at most 9 of 255 grey levels from the exact bilinear interpolation of the adjusted pixels that were read, at a position within `2 δ` image pixels of the
true one, but for a shift (`dx`, `dy`) of less than one pixel of the level, the same for the whole tile. -/
theorem grey_tile_values (R : Raster) (hb : R.bands = 1) (S : Sensor) (adj : Adjust) (hadj : adj = .minmax ∨ adj = .dra) (sar : Channel → Channel → Except PyErr Channel)
    (minLon minLat maxLon maxLat : ℚ) (hlon : minLon ≤ maxLon) (hlat : minLat ≤ maxLat) (n : Nat) (g : ℚ × ℚ × ℚ) (hg : S.toWorld ((R.height : ℚ) / 2, (R.width : ℚ) / 2) = .ok g)
    (tx ty : ℚ → ℚ → ℚ) (δ : ℚ) (hS : NearAffine S g.2.2 minLon minLat maxLon maxLat tx ty δ)
    (rows : List (List Rgba)) (h : createOrthophotoTile R S adj sar remap minLon minLat maxLon maxLat n n = .ok (some rows)) :
    ∃ (r : Nat) (X0 Y0 X1 Y1 : Int) (ps : List ℚ) (f : ℚ → Int) (dx dy : ℚ), r ≤ R.overviews ∧ (0 ≤ X0 ∧ X0 < X1 ∧ X1 * 2 ^ r ≤ R.width) ∧ (0 ≤ Y0 ∧ Y0 < Y1 ∧ Y1 * 2 ^ r ≤ R.height) ∧
      WindowValues R 1 r X0 Y0 X1 Y1 ps ∧ Adjusted adj R 1 ps f ∧ (0 ≤ dx ∧ dx < 1) ∧ (0 ≤ dy ∧ dy < 1) ∧ (r = 0 → dx = 0 ∧ dy = 0) ∧
      ∀ (i j : Nat) (lon lat : ℚ), i < n → j < n → lon = along minLon maxLon n j → lat = along maxLat minLat n i →
        2 * δ ≤ tx lon lat → tx lon lat ≤ R.width - 2 * δ → 2 * δ ≤ ty lon lat → ty lon lat ≤ R.height - 2 * δ →
        ∃ row p, rows[i]? = some row ∧ row[j]? = some p ∧ ∃ x y : ℚ, |x - tx lon lat| ≤ 2 * δ ∧ |y - ty lon lat| ≤ 2 * δ ∧
          |(p.red : ℚ) - smooth (continued R f r X0 Y0 X1 Y1) (x / 2 ^ r - dx) (y / 2 ^ r - dy)| ≤ 9 :=
  grey_values_follow R hb S adj hadj sar minLon minLat maxLon maxLat hlon hlat n g hg tx ty δ (hS.follows hlon hlat n) rows h

/-! ## Transparent pixels (C151) -/

theorem displayed_length (adj : Adjust) (R : Raster) (sar : Channel → Channel → Except PyErr Channel) (w h : Nat) (cs out : List Channel) (hb : 0 < cs.length)
    (hadj : adj = .minmax ∨ adj = .dra ∨ cs.length = 1 ∨ cs.length = 3) (hd : display adj R sar w h cs = .ok out) : out.length = 1 ∨ out.length = 3 := by
  have spec := displayed_channels adj R sar w h cs out hd
  by_cases had : adj = .minmax ∨ adj = .dra
  · obtain ⟨s1, s2, s3⟩ := spec.2 had
    match cs, hb with
    | [c], _ => obtain ⟨_, _, e⟩ := s1 c rfl; left; rw [e]; rfl
    | [a, b], _ => obtain ⟨_, _, e⟩ := s2 a b rfl; left; rw [e]; rfl
    | a :: b :: c :: rest, _ => obtain ⟨_, _, _, _, _, _, e⟩ := s3 a b c rest rfl; right; rw [e]; rfl
  · push Not at had
    rw [spec.1 had.1 had.2, List.length_map]
    rcases hadj with h | h | h
    · exact absurd h had.1
    · exact absurd h had.2
    · exact h

/-- **C151**: a pixel of a square tile whose place is not in the image is transparent, if it is outside of it by 3 pixels of the level that was read (and twice the error `δ` of interpolated positions).  Images of two
bands, or of four or more, have to be adjusted. Here for any projection that interpolation on the grid follows. -/
theorem outside_follows_partial (R : Raster) (hb : 0 < R.bands) (S : Sensor) (adj : Adjust) (hadj : adj = .minmax ∨ adj = .dra ∨ R.bands = 1 ∨ R.bands = 3) (sar : Channel → Channel → Except PyErr Channel)
    (minLon minLat maxLon maxLat : ℚ) (hlon : minLon ≤ maxLon) (hlat : minLat ≤ maxLat) (n : Nat) (g : ℚ × ℚ × ℚ) (hg : S.toWorld ((R.height : ℚ) / 2, (R.width : ℚ) / 2) = .ok g)
    (tx ty : ℚ → ℚ → ℚ) (δ : ℚ) (hS : GridFollows S g.2.2 minLon minLat maxLon maxLat n tx ty δ)
    (rows : List (List Rgba)) (h : createOrthophotoTile R S adj sar remap minLon minLat maxLon maxLat n n = .ok (some rows)) :
    ∃ r : Nat, r ≤ R.overviews ∧ ∀ (i j : Nat) (lon lat : ℚ), i < n → j < n → lon = along minLon maxLon n j → lat = along maxLat minLat n i →
      (tx lon lat ≤ -(3 * 2 ^ r + 2 * δ) ∨ R.width + (3 * 2 ^ r + 2 * δ) ≤ tx lon lat ∨ ty lon lat ≤ -(3 * 2 ^ r + 2 * δ) ∨ R.height + (3 * 2 ^ r + 2 * δ) ≤ ty lon lat) →
      ∃ row, rows[i]? = some row ∧ row[j]? = some ⟨0, 0, 0, 0⟩ := by
  have hn := two_le _ _ _ _ _ _ _ _ _ _ _ h
  have gin : ∀ p q : Fin 3, minLon ≤ linspace3 minLon maxLon q ∧ linspace3 minLon maxLon q ≤ maxLon ∧ minLat ≤ linspace3 maxLat minLat p ∧ linspace3 maxLat minLat p ≤ maxLat := by
    intro p q
    have a := linspace3_inside minLon maxLon hlon q
    have b := linspace3_inside minLat maxLat hlat p
    exact ⟨a.1, a.2.1, b.2.2.1, b.2.2.2⟩
  obtain ⟨w, hw, hentries⟩ := remap_weights_of n hn
  obtain ⟨_, _, b, full, o, r, cs, hr, ⟨fx0, fx1, fy0, fy1⟩, ⟨nx0, nx1, ny0, ny1⟩, ⟨ex0, ex1, ey0, ey1⟩, hox, hoy, limx, limy, hcs, hpos⟩ :=
    tile_positions R S adj sar remap minLon minLat maxLon maxLat n w (fun i hi => (hw i hi).1) hentries g hg tx ty
      (fun p q => hS.projects _ _ (gin p q).1 (gin p q).2.1 (gin p q).2.2.1 (gin p q).2.2.2) rows h
  refine ⟨r, hr, ?_⟩
  intro i j lon lat hi hj elon elat hout
  obtain ⟨nearx, neary⟩ := hS.close hn i j _ _ hi hj (hw i hi) (hw j hj) lon lat elon elat
  obtain ⟨bx0, bx1, by0, by1, row, p, hrow, hp, hpix⟩ := hpos i j _ _ hi hj rfl rfl
  generalize mix (w i) (w j) (grid tx minLon minLat maxLon maxLat) = x at *
  generalize mix (w i) (w j) (grid ty minLon minLat maxLon maxLat) = y at *
  have nx := abs_le.1 nearx
  have ny := abs_le.1 neary
  have hpow : (0 : Int) < 2 ^ r := by positivity
  have hq : (0 : ℚ) < 2 ^ r := by positivity
  have low : ∀ (b0 f0 : Int) (z : ℚ), f0 = max b0 0 → (b0 : ℚ) ≤ z → z ≤ -(3 * 2 ^ r) → toRead f0 r z ≤ -1 := by
    intro b0 f0 z e hb hz
    have : (b0 : ℚ) < 0 := by linarith
    have hb0 : b0 < 0 := by exact_mod_cast this
    have ef : f0 = 0 := by omega
    rw [ef]
    unfold toRead
    have : (z - ((0 : Int) : ℚ)) / 2 ^ r ≤ -3 := by rw [div_le_iff₀ hq]; push_cast; linarith
    linarith
  have high : ∀ (b1 f0 f1 o0 o1 : Int) (size : Nat) (z : ℚ), f1 = min b1 size → o0 = f0 / 2 ^ r → o1 = f1 / 2 ^ r → o0 < o1 → z ≤ b1 → size + 3 * 2 ^ r ≤ z →
      (((o1 - o0).toNat + 4 : Nat) : ℚ) ≤ toRead f0 r z := by
    intro b1 f0 f1 o0 o1 size z e e0 e1 hlt hz hs
    have : (size : ℚ) < b1 := by linarith
    have hb1 : (size : Int) < b1 := by exact_mod_cast this
    have ef : f1 = size := by omega
    have b0 : (2 ^ r : Int) * o1 ≤ f1 := by rw [e1]; exact Int.mul_ediv_self_le hpow.ne'
    have a1 : f0 < 2 ^ r * o0 + 2 ^ r := by rw [e0]; exact Int.lt_mul_ediv_self_add hpow
    rw [ef] at b0
    have b0' : ((2 : ℚ) ^ r) * o1 ≤ size := by exact_mod_cast b0
    have a1' : (f0 : ℚ) < 2 ^ r * o0 + 2 ^ r := by exact_mod_cast a1
    have hc : (((o1 - o0).toNat + 4 : Nat) : ℚ) = o1 - o0 + 4 := by
      have : (((o1 - o0).toNat + 4 : Nat) : Int) = o1 - o0 + 4 := by omega
      exact_mod_cast this
    rw [hc]
    unfold toRead
    have : (o1 : ℚ) - o0 + 2 ≤ (z - f0) / 2 ^ r := by rw [le_div_iff₀ hq]; linarith
    linarith
  have zero : ∀ c : Channel, remap ((o.x1 - o.x0).toNat + 4) ((o.y1 - o.y0).toNat + 4) c (toRead full.x0 r x) (toRead full.y0 r y) = 0 := by
    intro c
    apply remap_outside _ _ limx limy
    rcases hout with hx | hx | hy | hy
    · left; exact low b.x0 full.x0 x fx0 bx0 (by linarith)
    · right; left; exact high b.x1 full.x0 full.x1 o.x0 o.x1 R.width x fx1 ex0 ex1 hox bx1 (by linarith)
    · right; right; left; exact low b.y0 full.y0 y fy0 by0 (by linarith)
    · right; right; right; exact high b.y1 full.y0 full.y1 o.y0 o.y1 R.height y fy1 ey0 ey1 hoy by1 (by linarith)
  have hlen := displayed_length adj R sar _ _ _ cs (by simpa using hb) (by simpa using hadj) hcs
  refine ⟨row, hrow, ?_⟩
  rw [hp]
  unfold outputPixel at hpix
  simp only [zero] at hpix
  rcases hlen with h1 | h3
  · obtain ⟨a, rfl⟩ := List.length_eq_one_iff.1 h1
    injection hpix with hpix
    rw [← hpix]
    rfl
  · obtain ⟨a, b', c, rfl⟩ := List.length_eq_three.1 h3
    injection hpix with hpix
    rw [← hpix]
    rfl

/-- **C151**: a pixel of a square tile whose place is not in the image is transparent, if it is outside of it by 3 pixels of the level that was read (and twice the error `δ` of interpolated positions).  Images of two
bands, or of four or more, have to be adjusted. -/
theorem outside_transparent_partial (R : Raster) (hb : 0 < R.bands) (S : Sensor) (adj : Adjust) (hadj : adj = .minmax ∨ adj = .dra ∨ R.bands = 1 ∨ R.bands = 3) (sar : Channel → Channel → Except PyErr Channel)
    (minLon minLat maxLon maxLat : ℚ) (hlon : minLon ≤ maxLon) (hlat : minLat ≤ maxLat) (n : Nat) (g : ℚ × ℚ × ℚ) (hg : S.toWorld ((R.height : ℚ) / 2, (R.width : ℚ) / 2) = .ok g)
    (tx ty : ℚ → ℚ → ℚ) (δ : ℚ) (hS : NearAffine S g.2.2 minLon minLat maxLon maxLat tx ty δ)
    (rows : List (List Rgba)) (h : createOrthophotoTile R S adj sar remap minLon minLat maxLon maxLat n n = .ok (some rows)) :
    ∃ r : Nat, r ≤ R.overviews ∧ ∀ (i j : Nat) (lon lat : ℚ), i < n → j < n → lon = along minLon maxLon n j → lat = along maxLat minLat n i →
      (tx lon lat ≤ -(3 * 2 ^ r + 2 * δ) ∨ R.width + (3 * 2 ^ r + 2 * δ) ≤ tx lon lat ∨ ty lon lat ≤ -(3 * 2 ^ r + 2 * δ) ∨ R.height + (3 * 2 ^ r + 2 * δ) ≤ ty lon lat) →
      ∃ row, rows[i]? = some row ∧ row[j]? = some ⟨0, 0, 0, 0⟩ :=
  outside_follows_partial R hb S adj hadj sar minLon minLat maxLon maxLat hlon hlat n g hg tx ty δ (hS.follows hlon hlat n) rows h

/-- Opacity of a tile. -/
def opacity (R : Raster) (S : Sensor) (adj : Adjust) (minLon minLat maxLon maxLat : ℚ) (n : Nat) : Option (List (List Int)) :=
  ((createOrthophotoTile R S adj (fun a _ => .ok a) remap minLon minLat maxLon maxLat n n).toOption.bind id).map (·.map (·.map Rgba.alpha))

/-- **C151** is false: the image ends at longitude 0, but the tile is opaque at longitude -2 (the pixels of the edge are repeated for `cv2.remap`); at -4 it is transparent. -/
theorem opaque_outside : opacity striped flat .minmax (-4) (-6) 4 (-2) 5 = some (List.replicate 5 [0, 255, 255, 255, 255]) := by
  decide +kernel

/-- An image of two bands. -/
def twoBands : Raster := ⟨8, 8, 2, 0, fun _ _ x _ => if x % 2 = 0 then 100 else 200, fun _ => some 0, fun _ => some 255, fun _ _ _ _ => []⟩

/-- **C151** is false for images of two bands without adjustment: the alpha mask is written as the red channel, and the tile is opaque everywhere. -/
theorem two_bands_opaque : opacity twoBands flat .none (-8) (-6) 4 (-2) 3 = some (List.replicate 3 [255, 255, 255]) := by
  decide +kernel

/-! ### Cases -/

/-- One third of the way from 0 to 255, `cv2.remap` takes 11/32; the exact value is 85. -/
example : remap 4 4 (fun _ X => if X = 1 then 0 else 255) (4 / 3) 1 = 88 ∧ smooth (fun _ X => if X = 1 then 0 else 255) (4 / 3) 1 = 85 ∧ (88 : ℚ) - 85 ≤ 1 / 2 + 17 / 512 * 255 := by
  refine ⟨by decide +kernel, by decide +kernel, by norm_num⟩

/-- Premises of `grey_tile_values`: a sensor model that is not affine; the tile exists, and the true position (2.1, 1) of its middle pixel is in the image. -/
example : (∃ rows, createOrthophotoTile small bent .minmax (fun a _ => .ok a) remap 1 (-2) 3 0 3 3 = .ok (some rows)) ∧ NearAffine bent 2 1 (-2) 3 0 (fun lon _ => lon + lon * (4 - lon) / 40) (fun _ lat => -lat) (1 / 10) := by
  refine ⟨?_, bent_near⟩
  have h : ((createOrthophotoTile small bent .minmax (fun a _ => .ok a) remap 1 (-2) 3 0 3 3).toOption.bind id).isSome = true := by decide +kernel
  rcases hc : createOrthophotoTile small bent .minmax (fun a _ => .ok a) remap 1 (-2) 3 0 3 3 with e | v
  · rw [hc] at h; simp [Except.toOption] at h
  · cases v with
    | none => rw [hc] at h; simp [Except.toOption] at h
    | some rows => exact ⟨rows, rfl⟩

/-- Premises of `outside_transparent_partial`: the sensor model is affine (`δ` is 0) and the tile of `opaque_outside` has pixels 4 pixels outside the image. -/
example : flat.toWorld ((striped.height : ℚ) / 2, (striped.width : ℚ) / 2) = .ok (4, -4, 0) ∧ NearAffine flat 0 (-4) (-6) 4 (-2) (fun lon _ => lon) (fun _ lat => -lat) 0 ∧ along (-4) 4 5 0 = -4 ∧
    (-4 : ℚ) ≤ -(3 * 2 ^ 0 + 2 * 0) := by
  refine ⟨?_, ⟨fun _ _ _ _ _ _ => rfl, 0, 1, 0, 0, 0, -1, ?_⟩, by norm_num [along], by norm_num⟩
  · simp only [flat, striped]; norm_num
  · intro lon lat _ _ _ _
    simp

end Verif.Props.Remap
