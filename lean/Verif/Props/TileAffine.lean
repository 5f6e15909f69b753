import Verif.Model.TileAffineRounded
import Verif.Props.AffineFeatures

/-!
# Features in tiles of images with a geotransform, in doubles
-/

namespace Verif.Props.TileAffine

open Verif.TileAffineRounded Verif.GridRounded Verif.Props.GridRounded Verif.Lemmas.Rounded Verif.Props.AffineFeatures
open Verif.Spec.Rounded (Rounds DotRounds inner absInner)
open Verif.Rounded (Affine degrees radians)
open Verif.Props.RoundedAffine
open Verif.Props.RoundedRsm (grow_pow_le_two)

/-! ## What it has to be -/

/-- Pixels of the image per pixel of the tile: one, unless a size is asked for. -/
noncomputable def pixels (r : Request) : ℝ × ℝ :=
  match r.output with
  | none => (1, 1)
  | some (w, h) => (r.width / w, r.height / h)

/-- Where a position in the tile lies in the image. -/
noncomputable def inImage (r : Request) (q : ℝ × ℝ) : ℝ × ℝ := (r.left + (pixels r).1 * q.1, r.top + (pixels r).2 * q.2)

/-- Windows and outputs that are not empty, of images up to 2^32 pixels. -/
structure Usable (r : Request) : Prop where
  columns : 0 < r.width
  rows : 0 < r.height
  output : ∀ w h, r.output = some (w, h) → 0 < w ∧ 0 < h
  left : r.left ≤ 2 ^ 32
  top : r.top ≤ 2 ^ 32
  width : r.width ≤ 2 ^ 32
  height : r.height ≤ 2 ^ 32

/-- The sizes of the terms of the geotransform at a position of the tile. -/
noncomputable def terms (r : Request) (g : ℝ × ℝ × ℝ) (q : ℝ × ℝ) : ℝ :=
  |g.1| * (r.left + (pixels r).1 * |q.1|) + |g.2.1| * (r.top + (pixels r).2 * |q.2|) + |g.2.2|

theorem size_pos {r : Request} (hu : Usable r) : 0 < r.size.1 ∧ 0 < r.size.2 := by
  unfold Request.size
  cases h : r.output with
  | none => exact ⟨hu.columns, hu.rows⟩
  | some o => exact hu.output o.1 o.2 h

theorem pixels_eq {r : Request} (hu : Usable r) : pixels r = ((r.width : ℝ) / r.size.1, (r.height : ℝ) / r.size.2) := by
  unfold pixels Request.size
  cases h : r.output with
  | none =>
    have a : (r.width : ℝ) ≠ 0 := by exact_mod_cast hu.columns.ne'
    have b : (r.height : ℝ) ≠ 0 := by exact_mod_cast hu.rows.ne'
    simp [a, b]
  | some o => rfl

/-! ## The geotransform -/

theorem coefficient_approx {rnd : ℝ → ℝ} (hr : Rounds rnd) (a : ℝ) (ha : |a| ≤ 2 ^ 20) (w m : Nat) (hm : 0 < m) (hw : w ≤ 2 ^ 32) (x : ℝ) (hx : |x| ≤ 2 ^ 34) :
    Approx 2 (1 / 2 ^ 144) (rnd (a * rnd ((w : ℝ) / m)) * x) (a * (w / m) * x) (|a| * (w / m) * |x|) := by
  have m0 : (1:ℝ) ≤ m := by exact_mod_cast hm
  have w0 : (w:ℝ) ≤ 2 ^ 32 := by exact_mod_cast hw
  have q0 : (0:ℝ) ≤ (w : ℝ) / m := by positivity
  have q1 : (w : ℝ) / m ≤ 2 ^ 32 := (div_le_self (by positivity) m0).trans w0
  have c := (Approx.exact ((w : ℝ) / m)).round hr (by
    rw [abs_of_nonneg q0, pow_zero, one_mul, add_zero]; exact q1.trans (by norm_num))
  rw [abs_of_nonneg q0] at c
  have mm := ((Approx.exact a).mul c).weaken (k' := 1) (d' := 1 / 2 ^ 179) (by norm_num) (by
    have h1 : |a| * (0 + 1 / 2 ^ 200) ≤ 2 ^ 20 * (1 / 2 ^ 200) := by
      rw [zero_add]; exact mul_le_mul_of_nonneg_right ha (by positivity)
    have : (2:ℝ) ^ 20 * (1 / 2 ^ 200) ≤ 1 / 2 ^ 179 := by norm_num
    linarith)
  have s : |a| * ((w : ℝ) / m) ≤ 2 ^ 52 := (mul_le_mul ha q1 q0 (by norm_num)).trans (by norm_num)
  have r := mm.round hr (by
    have := mul_le_mul (grow_pow_le_two (n := 1) (by norm_num)) (show |a| * ((w : ℝ) / m) + 1 / 2 ^ 179 ≤ 2 ^ 53 by
      have : (2:ℝ) ^ 52 + 1 / 2 ^ 179 ≤ 2 ^ 53 := by norm_num
      linarith) (by positivity) (by norm_num)
    exact this.trans (by norm_num))
  refine (r.scale x).weaken (by norm_num) ?_
  have h1 : ((1:ℝ) / 2 ^ 179 + 1 / 2 ^ 200) * |x| ≤ (1 / 2 ^ 179 + 1 / 2 ^ 200) * 2 ^ 34 := mul_le_mul_of_nonneg_left hx (by positivity)
  exact h1.trans (by norm_num)

theorem constant_approx {rnd : ℝ → ℝ} (hr : Rounds rnd) (g : ℝ × ℝ × ℝ) (h0 : |g.1| ≤ 2 ^ 20) (h1 : |g.2.1| ≤ 2 ^ 20) (h2 : |g.2.2| ≤ 2 ^ 20) (x y : Nat) (hx : x ≤ 2 ^ 32)
    (hy : y ≤ 2 ^ 32) : Approx 3 (1 / 2 ^ 197) (rnd (g.2.2 + rnd (rnd (x * g.1) + rnd (y * g.2.1)))) (g.2.2 + (x * g.1 + y * g.2.1)) (|g.2.2| + (x * |g.1| + y * |g.2.1|)) := by
  have part : ∀ (x : Nat) (a : ℝ), x ≤ 2 ^ 32 → |a| ≤ 2 ^ 20 → (x : ℝ) * |a| ≤ 2 ^ 52 ∧ Approx 1 (1 / 2 ^ 200) (rnd (x * a)) (x * a) (x * |a|) := by
    intro x a hx ha
    have x1 : (x:ℝ) ≤ 2 ^ 32 := by exact_mod_cast hx
    have s : (x : ℝ) * |a| ≤ 2 ^ 52 := (mul_le_mul x1 ha (abs_nonneg _) (by norm_num)).trans (by norm_num)
    have r := (Approx.exact ((x : ℝ) * a)).round hr (by
      rw [abs_mul, Nat.abs_cast, pow_zero, one_mul, add_zero]; exact s.trans (by norm_num))
    rw [abs_mul, Nat.abs_cast] at r
    exact ⟨s, r.weaken (by norm_num) (by norm_num)⟩
  obtain ⟨s1, r1⟩ := part x g.1 hx h0
  obtain ⟨s2, r2⟩ := part y g.2.1 hy h1
  have n1 := r1.nonneg
  have n2 := r2.nonneg
  have s := (r1.add r2).round hr (by
    have := mul_le_mul (grow_pow_le_two (n := 1) (by norm_num)) (show x * |g.1| + y * |g.2.1| + (1 / 2 ^ 200 + 1 / 2 ^ 200) ≤ 2 ^ 54 by
      have : (2:ℝ) ^ 52 + 2 ^ 52 + (1 / 2 ^ 200 + 1 / 2 ^ 200) ≤ 2 ^ 54 := by norm_num
      linarith) (by positivity) (by norm_num)
    exact this.trans (by norm_num))
  have t := (((Approx.exact g.2.2).weaken (k' := 2) (d' := 0) (by norm_num) (le_refl _)).add s).round hr (by
    have := mul_le_mul (grow_pow_le_two (n := 2) (by norm_num)) (show |g.2.2| + (x * |g.1| + y * |g.2.1|) + (0 + (1 / 2 ^ 200 + 1 / 2 ^ 200 + 1 / 2 ^ 200)) ≤ 2 ^ 55 by
      have : (2:ℝ) ^ 20 + (2 ^ 52 + 2 ^ 52) + (0 + (1 / 2 ^ 200 + 1 / 2 ^ 200 + 1 / 2 ^ 200)) ≤ 2 ^ 55 := by norm_num
      linarith) (by positivity) (by norm_num)
    exact this.trans (by norm_num))
  exact t.weaken (by norm_num) (by norm_num)

/-- Coefficients of a geotransform of a size that occurs. -/
def Ordinary (g : ℝ × ℝ × ℝ) : Prop := |g.1| ≤ 2 ^ 20 ∧ |g.2.1| ≤ 2 ^ 20 ∧ |g.2.2| ≤ 2 ^ 20

/-- The geotransform of the tile says of its pixels what that of the image says of their places in the image. -/
theorem row_near {rnd : ℝ → ℝ} (hr : Rounds rnd) {r : Request} (hu : Usable r) (g : ℝ × ℝ × ℝ) (hg : Ordinary g) (q : ℝ × ℝ) (h0 : |q.1| ≤ 2 ^ 34) (h1 : |q.2| ≤ 2 ^ 34) (B : ℝ)
    (hB : terms r g q ≤ B) :
    |inner (r.row rnd g) (q.1, q.2, 1) - inner g ((inImage r q).1, (inImage r q).2, 1)| ≤ 4 / 2 ^ 53 * B + 1 / 2 ^ 140 ∧
      absInner (r.row rnd g) (q.1, q.2, 1) ≤ B + (4 / 2 ^ 53 * B + 1 / 2 ^ 140) := by
  obtain ⟨g0, g1, g2⟩ := hg
  have a := (coefficient_approx hr g.1 g0 r.width r.size.1 (size_pos hu).1 hu.width q.1 h0).weaken (k' := 3) (by norm_num) (le_refl _)
  have b := (coefficient_approx hr g.2.1 g1 r.height r.size.2 (size_pos hu).2 hu.height q.2 h1).weaken (k' := 3) (by norm_num) (le_refl _)
  have c := constant_approx hr g g0 g1 g2 r.left r.top hu.left hu.top
  have S : (|g.1| * (r.width / r.size.1) * |q.1| + |g.2.1| * (r.height / r.size.2) * |q.2| + (|g.2.2| + (r.left * |g.1| + r.top * |g.2.1|)) : ℝ) = terms r g q := by
    unfold terms; rw [pixels_eq hu]; ring
  have s := (a.add b).add c
  rw [S] at s
  have t0 : 0 ≤ terms r g q := s.nonneg
  have g3 : grow ^ 3 ≤ 1 + 4 / 2 ^ 53 := by unfold grow; norm_num
  have u := mul_le_mul_of_nonneg_right g3 (show 0 ≤ terms r g q + (1 / 2 ^ 144 + 1 / 2 ^ 144 + 1 / 2 ^ 197) by positivity)
  have v : (1 + 4 / 2 ^ 53) * ((1:ℝ) / 2 ^ 144 + 1 / 2 ^ 144 + 1 / 2 ^ 197) ≤ 1 / 2 ^ 140 := by norm_num
  have w : (4:ℝ) / 2 ^ 53 * terms r g q ≤ 4 / 2 ^ 53 * B := mul_le_mul_of_nonneg_left hB (by positivity)
  constructor
  · have e := s.2.2
    have l : inner (r.row rnd g) (q.1, q.2, 1) - inner g ((inImage r q).1, (inImage r q).2, 1) = rnd (g.1 * rnd (r.width / r.size.1)) * q.1 + rnd (g.2.1 * rnd (r.height / r.size.2)) * q.2 +
        rnd (g.2.2 + rnd (rnd (r.left * g.1) + rnd (r.top * g.2.1))) - (g.1 * (r.width / r.size.1) * q.1 + g.2.1 * (r.height / r.size.2) * q.2 + (g.2.2 + (r.left * g.1 + r.top * g.2.1))) := by
      simp only [inner, Request.row, Request.ratio, inImage, pixels_eq hu]; ring
    rw [l]
    linarith
  · have e1 := a.size
    have e2 := b.size
    have e3 := c.size
    have l : absInner (r.row rnd g) (q.1, q.2, 1) = |rnd (g.1 * rnd (r.width / r.size.1)) * q.1| + |rnd (g.2.1 * rnd (r.height / r.size.2)) * q.2| +
        |rnd (g.2.2 + rnd (rnd (r.left * g.1) + rnd (r.top * g.2.1)))| := by
      simp only [absInner, Request.row, Request.ratio, abs_mul, abs_one, mul_one]
    rw [l]
    have : grow ^ 3 * (|g.1| * (r.width / r.size.1) * |q.1| + 1 / 2 ^ 144) + grow ^ 3 * (|g.2.1| * (r.height / r.size.2) * |q.2| + 1 / 2 ^ 144) +
        grow ^ 3 * (|g.2.2| + (r.left * |g.1| + r.top * |g.2.1|) + 1 / 2 ^ 197) = grow ^ 3 * (terms r g q + (1 / 2 ^ 144 + 1 / 2 ^ 144 + 1 / 2 ^ 197)) := by
      rw [← S]; ring
    linarith

/-! ## Features -/

/-- One coordinate of a feature in a tile. -/
theorem tile_coordinate_located {rnd : ℝ → ℝ} (hr : Rounds rnd) {dot : ℝ × ℝ × ℝ → ℝ × ℝ × ℝ → ℝ} (hd : DotRounds dot) {r : Request} (hu : Usable r) (g : ℝ × ℝ × ℝ) (hg : Ordinary g) {lo hi : ℝ × ℝ} {n : Nat}
    (columns : Extent lo.1 hi.1 n) (rows : Extent lo.2 hi.2 n) (B : ℝ) (hB : B ≤ 2 ^ 19) (hb : ∀ q, Around lo hi q → terms r g q ≤ B) (c : Nat → Nat → ℝ)
    (hc : Fits n c (fun i j => radians rnd (dot (r.row rnd g) (node rnd lo.1 hi.1 n i, node rnd lo.2 hi.2 n j, 1)))) (p : ℝ × ℝ) (hp : Covered lo hi p) :
    |degrees rnd (located rnd lo hi n c p) - inner g ((inImage r p).1, (inImage r p).2, 1)| ≤ 51 / 2 ^ 53 * B + 1 / 2 ^ 79 := by
  have small : ∀ q, Around lo hi q → |q.1| ≤ 2 ^ 34 ∧ |q.2| ≤ 2 ^ 34 := by
    rintro q ⟨a, b, c, d⟩
    have l1 := columns.low
    have l2 := columns.high
    have l3 := rows.low
    have l4 := rows.high
    constructor <;> rw [abs_le] <;> constructor <;> norm_num at * <;> linarith
  have near := fun q hq => row_near hr hu g hg q (small q hq).1 (small q hq).2 B (hb q hq)
  have T0 : 0 ≤ terms r g p := by unfold terms; rw [pixels_eq hu]; positivity
  have B0 : 0 ≤ B := T0.trans (hb p hp.around)
  have b1 : (4:ℝ) / 2 ^ 53 * B ≤ 4 / 2 ^ 53 * 2 ^ 19 := mul_le_mul_of_nonneg_left hB (by positivity)
  have h := coordinate_located hr hd (r.row rnd g) columns rows (B + (4 / 2 ^ 53 * B + 1 / 2 ^ 140)) (by
    have : (2:ℝ) ^ 19 + (4 / 2 ^ 53 * 2 ^ 19 + 1 / 2 ^ 140) ≤ 2 ^ 20 := by norm_num
    linarith) (fun q hq => (near q hq).2) c hc p hp
  have k := (near p hp.around).1
  have t := abs_add_le (degrees rnd (located rnd lo hi n c p) - inner (r.row rnd g) (p.1, p.2, 1)) (inner (r.row rnd g) (p.1, p.2, 1) - inner g ((inImage r p).1, (inImage r p).2, 1))
  rw [sub_add_sub_cancel] at t
  have e : (46:ℝ) / 2 ^ 53 * (B + (4 / 2 ^ 53 * B + 1 / 2 ^ 140)) + 4 / 2 ^ 53 * B ≤ 51 / 2 ^ 53 * B + 1 / 2 ^ 180 := by
    have : (46:ℝ) / 2 ^ 53 + 46 / 2 ^ 53 * (4 / 2 ^ 53) + 4 / 2 ^ 53 ≤ 51 / 2 ^ 53 := by norm_num
    have := mul_le_mul_of_nonneg_right this B0
    have : (46:ℝ) / 2 ^ 53 * (1 / 2 ^ 140) ≤ 1 / 2 ^ 180 := by norm_num
    linarith
  have f : (1:ℝ) / 2 ^ 180 + 1 / 2 ^ 140 + 1 / 2 ^ 80 ≤ 1 / 2 ^ 79 := by norm_num
  linarith

/-- The sensor model of a tile. -/
noncomputable def tileModel (rnd : ℝ → ℝ) (r : Request) (A T : Affine) : Prop := T.row0 = r.row rnd A.row0 ∧ T.row1 = r.row rnd A.row1

/-- **C176**: in doubles, a feature in a tile of an image with a geotransform in degrees, whatever the window and the size of the tile, gets the place that the geotransform of the
image states for the place of the feature in the image, up to 51 units of 2^-53 of the largest term; and so the place that the same feature gets in the image, up to 97. -/
theorem tile_features_located {rnd : ℝ → ℝ} (hr : Rounds rnd) {dot : ℝ × ℝ × ℝ → ℝ × ℝ × ℝ → ℝ} (hd : DotRounds dot) {r : Request} (hu : Usable r) (A T : Affine) (hT : tileModel rnd r A T)
    (h0 : Ordinary A.row0) (h1 : Ordinary A.row1) {lo hi lo' hi' : ℝ × ℝ} {n m : Nat} (columns : Extent lo.1 hi.1 n) (rows : Extent lo.2 hi.2 n) (columns' : Extent lo'.1 hi'.1 m) (rows' : Extent lo'.2 hi'.2 m)
    (B : ℝ) (hB : B ≤ 2 ^ 19) (hb : ∀ q, Around lo hi q → terms r A.row0 q ≤ B ∧ terms r A.row1 q ≤ B)
    (hb' : ∀ q, Around lo' hi' q → absInner A.row0 (q.1, q.2, 1) ≤ B ∧ absInner A.row1 (q.1, q.2, 1) ≤ B) (c d c' d' : Nat → Nat → ℝ)
    (hc : Fits n c (fun i j => (T.imageToWorld rnd dot (node rnd lo.1 hi.1 n i, node rnd lo.2 hi.2 n j)).1))
    (hd1 : Fits n d (fun i j => (T.imageToWorld rnd dot (node rnd lo.1 hi.1 n i, node rnd lo.2 hi.2 n j)).2))
    (hc' : Fits m c' (fun i j => (A.imageToWorld rnd dot (node rnd lo'.1 hi'.1 m i, node rnd lo'.2 hi'.2 m j)).1))
    (hd' : Fits m d' (fun i j => (A.imageToWorld rnd dot (node rnd lo'.1 hi'.1 m i, node rnd lo'.2 hi'.2 m j)).2)) (p : ℝ × ℝ) (hp : Covered lo hi p) (hp' : Covered lo' hi' (inImage r p)) :
    let lon := degrees rnd (located rnd lo hi n c p)
    let lat := degrees rnd (located rnd lo hi n d p)
    (|lon - inner A.row0 ((inImage r p).1, (inImage r p).2, 1)| ≤ 51 / 2 ^ 53 * B + 1 / 2 ^ 79 ∧ |lat - inner A.row1 ((inImage r p).1, (inImage r p).2, 1)| ≤ 51 / 2 ^ 53 * B + 1 / 2 ^ 79) ∧
      |lon - degrees rnd (located rnd lo' hi' m c' (inImage r p))| ≤ 97 / 2 ^ 53 * B + 1 / 2 ^ 78 ∧ |lat - degrees rnd (located rnd lo' hi' m d' (inImage r p))| ≤ 97 / 2 ^ 53 * B + 1 / 2 ^ 78 := by
  obtain ⟨t0, t1⟩ := hT
  simp only [Affine.imageToWorld, t0] at hc
  simp only [Affine.imageToWorld, t1] at hd1
  intro lon lat
  have B2 : B ≤ 2 ^ 20 := hB.trans (by norm_num)
  have a1 := tile_coordinate_located hr hd hu A.row0 h0 columns rows B hB (fun q hq => (hb q hq).1) c hc p hp
  have a2 := tile_coordinate_located hr hd hu A.row1 h1 columns rows B hB (fun q hq => (hb q hq).2) d hd1 p hp
  have b1 := coordinate_located hr hd A.row0 columns' rows' B B2 (fun q hq => (hb' q hq).1) c' hc' (inImage r p) hp'
  have b2 := coordinate_located hr hd A.row1 columns' rows' B B2 (fun q hq => (hb' q hq).2) d' hd' (inImage r p) hp'
  have both : ∀ x y S : ℝ, |x - S| ≤ 51 / 2 ^ 53 * B + 1 / 2 ^ 79 → |y - S| ≤ 46 / 2 ^ 53 * B + 1 / 2 ^ 80 → |x - y| ≤ 97 / 2 ^ 53 * B + 1 / 2 ^ 78 := by
    intro x y S hx hy
    have t := abs_sub_le x S y
    rw [abs_sub_comm S y] at t
    have : (97:ℝ) / 2 ^ 53 * B = 51 / 2 ^ 53 * B + 46 / 2 ^ 53 * B := by ring
    have : (1:ℝ) / 2 ^ 79 + 1 / 2 ^ 80 ≤ 1 / 2 ^ 78 := by norm_num
    linarith
  exact ⟨⟨a1, a2⟩, both _ _ _ a1 b1, both _ _ _ a2 b2⟩

/-! ## An example: the window of 200 by 100 pixels at (300, 400), drawn with half as many pixels -/

def half : Request := ⟨300, 400, 200, 100, some (100, 50)⟩

example : Usable half := by constructor <;> simp [half]

/-- The middle of the tile is the middle of the window. -/
example : inImage half (50, 25) = (400, 450) := by
  simp only [inImage, half, pixels]
  norm_num

/-- Without rounding, the tile of the example image of C175 begins at 13 degrees and has pixels of a fiftieth of a degree. -/
example : half.row id north.row0 = (1 / 50, 0, 13) := by
  simp only [Request.row, Request.ratio, half, Request.size, Option.getD_some, north, id]
  norm_num

/-- The feature position (50, 25) of the tile is at 14 degrees, to a billionth of a degree. -/
example (c : Nat → Nat → ℝ) (dot : ℝ × ℝ × ℝ → ℝ × ℝ × ℝ → ℝ) (hd : DotRounds dot)
    (hc : Fits 11 c (fun i j => radians Verif.Rounded.double (dot (half.row Verif.Rounded.double north.row0) (node Verif.Rounded.double 0 100 11 i, node Verif.Rounded.double 0 50 11 j, 1)))) :
    |degrees Verif.Rounded.double (located Verif.Rounded.double (0, 0) (100, 50) 11 c (50, 25)) - 14| ≤ 1 / 10 ^ 9 := by
  have h := tile_coordinate_located double_rounds hd (r := half) (by constructor <;> simp [half]) north.row0
    (by refine ⟨?_, ?_, ?_⟩ <;> norm_num [north, abs_of_pos]) (lo := (0, 0)) (hi := (100, 50)) (n := 11) ⟨by norm_num, by norm_num, by norm_num, by norm_num, by norm_num⟩
    ⟨by norm_num, by norm_num, by norm_num, by norm_num, by norm_num⟩ 100 (by norm_num) (by
      rintro q ⟨h1, h2, h3, h4⟩
      have : |q.1| ≤ 111 := by rw [abs_le]; constructor <;> norm_num at * <;> linarith
      simp only [terms, north, half, pixels, abs_zero, zero_mul]
      rw [abs_of_pos (by norm_num : (0:ℝ) < 1 / 100), abs_of_pos (by norm_num : (0:ℝ) < 10)]
      norm_num
      linarith) c hc (50, 25) ⟨by norm_num, by norm_num, by norm_num, by norm_num⟩
  refine (le_trans (le_of_eq ?_) h).trans (by norm_num)
  congr 2
  norm_num [inner, north, inImage, half, pixels]

end Verif.Props.TileAffine
