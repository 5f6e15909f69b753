import Verif.Props.Rpc
import Verif.Props.Nearby
import Verif.Props.GridSmooth
import Verif.Props.OrthophotoSmooth

/-!
# Orthophoto tiles of images with an RPC model
-/

namespace Verif.Props.RpcSmooth

open Verif.Orthophoto Verif.TileFactory Verif.GdalUtils Verif.Updaters
open Verif.Rpc Verif.Spec.Rpc
open Verif.Dem (Geo)
open Verif.Props.TileFactory Verif.Props.Orthophoto Verif.Props.OrthophotoNear
open Verif.Props.GridSmooth (Bends bends_of_second)

/-! ## What it has to be -/

/-- The sum of the absolute values of the coefficients. -/
def total (c : List ℝ) : ℝ := (c.map (fun x => |x|)).sum

/-- How much a ratio can bend where the denominator is at least `q`: `A` and `B` bound the numerator and the first derivatives, as sums of coefficients, of all terms (`A`), of terms that are not
constant (`A1`, `B1`) and of terms of degree two and three (`A2`, `B2`). -/
noncomputable def curve (A A1 A2 B1 B2 q : ℝ) : ℝ := 6 * A2 / q + (6 * A * B2 + 18 * A1 * B1) / q ^ 2 + 18 * A * B1 ^ 2 / q ^ 3

/-- The bend of a ratio of polynomials of RPC00B: the first coefficient is that of the constant, the next three are those of the linear terms. -/
noncomputable def bend (num den : List ℝ) (q : ℝ) : ℝ := curve (total num) (total (num.drop 1)) (total (num.drop 4)) (total (den.drop 1)) (total (den.drop 4)) q

/-- An RPC model with all coefficients, whose denominators stay away from 0 in the cube for which the model is made, and whose positions bend by at most `K` pixels
per squared unit of normalised longitude or latitude. -/
structure Regular (r : RpcModel) (q K : ℝ) : Prop where
  lineNum : r.lineNum.length = 20
  lineDen : r.lineDen.length = 20
  sampNum : r.sampNum.length = 20
  sampDen : r.sampDen.length = 20
  long : r.longScale ≠ 0
  lat : r.latScale ≠ 0
  height : r.heightScale ≠ 0
  pos : 0 < q
  line : ∀ l p h : ℝ, |l| ≤ 1 → |p| ≤ 1 → |h| ≤ 1 → q ≤ |cubic r.lineDen l p h|
  samp : ∀ l p h : ℝ, |l| ≤ 1 → |p| ≤ 1 → |h| ≤ 1 → q ≤ |cubic r.sampDen l p h|
  bendLine : |r.lineScale| * bend r.lineNum r.lineDen q ≤ K
  bendSamp : |r.sampScale| * bend r.sampNum r.sampDen q ≤ K

/-- The point is in the cube for which the model is made. -/
def InCube (r : RpcModel) (g : Geo ℝ) : Prop :=
  |(180 / Real.pi * g.longitude - r.longOff) / r.longScale| ≤ 1 ∧ |(180 / Real.pi * g.latitude - r.latOff) / r.latScale| ≤ 1 ∧ |(g.elevation - r.heightOff) / r.heightScale| ≤ 1

/-- The sensor model projects the ground of the tile at the elevation used as the RPC model does, up to `η` pixels. -/
structure Computes (S : Sensor) (r : RpcModel) (elevation minLon minLat maxLon maxLat : ℚ) (tx ty : ℚ → ℚ → ℚ) (η : ℝ) : Prop where
  projects : ∀ lon lat, minLon ≤ lon → lon ≤ maxLon → minLat ≤ lat → lat ≤ maxLat → S.toImage (lon, lat, elevation) = .ok (tx lon lat, ty lon lat)
  inside : ∀ lon lat : ℚ, minLon ≤ lon → lon ≤ maxLon → minLat ≤ lat → lat ≤ maxLat → InCube r ⟨lon, lat, elevation⟩
  close : ∀ (lon lat : ℚ) (x y : ℝ), minLon ≤ lon → lon ≤ maxLon → minLat ≤ lat → lat ≤ maxLat → r.worldToImage ⟨lon, lat, elevation⟩ = .ok (x, y) →
    |(tx lon lat : ℝ) - x| ≤ η ∧ |(ty lon lat : ℝ) - y| ≤ η

/-! ## Ratios of cubics bend by a bounded amount -/

/-- The coefficients of a cubic are bounded in sum: all, those of its derivative and those of its second derivative. -/
structure Bounded (a0 a1 a2 a3 A A1 A2 : ℝ) : Prop where
  all : |a0| + |a1| + |a2| + |a3| ≤ A
  first : |a1| + |a2| + |a3| ≤ A1
  second : |a2| + |a3| ≤ A2

theorem cubic_bounds {a0 a1 a2 a3 A A1 A2 x : ℝ} (h : Bounded a0 a1 a2 a3 A A1 A2) (hx : |x| ≤ 1) :
    |a0 + a1 * x + a2 * x ^ 2 + a3 * x ^ 3| ≤ A ∧ |a1 + 2 * a2 * x + 3 * a3 * x ^ 2| ≤ 3 * A1 ∧ |2 * a2 + 6 * a3 * x| ≤ 6 * A2 := by
  obtain ⟨hA, hA1, hA2⟩ := h
  have m : ∀ (a : ℝ) (k : ℕ), |a * x ^ k| ≤ |a| := fun a k => by
    rw [abs_mul, abs_pow]
    exact mul_le_of_le_one_right (abs_nonneg _) (pow_le_one₀ (abs_nonneg _) hx)
  have n0 := abs_nonneg a0
  have n1 := abs_nonneg a1
  have n2 := abs_nonneg a2
  have n3 := abs_nonneg a3
  have p1 := abs_le.1 (m a1 1)
  have p2 := abs_le.1 (m a2 1)
  have p3 := abs_le.1 (m a3 1)
  have s2 := abs_le.1 (m a2 2)
  have s3 := abs_le.1 (m a3 2)
  have t3 := abs_le.1 (m a3 3)
  have c0 := abs_le.1 (le_refl |a0|)
  have c1 := abs_le.1 (le_refl |a1|)
  have c2 := abs_le.1 (le_refl |a2|)
  rw [pow_one] at p1 p2 p3
  refine ⟨abs_le.2 ⟨?_, ?_⟩, abs_le.2 ⟨?_, ?_⟩, abs_le.2 ⟨?_, ?_⟩⟩ <;> linarith [p1.1, p1.2, p2.1, p2.2, p3.1, p3.2, s2.1, s2.2, s3.1, s3.2, t3.1, t3.2, c0.1, c0.2, c1.1, c1.2, c2.1, c2.2]

theorem second_bound {P P1 P2 Q Q1 Q2 A A1 A2 B1 B2 q : ℝ} (hq : 0 < q) (hQ : q ≤ |Q|) (h0 : |P| ≤ A) (h1 : |P1| ≤ 3 * A1) (h2 : |P2| ≤ 6 * A2) (k1 : |Q1| ≤ 3 * B1) (k2 : |Q2| ≤ 6 * B2) :
    |((P2 * Q - P * Q2) * Q ^ 2 - (P1 * Q - P * Q1) * (2 * Q * Q1)) / (Q ^ 2) ^ 2| ≤ curve A A1 A2 B1 B2 q := by
  have Q0 : Q ≠ 0 := by
    rintro rfl
    rw [abs_zero] at hQ
    linarith
  have A0 : 0 ≤ A := (abs_nonneg _).trans h0
  have A10 : 0 ≤ A1 := by linarith [(abs_nonneg _).trans h1]
  have e : ((P2 * Q - P * Q2) * Q ^ 2 - (P1 * Q - P * Q1) * (2 * Q * Q1)) / (Q ^ 2) ^ 2 = P2 / Q - P * Q2 / Q ^ 2 - 2 * (P1 * Q1) / Q ^ 2 + 2 * (P * Q1 ^ 2) / Q ^ 3 := by
    field_simp
    ring
  have d : ∀ (k : ℕ) (n N : ℝ), |n| ≤ N → |n / Q ^ k| ≤ N / q ^ k := fun k n N hn => by
    rw [abs_div, abs_pow]
    exact div_le_div₀ ((abs_nonneg _).trans hn) hn (by positivity) (pow_le_pow_left₀ hq.le hQ k)
  have d1 := d 1 P2 (6 * A2) h2
  have d2 := d 2 (P * Q2) (A * (6 * B2)) (by rw [abs_mul]; exact mul_le_mul h0 k2 (abs_nonneg _) A0)
  have d3 := d 2 (2 * (P1 * Q1)) (2 * (3 * A1 * (3 * B1))) (by
    rw [abs_mul, abs_mul, abs_two]
    exact mul_le_mul_of_nonneg_left (mul_le_mul h1 k1 (abs_nonneg _) (by positivity)) (by norm_num))
  have d4 := d 3 (2 * (P * Q1 ^ 2)) (2 * (A * (3 * B1) ^ 2)) (by
    rw [abs_mul, abs_mul, abs_two, abs_pow]
    exact mul_le_mul_of_nonneg_left (mul_le_mul h0 (pow_le_pow_left₀ (abs_nonneg _) k1 2) (by positivity) A0) (by norm_num))
  rw [pow_one, pow_one] at d1
  rw [e]
  have s : curve A A1 A2 B1 B2 q = 6 * A2 / q + A * (6 * B2) / q ^ 2 + 2 * (3 * A1 * (3 * B1)) / q ^ 2 + 2 * (A * (3 * B1) ^ 2) / q ^ 3 := by unfold curve; ring
  rw [s]
  rw [abs_le] at *
  constructor <;> linarith [d1.1, d1.2, d2.1, d2.2, d3.1, d3.2, d4.1, d4.2]

theorem cubic_deriv (a0 a1 a2 a3 x : ℝ) : HasDerivAt (fun x => a0 + a1 * x + a2 * x ^ 2 + a3 * x ^ 3) (a1 + 2 * a2 * x + 3 * a3 * x ^ 2) x := by
  have := ((((hasDerivAt_id x).const_mul a1).const_add a0).add ((hasDerivAt_pow 2 x).const_mul a2)).add ((hasDerivAt_pow 3 x).const_mul a3)
  exact this.congr_deriv (by simp; ring)

theorem square_deriv (a1 a2 a3 x : ℝ) : HasDerivAt (fun x => a1 + 2 * a2 * x + 3 * a3 * x ^ 2) (2 * a2 + 6 * a3 * x) x := by
  have := (((hasDerivAt_id x).const_mul (2 * a2)).const_add a1).add ((hasDerivAt_pow 2 x).const_mul (3 * a3))
  exact this.congr_deriv (by simp; ring)

theorem ratio_bends {a0 a1 a2 a3 b0 b1 b2 b3 A A1 A2 B B1 B2 q : ℝ} (hq : 0 < q) (hA : Bounded a0 a1 a2 a3 A A1 A2) (hB : Bounded b0 b1 b2 b3 B B1 B2)
    (hQ : ∀ x : ℝ, |x| ≤ 1 → q ≤ |b0 + b1 * x + b2 * x ^ 2 + b3 * x ^ 3|) {x y : ℝ} (hx : |x| ≤ 1) (hy : |y| ≤ 1) :
    Bends (curve A A1 A2 B1 B2 q) (fun x => (a0 + a1 * x + a2 * x ^ 2 + a3 * x ^ 3) / (b0 + b1 * x + b2 * x ^ 2 + b3 * x ^ 3)) x y := by
  have nz : ∀ x : ℝ, |x| ≤ 1 → b0 + b1 * x + b2 * x ^ 2 + b3 * x ^ 3 ≠ 0 := fun x hx h => by
    have := hQ x hx
    rw [h, abs_zero] at this
    linarith
  refine bends_of_second (D := Set.Icc (-1) 1) (convex_Icc _ _)
    (fun x hx => (cubic_deriv a0 a1 a2 a3 x).div (cubic_deriv b0 b1 b2 b3 x) (nz x (abs_le.2 hx)))
    (f2 := fun x => (((2 * a2 + 6 * a3 * x) * (b0 + b1 * x + b2 * x ^ 2 + b3 * x ^ 3) - (a0 + a1 * x + a2 * x ^ 2 + a3 * x ^ 3) * (2 * b2 + 6 * b3 * x)) * (b0 + b1 * x + b2 * x ^ 2 + b3 * x ^ 3) ^ 2 -
      ((a1 + 2 * a2 * x + 3 * a3 * x ^ 2) * (b0 + b1 * x + b2 * x ^ 2 + b3 * x ^ 3) - (a0 + a1 * x + a2 * x ^ 2 + a3 * x ^ 3) * (b1 + 2 * b2 * x + 3 * b3 * x ^ 2)) *
        (2 * (b0 + b1 * x + b2 * x ^ 2 + b3 * x ^ 3) * (b1 + 2 * b2 * x + 3 * b3 * x ^ 2))) / ((b0 + b1 * x + b2 * x ^ 2 + b3 * x ^ 3) ^ 2) ^ 2)
    (fun x hx => ?_) (fun x hx => ?_) (abs_le.1 hx) (abs_le.1 hy)
  · have n := ((square_deriv a1 a2 a3 x).mul (cubic_deriv b0 b1 b2 b3 x)).sub ((cubic_deriv a0 a1 a2 a3 x).mul (square_deriv b1 b2 b3 x))
    have := n.div ((cubic_deriv b0 b1 b2 b3 x).pow 2) (pow_ne_zero 2 (nz x (abs_le.2 hx)))
    refine this.congr_deriv ?_
    simp only [Pi.mul_apply, Pi.sub_apply, Pi.pow_apply]
    congr 1
    push_cast
    ring
  · have p := cubic_bounds hA (abs_le.2 hx)
    have k := cubic_bounds hB (abs_le.2 hx)
    exact second_bound hq (hQ x (abs_le.2 hx)) p.1 p.2.1 p.2.2 k.2.1 k.2.2

/-! ## The polynomials of RPC00B along each axis -/

theorem terms_along {ι : Type} (ts : List ι) (c : ι → ℝ) (k : ι → ℕ) (w : ι → ℝ) (hk : ∀ t ∈ ts, k t ≤ 3) (hw : ∀ t ∈ ts, |w t| ≤ 1) :
    ∃ a0 a1 a2 a3 : ℝ, Bounded a0 a1 a2 a3 (ts.map (fun t => |c t|)).sum (ts.map (fun t => if 1 ≤ k t then |c t| else 0)).sum (ts.map (fun t => if 2 ≤ k t then |c t| else 0)).sum ∧
      ∀ x : ℝ, (ts.map (fun t => c t * (x ^ k t * w t))).sum = a0 + a1 * x + a2 * x ^ 2 + a3 * x ^ 3 := by
  induction ts with
  | nil => exact ⟨0, 0, 0, 0, ⟨by simp, by simp, by simp⟩, fun x => by simp⟩
  | cons t ts ih =>
    obtain ⟨a0, a1, a2, a3, ⟨h0, h1, h2⟩, he⟩ := ih (fun s hs => hk s (List.mem_cons_of_mem _ hs)) (fun s hs => hw s (List.mem_cons_of_mem _ hs))
    have hc : |c t * w t| ≤ |c t| := by
      rw [abs_mul]
      exact mul_le_of_le_one_right (abs_nonneg _) (hw t List.mem_cons_self)
    have tri := fun a => abs_add_le (c t * w t) a
    simp only [List.map_cons, List.sum_cons]
    have hkt := hk t List.mem_cons_self
    interval_cases hkk : k t
    · exact ⟨c t * w t + a0, a1, a2, a3, ⟨by linarith [tri a0], by simpa using h1, by simpa using h2⟩, fun x => by rw [he]; ring⟩
    · exact ⟨a0, c t * w t + a1, a2, a3, ⟨by linarith [tri a1], by norm_num; linarith [tri a1], by simpa using h2⟩, fun x => by rw [he]; ring⟩
    · exact ⟨a0, a1, c t * w t + a2, a3, ⟨by linarith [tri a2], by norm_num; linarith [tri a2], by norm_num; linarith [tri a2]⟩, fun x => by rw [he]; ring⟩
    · exact ⟨a0, a1, a2, c t * w t + a3, ⟨by linarith [tri a3], by norm_num; linarith [tri a3], by norm_num; linarith [tri a3]⟩, fun x => by rw [he]; ring⟩

theorem zip_total (c : List ℝ) (es : List (ℕ × ℕ × ℕ)) (P : ℕ × ℕ × ℕ → Prop) [DecidablePred P] : ((c.zip es).map (fun t => if P t.2 then |t.1| else 0)).sum ≤ total c := by
  induction c generalizing es with
  | nil => simp [total]
  | cons x c ih =>
    cases es with
    | nil =>
      simp only [List.zip_nil_right, List.map_nil, List.sum_nil, total]
      exact List.sum_nonneg (by simp only [List.mem_map]; rintro _ ⟨y, -, rfl⟩; exact abs_nonneg y)
    | cons e es =>
      have := ih es
      simp only [total, List.zip_cons_cons, List.map_cons, List.sum_cons] at *
      have : (if P e then |x| else 0) ≤ |x| := by
        split
        · exact le_refl _
        · exact abs_nonneg x
      linarith

/-- The terms that do not have the property come first. -/
theorem zip_drop (m : ℕ) (c : List ℝ) (es : List (ℕ × ℕ × ℕ)) (P : ℕ × ℕ × ℕ → Prop) [DecidablePred P] (h : ∀ e ∈ es.take m, ¬ P e) :
    ((c.zip es).map (fun t => if P t.2 then |t.1| else 0)).sum ≤ total (c.drop m) := by
  induction m generalizing c es with
  | zero => exact zip_total c es P
  | succ m ih =>
    cases c with
    | nil => simp [total]
    | cons x c =>
      cases es with
      | nil => exact le_trans (by simp) (zip_total (c.drop m) [] P)
      | cons e es =>
        have e0 : ¬ P e := h e (by simp)
        simp only [List.zip_cons_cons, List.map_cons, List.sum_cons, List.drop_succ_cons, if_neg e0, zero_add]
        exact ih c es (fun f hf => h f (by rw [List.take_succ_cons]; exact List.mem_cons_of_mem _ hf))

theorem Bounded.mono {a0 a1 a2 a3 A A1 A2 B B1 B2 : ℝ} (h : Bounded a0 a1 a2 a3 A A1 A2) (h0 : A ≤ B) (h1 : A1 ≤ B1) (h2 : A2 ≤ B2) : Bounded a0 a1 a2 a3 B B1 B2 :=
  ⟨h.all.trans h0, h.first.trans h1, h.second.trans h2⟩

theorem powers_le {c : List ℝ} : ∀ t ∈ c.zip rpc00b, t.2.1 ≤ 3 ∧ t.2.2.1 ≤ 3 := by
  intro t ht
  have := (List.of_mem_zip (a := t.1) (b := t.2) ht).2
  have all : ∀ e ∈ rpc00b, e.1 ≤ 3 ∧ e.2.1 ≤ 3 := by decide
  exact all _ this

theorem powers_one {x y : ℝ} (hx : |x| ≤ 1) (hy : |y| ≤ 1) (m n : ℕ) : |x ^ m * y ^ n| ≤ 1 := by
  rw [abs_mul, abs_pow, abs_pow]
  exact mul_le_one₀ (pow_le_one₀ (abs_nonneg _) hx) (by positivity) (pow_le_one₀ (abs_nonneg _) hy)

theorem along_longitude (c : List ℝ) {p h : ℝ} (hp : |p| ≤ 1) (hh : |h| ≤ 1) :
    ∃ a0 a1 a2 a3 : ℝ, Bounded a0 a1 a2 a3 (total c) (total (c.drop 1)) (total (c.drop 4)) ∧ ∀ l : ℝ, cubic c l p h = a0 + a1 * l + a2 * l ^ 2 + a3 * l ^ 3 := by
  obtain ⟨a0, a1, a2, a3, ha, he⟩ := terms_along (c.zip rpc00b) (fun t => t.1) (fun t => t.2.1) (fun t => p ^ t.2.2.1 * h ^ t.2.2.2) (fun t ht => (powers_le t ht).1) (fun t _ => powers_one hp hh _ _)
  refine ⟨a0, a1, a2, a3, ha.mono (by simpa using zip_total c rpc00b (fun _ => True)) (zip_drop 1 c rpc00b (fun e => 1 ≤ e.1) (by decide)) (zip_drop 4 c rpc00b (fun e => 2 ≤ e.1) (by decide)), fun l => ?_⟩
  rw [← he]
  unfold cubic
  simp only [mul_assoc]

theorem along_latitude (c : List ℝ) {l h : ℝ} (hl : |l| ≤ 1) (hh : |h| ≤ 1) :
    ∃ a0 a1 a2 a3 : ℝ, Bounded a0 a1 a2 a3 (total c) (total (c.drop 1)) (total (c.drop 4)) ∧ ∀ p : ℝ, cubic c l p h = a0 + a1 * p + a2 * p ^ 2 + a3 * p ^ 3 := by
  obtain ⟨a0, a1, a2, a3, ha, he⟩ := terms_along (c.zip rpc00b) (fun t => t.1) (fun t => t.2.2.1) (fun t => l ^ t.2.1 * h ^ t.2.2.2) (fun t ht => (powers_le t ht).2) (fun t _ => powers_one hl hh _ _)
  refine ⟨a0, a1, a2, a3, ha.mono (by simpa using zip_total c rpc00b (fun _ => True)) (zip_drop 1 c rpc00b (fun e => 1 ≤ e.2.1) (by decide)) (zip_drop 4 c rpc00b (fun e => 2 ≤ e.2.1) (by decide)), fun p => ?_⟩
  rw [← he]
  unfold cubic
  congr 1
  refine List.map_congr_left (fun t _ => ?_)
  ring

/-- A change of units, of the argument and of the value. -/
theorem bends_units {M K : ℝ} {f : ℝ → ℝ} {a b : ℝ} (o s α β : ℝ) (h : Bends M f (α * a - β) (α * b - β)) (hK : |s| * M ≤ K) : Bends (K * α ^ 2) (fun x => o + s * f (α * x - β)) a b := by
  intro t t0 t1
  have k := h t t0 t1
  rw [show (1 - t) * (α * a - β) + t * (α * b - β) = α * ((1 - t) * a + t * b) - β by ring] at k
  show |(1 - t) * (o + s * f (α * a - β)) + t * (o + s * f (α * b - β)) - (o + s * f (α * ((1 - t) * a + t * b) - β))| ≤ _
  rw [show (1 - t) * (o + s * f (α * a - β)) + t * (o + s * f (α * b - β)) - (o + s * f (α * ((1 - t) * a + t * b) - β)) =
    s * ((1 - t) * f (α * a - β) + t * f (α * b - β) - f (α * ((1 - t) * a + t * b) - β)) by ring, abs_mul]
  refine (mul_le_mul_of_nonneg_left k (abs_nonneg s)).trans ?_
  have w : 0 ≤ t * (1 - t) * (α * b - β - (α * a - β)) ^ 2 / 2 := by
    have : 0 ≤ t * (1 - t) := mul_nonneg t0 (by linarith)
    positivity
  have := mul_le_mul_of_nonneg_right hK w
  nlinarith [this]

theorem longitude_bends {num den : List ℝ} {q p h l l' : ℝ} (hq : 0 < q)
    (hQ : ∀ l p h : ℝ, |l| ≤ 1 → |p| ≤ 1 → |h| ≤ 1 → q ≤ |cubic den l p h|) (hl : |l| ≤ 1) (hl' : |l'| ≤ 1) (hp : |p| ≤ 1) (hh : |h| ≤ 1) :
    Bends (bend num den q) (fun l => cubic num l p h / cubic den l p h) l l' := by
  obtain ⟨a0, a1, a2, a3, ha, ea⟩ := along_longitude num hp hh
  obtain ⟨b0, b1, b2, b3, hb, eb⟩ := along_longitude den hp hh
  simp only [ea, eb]
  exact ratio_bends hq ha hb (fun x hx => eb x ▸ hQ x p h hx hp hh) hl hl'

theorem latitude_bends {num den : List ℝ} {q p p' h l : ℝ} (hq : 0 < q)
    (hQ : ∀ l p h : ℝ, |l| ≤ 1 → |p| ≤ 1 → |h| ≤ 1 → q ≤ |cubic den l p h|) (hl : |l| ≤ 1) (hp : |p| ≤ 1) (hp' : |p'| ≤ 1) (hh : |h| ≤ 1) :
    Bends (bend num den q) (fun p => cubic num l p h / cubic den l p h) p p' := by
  obtain ⟨a0, a1, a2, a3, ha, ea⟩ := along_latitude num hl hh
  obtain ⟨b0, b1, b2, b3, hb, eb⟩ := along_latitude den hl hh
  simp only [ea, eb]
  exact ratio_bends hq ha hb (fun x hx => eb x ▸ hQ l x h hl hx hh) hp hp'

/-! ## Positions -/

/-- Column and row of a ground point. -/
noncomputable def column (r : RpcModel) (lon lat e : ℝ) : ℝ :=
  r.sampOff + r.sampScale * (cubic r.sampNum (180 / Real.pi / r.longScale * lon - r.longOff / r.longScale) (180 / Real.pi / r.latScale * lat - r.latOff / r.latScale) ((e - r.heightOff) / r.heightScale) /
    cubic r.sampDen (180 / Real.pi / r.longScale * lon - r.longOff / r.longScale) (180 / Real.pi / r.latScale * lat - r.latOff / r.latScale) ((e - r.heightOff) / r.heightScale))

noncomputable def row (r : RpcModel) (lon lat e : ℝ) : ℝ :=
  r.lineOff + r.lineScale * (cubic r.lineNum (180 / Real.pi / r.longScale * lon - r.longOff / r.longScale) (180 / Real.pi / r.latScale * lat - r.latOff / r.latScale) ((e - r.heightOff) / r.heightScale) /
    cubic r.lineDen (180 / Real.pi / r.longScale * lon - r.longOff / r.longScale) (180 / Real.pi / r.latScale * lat - r.latOff / r.latScale) ((e - r.heightOff) / r.heightScale))

theorem unit_eq (x o s : ℝ) : (180 / Real.pi * x - o) / s = 180 / Real.pi / s * x - o / s := by ring

theorem InCube.units {r : RpcModel} {lon lat e : ℝ} (h : InCube r ⟨lon, lat, e⟩) :
    |180 / Real.pi / r.longScale * lon - r.longOff / r.longScale| ≤ 1 ∧ |180 / Real.pi / r.latScale * lat - r.latOff / r.latScale| ≤ 1 ∧ |(e - r.heightOff) / r.heightScale| ≤ 1 := by
  rw [← unit_eq, ← unit_eq]
  exact h

theorem projects {r : RpcModel} {q K : ℝ} (hr : Regular r q K) {lon lat e : ℝ} (h : InCube r ⟨lon, lat, e⟩) : r.worldToImage ⟨lon, lat, e⟩ = .ok (column r lon lat e, row r lon lat e) := by
  obtain ⟨hl, hp, hh⟩ := h.units
  have nz : ∀ x : ℝ, q ≤ |x| → x ≠ 0 := fun x hx h => by
    rw [h, abs_zero] at hx
    linarith [hr.pos]
  have a := hr.long
  have b := hr.lat
  have c := hr.height
  refine Verif.Props.Rpc.rpc_world_to_image r ⟨lon, lat, e⟩ hr.lineNum hr.lineDen hr.sampNum hr.sampDen hr.long hr.lat hr.height _ _ _ ?_ ?_ ?_ (nz _ (hr.line _ _ _ hl hp hh)) (nz _ (hr.samp _ _ _ hl hp hh))
  · field_simp
    ring
  · field_simp
    ring
  · field_simp
    ring

/-- **C180**: along a parallel, both coordinates bend by no more than `K` per squared unit. -/
theorem parallel_bends {r : RpcModel} {q K : ℝ} (hr : Regular r q K) {lon lon' lat e : ℝ} (h : InCube r ⟨lon, lat, e⟩) (h' : InCube r ⟨lon', lat, e⟩) :
    Bends (K * (180 / Real.pi / r.longScale) ^ 2) (fun x => column r x lat e) lon lon' ∧ Bends (K * (180 / Real.pi / r.longScale) ^ 2) (fun x => row r x lat e) lon lon' := by
  obtain ⟨hl, hp, hh⟩ := h.units
  have hl' := h'.units.1
  exact ⟨bends_units (f := fun l => cubic r.sampNum l _ _ / cubic r.sampDen l _ _) _ _ _ _ (longitude_bends hr.pos hr.samp hl hl' hp hh) hr.bendSamp,
    bends_units (f := fun l => cubic r.lineNum l _ _ / cubic r.lineDen l _ _) _ _ _ _ (longitude_bends hr.pos hr.line hl hl' hp hh) hr.bendLine⟩

/-- **C180**: and along a meridian. -/
theorem meridian_bends {r : RpcModel} {q K : ℝ} (hr : Regular r q K) {lon lat lat' e : ℝ} (h : InCube r ⟨lon, lat, e⟩) (h' : InCube r ⟨lon, lat', e⟩) :
    Bends (K * (180 / Real.pi / r.latScale) ^ 2) (fun y => column r lon y e) lat lat' ∧ Bends (K * (180 / Real.pi / r.latScale) ^ 2) (fun y => row r lon y e) lat lat' := by
  obtain ⟨hl, hp, hh⟩ := h.units
  have hp' := h'.units.2.1
  exact ⟨bends_units (f := fun p => cubic r.sampNum _ p _ / cubic r.sampDen _ p _) _ _ _ _ (latitude_bends hr.pos hr.samp hl hp hp' hh) hr.bendSamp,
    bends_units (f := fun p => cubic r.lineNum _ p _ / cubic r.lineDen _ p _) _ _ _ _ (latitude_bends hr.pos hr.line hl hp hp' hh) hr.bendLine⟩

/-! ## The grid -/

/-- The two nodes on both sides of a pixel. -/
theorem cell {n i : Nat} (hn : 2 ≤ n) (hi : i < n) {u : Fin 3 → ℚ} (hu : LineWeights n i u) :
    ∃ (k k' : Fin 3) (t : ℚ), 0 ≤ t ∧ t ≤ 1 ∧ (∀ f : Fin 3 → ℚ, u 0 * f 0 + u 1 * f 1 + u 2 * f 2 = (1 - t) * f k + t * f k') ∧
      ∀ a b : ℚ, along a b n i = (1 - t) * linspace3 a b k + t * linspace3 a b k' ∧ (linspace3 a b k' - linspace3 a b k) ^ 2 = (b - a) ^ 2 / 4 := by
  have n2 : (2 : ℚ) ≤ n := by exact_mod_cast hn
  have i1 : (i : ℚ) + 1 ≤ n := by exact_mod_cast hi
  have i0 : (0 : ℚ) ≤ i := by positivity
  have w := hu.2
  have en : (n : ℚ) - 1 = 2 * (((n : ℚ) - 1) / 2) := by ring
  have m0 : 0 < ((n : ℚ) - 1) / 2 := by linarith
  have im : (i : ℚ) ≤ 2 * (((n : ℚ) - 1) / 2) := by linarith
  have al : ∀ a b, along a b n i = a + (b - a) * i / (2 * (((n : ℚ) - 1) / 2)) := fun a b => by unfold along; rw [← en]
  generalize ((n : ℚ) - 1) / 2 = m at *
  by_cases c : (i : ℚ) ≤ m
  · refine ⟨0, 1, i / m, by positivity, by rw [div_le_one m0]; exact c, fun f => ?_, fun a b => ?_⟩
    · rw [← w, lin3, if_pos c]
      ring
    · obtain ⟨e0, e1, -⟩ := linspace3_values a b
      rw [al, e0, e1]
      exact ⟨by field_simp; ring, by ring⟩
  · refine ⟨1, 2, (i - m) / m, div_nonneg (by linarith) m0.le, by rw [div_le_one m0]; linarith, fun f => ?_, fun a b => ?_⟩
    · rw [← w, lin3, if_neg c]
      ring
    · obtain ⟨-, e1, e2⟩ := linspace3_values a b
      rw [al, e1, e2]
      exact ⟨by field_simp; ring, by ring⟩

theorem chord_half {M : ℝ} (hM : 0 ≤ M) {f : ℝ → ℝ} {a b s t : ℝ} (h : Bends M f a b) (hs : (b - a) ^ 2 = s ^ 2 / 4) (t0 : 0 ≤ t) (t1 : t ≤ 1) :
    |(1 - t) * f a + t * f b - f ((1 - t) * a + t * b)| ≤ M * s ^ 2 / 32 := by
  refine (h t t0 t1).trans ?_
  have q : t * (1 - t) ≤ 1 / 4 := by nlinarith [sq_nonneg (t - 1 / 2)]
  rw [hs]
  have m := mul_le_mul_of_nonneg_right q (show 0 ≤ s ^ 2 / 4 by positivity)
  have := mul_le_mul_of_nonneg_left m (show 0 ≤ M / 2 by linarith)
  linarith

theorem mean_close {t x y x' y' ε : ℝ} (t0 : 0 ≤ t) (t1 : t ≤ 1) (hx : |x - x'| ≤ ε) (hy : |y - y'| ≤ ε) : |(1 - t) * x + t * y - ((1 - t) * x' + t * y')| ≤ ε := by
  have s0 : 0 ≤ 1 - t := by linarith
  rw [abs_le] at *
  constructor <;> nlinarith [mul_le_mul_of_nonneg_left hx.1 s0, mul_le_mul_of_nonneg_left hx.2 s0, mul_le_mul_of_nonneg_left hy.1 t0, mul_le_mul_of_nonneg_left hy.2 t0]

/-- Interpolation on the grid of computed positions. -/
theorem mix_follows {M N η : ℝ} (hM : 0 ≤ M) (hN : 0 ≤ N) (F : ℝ → ℝ → ℝ) (z : ℚ → ℚ → ℚ) {minLon minLat maxLon maxLat : ℚ} (hlon : minLon ≤ maxLon) (hlat : minLat ≤ maxLat)
    (hz : ∀ lon lat : ℚ, minLon ≤ lon → lon ≤ maxLon → minLat ≤ lat → lat ≤ maxLat → |(z lon lat : ℝ) - F lon lat| ≤ η)
    (hx : ∀ lon lon' lat : ℚ, minLon ≤ lon → lon ≤ maxLon → minLon ≤ lon' → lon' ≤ maxLon → minLat ≤ lat → lat ≤ maxLat → Bends M (fun x => F x lat) lon lon')
    (hy : ∀ lon lat lat' : ℚ, minLon ≤ lon → lon ≤ maxLon → minLat ≤ lat → lat ≤ maxLat → minLat ≤ lat' → lat' ≤ maxLat → Bends N (fun y => F lon y) lat lat')
    {n i j : Nat} (hn : 2 ≤ n) (hi : i < n) (hj : j < n) {u v : Fin 3 → ℚ} (hu : LineWeights n i u) (hv : LineWeights n j v) :
    |((mix u v (grid z minLon minLat maxLon maxLat) - z (along minLon maxLon n j) (along maxLat minLat n i) : ℚ) : ℝ)| ≤
      M * ((maxLon : ℝ) - minLon) ^ 2 / 32 + N * ((maxLat : ℝ) - minLat) ^ 2 / 32 + 2 * η := by
  have lons : ∀ k : Fin 3, minLon ≤ linspace3 minLon maxLon k ∧ linspace3 minLon maxLon k ≤ maxLon := fun k => ⟨(linspace3_inside minLon maxLon hlon k).1, (linspace3_inside minLon maxLon hlon k).2.1⟩
  have lats : ∀ k : Fin 3, minLat ≤ linspace3 maxLat minLat k ∧ linspace3 maxLat minLat k ≤ maxLat := fun k => (linspace3_inside minLat maxLat hlat k).2.2
  have lonin := along_inside minLon maxLon hlon n j hn hj
  have latin := (along_inside minLat maxLat hlat n i hn hi).2.2
  obtain ⟨k, k', t, t0, t1, ht, hat⟩ := cell hn hi hu
  obtain ⟨l, l', s, s0, s1, hs, has⟩ := cell hn hj hv
  obtain ⟨eat, dat⟩ := hat maxLat minLat
  obtain ⟨eas, das⟩ := has minLon maxLon
  have hm : mix u v (grid z minLon minLat maxLon maxLat) =
      (1 - t) * ((1 - s) * z (linspace3 minLon maxLon l) (linspace3 maxLat minLat k) + s * z (linspace3 minLon maxLon l') (linspace3 maxLat minLat k)) +
        t * ((1 - s) * z (linspace3 minLon maxLon l) (linspace3 maxLat minLat k') + s * z (linspace3 minLon maxLon l') (linspace3 maxLat minLat k')) := by
    rw [← hs (fun q => z (linspace3 minLon maxLon q) (linspace3 maxLat minLat k)), ← hs (fun q => z (linspace3 minLon maxLon q) (linspace3 maxLat minLat k')),
      ← ht (fun p => v 0 * z (linspace3 minLon maxLon 0) (linspace3 maxLat minLat p) + v 1 * z (linspace3 minLon maxLon 1) (linspace3 maxLat minLat p) + v 2 * z (linspace3 minLon maxLon 2) (linspace3 maxLat minLat p))]
    simp only [mix, grid]
    try ring
  have T0 : (0 : ℝ) ≤ t := by exact_mod_cast t0
  have T1 : (t : ℝ) ≤ 1 := by exact_mod_cast t1
  have S0 : (0 : ℝ) ≤ s := by exact_mod_cast s0
  have S1 : (s : ℝ) ≤ 1 := by exact_mod_cast s1
  have dt : (((linspace3 maxLat minLat k' : ℚ) : ℝ) - (linspace3 maxLat minLat k : ℚ)) ^ 2 = ((maxLat : ℝ) - minLat) ^ 2 / 4 := by
    have : (((linspace3 maxLat minLat k' : ℚ) : ℝ) - (linspace3 maxLat minLat k : ℚ)) ^ 2 = ((minLat : ℝ) - maxLat) ^ 2 / 4 := by exact_mod_cast dat
    rw [this]
    ring
  have ds : (((linspace3 minLon maxLon l' : ℚ) : ℝ) - (linspace3 minLon maxLon l : ℚ)) ^ 2 = ((maxLon : ℝ) - minLon) ^ 2 / 4 := by exact_mod_cast das
  have eT : ((along maxLat minLat n i : ℚ) : ℝ) = (1 - (t : ℝ)) * (linspace3 maxLat minLat k : ℚ) + t * (linspace3 maxLat minLat k' : ℚ) := by exact_mod_cast eat
  have eS : ((along minLon maxLon n j : ℚ) : ℝ) = (1 - (s : ℝ)) * (linspace3 minLon maxLon l : ℚ) + s * (linspace3 minLon maxLon l' : ℚ) := by exact_mod_cast eas
  have inner : ∀ p : Fin 3, |(1 - (s : ℝ)) * z (linspace3 minLon maxLon l) (linspace3 maxLat minLat p) + s * z (linspace3 minLon maxLon l') (linspace3 maxLat minLat p) -
      F (along minLon maxLon n j : ℚ) (linspace3 maxLat minLat p : ℚ)| ≤ η + M * ((maxLon : ℝ) - minLon) ^ 2 / 32 := by
    intro p
    have a := mean_close S0 S1 (hz _ _ (lons l).1 (lons l).2 (lats p).1 (lats p).2) (hz _ _ (lons l').1 (lons l').2 (lats p).1 (lats p).2)
    have b := chord_half hM (hx _ _ _ (lons l).1 (lons l).2 (lons l').1 (lons l').2 (lats p).1 (lats p).2) ds S0 S1
    rw [eS]
    rw [abs_le] at *
    constructor <;> linarith [a.1, a.2, b.1, b.2]
  have a := mean_close T0 T1 (inner k) (inner k')
  have b := chord_half hN (hy _ _ _ lonin.1 lonin.2.1 (lats k).1 (lats k).2 (lats k').1 (lats k').2) dt T0 T1
  have c := hz _ _ lonin.1 lonin.2.1 latin.1 latin.2
  rw [← eT] at b
  rw [hm]
  push_cast
  rw [abs_le] at *
  constructor <;> linarith [a.1, a.2, b.1, b.2, c.1, c.2]

theorem rpc_follows {S : Sensor} {r : RpcModel} {q K η : ℝ} (hr : Regular r q K) {elevation minLon minLat maxLon maxLat : ℚ} {tx ty : ℚ → ℚ → ℚ} {δ : ℚ} (hK : 0 ≤ K)
    (hS : Computes S r elevation minLon minLat maxLon maxLat tx ty η) (hlon : minLon ≤ maxLon) (hlat : minLat ≤ maxLat) (n : Nat)
    (hδ : K * ((180 / Real.pi * ((maxLon : ℝ) - minLon) / r.longScale) ^ 2 + (180 / Real.pi * ((maxLat : ℝ) - minLat) / r.latScale) ^ 2) / 64 + η ≤ δ) :
    GridFollows S elevation minLon minLat maxLon maxLat n tx ty δ := by
  refine ⟨hS.projects, fun hn i j u v hi hj hu hv lon lat elon elat => ?_⟩
  have e : K * (180 / Real.pi / r.longScale) ^ 2 * ((maxLon : ℝ) - minLon) ^ 2 / 32 + K * (180 / Real.pi / r.latScale) ^ 2 * ((maxLat : ℝ) - minLat) ^ 2 / 32 + 2 * η ≤ 2 * (δ : ℝ) := by
    have : K * (180 / Real.pi / r.longScale) ^ 2 * ((maxLon : ℝ) - minLon) ^ 2 / 32 + K * (180 / Real.pi / r.latScale) ^ 2 * ((maxLat : ℝ) - minLat) ^ 2 / 32 + 2 * η =
      2 * (K * ((180 / Real.pi * ((maxLon : ℝ) - minLon) / r.longScale) ^ 2 + (180 / Real.pi * ((maxLat : ℝ) - minLat) / r.latScale) ^ 2) / 64 + η) := by ring
    rw [this]
    linarith
  have hM : 0 ≤ K * (180 / Real.pi / r.longScale) ^ 2 := by positivity
  have hN : 0 ≤ K * (180 / Real.pi / r.latScale) ^ 2 := by positivity
  have out : ∀ w : ℚ, |(w : ℝ)| ≤ 2 * (δ : ℝ) → |w| ≤ 2 * δ := fun w hw => by exact_mod_cast hw
  subst elon elat
  refine ⟨out _ (le_trans (mix_follows hM hN (fun x y => column r x y elevation) tx hlon hlat ?_ ?_ ?_ hn hi hj hu hv) e),
    out _ (le_trans (mix_follows hM hN (fun x y => row r x y elevation) ty hlon hlat ?_ ?_ ?_ hn hi hj hu hv) e)⟩
  · exact fun lon lat a b c d => (hS.close lon lat _ _ a b c d (projects hr (hS.inside lon lat a b c d))).1
  · exact fun lon lon' lat a b a' b' c d => (parallel_bends hr (hS.inside lon lat a b c d) (hS.inside lon' lat a' b' c d)).1
  · exact fun lon lat lat' a b c d c' d' => (meridian_bends hr (hS.inside lon lat a b c d) (hS.inside lon lat' a b c' d')).1
  · exact fun lon lat a b c d => (hS.close lon lat _ _ a b c d (projects hr (hS.inside lon lat a b c d))).2
  · exact fun lon lon' lat a b a' b' c d => (parallel_bends hr (hS.inside lon lat a b c d) (hS.inside lon' lat a' b' c d)).2
  · exact fun lon lat lat' a b c d c' d' => (meridian_bends hr (hS.inside lon lat a b c d) (hS.inside lon lat' a b c' d')).2

/-! ## Tiles -/

/-- **C180**: C179 for images with an RPC model.  The bound of the misplacement follows from the coefficients, and from the size of the tile in units of the model. -/
theorem grey_tile_rpc (R : Raster) (hb : R.bands = 1) (S : Sensor) (adj : Adjust) (hadj : adj = .minmax ∨ adj = .dra) (sar : Channel → Channel → Except PyErr Channel)
    (sample : Nat → Nat → Channel → ℚ → ℚ → Int) (hsample : Interpolates sample)
    (minLon minLat maxLon maxLat : ℚ) (hlon : minLon ≤ maxLon) (hlat : minLat ≤ maxLat) (n : Nat) (g : ℚ × ℚ × ℚ) (hg : S.toWorld ((R.height : ℚ) / 2, (R.width : ℚ) / 2) = .ok g)
    (r : RpcModel) (q K η : ℝ) (hr : Regular r q K) (hK : 0 ≤ K) (tx ty : ℚ → ℚ → ℚ) (hS : Computes S r g.2.2 minLon minLat maxLon maxLat tx ty η) (δ : ℚ)
    (hδ : K * ((180 / Real.pi * ((maxLon : ℝ) - minLon) / r.longScale) ^ 2 + (180 / Real.pi * ((maxLat : ℝ) - minLat) / r.latScale) ^ 2) / 64 + η ≤ δ)
    (rows : List (List Rgba)) (h : createOrthophotoTile R S adj sar sample minLon minLat maxLon maxLat n n = .ok (some rows)) :
    rows.length = n ∧ (∀ row ∈ rows, row.length = n) ∧
    ∃ (o : Nat) (X0 Y0 X1 Y1 : Int) (ps : List ℚ) (f : ℚ → Int), o ≤ R.overviews ∧ (0 ≤ X0 ∧ X0 < X1 ∧ X1 * 2 ^ o ≤ R.width) ∧ (0 ≤ Y0 ∧ Y0 < Y1 ∧ Y1 * 2 ^ o ≤ R.height) ∧
      WindowValues R 1 o X0 Y0 X1 Y1 ps ∧ Adjusted adj R 1 ps f ∧
      ∀ (i j : Nat) (lon lat : ℚ), i < n → j < n → lon = along minLon maxLon n j → lat = along maxLat minLat n i →
        2 * δ ≤ tx lon lat → tx lon lat ≤ R.width - 2 * δ → 2 * δ ≤ ty lon lat → ty lon lat ≤ R.height - 2 * δ →
        ∃ row p, rows[i]? = some row ∧ row[j]? = some p ∧ NearValue (fun X Y => f (R.pixel 1 o X Y)) o δ (tx lon lat) (ty lon lat) X0 Y0 X1 Y1 p.red ∧
          p.green = p.red ∧ p.blue = p.red ∧ p.alpha = if p.red = 0 then 0 else 255 :=
  grey_tile_follows R hb S adj hadj sar sample hsample minLon minLat maxLon maxLat hlon hlat n g hg tx ty δ (rpc_follows hr hK hS hlon hlat n hδ) rows h

/-- **C180**: the same for images of three bands or more. -/
theorem colour_tile_rpc (R : Raster) (hb : 3 ≤ R.bands) (S : Sensor) (adj : Adjust) (hadj : adj = .minmax ∨ adj = .dra) (sar : Channel → Channel → Except PyErr Channel)
    (sample : Nat → Nat → Channel → ℚ → ℚ → Int) (hsample : Interpolates sample)
    (minLon minLat maxLon maxLat : ℚ) (hlon : minLon ≤ maxLon) (hlat : minLat ≤ maxLat) (n : Nat) (g : ℚ × ℚ × ℚ) (hg : S.toWorld ((R.height : ℚ) / 2, (R.width : ℚ) / 2) = .ok g)
    (r : RpcModel) (q K η : ℝ) (hr : Regular r q K) (hK : 0 ≤ K) (tx ty : ℚ → ℚ → ℚ) (hS : Computes S r g.2.2 minLon minLat maxLon maxLat tx ty η) (δ : ℚ)
    (hδ : K * ((180 / Real.pi * ((maxLon : ℝ) - minLon) / r.longScale) ^ 2 + (180 / Real.pi * ((maxLat : ℝ) - minLat) / r.latScale) ^ 2) / 64 + η ≤ δ)
    (rows : List (List Rgba)) (h : createOrthophotoTile R S adj sar sample minLon minLat maxLon maxLat n n = .ok (some rows)) :
    rows.length = n ∧ (∀ row ∈ rows, row.length = n) ∧
    ∃ (o : Nat) (X0 Y0 X1 Y1 : Int) (ps1 ps2 ps3 : List ℚ) (f1 f2 f3 : ℚ → Int), o ≤ R.overviews ∧ (0 ≤ X0 ∧ X0 < X1 ∧ X1 * 2 ^ o ≤ R.width) ∧ (0 ≤ Y0 ∧ Y0 < Y1 ∧ Y1 * 2 ^ o ≤ R.height) ∧
      WindowValues R 1 o X0 Y0 X1 Y1 ps1 ∧ WindowValues R 2 o X0 Y0 X1 Y1 ps2 ∧ WindowValues R 3 o X0 Y0 X1 Y1 ps3 ∧ Adjusted adj R 1 ps1 f1 ∧ Adjusted adj R 2 ps2 f2 ∧ Adjusted adj R 3 ps3 f3 ∧
      ∀ (i j : Nat) (lon lat : ℚ), i < n → j < n → lon = along minLon maxLon n j → lat = along maxLat minLat n i →
        2 * δ ≤ tx lon lat → tx lon lat ≤ R.width - 2 * δ → 2 * δ ≤ ty lon lat → ty lon lat ≤ R.height - 2 * δ →
        ∃ row p, rows[i]? = some row ∧ row[j]? = some p ∧
          NearValue (fun X Y => f1 (R.pixel 1 o X Y)) o δ (tx lon lat) (ty lon lat) X0 Y0 X1 Y1 p.blue ∧
          NearValue (fun X Y => f2 (R.pixel 2 o X Y)) o δ (tx lon lat) (ty lon lat) X0 Y0 X1 Y1 p.green ∧
          NearValue (fun X Y => f3 (R.pixel 3 o X Y)) o δ (tx lon lat) (ty lon lat) X0 Y0 X1 Y1 p.red ∧
          p.alpha = if p.blue = 0 ∨ p.green = 0 ∨ p.red = 0 then 0 else 255 :=
  colour_tile_follows R hb S adj hadj sar sample hsample minLon minLat maxLon maxLat hlon hlat n g hg tx ty δ (rpc_follows hr hK hS hlon hlat n hδ) rows h

/-! ## A case: the tilted model of C135 -/

open Verif.Props.Nearby (tilted)

/-- Its positions bend by at most 400 pixels per squared unit, though a unit is thousands of pixels. -/
theorem tilted_regular : Regular tilted (999 / 1000) 400 where
  lineNum := rfl
  lineDen := rfl
  sampNum := rfl
  sampDen := rfl
  long := by norm_num [tilted]
  lat := by norm_num [tilted]
  height := by norm_num [tilted]
  pos := by norm_num
  line l p h _ hp _ := by
    have e : cubic tilted.lineDen l p h = 1 + p / 1000 := by simp [cubic, tilted, rpc00b]; ring
    have := abs_le.1 hp
    rw [e, abs_of_pos (by linarith)]
    linarith
  samp l p h _ hp _ := by
    have e : cubic tilted.sampDen l p h = 1 + p / 1000 := by simp [cubic, tilted, rpc00b]; ring
    have := abs_le.1 hp
    rw [e, abs_of_pos (by linarith)]
    linarith
  bendLine := by norm_num [bend, curve, total, tilted, abs_of_pos, abs_of_neg, abs_div, abs_neg]
  bendSamp := by norm_num [bend, curve, total, tilted, abs_of_pos, abs_of_neg, abs_div, abs_neg]

/-- A tile of seven hundred pixels or so is inside the cube. -/
theorem tilted_inside (lon lat : ℚ) (h1 : -18327 / 10000 ≤ lon) (h2 : lon ≤ -18325 / 10000) (h3 : 698 / 1000 ≤ lat) (h4 : lat ≤ 6982 / 10000) : InCube tilted ⟨lon, lat, (1600 : ℚ)⟩ := by
  have p1 := Real.pi_gt_d4
  have p2 := Real.pi_lt_d4
  have p0 := Real.pi_pos
  have a1 : (-18327 / 10000 : ℝ) ≤ lon := by
    have := (Rat.cast_le (K := ℝ)).2 h1
    push_cast at this
    exact this
  have a2 : (lon : ℝ) ≤ -18325 / 10000 := by
    have := (Rat.cast_le (K := ℝ)).2 h2
    push_cast at this
    exact this
  have a3 : (698 / 1000 : ℝ) ≤ lat := by
    have := (Rat.cast_le (K := ℝ)).2 h3
    push_cast at this
    exact this
  have a4 : (lat : ℝ) ≤ 6982 / 10000 := by
    have := (Rat.cast_le (K := ℝ)).2 h4
    push_cast at this
    exact this
  have d : ∀ x : ℝ, 180 / Real.pi * x = 180 * x / Real.pi := fun x => by ring
  have l1 : -105 - 1 / 8 ≤ 180 / Real.pi * (lon : ℝ) := by rw [d, le_div_iff₀ p0]; linarith
  have l2 : 180 / Real.pi * (lon : ℝ) ≤ -105 + 1 / 8 := by rw [d, div_le_iff₀ p0]; linarith
  have l3 : 40 - 1 / 10 ≤ 180 / Real.pi * (lat : ℝ) := by rw [d, le_div_iff₀ p0]; linarith
  have l4 : 180 / Real.pi * (lat : ℝ) ≤ 40 + 1 / 10 := by rw [d, div_le_iff₀ p0]; linarith
  refine ⟨?_, ?_, ?_⟩
  · show |(180 / Real.pi * (lon : ℝ) - -105) / (1 / 8)| ≤ 1
    rw [abs_le]
    constructor <;> linarith
  · show |(180 / Real.pi * (lat : ℝ) - 40) / (1 / 10)| ≤ 1
    rw [abs_le]
    constructor <;> linarith
  · norm_num [tilted]

/-- Sensor models that compute the positions as well as one likes exist. -/
theorem computes_exists {r : RpcModel} {q K η : ℝ} (hr : Regular r q K) (hη : 0 < η) {elevation minLon minLat maxLon maxLat : ℚ}
    (inside : ∀ lon lat : ℚ, minLon ≤ lon → lon ≤ maxLon → minLat ≤ lat → lat ≤ maxLat → InCube r ⟨lon, lat, elevation⟩) :
    ∃ (S : Sensor) (tx ty : ℚ → ℚ → ℚ), Computes S r elevation minLon minLat maxLon maxLat tx ty η := by
  choose near hnear using fun x : ℝ => exists_rat_near x hη
  refine ⟨⟨fun _ => .ok (0, 0, elevation), fun p => .ok (near (column r p.1 p.2.1 elevation), near (row r p.1 p.2.1 elevation))⟩, fun lon lat => near (column r lon lat elevation),
    fun lon lat => near (row r lon lat elevation), ⟨fun lon lat _ _ _ _ => rfl, inside, fun lon lat x y a b c d h => ?_⟩⟩
  rw [projects hr (inside lon lat a b c d)] at h
  obtain ⟨rfl, rfl⟩ := Prod.mk.inj (Except.ok.inj h)
  refine ⟨?_, ?_⟩ <;> rw [abs_sub_comm] <;> exact (hnear _).le

/-- The tile is misplaced by no more than 0.27 pixels. -/
example : (400 : ℝ) * ((180 / Real.pi * (((-18325 / 10000 : ℚ) : ℝ) - (-18327 / 10000 : ℚ)) / tilted.longScale) ^ 2 + (180 / Real.pi * (((6982 / 10000 : ℚ) : ℝ) - (698 / 1000 : ℚ)) / tilted.latScale) ^ 2) / 64 +
    1 / 1000000 ≤ ((27 / 200 : ℚ) : ℝ) := by
  have p1 := Real.pi_gt_d4
  have p0 := Real.pi_pos
  have k : 180 / Real.pi ≤ 573 / 10 := by rw [div_le_iff₀ p0]; linarith
  have k0 : 0 ≤ 180 / Real.pi := by positivity
  have e : (180 / Real.pi) ^ 2 ≤ (573 / 10) ^ 2 := pow_le_pow_left₀ k0 k 2
  simp only [tilted]
  push_cast
  generalize 180 / Real.pi = x at *
  nlinarith [e]

end Verif.Props.RpcSmooth
