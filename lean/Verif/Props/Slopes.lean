import Verif.Spec.Slopes
import Verif.Spec.Memory
import Verif.Props.Seams
import Verif.Props.Nearby
import Verif.Props.NearbyRsm
import Verif.Props.RoundedAffine

/-!
# Theorems about the steepness of elevation tiles
-/

namespace Verif.Props.Slopes

open Verif.Dem Verif.Sensors Verif.DemFiles Verif.Spec.Slopes Verif.Props.DemFiles Verif.Props.Dem
open Verif.GdalUtils (tileLocation)

/-! ## The surface -/

/-- Along a row of values whose neighbours differ by at most `S`. -/
theorem values_step (g : Nat → ℝ) (n : Nat) (S : ℝ) (h : ∀ k, k + 1 < n → |g (k + 1) - g k| ≤ S) (i d : Nat) (hd : i + d < n) :
    |g (i + d) - g i| ≤ S * d := by
  induction d with
  | zero => simp
  | succ d ih =>
    have h1 := ih (by omega)
    have h2 := h (i + d) (by omega)
    have h3 := abs_add_le (g (i + d + 1) - g (i + d)) (g (i + d) - g i)
    have e : g (i + d + 1) - g (i + d) + (g (i + d) - g i) = g (i + (d + 1)) - g i := by rw [← add_assoc]; ring
    rw [e] at h3
    push_cast
    linarith

theorem line_step (g : Nat → ℝ) (n : Nat) (S : ℝ) (h : ∀ k, k + 1 < n → |g (k + 1) - g k| ≤ S) (i j : Nat) (hi : i + 1 < n) (hj : j + 1 < n) (x y : ℝ)
    (hx0 : (i : ℝ) ≤ x) (hx1 : x ≤ i + 1) (hy0 : (j : ℝ) ≤ y) (hy1 : y ≤ j + 1) (hxy : x ≤ y) : |line g j y - line g i x| ≤ S * (y - x) := by
  rcases lt_trichotomy i j with hij | hij | hij
  · obtain ⟨d, rfl⟩ : ∃ d, j = i + 1 + d := ⟨j - (i + 1), by omega⟩
    have a := values_step g n S h (i + 1) d (by omega)
    have e : line g (i + 1 + d) y - line g i x =
        (y - ((i + 1 + d : ℕ) : ℝ)) * (g (i + 1 + d + 1) - g (i + 1 + d)) + (g (i + 1 + d) - g (i + 1)) + ((i : ℝ) + 1 - x) * (g (i + 1) - g i) := by
      unfold line; ring
    have b1 := h (i + 1 + d) (by omega)
    have b2 := h i hi
    have c1 : |(y - ((i + 1 + d : ℕ) : ℝ)) * (g (i + 1 + d + 1) - g (i + 1 + d))| ≤ (y - ((i + 1 + d : ℕ) : ℝ)) * S := by
      rw [abs_mul, abs_of_nonneg (sub_nonneg.mpr hy0)]
      exact mul_le_mul_of_nonneg_left b1 (sub_nonneg.mpr hy0)
    have c2 : |((i : ℝ) + 1 - x) * (g (i + 1) - g i)| ≤ ((i : ℝ) + 1 - x) * S := by
      rw [abs_mul, abs_of_nonneg (sub_nonneg.mpr hx1)]
      exact mul_le_mul_of_nonneg_left b2 (sub_nonneg.mpr hx1)
    rw [e]
    have d1 := abs_add_le ((y - ((i + 1 + d : ℕ) : ℝ)) * (g (i + 1 + d + 1) - g (i + 1 + d)) + (g (i + 1 + d) - g (i + 1))) (((i : ℝ) + 1 - x) * (g (i + 1) - g i))
    have d2 := abs_add_le ((y - ((i + 1 + d : ℕ) : ℝ)) * (g (i + 1 + d + 1) - g (i + 1 + d))) (g (i + 1 + d) - g (i + 1))
    push_cast at c1 d1 d2 ⊢
    nlinarith
  · subst hij
    have e : line g i y - line g i x = (y - x) * (g (i + 1) - g i) := by unfold line; ring
    rw [e, abs_mul, abs_of_nonneg (sub_nonneg.mpr hxy), mul_comm S]
    exact mul_le_mul_of_nonneg_left (h i hi) (sub_nonneg.mpr hxy)
  · have : ((j + 1 : ℕ) : ℝ) ≤ i := by exact_mod_cast hij
    push_cast at this
    have e : x = y := by linarith
    subst e
    rw [line_agree g hy0 hy1 hx0 hx1]
    simp

/-- In either order. -/
theorem line_step_abs (g : Nat → ℝ) (n : Nat) (S : ℝ) (h : ∀ k, k + 1 < n → |g (k + 1) - g k| ≤ S) (i j : Nat) (hi : i + 1 < n) (hj : j + 1 < n) (x y : ℝ)
    (hx0 : (i : ℝ) ≤ x) (hx1 : x ≤ i + 1) (hy0 : (j : ℝ) ≤ y) (hy1 : y ≤ j + 1) : |line g i x - line g j y| ≤ S * |x - y| := by
  rcases le_total x y with hxy | hxy
  · rw [abs_sub_comm x y, abs_of_nonneg (sub_nonneg.mpr hxy), abs_sub_comm]
    exact line_step g n S h i j hi hj x y hx0 hx1 hy0 hy1 hxy
  · rw [abs_of_nonneg (sub_nonneg.mpr hxy)]
    exact line_step g n S h j i hj hi y x hy0 hy1 hx0 hx1 hxy

theorem line_sub (g k : Nat → ℝ) (j : Nat) (y : ℝ) : line g j y - line k j y = line (fun r => g r - k r) j y := by
  unfold line; ring

theorem line_abs (g : Nat → ℝ) (j : Nat) (y B : ℝ) (h0 : (j : ℝ) ≤ y) (h1 : y ≤ j + 1) (a : |g j| ≤ B) (b : |g (j + 1)| ≤ B) : |line g j y| ≤ B := by
  rw [abs_le] at a b ⊢
  exact line_bounds g j y (-B) B h0 h1 a.1 b.1 a.2 b.2

/-- Where the interpolator looks. -/
theorem located (p : Posts ℝ) (f : ℝ → ℝ → ℝ) (hf : bilinear p = .ok f) (x y : ℝ) : ∃ i j : Nat, ∃ x' y' : ℝ, i + 1 < p.width ∧ j + 1 < p.height ∧
    x' = max 0 (min x (p.width - 1)) ∧ y' = max 0 (min y (p.height - 1)) ∧ (i : ℝ) ≤ x' ∧ x' ≤ i + 1 ∧ (j : ℝ) ≤ y' ∧ y' ≤ j + 1 ∧ f x y = patch p i j x' y' := by
  have hs : 2 ≤ p.width ∧ 2 ≤ p.height := by
    unfold bilinear at hf
    split_ifs at hf with h
    omega
  have find : ∀ (n : Nat), 2 ≤ n → ∀ x : ℝ, ∃ i : Nat, i + 1 < n ∧ (i : ℝ) ≤ max 0 (min x (n - 1)) ∧ max 0 (min x ((n : ℝ) - 1)) ≤ i + 1 := by
    intro n hn x
    have : (2:ℝ) ≤ n := by exact_mod_cast hn
    obtain ⟨i, u, hi, h0, h1, he⟩ := Verif.Props.Seams.split (n - 1) (by omega) (max 0 (min x ((n : ℝ) - 1))) (le_max_left _ _)
      (by rw [Nat.cast_sub (by omega)]; push_cast; exact max_le (by linarith) (min_le_right _ _))
    exact ⟨i, by omega, by rw [he]; linarith, by rw [he]; linarith⟩
  obtain ⟨i, hi, a, b⟩ := find _ hs.1 x
  obtain ⟨j, hj, c, d⟩ := find _ hs.2 y
  refine ⟨i, j, _, _, hi, hj, rfl, rfl, a, b, c, d, ?_⟩
  rw [Verif.Props.Seams.bilinear_clamped p f hf x y]
  exact bilinear_eq_patch p f hf i j hi hj _ _ a b c d

/-- The nearest point of an interval moves no further than the point. -/
theorem clamp_near (x y m : ℝ) : |max 0 (min x m) - max 0 (min y m)| ≤ |x - y| := by
  have h1 := abs_max_sub_max_le_abs (min x m) (min y m) 0
  rw [max_comm _ 0, max_comm _ 0] at h1
  refine le_trans h1 ?_
  have h2 := abs_min_sub_min_le_max x m y m
  simpa using h2

/-- **C145** (the surface): the surface of an elevation tile is as steep as its posts: if neighbouring posts differ by at most `S`, a step of `dx` posts across and `dy` posts down changes the
elevation by at most `S (|dx| + |dy|)`, also across cells and outside the posts. -/
theorem surface_steepness (p : Posts ℝ) (f : ℝ → ℝ → ℝ) (hf : bilinear p = .ok f) (S : ℝ) (hS : Gentle p S) (x y x' y' : ℝ) :
    |f x y - f x' y'| ≤ S * (|x - x'| + |y - y'|) := by
  obtain ⟨i, j, X, Y, hi, hj, eX, eY, a1, a2, a3, a4, e⟩ := located p f hf x y
  obtain ⟨i', j', X', Y', hi', hj', eX', eY', b1, b2, b3, b4, e'⟩ := located p f hf x' y'
  have S0 : 0 ≤ S := le_trans (abs_nonneg _) (hS.across 0 0 (by omega) (by omega))
  have dX : |X - X'| ≤ |x - x'| := by rw [eX, eX']; exact clamp_near _ _ _
  have dY : |Y - Y'| ≤ |y - y'| := by rw [eY, eY']; exact clamp_near _ _ _
  -- across
  have h1 : |patch p i j X Y - patch p i' j X' Y| ≤ S * |X - X'| := by
    unfold patch
    rw [line_sub]
    refine line_abs _ j Y _ a3 a4 ?_ ?_
    · exact line_step_abs (fun c => p.z c j) p.width S (fun k hk => hS.across k j hk (by omega)) i i' hi hi' X X' a1 a2 b1 b2
    · exact line_step_abs (fun c => p.z c (j + 1)) p.width S (fun k hk => hS.across k (j + 1) hk (by omega)) i i' hi hi' X X' a1 a2 b1 b2
  -- down
  have h2 : |patch p i' j X' Y - patch p i' j' X' Y'| ≤ S * |Y - Y'| := by
    unfold patch
    refine line_step_abs _ p.height S (fun k hk => ?_) j j' hj hj' Y Y' a3 a4 b3 b4
    rw [line_sub]
    exact line_abs _ i' X' _ b1 b2 (hS.down i' k (by omega) hk) (hS.down (i' + 1) k (by omega) hk)
  rw [e, e']
  have h3 := abs_add_le (patch p i j X Y - patch p i' j X' Y) (patch p i' j X' Y - patch p i' j' X' Y')
  have e3 : patch p i j X Y - patch p i' j X' Y + (patch p i' j X' Y - patch p i' j' X' Y') = patch p i j X Y - patch p i' j' X' Y' := by ring
  rw [e3] at h3
  have m1 := mul_le_mul_of_nonneg_left dX S0
  have m2 := mul_le_mul_of_nonneg_left dY S0
  linarith

/-- The surface stays between the lowest and the highest post. -/
theorem surface_between (p : Posts ℝ) (f : ℝ → ℝ → ℝ) (hf : bilinear p = .ok f) (lo hi : ℝ) (h : Between p lo hi) (x y : ℝ) : lo ≤ f x y ∧ f x y ≤ hi := by
  obtain ⟨i, j, X, Y, hi', hj, -, -, a1, a2, a3, a4, e⟩ := located p f hf x y
  rw [e]
  have row : ∀ r, r < p.height → lo ≤ line (fun c => p.z c r) i X ∧ line (fun c => p.z c r) i X ≤ hi := fun r hr =>
    line_bounds _ i X lo hi a1 a2 (h i r (by omega) hr).1 (h (i + 1) r hi' hr).1 (h i r (by omega) hr).2 (h (i + 1) r hi' hr).2
  exact line_bounds _ j Y lo hi a3 a4 (row j (by omega)).1 (row (j + 1) hj).1 (row j (by omega)).2 (row (j + 1) hj).2

/-! ## Elevation files -/

open Verif.Props.Seams (elevation_from)
open Verif.Spec.Rpc Verif.Rpc Verif.Spec.Nearby

/-- `set_elevation` of a file, as a function of the coordinate. -/
theorem surface_from (lib : Lib) (h1 : ∀ x, lib.angles.deg (lib.angles.rad x) = x) (h2 : ∀ x, lib.angles.rad (lib.angles.deg x) = x)
    (tileId : Geo ℝ → Option (List Char)) (open' : List Char → Option Raster) (dir p : List Char)
    (c : Geo ℝ) (hp : tileId c = some p) (hne : p ≠ []) (ds : Raster) (hopen : open' (tileLocation dir p) = some ds) (geo : List ℝ)
    (hgeo : ds.geo = some geo) (hinv : Invertible geo) (x y : ℝ) (f : ℝ → ℝ → ℝ) (hf : bilinear ds.posts = .ok f) (hc : At lib.angles geo none x y c) :
    Verif.Spec.Memory.surface (terrain lib tileId open' dir) c = .ok { c with elevation := f x y } := by
  have h := elevation_from lib h1 h2 tileId open' dir p 1 [] c hp hne ds hopen geo hgeo hinv x y f hf hc
  unfold elevationOf at h
  obtain ⟨-, hg, -⟩ := queries_spec (terrain lib tileId open' dir) [] (good_empty (terrain lib tileId open' dir).load 1)
  rw [(query_spec (terrain lib tileId open' dir) hg _).1] at h
  unfold Verif.Spec.Dem.uncached at h
  have htile : (terrain lib tileId open' dir).tileOf c = some p := by
    cases p with
    | nil => exact absurd rfl hne
    | cons a as => simp [Terrain.tileOf, terrain, hp]
  have hcoord : (Query.setElevation c).coord = c := rfl
  rw [hcoord, htile] at h
  unfold Verif.Spec.Memory.surface
  rw [htile]
  simp only [Query.finish] at h
  cases hl : (terrain lib tileId open' dir).load p with
  | error e => rw [hl] at h; simp at h
  | ok g =>
    rw [hl] at h
    simp only [bind, Except.bind] at h ⊢
    cases ha : applyGrid g c with
    | error e => rw [ha] at h; simp [Except.map] at h
    | ok c' =>
      rw [ha] at h
      simp only [Except.map, Except.ok.injEq, Answer.coordinate.injEq] at h
      simp only [hl, ha, h]; rfl

/-- It sets nothing but the elevation. -/
theorem surface_keeps {A R : Type} (d : Terrain ℝ A R) (g g' : Geo ℝ) (h : Verif.Spec.Memory.surface d g = .ok g') :
    g'.longitude = g.longitude ∧ g'.latitude = g.latitude := by
  unfold Verif.Spec.Memory.surface at h
  cases hid : d.tileOf g with
  | none => rw [hid] at h; cases h; exact ⟨rfl, rfl⟩
  | some id =>
    rw [hid] at h
    simp only at h
    cases hl : d.load id with
    | error e => rw [hl] at h; cases h
    | ok gr =>
      rw [hl] at h
      simp only [bind, Except.bind] at h
      cases ha : applyGrid gr g with
      | error e => rw [ha] at h; cases h
      | ok c' =>
        rw [ha] at h
        cases h
        unfold applyGrid at ha
        split at ha
        · split at ha
          · cases ha
          · cases ha; exact ⟨rfl, rfl⟩
        · cases ha; exact ⟨rfl, rfl⟩

/-- **C145** (elevation files): if neighbouring posts of an elevation file in longitude and latitude differ by at most `S`, the elevations that `set_elevation` sets at two places `dx` posts across
and `dy` posts down from each other differ by at most `S (|dx| + |dy|)`, whatever was asked before. -/
theorem file_steepness (lib : Lib) (h1 : ∀ x, lib.angles.deg (lib.angles.rad x) = x) (h2 : ∀ x, lib.angles.rad (lib.angles.deg x) = x)
    (tileId : Geo ℝ → Option (List Char)) (open' : List Char → Option Raster) (dir p : List Char) (cap : Int) (before before' : List (Query ℝ))
    (c c' : Geo ℝ) (hp : tileId c = some p) (hp' : tileId c' = some p) (hne : p ≠ []) (ds : Raster) (hopen : open' (tileLocation dir p) = some ds) (geo : List ℝ)
    (hgeo : ds.geo = some geo) (hinv : Invertible geo) (hsize : 2 ≤ ds.posts.width ∧ 2 ≤ ds.posts.height) (S : ℝ) (hS : Gentle ds.posts S)
    (x y x' y' : ℝ) (hc : At lib.angles geo none x y c) (hc' : At lib.angles geo none x' y' c') :
    ∃ e e', elevationOf (terrain lib tileId open' dir) cap before c = .ok (.coordinate { c with elevation := e }) ∧
      elevationOf (terrain lib tileId open' dir) cap before' c' = .ok (.coordinate { c' with elevation := e' }) ∧
      |e - e'| ≤ S * (|x - x'| + |y - y'|) := by
  obtain ⟨f, hf⟩ : ∃ f, bilinear ds.posts = .ok f := by
    unfold bilinear
    rw [if_neg (by omega)]
    exact ⟨_, rfl⟩
  exact ⟨_, _, elevation_from lib h1 h2 tileId open' dir p cap before c hp hne ds hopen geo hgeo hinv x y f hf hc,
    elevation_from lib h1 h2 tileId open' dir p cap before' c' hp' hne ds hopen geo hgeo hinv x' y' f hf hc', surface_steepness ds.posts f hf S hS x y x' y'⟩

/-- Degrees and radians of a library are those of mathematics. -/
def Turns (an : Angles ℝ) : Prop := (∀ v, an.deg v = v * (180 / Real.pi)) ∧ ∀ v, an.rad v = v * (Real.pi / 180)

theorem Turns.inverse {an : Angles ℝ} (h : Turns an) : (∀ x, an.deg (an.rad x) = x) ∧ ∀ x, an.rad (an.deg x) = x := by
  have := Real.pi_ne_zero
  constructor <;> intro x <;> rw [h.1, h.2] <;> field_simp

/-- A raster position of a north up file. -/
noncomputable def postX (g0 g1 lon : ℝ) : ℝ := (lon - g0) / g1

/-- **C145** (RPC): a north up elevation file that covers the box of an RPC model, with posts in the box, is ground for the model as C135 demands it:
not steeper than `S (|longScale / g1| + |latScale / g5|) / |heightScale|` in normalised units. -/
theorem file_is_ground (lib : Lib) (ht : Turns lib.angles)
    (tileId : Geo ℝ → Option (List Char)) (open' : List Char → Option Raster) (dir p : List Char) (r : RpcModel) (hr : r.heightScale ≠ 0) (b : ℝ)
    (hp : ∀ l q z, |l| ≤ b → |q| ≤ b → tileId ⟨lonOf r l, latOf r q, z⟩ = some p) (hne : p ≠ []) (ds : Raster) (hopen : open' (tileLocation dir p) = some ds)
    (g0 g1 g3 g5 : ℝ) (hgeo : ds.geo = some [g0, g1, 0, g3, 0, g5]) (hg : g1 ≠ 0 ∧ g5 ≠ 0) (hsize : 2 ≤ ds.posts.width ∧ 2 ≤ ds.posts.height)
    (S : ℝ) (hS : Gentle ds.posts S) (hin : Between ds.posts (r.heightOff - b * |r.heightScale|) (r.heightOff + b * |r.heightScale|)) :
    ∃ height, Surface r (some (Verif.Spec.Memory.surface (terrain lib tileId open' dir))) b (S * (|r.longScale / g1| + |r.latScale / g5|) / |r.heightScale|) height := by
  obtain ⟨f, hf⟩ : ∃ f, bilinear ds.posts = .ok f := by
    unfold bilinear
    rw [if_neg (by omega)]
    exact ⟨_, rfl⟩
  have hs : 0 < |r.heightScale| := abs_pos.mpr hr
  have S0 : 0 ≤ S := le_trans (abs_nonneg _) (hS.across 0 0 (by omega) (by omega))
  refine ⟨fun l q => (f (postX g0 g1 (l * r.longScale + r.longOff)) (postX g3 g5 (q * r.latScale + r.latOff)) - r.heightOff) / r.heightScale, ?_, ?_, ?_, ?_⟩
  · intro f' hf' g g' h
    cases hf'
    exact surface_keeps _ g g' h
  · intro l q hl hq
    have hat : At lib.angles [g0, g1, 0, g3, 0, g5] none (postX g0 g1 (l * r.longScale + r.longOff)) (postX g3 g5 (q * r.latScale + r.latOff))
        ⟨lonOf r l, latOf r q, r.heightOff⟩ := by
      refine ⟨g0, g1, 0, g3, 0, g5, l * r.longScale + r.longOff, q * r.latScale + r.latOff, rfl, ?_, (ht.2 _).symm, (ht.2 _).symm⟩
      unfold Located rasterPoint postX
      have e1 := div_mul_cancel₀ (l * r.longScale + r.longOff - g0) hg.1
      have e2 := div_mul_cancel₀ (q * r.latScale + r.latOff - g3) hg.2
      refine Prod.ext ?_ ?_ <;> simp only <;> linarith
    have := surface_from lib ht.inverse.1 ht.inverse.2 tileId open' dir p ⟨lonOf r l, latOf r q, r.heightOff⟩ (hp l q _ hl hq) hne ds hopen _ hgeo
      ⟨g0, g1, 0, g3, 0, g5, rfl, by simpa using hg⟩ _ _ f hf hat
    unfold ground
    simp only [this, div_mul_cancel₀ _ hr, sub_add_cancel]
  · intro l q _ _
    rw [abs_div, div_le_iff₀ hs, abs_le]
    have := surface_between ds.posts f hf _ _ hin (postX g0 g1 (l * r.longScale + r.longOff)) (postX g3 g5 (q * r.latScale + r.latOff))
    constructor <;> linarith [this.1, this.2]
  · intro l q l' q' _ _ _ _
    rw [← sub_div, abs_div, sub_sub_sub_cancel_right, div_mul_eq_mul_div]
    refine div_le_div_of_nonneg_right ?_ hs.le
    refine (surface_steepness ds.posts f hf S hS _ _ _ _).trans ?_
    have d : ∀ (a g s o t t' : ℝ), postX a g (t * s + o) - postX a g (t' * s + o) = s / g * (t - t') := by
      intro a g s o t t'; unfold postX; ring
    rw [d, d, abs_mul, abs_mul, mul_assoc]
    refine mul_le_mul_of_nonneg_left ?_ S0
    have m1 := mul_le_mul_of_nonneg_left (le_max_left |l - l'| |q - q'|) (abs_nonneg (r.longScale / g1))
    have m2 := mul_le_mul_of_nonneg_left (le_max_right |l - l'| |q - q'|) (abs_nonneg (r.latScale / g5))
    linarith

/-- **C145** (RPC): every pixel that an RPC model sees from inside its box has exactly one place on the ground of an elevation file that covers the box, if the posts of the file are not steeper than
the model allows.  `h0` is the normalised height of the ground in the middle of the box. -/
theorem one_place_per_pixel_over_file (lib : Lib) (ht : Turns lib.angles)
    (tileId : Geo ℝ → Option (List Char)) (open' : List Char → Option Raster) (dir p : List Char) (r : RpcModel) (b s steep q most gain : ℝ)
    (N : NearlyAffine r b s steep q most gain)
    (hp : ∀ l q z, |l| ≤ b → |q| ≤ b → tileId ⟨lonOf r l, latOf r q, z⟩ = some p) (hne : p ≠ []) (ds : Raster) (hopen : open' (tileLocation dir p) = some ds)
    (g0 g1 g3 g5 : ℝ) (hgeo : ds.geo = some [g0, g1, 0, g3, 0, g5]) (hg : g1 ≠ 0 ∧ g5 ≠ 0) (hsize : 2 ≤ ds.posts.width ∧ 2 ≤ ds.posts.height)
    (S : ℝ) (hS : Gentle ds.posts S) (hin : Between ds.posts (r.heightOff - b * |r.heightScale|) (r.heightOff + b * |r.heightScale|))
    (hsteep : S * (|r.longScale / g1| + |r.latScale / g5|) ≤ s * |r.heightScale|)
    (h0 : ℝ) (hh0 : Verif.Spec.Memory.surface (terrain lib tileId open' dir) ⟨lonOf r 0, latOf r 0, r.heightOff⟩ = .ok ⟨lonOf r 0, latOf r 0, h0 * r.heightScale + r.heightOff⟩)
    (x : ℝ × ℝ) (hx : Reached r b q gain h0 x) :
    ∃! u : ℝ × ℝ, (|u.1| ≤ b ∧ |u.2| ≤ b) ∧
      ∃ g, Verif.Spec.Memory.surface (terrain lib tileId open' dir) ⟨lonOf r u.1, latOf r u.2, r.heightOff⟩ = .ok g ∧ r.worldToImage g = .ok x := by
  have hs : r.heightScale ≠ 0 := N.scales.2.2.1
  obtain ⟨height, hsur⟩ := file_is_ground lib ht tileId open' dir p r hs b hp hne ds hopen g0 g1 g3 g5 hgeo hg hsize S hS hin
  have le : S * (|r.longScale / g1| + |r.latScale / g5|) / |r.heightScale| ≤ s := by rwa [div_le_iff₀ (abs_pos.mpr hs)]
  have hsur' : Surface r (some (Verif.Spec.Memory.surface (terrain lib tileId open' dir))) b s height :=
    ⟨hsur.keeps, hsur.ground, hsur.inside, fun l p l' p' h1 h2 h3 h4 =>
      (hsur.gentle l p l' p' h1 h2 h3 h4).trans (mul_le_mul_of_nonneg_right le (le_trans (abs_nonneg _) (le_max_left _ _)))⟩
  have b0 : |(0:ℝ)| ≤ b := by simpa using N.positive.1.le
  have h00 : height 0 0 = h0 := by
    have := hsur.ground 0 0 b0 b0
    unfold ground at this
    simp only [hh0, Except.ok.injEq, Geo.mk.injEq, true_and, add_left_inj] at this
    exact (mul_right_cancel₀ hs this).symm
  exact Verif.Props.Nearby.rpc_one_place_per_pixel r b s steep q most gain N _ height hsur' x (by rwa [h00])

open Verif.Rsm Verif.Spec.Rsm in
/-- **C145** (RSM): as `file_is_ground`, for an RSM model with a geodetic ground domain. -/
theorem file_is_rsm_ground (lib : Lib) (ht : Turns lib.angles)
    (tileId : Geo ℝ → Option (List Char)) (open' : List Char → Option Raster) (dir p : List Char) (m : PolyModel) (hm : m.zScale ≠ 0) (b : ℝ)
    (hp : ∀ x y z, |x| ≤ b → |y| ≤ b → tileId ⟨rsmLon m x, rsmLat m y, z⟩ = some p) (hne : p ≠ []) (ds : Raster) (hopen : open' (tileLocation dir p) = some ds)
    (g0 g1 g3 g5 : ℝ) (hgeo : ds.geo = some [g0, g1, 0, g3, 0, g5]) (hg : g1 ≠ 0 ∧ g5 ≠ 0) (hsize : 2 ≤ ds.posts.width ∧ 2 ≤ ds.posts.height)
    (S : ℝ) (hS : Gentle ds.posts S) (hin : Between ds.posts (m.zOff - b * |m.zScale|) (m.zOff + b * |m.zScale|)) :
    ∃ height, RsmSurface m (some (Verif.Spec.Memory.surface (terrain lib tileId open' dir))) b
      (S * (180 / Real.pi * (|m.xScale / g1| + |m.yScale / g5|)) / |m.zScale|) height := by
  obtain ⟨f, hf⟩ : ∃ f, bilinear ds.posts = .ok f := by
    unfold bilinear
    rw [if_neg (by omega)]
    exact ⟨_, rfl⟩
  have hs : 0 < |m.zScale| := abs_pos.mpr hm
  have S0 : 0 ≤ S := le_trans (abs_nonneg _) (hS.across 0 0 (by omega) (by omega))
  have pi0 := Real.pi_pos
  have back : ∀ v : ℝ, v = v * (180 / Real.pi) * (Real.pi / 180) := by intro v; field_simp
  refine ⟨fun x y => (f (postX g0 g1 (rsmLon m x * (180 / Real.pi))) (postX g3 g5 (rsmLat m y * (180 / Real.pi))) - m.zOff) / m.zScale, ?_, ?_, ?_, ?_⟩
  · intro f' hf' g g' h
    cases hf'
    exact surface_keeps _ g g' h
  · intro x y hx hy
    have hat : At lib.angles [g0, g1, 0, g3, 0, g5] none (postX g0 g1 (rsmLon m x * (180 / Real.pi))) (postX g3 g5 (rsmLat m y * (180 / Real.pi)))
        ⟨rsmLon m x, rsmLat m y, m.domain.defaultHeight⟩ := by
      refine ⟨g0, g1, 0, g3, 0, g5, rsmLon m x * (180 / Real.pi), rsmLat m y * (180 / Real.pi), rfl, ?_, (back _).trans (ht.2 _).symm, (back _).trans (ht.2 _).symm⟩
      unfold Located rasterPoint postX
      have e1 := div_mul_cancel₀ (rsmLon m x * (180 / Real.pi) - g0) hg.1
      have e2 := div_mul_cancel₀ (rsmLat m y * (180 / Real.pi) - g3) hg.2
      refine Prod.ext ?_ ?_ <;> simp only <;> linarith
    have := surface_from lib ht.inverse.1 ht.inverse.2 tileId open' dir p ⟨rsmLon m x, rsmLat m y, m.domain.defaultHeight⟩ (hp x y _ hx hy) hne ds hopen _ hgeo
      ⟨g0, g1, 0, g3, 0, g5, rfl, by simpa using hg⟩ _ _ f hf hat
    unfold ground
    simp only [this, div_mul_cancel₀ _ hm, sub_add_cancel]
  · intro x y _ _
    rw [abs_div, div_le_iff₀ hs, abs_le]
    have := surface_between ds.posts f hf _ _ hin (postX g0 g1 (rsmLon m x * (180 / Real.pi))) (postX g3 g5 (rsmLat m y * (180 / Real.pi)))
    constructor <;> linarith [this.1, this.2]
  · intro x y x' y' _ _ _ _
    rw [← sub_div, abs_div, sub_sub_sub_cancel_right, div_mul_eq_mul_div]
    refine div_le_div_of_nonneg_right ?_ hs.le
    refine (surface_steepness ds.posts f hf S hS _ _ _ _).trans ?_
    have d : ∀ (a g s o t t' : ℝ), postX a g ((t * s + o) * (180 / Real.pi)) - postX a g ((t' * s + o) * (180 / Real.pi)) = 180 / Real.pi * (s / g) * (t - t') := by
      intro a g s o t t'; unfold postX; ring
    unfold rsmLon rsmLat
    rw [d, d, abs_mul, abs_mul, abs_mul, abs_mul, abs_of_pos (show 0 < 180 / Real.pi by positivity), mul_assoc S]
    refine mul_le_mul_of_nonneg_left ?_ S0
    have m1 := mul_le_mul_of_nonneg_left (le_max_left |x - x'| |y - y'|) (show 0 ≤ 180 / Real.pi * |m.xScale / g1| by positivity)
    have m2 := mul_le_mul_of_nonneg_left (le_max_right |x - x'| |y - y'|) (show 0 ≤ 180 / Real.pi * |m.yScale / g5| by positivity)
    linarith

open Verif.Rsm Verif.Spec.Rsm in
/-- **C145** (RSM): as `one_place_per_pixel_over_file`, for an RSM model with a geodetic ground domain. -/
theorem rsm_one_place_per_pixel_over_file (lib : Lib) (ht : Turns lib.angles) (earth : Earth)
    (tileId : Geo ℝ → Option (List Char)) (open' : List Char → Option Raster) (dir p : List Char) (m : PolyModel) (b s steep q most gain : ℝ)
    (N : RsmNearlyAffine m b s steep q most gain)
    (hp : ∀ x y z, |x| ≤ b → |y| ≤ b → tileId ⟨rsmLon m x, rsmLat m y, z⟩ = some p) (hne : p ≠ []) (ds : Raster) (hopen : open' (tileLocation dir p) = some ds)
    (g0 g1 g3 g5 : ℝ) (hgeo : ds.geo = some [g0, g1, 0, g3, 0, g5]) (hg : g1 ≠ 0 ∧ g5 ≠ 0) (hsize : 2 ≤ ds.posts.width ∧ 2 ≤ ds.posts.height)
    (S : ℝ) (hS : Gentle ds.posts S) (hin : Between ds.posts (m.zOff - b * |m.zScale|) (m.zOff + b * |m.zScale|))
    (hsteep : S * (180 / Real.pi * (|m.xScale / g1| + |m.yScale / g5|)) ≤ s * |m.zScale|)
    (h0 : ℝ) (hh0 : Verif.Spec.Memory.surface (terrain lib tileId open' dir) ⟨rsmLon m 0, rsmLat m 0, m.domain.defaultHeight⟩ =
      .ok ⟨rsmLon m 0, rsmLat m 0, h0 * m.zScale + m.zOff⟩)
    (x : ℝ × ℝ) (hx : RsmReached m b q gain h0 x) :
    ∃! u : ℝ × ℝ, (|u.1| ≤ b ∧ |u.2| ≤ b) ∧
      ∃ g, Verif.Spec.Memory.surface (terrain lib tileId open' dir) ⟨rsmLon m u.1, rsmLat m u.2, m.domain.defaultHeight⟩ = .ok g ∧ m.worldToImage earth g = .ok x := by
  have hs : m.zScale ≠ 0 := N.scales.2.2.1
  obtain ⟨height, hsur⟩ := file_is_rsm_ground lib ht tileId open' dir p m hs b hp hne ds hopen g0 g1 g3 g5 hgeo hg hsize S hS hin
  have le : S * (180 / Real.pi * (|m.xScale / g1| + |m.yScale / g5|)) / |m.zScale| ≤ s := by rwa [div_le_iff₀ (abs_pos.mpr hs)]
  have hsur' : RsmSurface m (some (Verif.Spec.Memory.surface (terrain lib tileId open' dir))) b s height :=
    ⟨hsur.keeps, hsur.ground, hsur.inside, fun l p l' p' h1 h2 h3 h4 =>
      (hsur.gentle l p l' p' h1 h2 h3 h4).trans (mul_le_mul_of_nonneg_right le (le_trans (abs_nonneg _) (le_max_left _ _)))⟩
  have b0 : |(0:ℝ)| ≤ b := by simpa using N.positive.1.le
  have h00 : height 0 0 = h0 := by
    have := hsur.ground 0 0 b0 b0
    unfold ground at this
    simp only [hh0, Except.ok.injEq, Geo.mk.injEq, true_and, add_left_inj] at this
    exact (mul_right_cancel₀ hs this).symm
  exact Verif.Props.NearbyRsm.rsm_one_place_per_pixel earth m b s steep q most gain N _ height hsur' x (by rwa [h00])

/-! ## In doubles -/

open Verif.Rounded Verif.Spec.Rounded Verif.Lemmas.Rounded Verif.Props.RoundedAffine
open Verif.Props.Rounded (degrees_err)
open Verif.Props.RoundedRsm (grow_pow_le_two)

/-- The weights of the two posts of a cell. -/
theorem weight_approx {rnd : ℝ → ℝ} (hr : Rounds rnd) (u : ℝ) (h0 : 0 ≤ u) (h1 : u ≤ 1) : Approx 1 (1 / 2 ^ 200) (rnd u) u u := by
  have := (Approx.exact u).round hr (by
    rw [abs_of_nonneg h0]; simp only [pow_zero, one_mul, add_zero]; exact h1.trans (by norm_num))
  rw [abs_of_nonneg h0] at this
  simpa using this

/-- One of the four products. -/
theorem product_approx {rnd : ℝ → ℝ} (hr : Rounds rnd) (z Z a b u v : ℝ) (hz : |z| ≤ Z) (hZ : Z ≤ 2 ^ 40) (hu : Approx 1 (1 / 2 ^ 200) a u u) (hu1 : u ≤ 1)
    (hv : Approx 1 (1 / 2 ^ 200) b v v) (hv1 : v ≤ 1) : Approx 4 (1 / 2 ^ 150) (rnd (rnd (z * a) * b)) (z * u * v) (Z * u * v) := by
  have u0 := hu.nonneg
  have v0 := hv.nonneg
  have Z0 : 0 ≤ Z := (abs_nonneg z).trans hz
  have g2 : ∀ {n : ℕ}, n ≤ 1000 → grow ^ n ≤ 2 := fun h => grow_pow_le_two h
  have hz' : Approx 0 0 z z Z := ⟨hz, le_refl _, by simp⟩
  have Zu : Z * u ≤ 2 ^ 40 := (mul_le_mul hZ hu1 u0 (by norm_num)).trans (by norm_num)
  have Zu0 : 0 ≤ Z * u := mul_nonneg Z0 u0
  have m1 := (hz'.mul hu).weaken (k' := 1) (d' := 1 / 2 ^ 160) (by norm_num) (by
    have : Z * (1 / 2 ^ 200) ≤ 2 ^ 40 * (1 / 2 ^ 200) := mul_le_mul_of_nonneg_right hZ (by positivity)
    have e : (2:ℝ) ^ 40 * (1 / 2 ^ 200) ≤ 1 / 2 ^ 160 := by norm_num
    simp only [zero_mul, add_zero]
    linarith)
  have r1 := (m1.round hr (by
    calc grow ^ 1 * (Z * u + 1 / 2 ^ 160) ≤ 2 * (2 ^ 40 + 1) := by
          refine mul_le_mul (g2 (by norm_num)) ?_ (by positivity) (by norm_num)
          have : (1:ℝ) / 2 ^ 160 ≤ 1 := by norm_num
          linarith
      _ ≤ 2 ^ 250 := by norm_num)).weaken (k' := 2) (d' := 1 / 2 ^ 159) (by norm_num) (by norm_num)
  have m2 := (r1.mul hv).weaken (k' := 3) (d' := 1 / 2 ^ 152) (by norm_num) (by
    have h1 : Z * u * (1 / 2 ^ 200) ≤ 2 ^ 40 * (1 / 2 ^ 200) := mul_le_mul_of_nonneg_right Zu (by positivity)
    have h2 : (1:ℝ) / 2 ^ 159 * v ≤ 1 / 2 ^ 159 * 1 := mul_le_mul_of_nonneg_left hv1 (by positivity)
    have : (2:ℝ) ^ 40 * (1 / 2 ^ 200) + 1 / 2 ^ 159 * 1 + 1 / 2 ^ 159 * (1 / 2 ^ 200) ≤ 1 / 2 ^ 152 := by norm_num
    linarith)
  exact (m2.round hr (by
    have Zuv : Z * u * v ≤ 2 ^ 40 := (mul_le_mul Zu hv1 v0 (by norm_num)).trans (by norm_num)
    calc grow ^ 3 * (Z * u * v + 1 / 2 ^ 152) ≤ 2 * (2 ^ 40 + 1) := by
          refine mul_le_mul (g2 (by norm_num)) ?_ (by positivity) (by norm_num)
          have : (1:ℝ) / 2 ^ 152 ≤ 1 := by norm_num
          linarith
      _ ≤ 2 ^ 250 := by norm_num)).weaken (k' := 4) (d' := 1 / 2 ^ 150) (by norm_num) (by norm_num)

/-- The spline in doubles: heights of at most `Z` come out with an error of `9 Z / 2^53`. -/
theorem spline_err {rnd : ℝ → ℝ} (hr : Rounds rnd) (p : Posts ℝ) (f : ℝ → ℝ → ℝ) (hf : bilinear p = .ok f) (Z : ℝ) (hZ : Z ≤ 2 ^ 40) (hz : Between p (-Z) Z) (x y : ℝ) :
    |spline rnd p x y - f x y| ≤ 9 / 2 ^ 53 * Z + 1 / 2 ^ 140 := by
  have hs : 2 ≤ p.width ∧ 2 ≤ p.height := by
    unfold bilinear at hf
    split_ifs at hf with h
    omega
  have place : ∀ (n : Nat), 2 ≤ n → ∀ t : ℝ, cell (clamp t n) n + 1 < n ∧ 0 ≤ clamp t n - cell (clamp t n) n ∧ clamp t n - cell (clamp t n) n ≤ 1 := by
    intro n hn t
    have n2 : (2:ℝ) ≤ n := by exact_mod_cast hn
    have c0 : 0 ≤ clamp t n := le_max_left _ _
    have c1 : clamp t n ≤ n - 1 := max_le (by linarith) (min_le_right _ _)
    have fl : ((⌊clamp t n⌋.toNat : ℕ) : ℝ) = (⌊clamp t n⌋ : ℝ) := by
      have : ((⌊clamp t n⌋.toNat : ℤ)) = ⌊clamp t n⌋ := Int.toNat_of_nonneg (Int.floor_nonneg.mpr c0)
      exact_mod_cast this
    have f0 := Int.floor_le (clamp t n)
    have f1 := Int.lt_floor_add_one (clamp t n)
    unfold cell
    refine ⟨by omega, ?_, ?_⟩
    · have : ((min ⌊clamp t n⌋.toNat (n - 2) : ℕ) : ℝ) ≤ (⌊clamp t n⌋.toNat : ℕ) := by exact_mod_cast min_le_left _ _
      linarith
    · rcases le_total ⌊clamp t n⌋.toNat (n - 2) with h | h
      · rw [min_eq_left h]; linarith
      · rw [min_eq_right h, Nat.cast_sub hn]; push_cast; linarith
  obtain ⟨hi, u0, u1⟩ := place _ hs.1 x
  obtain ⟨hj, v0, v1⟩ := place _ hs.2 y
  have hfx : f x y = (1 - (clamp x p.width - cell (clamp x p.width) p.width)) * (1 - (clamp y p.height - cell (clamp y p.height) p.height)) * p.z (cell (clamp x p.width) p.width) (cell (clamp y p.height) p.height) +
      (clamp x p.width - cell (clamp x p.width) p.width) * (1 - (clamp y p.height - cell (clamp y p.height) p.height)) * p.z (cell (clamp x p.width) p.width + 1) (cell (clamp y p.height) p.height) +
      (1 - (clamp x p.width - cell (clamp x p.width) p.width)) * (clamp y p.height - cell (clamp y p.height) p.height) * p.z (cell (clamp x p.width) p.width) (cell (clamp y p.height) p.height + 1) +
      (clamp x p.width - cell (clamp x p.width) p.width) * (clamp y p.height - cell (clamp y p.height) p.height) * p.z (cell (clamp x p.width) p.width + 1) (cell (clamp y p.height) p.height + 1) := by
    unfold bilinear at hf
    rw [if_neg (by omega)] at hf
    simp only [Except.ok.injEq] at hf
    rw [← hf]
  rw [hfx]
  unfold spline
  simp only
  have ex : ∀ (t : ℝ) (n : ℕ), ((n : ℝ) + 1 - t) = 1 - (t - n) := by intro t n; ring
  rw [ex, ex]
  set X := clamp x p.width
  set Y := clamp y p.height
  set i := cell X p.width
  set j := cell Y p.height
  set u := X - (i : ℝ)
  set v := Y - (j : ℝ)
  have bz : ∀ a b, a < p.width → b < p.height → |p.z a b| ≤ Z := fun a b ha hb => abs_le.mpr (hz a b ha hb)
  have Z0 : 0 ≤ Z := (abs_nonneg _).trans (bz i j (by omega) (by omega))
  have U0 := weight_approx hr (1 - u) (by linarith) (by linarith)
  have U1 := weight_approx hr u u0 u1
  have V0 := weight_approx hr (1 - v) (by linarith) (by linarith)
  have V1 := weight_approx hr v v0 v1
  have P := sum_approx hr 4 (1 / 2 ^ 150) Z (by positivity)
    [(_, _, _), (_, _, _), (_, _, _), (_, _, _)] 4 0 0 0 0 (le_refl _) (by
      intro t ht
      simp only [List.mem_cons, List.not_mem_nil, or_false] at ht
      rcases ht with rfl | rfl | rfl | rfl
      · exact product_approx hr (p.z i j) Z _ _ _ _ (bz _ _ (by omega) (by omega)) hZ U0 (by linarith) V0 (by linarith)
      · exact product_approx hr (p.z i (j + 1)) Z _ _ _ _ (bz _ _ (by omega) (by omega)) hZ U0 (by linarith) V1 v1
      · exact product_approx hr (p.z (i + 1) j) Z _ _ _ _ (bz _ _ (by omega) (by omega)) hZ U1 u1 V0 (by linarith)
      · exact product_approx hr (p.z (i + 1) (j + 1)) Z _ _ _ _ (bz _ _ (by omega) (by omega)) hZ U1 u1 V1 v1)
    (Approx.zero.weaken (by norm_num) (le_refl _)) (by
      simp only [List.map_cons, List.map_nil, List.sum_cons, List.sum_nil]
      apply le_of_eq; ring) (by
      have g8 : grow ^ (4 + 4) ≤ 2 := grow_pow_le_two (by norm_num)
      have := mul_le_mul g8 (show Z + 0 + 4 * (1 / 2 ^ 150 + 1 / 2 ^ 200) ≤ 2 ^ 41 by
        have : (2:ℝ) ^ 40 + 0 + 4 * (1 / 2 ^ 150 + 1 / 2 ^ 200) ≤ 2 ^ 41 := by norm_num
        linarith) (by positivity) (by norm_num)
      simp only [List.length_cons, List.length_nil]
      norm_num at this ⊢
      linarith)
  simp only [List.map_cons, List.map_nil, List.sum_cons, List.sum_nil, List.length_cons, List.length_nil] at P
  have e := P.2.2
  have g8 : grow ^ (4 + (0 + 1 + 1 + 1 + 1)) ≤ 1 + 9 / 2 ^ 53 := by unfold grow; norm_num
  have e1 : 0 + (Z * (1 - u) * (1 - v) + (Z * (1 - u) * v + (Z * u * (1 - v) + (Z * u * v + 0)))) = Z := by ring
  rw [e1] at e
  have m := mul_le_mul_of_nonneg_right g8 (show 0 ≤ Z + (0 + ((0 + 1 + 1 + 1 + 1 : ℕ) : ℝ) * (1 / 2 ^ 150 + 1 / 2 ^ 200)) by positivity)
  have e2 : (1 - u) * (1 - v) * p.z i j + u * (1 - v) * p.z (i + 1) j + (1 - u) * v * p.z i (j + 1) + u * v * p.z (i + 1) (j + 1) =
      0 + (p.z i j * (1 - u) * (1 - v) + (p.z i (j + 1) * (1 - u) * v + (p.z (i + 1) j * u * (1 - v) + (p.z (i + 1) (j + 1) * u * v + 0)))) := by ring
  rw [e2]
  refine e.trans ?_
  have c : (1 + 9 / 2 ^ 53) * (0 + ((0 + 1 + 1 + 1 + 1 : ℕ) : ℝ) * (1 / 2 ^ 150 + 1 / 2 ^ 200)) ≤ 1 / 2 ^ 140 := by norm_num
  linarith

/-- The raster position of a place in doubles. -/
theorem position_err {rnd : ℝ → ℝ} (hr : Rounds rnd) {dot : ℝ × ℝ × ℝ → ℝ × ℝ × ℝ → ℝ} (hd : DotRounds dot) (G : ℝ × ℝ × ℝ) (hG : Small G) (g : ℝ × ℝ)
    (hg : |g.1| ≤ 8 ∧ |g.2| ≤ 8) (v ρ : ℝ) (hv : |inner G (180 / Real.pi * g.1, 180 / Real.pi * g.2, 1) - v| ≤ ρ) :
    |dot G (degrees rnd g.1, degrees rnd g.2, 1) - v| ≤ ρ + 2951 / 2 ^ 53 * (|G.1| + |G.2.1|) + 4 / 2 ^ 53 * |G.2.2| + 1 / 2 ^ 190 := by
  obtain ⟨e1, b1⟩ := degrees_err hr hg.1
  obtain ⟨e2, b2⟩ := degrees_err hr hg.2
  set L := 180 / Real.pi * g.1
  set M := 180 / Real.pi * g.2
  set l := degrees rnd g.1
  set m := degrees rnd g.2
  have s1 : |l| ≤ 459 + 1110 / 2 ^ 53 := by
    have := abs_add_le (l - L) L
    rw [sub_add_cancel] at this
    linarith
  have s2 : |m| ≤ 459 + 1110 / 2 ^ 53 := by
    have := abs_add_le (m - M) M
    rw [sub_add_cancel] at this
    linarith
  have g1 := abs_nonneg G.1
  have g2 := abs_nonneg G.2.1
  have g3 := abs_nonneg G.2.2
  have size : absInner G (l, m, 1) ≤ (459 + 1110 / 2 ^ 53) * (|G.1| + |G.2.1|) + |G.2.2| := by
    unfold absInner
    simp only [abs_one, mul_one]
    have := mul_le_mul_of_nonneg_left s1 g1
    have := mul_le_mul_of_nonneg_left s2 g2
    linarith
  have e := hd.err G (l, m, 1) (by
    refine size.trans ?_
    calc (459 + 1110 / 2 ^ 53) * (|G.1| + |G.2.1|) + |G.2.2| ≤ (459 + 1110 / 2 ^ 53) * (2 ^ 40 + 2 ^ 40) + (2:ℝ) ^ 40 := by
          have := mul_le_mul_of_nonneg_left (add_le_add hG.1 hG.2.1) (show (0:ℝ) ≤ 459 + 1110 / 2 ^ 53 by norm_num)
          linarith [hG.2.2]
      _ ≤ 2 ^ 200 := by norm_num)
  have d : |inner G (l, m, 1) - inner G (L, M, 1)| ≤ 1110 / 2 ^ 53 * (|G.1| + |G.2.1|) := by
    have : inner G (l, m, 1) - inner G (L, M, 1) = G.1 * (l - L) + G.2.1 * (m - M) := by unfold inner; ring
    rw [this]
    refine (abs_add_le _ _).trans ?_
    rw [abs_mul, abs_mul]
    have := mul_le_mul_of_nonneg_left e1 g1
    have := mul_le_mul_of_nonneg_left e2 g2
    linarith
  have t1 := abs_add_le (dot G (l, m, 1) - inner G (l, m, 1)) (inner G (l, m, 1) - v)
  have t2 := abs_add_le (inner G (l, m, 1) - inner G (L, M, 1)) (inner G (L, M, 1) - v)
  rw [sub_add_sub_cancel] at t1 t2
  have m4 := mul_le_mul_of_nonneg_left size (show (0:ℝ) ≤ 4 / 2 ^ 53 by positivity)
  have c : 4 / 2 ^ 53 * ((459 + 1110 / 2 ^ 53) * (|G.1| + |G.2.1|)) + 1110 / 2 ^ 53 * (|G.1| + |G.2.1|) ≤ 2951 / 2 ^ 53 * (|G.1| + |G.2.1|) := by
    have : 4 / 2 ^ 53 * ((459 + 1110 / 2 ^ 53) * (|G.1| + |G.2.1|)) + 1110 / 2 ^ 53 * (|G.1| + |G.2.1|) =
        (4 / 2 ^ 53 * (459 + 1110 / 2 ^ 53) + 1110 / 2 ^ 53) * (|G.1| + |G.2.1|) := by ring
    rw [this]
    exact mul_le_mul_of_nonneg_right (by norm_num) (by positivity)
  linarith

/-- **C145** (doubles): the elevation that `set_elevation` computes in doubles differs from that of the surface at the position `(x, y)` by the steepness of the posts times the error of the position,
and nine roundings of the heights.  `ρ` and `σ` are the errors of the inverse matrix from `np.linalg.inv` at this place. -/
theorem elevation_in_doubles {rnd : ℝ → ℝ} (hr : Rounds rnd) {dot : ℝ × ℝ × ℝ → ℝ × ℝ × ℝ → ℝ} (hd : DotRounds dot) (A : Affine) (hi : Small A.inv0) (hj : Small A.inv1)
    (p : Posts ℝ) (f : ℝ → ℝ → ℝ) (hf : bilinear p = .ok f) (S : ℝ) (hS : Gentle p S) (Z : ℝ) (hZ : Z ≤ 2 ^ 40) (hz : Between p (-Z) Z) (g : ℝ × ℝ)
    (hg : |g.1| ≤ 8 ∧ |g.2| ≤ 8) (x y ρ σ : ℝ) (hx : |inner A.inv0 (180 / Real.pi * g.1, 180 / Real.pi * g.2, 1) - x| ≤ ρ)
    (hy : |inner A.inv1 (180 / Real.pi * g.1, 180 / Real.pi * g.2, 1) - y| ≤ σ) :
    |Verif.Rounded.demElevation rnd dot A p g - f x y| ≤
      S * (ρ + σ + 2951 / 2 ^ 53 * (|A.inv0.1| + |A.inv0.2.1| + |A.inv1.1| + |A.inv1.2.1|) + 4 / 2 ^ 53 * (|A.inv0.2.2| + |A.inv1.2.2|) + 1 / 2 ^ 189) +
      9 / 2 ^ 53 * Z + 1 / 2 ^ 140 := by
  have e1 := position_err hr hd A.inv0 hi g hg x ρ hx
  have e2 := position_err hr hd A.inv1 hj g hg y σ hy
  have hs : 2 ≤ p.width ∧ 2 ≤ p.height := by
    unfold bilinear at hf
    split_ifs at hf with h
    omega
  have S0 : 0 ≤ S := le_trans (abs_nonneg _) (hS.across 0 0 (by omega) (by omega))
  unfold Verif.Rounded.demElevation Affine.worldToImage
  simp only
  set X := dot A.inv0 (degrees rnd g.1, degrees rnd g.2, 1)
  set Y := dot A.inv1 (degrees rnd g.1, degrees rnd g.2, 1)
  have a := spline_err hr p f hf Z hZ hz X Y
  have b := surface_steepness p f hf S hS X Y x y
  have t := abs_add_le (spline rnd p X Y - f X Y) (f X Y - f x y)
  rw [sub_add_sub_cancel] at t
  have c := mul_le_mul_of_nonneg_left (add_le_add e1 e2) S0
  have q : (1:ℝ) / 2 ^ 190 + 1 / 2 ^ 190 = 1 / 2 ^ 189 := by norm_num
  have r : ρ + 2951 / 2 ^ 53 * (|A.inv0.1| + |A.inv0.2.1|) + 4 / 2 ^ 53 * |A.inv0.2.2| + 1 / 2 ^ 190 +
      (σ + 2951 / 2 ^ 53 * (|A.inv1.1| + |A.inv1.2.1|) + 4 / 2 ^ 53 * |A.inv1.2.2| + 1 / 2 ^ 190) =
      ρ + σ + 2951 / 2 ^ 53 * (|A.inv0.1| + |A.inv0.2.1| + |A.inv1.1| + |A.inv1.2.1|) + 4 / 2 ^ 53 * (|A.inv0.2.2| + |A.inv1.2.2|) + 1 / 2 ^ 189 := by
    rw [← q]; ring
  rw [r] at c
  linarith

/-- **C145** (doubles) for the usual case: a north up file with at most `n` posts per degree whose first post is not beyond 360 degrees, the elements of the inverse matrix right up to four roundings.
The elevation is right up to `S n / 2^39` and nine roundings of the largest height: for the one arc second files, 7 nanometres per metre of difference of neighbouring posts. -/
theorem north_up_elevation {rnd : ℝ → ℝ} (hr : Rounds rnd) {dot : ℝ × ℝ × ℝ → ℝ × ℝ × ℝ → ℝ} (hd : DotRounds dot) (a c e f g h k m n : ℝ)
    (ha : a ≠ 0) (he : e ≠ 0) (hn : 1 ≤ n ∧ n ≤ 2 ^ 30) (hna : 1 / |a| ≤ n) (hne : 1 / |e| ≤ n) (hc : |c| ≤ 360) (hf' : |f| ≤ 360)
    (hg : |g * a - 1| ≤ 4 / 2 ^ 53) (hh : |h + c / a| ≤ 4 / 2 ^ 53 * |c / a|)
    (hk : |k * e - 1| ≤ 4 / 2 ^ 53) (hm : |m + f / e| ≤ 4 / 2 ^ 53 * |f / e|)
    (p : Posts ℝ) (s : ℝ → ℝ → ℝ) (hs : bilinear p = .ok s) (S : ℝ) (hS : Gentle p S) (Z : ℝ) (hZ : Z ≤ 2 ^ 40) (hz : Between p (-Z) Z) (q : ℝ × ℝ)
    (hq : |q.1| ≤ 8 ∧ |q.2| ≤ 8) :
    |Verif.Rounded.demElevation rnd dot ⟨(a, 0, c), (0, e, f), (g, 0, h), (0, k, m)⟩ p q - s ((180 / Real.pi * q.1 - c) / a) ((180 / Real.pi * q.2 - f) / e)| ≤
      S * (n / 2 ^ 39) + 9 / 2 ^ 53 * Z + 1 / 2 ^ 140 := by
  have n0 : 0 ≤ n := by linarith [hn.1]
  have part : ∀ {a c g h t : ℝ}, a ≠ 0 → 1 / |a| ≤ n → |c| ≤ 360 → |g * a - 1| ≤ 4 / 2 ^ 53 → |h + c / a| ≤ 4 / 2 ^ 53 * |c / a| → |t| ≤ 459 →
      |g * t + h - (t - c) / a| ≤ 3276 / 2 ^ 53 * n ∧ |g| ≤ 1.001 * n ∧ |h| ≤ 361 * n := by
    intro a c g h t ha hna hc hg hh ht
    have a0 : 0 < |a| := abs_pos.mpr ha
    have ca : |c / a| ≤ 360 * n := by
      rw [abs_div, div_eq_mul_one_div]
      exact mul_le_mul hc hna (by positivity) (by norm_num)
    have ga : |g - 1 / a| ≤ 4 / 2 ^ 53 * n := by
      have : g - 1 / a = (g * a - 1) * (1 / a) := by field_simp
      rw [this, abs_mul, abs_div, abs_one]
      exact mul_le_mul hg hna (by positivity) (by positivity)
    have hh' : |h + c / a| ≤ 4 / 2 ^ 53 * (360 * n) := hh.trans (mul_le_mul_of_nonneg_left ca (by positivity))
    refine ⟨?_, ?_, ?_⟩
    · have : g * t + h - (t - c) / a = (g - 1 / a) * t + (h + c / a) := by ring
      rw [this]
      refine (abs_add_le _ _).trans ?_
      rw [abs_mul]
      have := mul_le_mul ga ht (abs_nonneg _) (by positivity)
      linarith
    · have := abs_add_le (g - 1 / a) (1 / a)
      rw [sub_add_cancel, abs_div 1 a, abs_one] at this
      linarith
    · have := abs_add_le (h + c / a) (-(c / a))
      rw [add_neg_cancel_right, abs_neg] at this
      linarith
  obtain ⟨-, b1⟩ := degrees_err hr hq.1
  obtain ⟨-, b2⟩ := degrees_err hr hq.2
  obtain ⟨x1, x2, x3⟩ := part ha hna hc hg hh b1
  obtain ⟨y1, y2, y3⟩ := part he hne hf' hk hm b2
  have small : ∀ {u v : ℝ}, |u| ≤ 1.001 * n → |v| ≤ 361 * n → |u| ≤ 2 ^ 40 ∧ |v| ≤ 2 ^ 40 := by
    intro u v hu hv
    constructor <;> linarith [hn.2]
  have key := elevation_in_doubles hr hd ⟨(a, 0, c), (0, e, f), (g, 0, h), (0, k, m)⟩ ⟨(small x2 x3).1, by simp, (small x2 x3).2⟩ ⟨by simp, (small y2 y3).1, (small y2 y3).2⟩
    p s hs S hS Z hZ hz q hq ((180 / Real.pi * q.1 - c) / a) ((180 / Real.pi * q.2 - f) / e) (3276 / 2 ^ 53 * n) (3276 / 2 ^ 53 * n)
    (by simp only [inner, zero_mul, add_zero, mul_one]; exact x1) (by simp only [inner, zero_mul, zero_add, mul_one]; exact y1)
  have hs2 : 2 ≤ p.width ∧ 2 ≤ p.height := by
    unfold bilinear at hs
    split_ifs at hs with h
    omega
  have S0 : 0 ≤ S := le_trans (abs_nonneg _) (hS.across 0 0 (by omega) (by omega))
  refine key.trans ?_
  simp only [abs_zero]
  have : 3276 / 2 ^ 53 * n + 3276 / 2 ^ 53 * n + 2951 / 2 ^ 53 * (|g| + 0 + 0 + |k|) + 4 / 2 ^ 53 * (|h| + |m|) + 1 / 2 ^ 189 ≤ n / 2 ^ 39 := by
    have w : (1:ℝ) / 2 ^ 189 ≤ 1 / 2 ^ 53 * n := by
      calc (1:ℝ) / 2 ^ 189 ≤ 1 / 2 ^ 53 * 1 := by norm_num
        _ ≤ 1 / 2 ^ 53 * n := mul_le_mul_of_nonneg_left hn.1 (by positivity)
    have e1 := mul_le_mul_of_nonneg_left (add_le_add x2 y2) (show (0:ℝ) ≤ 2951 / 2 ^ 53 by positivity)
    have e2 := mul_le_mul_of_nonneg_left (add_le_add x3 y3) (show (0:ℝ) ≤ 4 / 2 ^ 53 by positivity)
    have tot : 3276 / 2 ^ 53 * n + 3276 / 2 ^ 53 * n + 2951 / 2 ^ 53 * (1.001 * n + 1.001 * n) + 4 / 2 ^ 53 * (361 * n + 361 * n) + 1 / 2 ^ 53 * n ≤ n / 2 ^ 39 := by
      have : 3276 / 2 ^ 53 * n + 3276 / 2 ^ 53 * n + 2951 / 2 ^ 53 * (1.001 * n + 1.001 * n) + 4 / 2 ^ 53 * (361 * n + 361 * n) + 1 / 2 ^ 53 * n =
          (3276 / 2 ^ 53 + 3276 / 2 ^ 53 + 2951 / 2 ^ 53 * (1.001 + 1.001) + 4 / 2 ^ 53 * (361 + 361) + 1 / 2 ^ 53) * n := by ring
      rw [this, div_eq_mul_one_div n, mul_comm n]
      exact mul_le_mul_of_nonneg_right (by norm_num) n0
    linarith
  have := mul_le_mul_of_nonneg_left this S0
  linarith

/-! ## A hillside -/

/-- Posts that rise by 4 m per post towards the east. -/
def hillPosts : Posts ℝ := ⟨201, 201, fun i _ => 1200 + 4 * (i : ℝ)⟩

theorem hill_gentle : Gentle hillPosts 4 := by
  constructor
  · intro i j _ _
    simp only [hillPosts]
    have : (1200 + 4 * ((i + 1 : ℕ) : ℝ)) - (1200 + 4 * (i : ℝ)) = 4 := by push_cast; ring
    rw [this]; norm_num
  · intro i j _ _
    simp [hillPosts]

/-- A file of 100 posts per degree around 105° W, 40° N. -/
noncomputable def hillFile : Raster := ⟨some [-106, 1 / 100, 0, 41, 0, -1 / 100], none, hillPosts, (1200, 2000), none⟩

noncomputable def trueAngles : Angles ℝ := ⟨fun v => v * (180 / Real.pi), fun v => v * (Real.pi / 180)⟩

theorem trueAngles_turn : Turns trueAngles := ⟨fun _ => rfl, fun _ => rfl⟩

noncomputable def hillLib : Lib := ⟨trueAngles, fun g => (g.longitude, g.latitude, g.elevation)⟩

noncomputable def hillFiles (l : List Char) : Option Raster := if l = tileLocation ['d'] "hill.tif".toList then some hillFile else none

theorem hill_centre : Verif.Spec.Memory.surface (terrain hillLib (fun _ => some "hill.tif".toList) hillFiles ['d']) ⟨lonOf Verif.Props.Nearby.tilted 0, latOf Verif.Props.Nearby.tilted 0, 1600⟩ =
    .ok ⟨lonOf Verif.Props.Nearby.tilted 0, latOf Verif.Props.Nearby.tilted 0, 1600⟩ := by
  obtain ⟨f, hf⟩ : ∃ f, bilinear hillPosts = .ok f := by
    unfold bilinear
    rw [if_neg (by simp [hillPosts])]
    exact ⟨_, rfl⟩
  have := surface_from hillLib trueAngles_turn.inverse.1 trueAngles_turn.inverse.2 (fun _ => some "hill.tif".toList) hillFiles ['d'] "hill.tif".toList
    ⟨lonOf Verif.Props.Nearby.tilted 0, latOf Verif.Props.Nearby.tilted 0, 1600⟩ rfl (by decide) hillFile (by simp [hillFiles]) [-106, 1 / 100, 0, 41, 0, -1 / 100] rfl
    ⟨-106, 1 / 100, 0, 41, 0, -1 / 100, rfl, by norm_num⟩ 100 100 f hf
    ⟨-106, 1 / 100, 0, 41, 0, -1 / 100, -105, 40, rfl, by simp only [Located, rasterPoint]; norm_num, by
      simp [lonOf, Verif.Props.Nearby.tilted, hillLib, trueAngles], by simp [latOf, Verif.Props.Nearby.tilted, hillLib, trueAngles]⟩
  rw [this]
  have e := bilinear_eq_patch hillPosts f hf 100 100 (by simp [hillPosts]) (by simp [hillPosts]) 100 100 (by norm_num) (by norm_num) (by norm_num) (by norm_num)
  rw [e]
  simp only [patch, line, hillPosts]
  norm_num

/-- Pixel (9000, 2000) of the camera of C135 has exactly one place on the hillside. -/
example : ∃! u : ℝ × ℝ, (|u.1| ≤ 1 ∧ |u.2| ≤ 1) ∧
    ∃ g, Verif.Spec.Memory.surface (terrain hillLib (fun _ => some "hill.tif".toList) hillFiles ['d'])
      ⟨lonOf Verif.Props.Nearby.tilted u.1, latOf Verif.Props.Nearby.tilted u.2, 1600⟩ = .ok g ∧ Verif.Props.Nearby.tilted.worldToImage g = .ok (9000, 2000) :=
  one_place_per_pixel_over_file hillLib trueAngles_turn (fun _ => some "hill.tif".toList) hillFiles ['d'] "hill.tif".toList Verif.Props.Nearby.tilted 1 (1 / 2) (9 / 10) 2
    (1001 / 1000) (17 / 20) Verif.Props.Nearby.tilted_nearly_affine (fun _ _ _ _ _ => rfl) (by decide) hillFile (by simp [hillFiles]) (-106) (1 / 100) 41 (-1 / 100) rfl
    (by norm_num) (by simp [hillFile, hillPosts]) 4 hill_gentle
    (by
      intro i j hi _
      have h0 : (0:ℝ) ≤ i := by positivity
      have h1 : (i:ℝ) ≤ 200 := by exact_mod_cast (show i ≤ 200 by simp only [hillFile, hillPosts] at hi; omega)
      simp only [hillFile, hillPosts, Verif.Props.Nearby.tilted]
      rw [abs_of_pos (by norm_num)]
      constructor <;> linarith)
    (by simp only [Verif.Props.Nearby.tilted]; norm_num [abs_of_neg, abs_of_pos, abs_div]) 0
    (by
      have := hill_centre
      simp only [Verif.Props.Nearby.tilted] at this ⊢
      rw [this]; norm_num) (9000, 2000)
    (by refine ⟨?_, ?_, ?_, ?_⟩ <;> norm_num [sampOf, lineOf, Verif.Props.Nearby.tilted, cubic, rpc00b, abs_div, abs_of_pos, abs_of_neg])

/-- Posts that rise by half a metre per post towards the east, ten posts per degree from 180° to 200°. -/
noncomputable def easternFile : Raster := ⟨some [180, 1 / 10, 0, 20, 0, -1 / 10], none, ⟨201, 201, fun i _ => 1 / 2 * (i : ℝ) - 50⟩, (-50, 50), none⟩

theorem eastern_gentle : Gentle easternFile.posts (1 / 2) := by
  constructor
  · intro i j _ _
    simp only [easternFile]
    have : (1 / 2 * ((i + 1 : ℕ) : ℝ) - 50) - (1 / 2 * (i : ℝ) - 50) = 1 / 2 := by push_cast; ring
    rw [this]; norm_num
  · intro i j _ _
    simp [easternFile]

noncomputable def easternFiles (l : List Char) : Option Raster := if l = tileLocation ['d'] "east.tif".toList then some easternFile else none

/-- The height in the middle of the box of the RSM model of C135. -/
noncomputable def easternHeight : ℝ := ((33 / 10 * (180 / Real.pi) - 180) * 5 - 50) / 100

theorem eastern_centre : Verif.Spec.Memory.surface (terrain hillLib (fun _ => some "east.tif".toList) easternFiles ['d'])
    ⟨rsmLon Verif.Props.NearbyRsm.oblique 0, rsmLat Verif.Props.NearbyRsm.oblique 0, Verif.Props.NearbyRsm.oblique.domain.defaultHeight⟩ =
      .ok ⟨rsmLon Verif.Props.NearbyRsm.oblique 0, rsmLat Verif.Props.NearbyRsm.oblique 0, easternHeight * Verif.Props.NearbyRsm.oblique.zScale + Verif.Props.NearbyRsm.oblique.zOff⟩ := by
  obtain ⟨f, hf⟩ : ∃ f, bilinear easternFile.posts = .ok f := by
    unfold bilinear
    rw [if_neg (by simp [easternFile])]
    exact ⟨_, rfl⟩
  have pi0 := Real.pi_ne_zero
  have p1 := Real.pi_gt_d6
  have p2 := Real.pi_lt_d6
  have := surface_from hillLib trueAngles_turn.inverse.1 trueAngles_turn.inverse.2 (fun _ => some "east.tif".toList) easternFiles ['d'] "east.tif".toList
    ⟨rsmLon Verif.Props.NearbyRsm.oblique 0, rsmLat Verif.Props.NearbyRsm.oblique 0, Verif.Props.NearbyRsm.oblique.domain.defaultHeight⟩ rfl (by decide) easternFile
    (by simp [easternFiles]) [180, 1 / 10, 0, 20, 0, -1 / 10] rfl
    ⟨180, 1 / 10, 0, 20, 0, -1 / 10, rfl, by norm_num⟩ ((33 / 10 * (180 / Real.pi) - 180) * 10) ((20 - 3 / 20 * (180 / Real.pi)) * 10) f hf
    ⟨180, 1 / 10, 0, 20, 0, -1 / 10, 33 / 10 * (180 / Real.pi), 3 / 20 * (180 / Real.pi), rfl,
      by simp only [Located, rasterPoint]; refine Prod.ext ?_ ?_ <;> simp only <;> ring, by
      simp only [rsmLon, Verif.Props.NearbyRsm.oblique, hillLib, trueAngles]; field_simp; ring, by
      simp only [rsmLat, Verif.Props.NearbyRsm.oblique, hillLib, trueAngles]; field_simp; ring⟩
  rw [this]
  have u1 : 180 / Real.pi < 57.2959 := by rw [div_lt_iff₀ Real.pi_pos]; nlinarith
  have u2 : 57.2957 < 180 / Real.pi := by rw [lt_div_iff₀ Real.pi_pos]; nlinarith
  have e := bilinear_eq_patch easternFile.posts f hf 90 114 (by simp [easternFile]) (by simp [easternFile]) ((33 / 10 * (180 / Real.pi) - 180) * 10) ((20 - 3 / 20 * (180 / Real.pi)) * 10)
    (by push_cast; linarith) (by push_cast; linarith) (by push_cast; linarith) (by push_cast; linarith)
  rw [e]
  simp only [patch, line, easternFile, easternHeight, Verif.Props.NearbyRsm.oblique]
  congr 2
  push_cast
  ring

/-- Pixel (9000, 2000) of the RSM model of C135 has exactly one place on these posts. -/
example : ∃! u : ℝ × ℝ, (|u.1| ≤ 1 ∧ |u.2| ≤ 1) ∧
    ∃ g, Verif.Spec.Memory.surface (terrain hillLib (fun _ => some "east.tif".toList) easternFiles ['d'])
      ⟨rsmLon Verif.Props.NearbyRsm.oblique u.1, rsmLat Verif.Props.NearbyRsm.oblique u.2, Verif.Props.NearbyRsm.oblique.domain.defaultHeight⟩ = .ok g ∧
      Verif.Props.NearbyRsm.oblique.worldToImage Verif.Props.RsmModel.flatEarth g = .ok (9000, 2000) := by
  have p1 := Real.pi_gt_d6
  have p2 := Real.pi_lt_d6
  have u1 : 180 / Real.pi < 57.2959 := by rw [div_lt_iff₀ Real.pi_pos]; nlinarith
  have u2 : 57.2957 < 180 / Real.pi := by rw [lt_div_iff₀ Real.pi_pos]; nlinarith
  have hb : -0.05 ≤ easternHeight ∧ easternHeight ≤ -0.04 := by unfold easternHeight; constructor <;> linarith
  refine rsm_one_place_per_pixel_over_file hillLib trueAngles_turn Verif.Props.RsmModel.flatEarth (fun _ => some "east.tif".toList) easternFiles ['d'] "east.tif".toList
    Verif.Props.NearbyRsm.oblique 1 (1 / 2) (9 / 10) 2 (1001 / 1000) (17 / 20) Verif.Props.NearbyRsm.oblique_nearly_affine (fun _ _ _ _ _ => rfl) (by decide) easternFile
    (by simp [easternFiles]) 180 (1 / 10) 20 (-1 / 10) rfl (by norm_num) (by simp [easternFile]) (1 / 2) eastern_gentle ?_ ?_ easternHeight eastern_centre (9000, 2000) ?_
  · intro i j hi _
    have h0 : (0:ℝ) ≤ i := by positivity
    have h1 : (i:ℝ) ≤ 200 := by exact_mod_cast (show i ≤ 200 by simp only [easternFile] at hi; omega)
    simp only [easternFile, Verif.Props.NearbyRsm.oblique]
    rw [abs_of_pos (by norm_num)]
    constructor <;> linarith
  · have a : |Verif.Props.NearbyRsm.oblique.xScale / (1 / 10)| = 1 := by norm_num [Verif.Props.NearbyRsm.oblique]
    have c : |Verif.Props.NearbyRsm.oblique.yScale / (-1 / 10)| = 1 / 2 := by norm_num [Verif.Props.NearbyRsm.oblique, abs_of_neg, abs_div]
    have d : |Verif.Props.NearbyRsm.oblique.zScale| = 100 := by norm_num [Verif.Props.NearbyRsm.oblique]
    rw [a, c, d]; linarith
  · refine ⟨?_, ?_, ?_, ?_⟩ <;>
      simp [colOf, rowOf, Verif.Props.NearbyRsm.oblique, Verif.Spec.Rounded.value, Verif.Spec.Rsm.triple, Finset.sum_range_succ, Verif.Spec.Rounded.coefficient] <;>
      norm_num [abs_div, abs_of_pos, abs_of_neg] <;> rw [abs_le] <;> constructor <;> linarith [hb.1, hb.2]

/-- Two places on the hillside, after other questions. -/
example (before : List (Query ℝ)) : ∃ e e',
    elevationOf (terrain hillLib (fun _ => some "hill.tif".toList) hillFiles ['d']) 3 before ⟨-105 * (Real.pi / 180), 40 * (Real.pi / 180), 0⟩ =
      .ok (.coordinate ⟨-105 * (Real.pi / 180), 40 * (Real.pi / 180), e⟩) ∧
    elevationOf (terrain hillLib (fun _ => some "hill.tif".toList) hillFiles ['d']) 3 [] ⟨-104.99 * (Real.pi / 180), 40.005 * (Real.pi / 180), 0⟩ =
      .ok (.coordinate ⟨-104.99 * (Real.pi / 180), 40.005 * (Real.pi / 180), e'⟩) ∧ |e - e'| ≤ 6 := by
  obtain ⟨e, e', h1, h2, h3⟩ := file_steepness hillLib trueAngles_turn.inverse.1 trueAngles_turn.inverse.2 (fun _ => some "hill.tif".toList) hillFiles ['d'] "hill.tif".toList 3 before []
    ⟨-105 * (Real.pi / 180), 40 * (Real.pi / 180), 0⟩ ⟨-104.99 * (Real.pi / 180), 40.005 * (Real.pi / 180), 0⟩ rfl rfl (by decide) hillFile (by simp [hillFiles])
    [-106, 1 / 100, 0, 41, 0, -1 / 100] rfl ⟨-106, 1 / 100, 0, 41, 0, -1 / 100, rfl, by norm_num⟩ (by simp [hillFile, hillPosts]) 4 hill_gentle 100 100 101 99.5
    ⟨-106, 1 / 100, 0, 41, 0, -1 / 100, -105, 40, rfl, by simp only [Located, rasterPoint]; norm_num, rfl, rfl⟩
    ⟨-106, 1 / 100, 0, 41, 0, -1 / 100, -104.99, 40.005, rfl, by simp only [Located, rasterPoint]; norm_num, rfl, rfl⟩
  exact ⟨e, e', h1, h2, h3.trans (by norm_num [abs_of_neg, abs_of_pos])⟩

/-- Elevations of a file with 4096 posts per degree in doubles, with the plain loop for `np.matmul`: right to a tenth of a micrometre. -/
example (q : ℝ × ℝ) (hq : |q.1| ≤ 8 ∧ |q.2| ≤ 8) (s : ℝ → ℝ → ℝ) (hs : bilinear hillPosts = .ok s) :
    |Verif.Rounded.demElevation double (fun a x => double (double (double (a.1 * x.1) + double (a.2.1 * x.2.1)) + double (a.2.2 * x.2.2)))
      ⟨(1 / 2 ^ 12, 0, -106), (0, -1 / 2 ^ 12, 41), (2 ^ 12, 0, 106 * 2 ^ 12), (0, -2 ^ 12, 41 * 2 ^ 12)⟩ hillPosts q -
      s ((180 / Real.pi * q.1 - -106) / (1 / 2 ^ 12)) ((180 / Real.pi * q.2 - 41) / (-1 / 2 ^ 12))| ≤ 1 / 10 ^ 7 := by
  refine (north_up_elevation double_rounds (left_dot_rounds double_rounds) (1 / 2 ^ 12) (-106) (-1 / 2 ^ 12) 41 (2 ^ 12) (106 * 2 ^ 12) (-2 ^ 12) (41 * 2 ^ 12) (2 ^ 12)
    (by norm_num) (by norm_num) (by norm_num) (by norm_num) (by norm_num [abs_div]) (by norm_num [abs_of_neg]) (by norm_num [abs_of_pos])
    (by norm_num) (by norm_num) (by norm_num) (by norm_num) hillPosts s hs 4 hill_gentle 2000 (by norm_num) ?_ q hq).trans (by norm_num)
  intro i j hi _
  have h0 : (0:ℝ) ≤ i := by positivity
  have h1 : (i:ℝ) ≤ 200 := by exact_mod_cast (show i ≤ 200 by simp only [hillPosts] at hi; omega)
  simp only [hillPosts]
  constructor <;> linarith

end Verif.Props.Slopes
