import Verif.Model.GeolocationGrid
import Verif.Props.Geolocation
import Verif.Props.Orthophoto

/-!
# Geolocation from the sensor model to the features
-/

namespace Verif.Props.GeolocationGrid

open Verif Verif.Features Verif.GeolocationGrid Verif.Spec.Features Verif.Props.Geolocation Verif.Props.Features

/-! ## The spline -/

theorem interp_congr (a step : ℚ) (hs : 0 < step) (m : Nat) (f g : Nat → ℚ) (h : ∀ i ≤ m, f i = g i) (x : ℚ) :
    interp a step m f x = interp a step m g x := by
  unfold interp
  simp only
  by_cases h0 : (x - a) / step ≤ 0
  · rw [if_pos h0, if_pos h0, h 0 (by omega)]
  · rw [if_neg h0, if_neg h0]
    by_cases h1 : (m : ℚ) ≤ (x - a) / step
    · rw [if_pos h1, if_pos h1, h m le_rfl]
    · rw [if_neg h1, if_neg h1]
      have h2 : ⌊(x - a) / step⌋ < (m : ℤ) := Int.floor_lt.2 (by exact_mod_cast not_le.1 h1)
      have h3 : 0 ≤ ⌊(x - a) / step⌋ := Int.floor_nonneg.2 (not_le.1 h0).le
      rw [h _ (by omega), h _ (by omega)]

theorem block_getElem? {α : Type} (n m : Nat) (F : Nat → Nat → α) (i j : Nat) (hi : i < m) (hj : j < n) :
    ((List.range m).flatMap (fun i => (List.range n).map (F i)))[i * n + j]? = some (F i j) := by
  induction m with
  | zero => omega
  | succ m ih =>
    have hlen : ((List.range m).flatMap (fun i => (List.range n).map (F i))).length = m * n := by
      simp [List.length_flatMap]
    rw [List.range_succ, List.flatMap_append]
    by_cases h : i < m
    · have : i * n + j < m * n := by
        calc i * n + j < i * n + n := by omega
          _ = (i + 1) * n := by ring
          _ ≤ m * n := Nat.mul_le_mul_right n h
      rw [List.getElem?_append_left (by rw [hlen]; exact this)]
      exact ih h
    · have e : i = m := by omega
      subst e
      rw [List.getElem?_append_right (by rw [hlen]; omega), hlen]
      simp [hj]

theorem spline_eq (area : Bounds) (n : Nat) (hn : 2 ≤ n) (hx : area.x0 < area.x1) (hy : area.y0 < area.y1) (w : Pos → ℚ) (p : Pos) :
    gridValue area n (fun x y => w (x, y)) p = .ok (spline area n ((nodes area n).map w) p) := by
  rw [gridValue_eq area n hn hx hy]
  congr 1
  unfold spline
  apply interp_congr _ _ (step_pos _ _ n hn hx)
  intro i hi
  apply interp_congr _ _ (step_pos _ _ n hn hy)
  intro j hj
  unfold nodes
  rw [List.getElem?_map, block_getElem? n n _ i j (by omega) (by omega)]
  rfl

theorem interp_add (a step : ℚ) (m : Nat) (f g : Nat → ℚ) (x : ℚ) :
    interp a step m (fun i => f i + g i) x = interp a step m f x + interp a step m g x := by
  unfold interp
  simp only
  by_cases h0 : (x - a) / step ≤ 0
  · rw [if_pos h0, if_pos h0, if_pos h0]
  · rw [if_neg h0, if_neg h0, if_neg h0]
    by_cases h1 : (m : ℚ) ≤ (x - a) / step
    · rw [if_pos h1, if_pos h1, if_pos h1]
    · rw [if_neg h1, if_neg h1, if_neg h1]
      ring

theorem spline_fun (area : Bounds) (n : Nat) (hn : 2 ≤ n) (hx : area.x0 < area.x1) (hy : area.y0 < area.y1) (w : Pos → ℚ) (p : Pos) :
    spline area n ((nodes area n).map w) p = interp area.x0 ((area.x1 - area.x0) / ((n : ℚ) - 1)) (n - 1) (fun i =>
      interp area.y0 ((area.y1 - area.y0) / ((n : ℚ) - 1)) (n - 1) (fun j => w (node area.x0 area.x1 n i, node area.y0 area.y1 n j)) p.2) p.1 := by
  have h1 := spline_eq area n hn hx hy w p
  rw [gridValue_eq area n hn hx hy] at h1
  exact (Except.ok.inj h1).symm

theorem spline_add (area : Bounds) (n : Nat) (hn : 2 ≤ n) (hx : area.x0 < area.x1) (hy : area.y0 < area.y1) (w w' : Pos → ℚ) (p : Pos) :
    spline area n ((nodes area n).map (fun q => w q + w' q)) p = spline area n ((nodes area n).map w) p + spline area n ((nodes area n).map w') p := by
  rw [spline_fun area n hn hx hy, spline_fun area n hn hx hy, spline_fun area n hn hx hy, ← interp_add]
  congr 1
  funext i
  exact interp_add _ _ _ _ _ _

theorem spline_between (area : Bounds) (n : Nat) (hn : 2 ≤ n) (hx : area.x0 < area.x1) (hy : area.y0 < area.y1) (w : Pos → ℚ) (p : Pos) (hp : Inside area p) :
    ∃ i j, i + 1 < n ∧ j + 1 < n ∧ node area.x0 area.x1 n i ≤ p.1 ∧ p.1 ≤ node area.x0 area.x1 n (i + 1) ∧
      node area.y0 area.y1 n j ≤ p.2 ∧ p.2 ≤ node area.y0 area.y1 n (j + 1) ∧
      ∀ lo hi, (∀ a ∈ [i, i + 1], ∀ b ∈ [j, j + 1], lo ≤ w (node area.x0 area.x1 n a, node area.y0 area.y1 n b) ∧
        w (node area.x0 area.x1 n a, node area.y0 area.y1 n b) ≤ hi) → lo ≤ spline area n ((nodes area n).map w) p ∧ spline area n ((nodes area n).map w) p ≤ hi := by
  obtain ⟨i, j, v, h1, h2, h3, h4, h5, h6, h7, h8⟩ := between_neighbouring_nodes area n hn hx hy (fun x y => w (x, y)) p hp
  rw [spline_eq area n hn hx hy] at h7
  cases h7
  exact ⟨i, j, h1, h2, h3, h4, h5, h6, h8⟩

theorem node_inside (a b : ℚ) (n k : Nat) (hn : 2 ≤ n) (hab : a < b) (hk : k < n) : a ≤ node a b n k ∧ node a b n k ≤ b := by
  have hs := step_pos a b n hn hab
  have hl := last_node a b n hn
  have hk' : (k : ℚ) ≤ ((n - 1 : ℕ) : ℚ) := by exact_mod_cast (by omega : k ≤ n - 1)
  have h0 : (0 : ℚ) ≤ k := by positivity
  have h1 := mul_nonneg h0 hs.le
  have h2 := mul_le_mul_of_nonneg_right hk' hs.le
  unfold node
  exact ⟨by linarith, by linarith⟩

theorem spline_near_affine (area : Bounds) (n : Nat) (hn : 2 ≤ n) (hx : area.x0 < area.x1) (hy : area.y0 < area.y1) (w : Pos → ℚ) (c d e ε : ℚ)
    (hw : ∀ q, Inside area q → |w q - (c + d * q.1 + e * q.2)| ≤ ε) (p : Pos) (hp : Inside area p) :
    |spline area n ((nodes area n).map w) p - (c + d * p.1 + e * p.2)| ≤ ε := by
  have h1 : spline area n ((nodes area n).map w) p = spline area n ((nodes area n).map (fun q => w q - (c + d * q.1 + e * q.2))) p +
      spline area n ((nodes area n).map (fun q => c + d * q.1 + e * q.2)) p := by
    rw [← spline_add area n hn hx hy]
    congr 2
    funext q
    ring
  have h2 : spline area n ((nodes area n).map (fun q => c + d * q.1 + e * q.2)) p = c + d * p.1 + e * p.2 := by
    have h3 := affine_is_exact area n hn hx hy c d e p hp
    rw [spline_eq area n hn hx hy (fun q => c + d * q.1 + e * q.2)] at h3
    exact Except.ok.inj h3
  obtain ⟨i, j, hi, hj, _, _, _, _, hb⟩ := spline_between area n hn hx hy (fun q => w q - (c + d * q.1 + e * q.2)) p hp
  obtain ⟨l, u⟩ := hb (-ε) ε (by
    intro a ha b hb
    simp only [List.mem_cons, List.not_mem_nil, or_false] at ha hb
    have ia := node_inside area.x0 area.x1 n a hn hx (by omega)
    have ib := node_inside area.y0 area.y1 n b hn hy (by omega)
    exact abs_le.1 (hw (node area.x0 area.x1 n a, node area.y0 area.y1 n b) ⟨ia.1, ia.2, ib.1, ib.2⟩))
  rw [h1, h2, add_sub_cancel_right]
  exact abs_le.2 ⟨l, u⟩

theorem spline_lipschitz (area : Bounds) (n : Nat) (hn : 2 ≤ n) (hx : area.x0 < area.x1) (hy : area.y0 < area.y1) (w : Pos → ℚ) (L M : ℚ) (hL : 0 ≤ L) (hM : 0 ≤ M)
    (hw : ∀ p q, Inside area p → Inside area q → |w p - w q| ≤ L * |p.1 - q.1| + M * |p.2 - q.2|) (p : Pos) (hp : Inside area p) :
    |spline area n ((nodes area n).map w) p - w p| ≤ L * ((area.x1 - area.x0) / ((n : ℚ) - 1)) + M * ((area.y1 - area.y0) / ((n : ℚ) - 1)) := by
  obtain ⟨i, j, hi, hj, h3, h4, h5, h6, hb⟩ := spline_between area n hn hx hy w p hp
  set sx := (area.x1 - area.x0) / ((n : ℚ) - 1) with hsx
  set sy := (area.y1 - area.y0) / ((n : ℚ) - 1) with hsy
  have nx : node area.x0 area.x1 n (i + 1) = node area.x0 area.x1 n i + sx := by
    simp only [node, ← hsx]
    push_cast
    ring
  have ny : node area.y0 area.y1 n (j + 1) = node area.y0 area.y1 n j + sy := by
    simp only [node, ← hsy]
    push_cast
    ring
  obtain ⟨l, u⟩ := hb (w p - (L * sx + M * sy)) (w p + (L * sx + M * sy)) (by
    intro a ha b hb
    simp only [List.mem_cons, List.not_mem_nil, or_false] at ha hb
    have ia := node_inside area.x0 area.x1 n a hn hx (by omega)
    have ib := node_inside area.y0 area.y1 n b hn hy (by omega)
    have hd := hw (node area.x0 area.x1 n a, node area.y0 area.y1 n b) p ⟨ia.1, ia.2, ib.1, ib.2⟩ hp
    have dx : |node area.x0 area.x1 n a - p.1| ≤ sx := by
      rcases ha with rfl | rfl
      · rw [abs_le]; constructor <;> linarith
      · rw [abs_le]; constructor <;> linarith
    have dy : |node area.y0 area.y1 n b - p.2| ≤ sy := by
      rcases hb with rfl | rfl
      · rw [abs_le]; constructor <;> linarith
      · rw [abs_le]; constructor <;> linarith
    have k1 := mul_le_mul_of_nonneg_left dx hL
    have k2 := mul_le_mul_of_nonneg_left dy hM
    have k3 := abs_le.1 hd
    simp only at k3
    exact ⟨by linarith [k3.1], by linarith [k3.2]⟩)
  rw [abs_le]
  exact ⟨by linarith, by linarith⟩

/-! ## The features -/

mutual
theorem relabel_congr {P Q : Type} (f f' : P → Q) : ∀ g : Geom P, (∀ v ∈ vertices g, f v = f' v) → relabel f g = relabel f' g
  | .point p, h => by simp only [relabel]; rw [h p (by simp [vertices])]
  | .lineString ps, h => by simp only [relabel]; rw [List.map_congr_left (fun v hv => h v (by simpa [vertices] using hv))]
  | .linearRing ps, h => by simp only [relabel]; rw [List.map_congr_left (fun v hv => h v (by simpa [vertices] using hv))]
  | .polygon s hs, h => by
    simp only [relabel]
    rw [List.map_congr_left (fun v hv => h v (by simp [vertices, hv])),
      List.map_congr_left (fun r hr => List.map_congr_left (fun v hv => h v (by simp only [vertices, List.mem_append, List.mem_flatten]; exact Or.inr ⟨r, hr, hv⟩)))]
  | .multiPoint ps, h => by simp only [relabel]; rw [List.map_congr_left (fun v hv => h v (by simpa [vertices] using hv))]
  | .multiLineString ls, h => by
    simp only [relabel]
    rw [List.map_congr_left (fun r hr => List.map_congr_left (fun v hv => h v (by simp only [vertices, List.mem_flatten]; exact ⟨r, hr, hv⟩)))]
  | .multiPolygon gs, h => by
    simp only [relabel]
    congr 1
    apply List.map_congr_left
    intro g hg
    have h1 : g.1.map f = g.1.map f' := List.map_congr_left (fun v hv => h v (by
      simp only [vertices, List.mem_flatten, List.mem_map]
      exact ⟨_, ⟨g, hg, rfl⟩, List.mem_append.2 (Or.inl hv)⟩))
    have h2 : g.2.map (List.map f) = g.2.map (List.map f') := List.map_congr_left (fun r hr => List.map_congr_left (fun v hv => h v (by
      simp only [vertices, List.mem_flatten, List.mem_map]
      exact ⟨_, ⟨g, hg, rfl⟩, List.mem_append.2 (Or.inr (List.mem_flatten.2 ⟨r, hr, hv⟩))⟩)))
    rw [h1, h2]
  | .collection gs, h => by
    simp only [relabel]
    rw [relabelAll_congr f f' gs (fun v hv => h v (by simpa [vertices] using hv))]

theorem relabelAll_congr {P Q : Type} (f f' : P → Q) : ∀ gs : List (Geom P), (∀ v ∈ verticesAll gs, f v = f' v) → relabelAll f gs = relabelAll f' gs
  | [], _ => rfl
  | g :: gs, h => by
    simp only [relabelAll]
    rw [relabel_congr f f' g (fun v hv => h v (by simp [verticesAll, hv])),
      relabelAll_congr f f' gs (fun v hv => h v (by simp [verticesAll, hv]))]
end

/-- A box with the margin of ten pixels. -/
def margin (B : Bounds) : Bounds := ⟨B.x0 - 10, B.y0 - 10, B.x1 + 10, B.y1 + 10⟩

/-- The features can be read, one has a vertex, all vertices lie in `B`, the grid has at least two nodes in each direction, and the sensor model locates
the positions of `B` and up to ten pixels around it: `direct` is what it returns. -/
structure Situation (S : Shapely) (dep : Bool) (fs : List Feature) (B : Bounds) (G : Geolocator) (direct : Pos → ℚ × ℚ × ℚ) : Prop where
  readable : ∀ f ∈ fs, Readable S dep f
  vertex : ∃ v, Vertex S dep fs v
  inside : ∀ v, Vertex S dep fs v → Inside B v
  size : 2 ≤ G.size
  world : ∀ p, Inside (margin B) p → G.toWorld p = .ok (direct p)

/-- Shapely's centroid lies in every box that contains the vertices. -/
def Centroid (centroid : Geom Pos → Pos) : Prop :=
  ∀ g b, vertices g ≠ [] → (∀ v ∈ vertices g, Inside b v) → Inside b (centroid g)

/-- The feature `f'` is `f` located by `w`: geometry in degrees and rounded, centre and box in degrees. -/
def Placed (S : Shapely) (dep : Bool) (centroid : Geom Pos → Pos) (G : Geolocator) (w : Pos → ℚ × ℚ × ℚ) (f f' : Feature) : Prop :=
  Located S dep (fun p => (G.rounded (G.degrees (w p).1), G.rounded (G.degrees (w p).2.1), G.rounded (w p).2.2)) f f' ∧
  (∀ g, findImageGeometry S dep f = .ok (some g) → vertices g ≠ [] → (f.props "imageGeometry").isSome ∨ f.props "imageBBox" = none →
    f'.props "center_longitude" = some (.num (G.degrees (w (centroid g)).1)) ∧ f'.props "center_latitude" = some (.num (G.degrees (w (centroid g)).2.1))) ∧
  ∀ x0 y0 x1 y1, f.props "imageGeometry" = none → f.props "imageBBox" = some (.arr [.num x0, .num y0, .num x1, .num y1]) → x0 ≤ x1 → y0 ≤ y1 →
    (∃ b, f'.bbox = some b ∧
      let corner : Pos → Prop := fun v => ∃ x y, (x = x0 ∨ x = x1) ∧ (y = y0 ∨ y = y1) ∧ v = (G.degrees (w (x, y)).1, G.degrees (w (x, y)).2.1)
      (∀ v, corner v → Inside b v) ∧ Tight b corner) ∧
    f'.props "center_longitude" = some (.num (G.degrees (w ((x0 + x1) / 2, (y0 + y1) / 2)).1)) ∧
    f'.props "center_latitude" = some (.num (G.degrees (w ((x0 + x1) / 2, (y0 + y1) / 2)).2.1))

theorem node_mem (area : Bounds) (n : Nat) (hn : 2 ≤ n) (hx : area.x0 < area.x1) (hy : area.y0 < area.y1) (p : Pos) (hp : p ∈ nodes area n) :
    Inside area p := by
  simp only [nodes, List.mem_flatMap, List.mem_map, List.mem_range] at hp
  obtain ⟨i, hi, j, hj, rfl⟩ := hp
  have key : ∀ (a b : ℚ) (k : Nat), a < b → k < n → a ≤ linspace a b n k ∧ linspace a b n k ≤ b := by
    intro a b k hab hk
    have hs := step_pos a b n hn hab
    have hl := last_node a b n hn
    have hk' : (k : ℚ) ≤ ((n - 1 : ℕ) : ℚ) := by exact_mod_cast (by omega : k ≤ n - 1)
    have h0 : (0 : ℚ) ≤ k := by positivity
    have h1 := mul_nonneg h0 hs.le
    have h2 := mul_le_mul_of_nonneg_right hk' hs.le
    unfold linspace
    exact ⟨by linarith, by linarith⟩
  exact ⟨(key _ _ i hx hi).1, (key _ _ i hx hi).2, (key _ _ j hy hj).1, (key _ _ j hy hj).2⟩

/-- The call in terms of the values of the sensor model at the nodes. -/
theorem geolocateWith_placed {S : Shapely} {dep : Bool} {fs : List Feature} {B : Bounds} {G : Geolocator} {direct : Pos → ℚ × ℚ × ℚ}
    (h : Situation S dep fs B G direct) (centroid : Geom Pos → Pos) (hc : Centroid centroid) :
    ∃ area : Bounds, area.x0 < area.x1 ∧ area.y0 < area.y1 ∧ (∀ p, Inside area p → Inside (margin B) p) ∧ (∀ v, Vertex S dep fs v → Inside area v) ∧
      ∀ w : Pos → ℚ × ℚ × ℚ, (∀ p, Inside area p → w p = locate G area ((nodes area G.size).map direct) p) →
        ∃ fs', geolocateWith S dep centroid G fs = .ok fs' ∧ List.Forall₂ (Placed S dep centroid G w) fs fs' := by
  obtain ⟨a, ha, hg⟩ := foldBounds_good S dep fs (fun f hf => (h.readable f hf).1.imp (fun r hr => hr.1))
  obtain ⟨v, hv⟩ := h.vertex
  cases a with
  | none => exact absurd hv (hg v)
  | some b =>
    obtain ⟨hin, ⟨v1, hv1, e1⟩, ⟨v2, hv2, e2⟩, ⟨v3, hv3, e3⟩, ⟨v4, hv4, e4⟩⟩ := hg
    have hvb := hin v hv
    have hxx : (gridArea b).x0 < (gridArea b).x1 := by
      simp only [gridArea]
      linarith [hvb.1, hvb.2.1]
    have hyy : (gridArea b).y0 < (gridArea b).y1 := by
      simp only [gridArea]
      linarith [hvb.2.2.1, hvb.2.2.2]
    have hB : ∀ p, Inside (gridArea b) p → Inside (margin B) p := by
      intro p hp
      have q1 := (h.inside v1 hv1).1
      have q2 := (h.inside v2 hv2).2.2.1
      have q3 := (h.inside v3 hv3).2.1
      have q4 := (h.inside v4 hv4).2.2.2
      obtain ⟨p1, p2, p3, p4⟩ := hp
      simp only [gridArea] at p1 p2 p3 p4
      simp only [margin]
      exact ⟨by simp only []; linarith, by simp only []; linarith, by simp only []; linarith, by simp only []; linarith⟩
    have hbA : ∀ p, Inside b p → Inside (gridArea b) p := by
      intro p hp
      obtain ⟨p1, p2, p3, p4⟩ := hp
      exact ⟨by simp only [gridArea]; linarith, by simp only [gridArea]; linarith, by simp only [gridArea]; linarith, by simp only [gridArea]; linarith⟩
    have hA : ∀ v, Vertex S dep fs v → Inside (gridArea b) v := fun v hv => hbA v (hin v hv)
    refine ⟨gridArea b, hxx, hyy, hB, hA, ?_⟩
    intro w hw
    have hz : nodeValues G (gridArea b) = .ok ((nodes (gridArea b) G.size).map direct) :=
      Verif.Props.Orthophoto.mapM_of_ok _ _ _ (fun p hp => h.world p (hB p (node_mem _ _ h.size hxx hyy p hp)))
    generalize hzs : (nodes (gridArea b) G.size).map direct = zs at hz hw
    have hF : ∃ fs', fs.mapM (locateFeature S dep centroid (fun p => inDegrees G (locate G (gridArea b) zs p)) (fun p => inGeojson G (locate G (gridArea b) zs p))) = .ok fs' ∧
        List.Forall₂ (Placed S dep centroid G w) fs fs' := by
      apply mapM_forall₂
      intro f hf
      obtain ⟨f', hf', hL⟩ := locateFeature_spec S dep centroid (fun p => inDegrees G (locate G (gridArea b) zs p)) (fun p => inGeojson G (locate G (gridArea b) zs p)) f (h.readable f hf)
      have hBC := locateFeature_box_center S dep centroid _ _ f f' hf'
      refine ⟨f', hf', ⟨?_, hL.2⟩, ?_, ?_⟩
      · intro g hg hor
        rw [hL.1 g hg hor]
        congr 1
        apply relabel_congr
        intro v hv
        rw [hw v (hA v ⟨f, hf, g, hg, hv⟩)]
        rfl
      · intro g hg hne hor
        rw [hw _ (hc g _ hne (fun v hv => hA v ⟨f, hf, g, hg, hv⟩))]
        exact hBC.2 g hg hor
      · intro x0 y0 x1 y1 hig hib hx hy
        obtain ⟨⟨bb, hbb, hcor⟩, hcen⟩ := hBC.1 x0 y0 x1 y1 hib hx hy
        have hfind := ((lookup_precedence S dep f).2 hig).1 x0 y0 x1 y1 hib
        have hcorner : ∀ x y, (x = x0 ∨ x = x1) → (y = y0 ∨ y = y1) → Inside (gridArea b) (x, y) := by
          intro x y h1 h2
          apply hA
          refine ⟨f, hf, _, hfind, ?_⟩
          rcases h1 with rfl | rfl <;> rcases h2 with rfl | rfl <;> simp [vertices]
        have hmid : Inside (gridArea b) ((x0 + x1) / 2, (y0 + y1) / 2) := by
          obtain ⟨a1, a2, a3, a4⟩ := hcorner x0 y0 (.inl rfl) (.inl rfl)
          obtain ⟨b1, b2, b3, b4⟩ := hcorner x1 y1 (.inr rfl) (.inr rfl)
          simp only at a1 a2 a3 a4 b1 b2 b3 b4
          exact ⟨by simp only; linarith, by simp only; linarith, by simp only; linarith, by simp only; linarith⟩
        have hce : ∀ v : Pos, (∃ x y, (x = x0 ∨ x = x1) ∧ (y = y0 ∨ y = y1) ∧ v = (G.degrees (w (x, y)).1, G.degrees (w (x, y)).2.1)) ↔
            (∃ x y, (x = x0 ∨ x = x1) ∧ (y = y0 ∨ y = y1) ∧ v = ((inDegrees G (locate G (gridArea b) zs (x, y))).1, (inDegrees G (locate G (gridArea b) zs (x, y))).2.1)) := by
          intro v
          constructor
          · rintro ⟨x, y, h1, h2, rfl⟩
            exact ⟨x, y, h1, h2, by rw [hw _ (hcorner x y h1 h2)]; rfl⟩
          · rintro ⟨x, y, h1, h2, rfl⟩
            exact ⟨x, y, h1, h2, by rw [hw _ (hcorner x y h1 h2)]; rfl⟩
        refine ⟨⟨bb, hbb, ?_⟩, ?_⟩
        · intro corner
          have e : corner = (fun v : Pos => ∃ x y, (x = x0 ∨ x = x1) ∧ (y = y0 ∨ y = y1) ∧ v = ((inDegrees G (locate G (gridArea b) zs (x, y))).1, (inDegrees G (locate G (gridArea b) zs (x, y))).2.1)) :=
            funext (fun v => propext (hce v))
          rw [e]
          exact hcor
        · rw [hw _ hmid]
          exact hcen hig
    obtain ⟨fs', hm, hFF⟩ := hF
    refine ⟨fs', ?_, hFF⟩
    cases fs with
    | nil => obtain ⟨f, hf, _⟩ := hv; simp at hf
    | cons f fs =>
      simp only [geolocateWith, ha, hz, bind, Except.bind]
      rw [if_neg (by have := h.size; omega)]
      exact hm

/-- Positions in every box that contains all vertices: vertices, corners and centres of boxes, centroids. -/
def Between (S : Shapely) (dep : Bool) (fs : List Feature) (p : Pos) : Prop :=
  ∀ b : Bounds, (∀ v, Vertex S dep fs v → Inside b v) → Inside b p

/-! ## C118 -/

/-- An example: the features of `exampleFeatures`, a grid of three by three nodes, a sensor model `direct`. -/
def exampleGeolocator (E : Option (ℚ → ℚ → Option ℚ)) (direct : Pos → ℚ × ℚ × ℚ) : Geolocator := ⟨fun p => .ok (direct p), E, fun r => 57 * r, id, 3⟩

theorem example_readable : ∀ f ∈ exampleFeatures, Readable reader true f := by
  intro f hf
  simp only [exampleFeatures, List.mem_cons, List.not_mem_nil, or_false] at hf
  rcases hf with rfl | rfl
  · exact ⟨⟨_, find_point 5 6 true, fun g hg => by cases hg; simp [NoRing]⟩, none, rfl⟩
  · exact ⟨⟨none, rfl, by simp⟩, none, rfl⟩

theorem example_vertex (v : Pos) : Vertex reader true exampleFeatures v ↔ v = (5, 6) := by
  constructor
  · rintro ⟨f, hf, g, hg, hv⟩
    simp only [exampleFeatures, List.mem_cons, List.not_mem_nil, or_false] at hf
    rcases hf with rfl | rfl
    · rw [find_point 5 6 true] at hg
      cases hg
      simpa [vertices] using hv
    · cases hg
  · rintro rfl
    exact ⟨_, List.mem_cons_self, .point (5, 6), find_point 5 6 true, by simp [vertices]⟩

theorem example_situation (E : Option (ℚ → ℚ → Option ℚ)) (direct : Pos → ℚ × ℚ × ℚ) :
    Situation reader true exampleFeatures ⟨0, 0, 100, 100⟩ (exampleGeolocator E direct) direct where
  readable := example_readable
  vertex := ⟨(5, 6), (example_vertex _).2 rfl⟩
  inside := fun v hv => by rw [(example_vertex v).1 hv]; norm_num [Inside]
  size := by simp [exampleGeolocator]
  world := fun p _ => rfl

/-- A centroid that lies in every box: the first vertex. -/
def firstVertex (g : Geom Pos) : Pos := (vertices g).head?.getD (0, 0)

theorem firstVertex_centroid : Centroid firstVertex := by
  intro g b hne hin
  unfold firstVertex
  cases h : vertices g with
  | nil => exact absurd h hne
  | cons v l => exact hin v (by simp [h])

/-- **C118** With a sensor model whose longitude and latitude are affine around the features, every feature gets the exact location.  The elevation is
exact when it is affine too (also where an elevation model has no data), or when there is an elevation model that gives the elevation of the surface on which the sensor model locates. -/
theorem affine_located_exactly {S : Shapely} {dep : Bool} {fs : List Feature} {B : Bounds} {G : Geolocator} {direct : Pos → ℚ × ℚ × ℚ}
    (h : Situation S dep fs B G direct) (centroid : Geom Pos → Pos) (hc : Centroid centroid)
    (hlon : ∃ c d e, ∀ p, Inside (margin B) p → (direct p).1 = c + d * p.1 + e * p.2)
    (hlat : ∃ c d e, ∀ p, Inside (margin B) p → (direct p).2.1 = c + d * p.1 + e * p.2)
    (hh : ((∀ E, G.elevation = some E → ∀ p, Inside (margin B) p → E (direct p).1 (direct p).2.1 = none ∨ E (direct p).1 (direct p).2.1 = some (direct p).2.2) ∧
        ∃ c d e, ∀ p, Inside (margin B) p → (direct p).2.2 = c + d * p.1 + e * p.2) ∨
      ∃ E, G.elevation = some E ∧ ∀ p, Inside (margin B) p → E (direct p).1 (direct p).2.1 = some (direct p).2.2) :
    ∃ fs', geolocateWith S dep centroid G fs = .ok fs' ∧ List.Forall₂ (Placed S dep centroid G direct) fs fs' := by
  obtain ⟨area, hx, hy, hB, hA, key⟩ := geolocateWith_placed h centroid hc
  refine key direct ?_
  intro p hp
  have comp : ∀ f : ℚ × ℚ × ℚ → ℚ, (∃ c d e, ∀ p, Inside (margin B) p → f (direct p) = c + d * p.1 + e * p.2) →
      spline area G.size (((nodes area G.size).map direct).map f) p = f (direct p) := by
    rintro f ⟨c, d, e, hf⟩
    have := spline_near_affine area G.size h.size hx hy (fun q => f (direct q)) c d e 0 (fun q hq => by rw [hf q (hB q hq)]; simp) p hp
    rw [List.map_map]
    have e2 := abs_nonpos_iff.1 this
    rw [hf p (hB p hp)]
    exact sub_eq_zero.1 e2
  unfold locate
  simp only
  rw [comp (fun z => z.1) hlon, comp (fun z => z.2.1) hlat]
  rcases hh with ⟨he, hh⟩ | ⟨E, he, hE⟩
  · rw [comp (fun z => z.2.2) hh]
    cases hel : G.elevation with
    | none => rfl
    | some E =>
      rcases he E hel p (hB p hp) with h0 | h0
      · simp only [h0, Option.getD_none]
      · simp only [h0, Option.getD_some]
  · rw [he]
    simp only [hE p (hB p hp), Option.getD_some]

example : ∃ fs', geolocateWith reader true firstVertex (exampleGeolocator (some (fun lon lat => some (lon + lat))) (fun p => (1 + 2 * p.1, 3 * p.2, 1 + 2 * p.1 + 3 * p.2))) exampleFeatures = .ok fs' ∧
    List.Forall₂ (Placed reader true firstVertex (exampleGeolocator (some (fun lon lat => some (lon + lat))) (fun p => (1 + 2 * p.1, 3 * p.2, 1 + 2 * p.1 + 3 * p.2)))
      (fun p => (1 + 2 * p.1, 3 * p.2, 1 + 2 * p.1 + 3 * p.2))) exampleFeatures fs' :=
  affine_located_exactly (example_situation _ _) firstVertex firstVertex_centroid ⟨1, 2, 0, fun p _ => by simp⟩ ⟨0, 0, 3, fun p _ => by simp⟩
    (.inr ⟨_, rfl, fun p _ => by simp⟩)

/-- An elevation model without data north of latitude 20 keeps the elevation of the sensor model there. -/
example := affine_located_exactly (example_situation (some (fun lon lat => if lat < 20 then some (lon + lat) else none)) (fun p => (1 + 2 * p.1, 3 * p.2, 1 + 2 * p.1 + 3 * p.2)))
  firstVertex firstVertex_centroid ⟨1, 2, 0, fun p _ => by simp⟩ ⟨0, 0, 3, fun p _ => by simp⟩
  (.inl ⟨fun E hE p _ => by
    simp only [exampleGeolocator, Option.some.injEq] at hE
    rw [← hE]
    by_cases h : 3 * p.2 < 20 <;> simp [h], 1, 2, 3, fun p _ => by simp⟩)

/-- **C118** When longitude and latitude are within `ε` of an affine function around the features, every feature is located within `2 ε`; so is the elevation
when there is no elevation model or it has no data there, and otherwise it is what the elevation model has at the located longitude and latitude. -/
theorem near_affine_error {S : Shapely} {dep : Bool} {fs : List Feature} {B : Bounds} {G : Geolocator} {direct : Pos → ℚ × ℚ × ℚ}
    (h : Situation S dep fs B G direct) (centroid : Geom Pos → Pos) (hc : Centroid centroid) (ε c d e c' d' e' : ℚ)
    (hlon : ∀ p, Inside (margin B) p → |(direct p).1 - (c + d * p.1 + e * p.2)| ≤ ε)
    (hlat : ∀ p, Inside (margin B) p → |(direct p).2.1 - (c' + d' * p.1 + e' * p.2)| ≤ ε) :
    ∃ fs' w, geolocateWith S dep centroid G fs = .ok fs' ∧ List.Forall₂ (Placed S dep centroid G w) fs fs' ∧
      ∀ p, Between S dep fs p → |(w p).1 - (direct p).1| ≤ 2 * ε ∧ |(w p).2.1 - (direct p).2.1| ≤ 2 * ε ∧
        (∀ E, G.elevation = some E → ∀ z, E (w p).1 (w p).2.1 = some z → (w p).2.2 = z) ∧
        ((∀ E, G.elevation = some E → E (w p).1 (w p).2.1 = none) → ∀ ε' c'' d'' e'', (∀ q, Inside (margin B) q → |(direct q).2.2 - (c'' + d'' * q.1 + e'' * q.2)| ≤ ε') →
          |(w p).2.2 - (direct p).2.2| ≤ 2 * ε') := by
  obtain ⟨area, hx, hy, hB, hA, key⟩ := geolocateWith_placed h centroid hc
  obtain ⟨fs', hok, hF⟩ := key (locate G area ((nodes area G.size).map direct)) (fun p _ => rfl)
  refine ⟨fs', _, hok, hF, ?_⟩
  intro p hbt
  have hp := hbt area hA
  have comp : ∀ f : ℚ × ℚ × ℚ → ℚ, ∀ c d e ε : ℚ, (∀ p, Inside (margin B) p → |f (direct p) - (c + d * p.1 + e * p.2)| ≤ ε) →
      |spline area G.size (((nodes area G.size).map direct).map f) p - f (direct p)| ≤ 2 * ε := by
    intro f c d e ε hf
    have h1 := spline_near_affine area G.size h.size hx hy (fun q => f (direct q)) c d e ε (fun q hq => hf q (hB q hq)) p hp
    have h2 := hf p (hB p hp)
    rw [List.map_map]
    rw [abs_le] at h1 h2 ⊢
    have h3 : (fun q => f (direct q)) = f ∘ direct := rfl
    rw [h3] at h1
    exact ⟨by linarith [h1.1, h2.2], by linarith [h1.2, h2.1]⟩
  have e1 : (locate G area ((nodes area G.size).map direct) p).1 = spline area G.size (((nodes area G.size).map direct).map (fun z => z.1)) p := by
    unfold locate
    cases G.elevation <;> rfl
  have e2 : (locate G area ((nodes area G.size).map direct) p).2.1 = spline area G.size (((nodes area G.size).map direct).map (fun z => z.2.1)) p := by
    unfold locate
    cases G.elevation <;> rfl
  refine ⟨by rw [e1]; exact comp (fun z => z.1) c d e ε hlon, by rw [e2]; exact comp (fun z => z.2.1) c' d' e' ε hlat, ?_, ?_⟩
  · intro E hE z hz
    rw [e1, e2] at hz
    unfold locate
    rw [hE]
    simp only [hz, Option.getD_some]
  · intro hE ε' c'' d'' e'' hq
    have e3 : (locate G area ((nodes area G.size).map direct) p).2.2 = spline area G.size (((nodes area G.size).map direct).map (fun z => z.2.2)) p := by
      rw [e1, e2] at hE
      unfold locate
      cases hel : G.elevation with
      | none => rfl
      | some E => simp only [hE E hel, Option.getD_none]
    rw [e3]
    exact comp (fun z => z.2.2) c'' d'' e'' ε' hq

example := near_affine_error (example_situation none (fun p => (p.1 + (if p.1 < 7 then 1 / 10 else 0), p.2, 0))) firstVertex firstVertex_centroid (1 / 10) 0 1 0 0 0 1
  (fun p _ => by
    simp only
    by_cases h : p.1 < 7
    · rw [if_pos h, show p.1 + 1 / 10 - (0 + 1 * p.1 + 0 * p.2) = 1 / 10 by ring]; norm_num
    · rw [if_neg h, show p.1 + 0 - (0 + 1 * p.1 + 0 * p.2) = 0 by ring]; norm_num)
  (fun p _ => by
    simp only
    rw [show p.2 - (0 + 0 * p.1 + 1 * p.2) = 0 by ring]
    norm_num)

/-- **C118** For any sensor model that moves by at most `L` per column and `M` per row the error is at most that of one cell of the grid: it goes to zero
as the size of the grid grows. -/
theorem lipschitz_error {S : Shapely} {dep : Bool} {fs : List Feature} {B : Bounds} {G : Geolocator} {direct : Pos → ℚ × ℚ × ℚ}
    (h : Situation S dep fs B G direct) (centroid : Geom Pos → Pos) (hc : Centroid centroid) (L M : ℚ) (hL : 0 ≤ L) (hM : 0 ≤ M)
    (hlon : ∀ p q, Inside (margin B) p → Inside (margin B) q → |(direct p).1 - (direct q).1| ≤ L * |p.1 - q.1| + M * |p.2 - q.2|)
    (hlat : ∀ p q, Inside (margin B) p → Inside (margin B) q → |(direct p).2.1 - (direct q).2.1| ≤ L * |p.1 - q.1| + M * |p.2 - q.2|) :
    ∃ fs' w, geolocateWith S dep centroid G fs = .ok fs' ∧ List.Forall₂ (Placed S dep centroid G w) fs fs' ∧
      ∀ p, Between S dep fs p →
        |(w p).1 - (direct p).1| ≤ (L * (B.x1 - B.x0 + 20) + M * (B.y1 - B.y0 + 20)) / ((G.size : ℚ) - 1) ∧
        |(w p).2.1 - (direct p).2.1| ≤ (L * (B.x1 - B.x0 + 20) + M * (B.y1 - B.y0 + 20)) / ((G.size : ℚ) - 1) := by
  obtain ⟨area, hx, hy, hB, hA, key⟩ := geolocateWith_placed h centroid hc
  obtain ⟨fs', hok, hF⟩ := key (locate G area ((nodes area G.size).map direct)) (fun p _ => rfl)
  refine ⟨fs', _, hok, hF, ?_⟩
  intro p hbt
  have hp := hbt area hA
  have hn : (0 : ℚ) < (G.size : ℚ) - 1 := by
    have : (2 : ℚ) ≤ G.size := by exact_mod_cast h.size
    linarith
  obtain ⟨c1, _, c3, _⟩ := hB (area.x0, area.y0) ⟨le_rfl, hx.le, le_rfl, hy.le⟩
  obtain ⟨_, d2, _, d4⟩ := hB (area.x1, area.y1) ⟨hx.le, le_rfl, hy.le, le_rfl⟩
  simp only [margin] at c1 c3 d2 d4
  have comp : ∀ f : ℚ × ℚ × ℚ → ℚ, (∀ p q, Inside (margin B) p → Inside (margin B) q → |f (direct p) - f (direct q)| ≤ L * |p.1 - q.1| + M * |p.2 - q.2|) →
      |spline area G.size (((nodes area G.size).map direct).map f) p - f (direct p)| ≤ (L * (B.x1 - B.x0 + 20) + M * (B.y1 - B.y0 + 20)) / ((G.size : ℚ) - 1) := by
    intro f hf
    rw [List.map_map]
    refine le_trans (spline_lipschitz area G.size h.size hx hy (f ∘ direct) L M hL hM (fun p q hp hq => hf p q (hB p hp) (hB q hq)) p hp) ?_
    rw [← mul_div_assoc, ← mul_div_assoc, ← add_div]
    apply div_le_div_of_nonneg_right _ hn.le
    have k1 := mul_le_mul_of_nonneg_left (show area.x1 - area.x0 ≤ B.x1 - B.x0 + 20 by linarith) hL
    have k2 := mul_le_mul_of_nonneg_left (show area.y1 - area.y0 ≤ B.y1 - B.y0 + 20 by linarith) hM
    linarith
  have e1 : (locate G area ((nodes area G.size).map direct) p).1 = spline area G.size (((nodes area G.size).map direct).map (fun z => z.1)) p := by
    unfold locate
    cases G.elevation <;> rfl
  have e2 : (locate G area ((nodes area G.size).map direct) p).2.1 = spline area G.size (((nodes area G.size).map direct).map (fun z => z.2.1)) p := by
    unfold locate
    cases G.elevation <;> rfl
  exact ⟨by rw [e1]; exact comp (fun z => z.1) hlon, by rw [e2]; exact comp (fun z => z.2.1) hlat⟩

example := lipschitz_error (example_situation none (fun p => (|p.1|, p.2, 0))) firstVertex firstVertex_centroid 1 1 (by norm_num) (by norm_num)
  (fun p q _ _ => by
    have h1 := abs_abs_sub_abs_le_abs_sub p.1 q.1
    have h2 := abs_nonneg (p.2 - q.2)
    simp only
    linarith)
  (fun p q _ _ => by
    have h2 := abs_nonneg (p.1 - q.1)
    simp only
    linarith)

/-- **C118** (negation) A sensor model that locates the pixels of the image `B` only: a feature within ten pixels of the left edge makes the whole call
raise, although every vertex of every feature could be located. -/
theorem raises_near_the_edge {S : Shapely} {dep : Bool} {fs : List Feature} {B : Bounds} {G : Geolocator} (centroid : Geom Pos → Pos)
    (h : ∀ f ∈ fs, Readable S dep f) (hG : ∀ p, ¬ Inside B p → ∃ e, G.toWorld p = .error e) (v : Pos) (hv : Vertex S dep fs v) (hl : v.1 < B.x0 + 10) :
    ∃ e, geolocateWith S dep centroid G fs = .error e := by
  obtain ⟨a, ha, hg⟩ := foldBounds_good S dep fs (fun f hf => (h f hf).1.imp (fun r hr => hr.1))
  cases a with
  | none => exact absurd hv (hg v)
  | some b =>
    cases fs with
    | nil => obtain ⟨f, hf, _⟩ := hv; simp at hf
    | cons f fs =>
      simp only [geolocateWith, ha, bind, Except.bind]
      cases hz : nodeValues G (gridArea b) with
      | error e => exact ⟨e, rfl⟩
      | ok zs =>
        simp only
        by_cases hs : G.size < 2
        · exact ⟨.valueError, if_pos hs⟩
        · exfalso
          have hm : ((gridArea b).x0, (gridArea b).y0) ∈ nodes (gridArea b) G.size := by
            simp only [nodes, List.mem_flatMap, List.mem_map, List.mem_range]
            exact ⟨0, by omega, 0, by omega, by simp [linspace]⟩
          obtain ⟨e, he⟩ := hG ((gridArea b).x0, (gridArea b).y0) (by
            intro hin
            have h1 := hin.1
            have h2 := (hg.1 v hv).1
            simp only [gridArea] at h1
            linarith)
          obtain ⟨z, hz'⟩ := Verif.Props.Orthophoto.mapM_exists _ _ _ hz _ hm
          rw [he] at hz'
          cases hz'

example : ∃ e, geolocateWith reader true firstVertex ⟨fun p => if 0 ≤ p.1 ∧ p.1 ≤ 100 ∧ 0 ≤ p.2 ∧ p.2 ≤ 100 then .ok (p.1, p.2, 0) else .error .valueError, none, id, id, 3⟩ exampleFeatures = .error e :=
  raises_near_the_edge (B := ⟨0, 0, 100, 100⟩) firstVertex example_readable (fun p hp => ⟨.valueError, if_neg hp⟩) (5, 6) ((example_vertex _).2 rfl) (by norm_num)

end Verif.Props.GeolocationGrid
