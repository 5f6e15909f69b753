import Verif.Spec.Features
import Mathlib.Tactic.Linarith
import Mathlib.Tactic.Ring
import Mathlib.Tactic.FieldSimp
import Mathlib.Tactic.Positivity
import Mathlib.Tactic.NormNum

/-!
# Lemmas for `features/`, and a small reader of GeoJSON that shows the contract `ReadsBack` can be met
-/

namespace Verif.Features

open Verif.Spec.Features

/-- A position from JSON. -/
def readPos : Json → Option Pos
  | .arr [.num x, .num y] => some (x, y)
  | _ => none

/-- A list of positions from JSON. -/
def readLine : Json → Option (List Pos)
  | .arr l => l.mapM readPos
  | _ => none

/-- The rings of a polygon from JSON. -/
def readRings : Json → Option (List Pos × List (List Pos))
  | .arr (s :: hs) => do
    let s ← readLine s
    let hs ← hs.mapM readLine
    pure (s, hs)
  | _ => none

/-- A geometry from its type and coordinates. -/
def readCoords (t : String) (c : Json) : Option (Geom Pos) :=
  if t = "Point" then (readPos c).map .point
  else if t = "LineString" then (readLine c).map .lineString
  else if t = "LinearRing" then (readLine c).map .linearRing
  else if t = "Polygon" then (readRings c).map (fun r => .polygon r.1 r.2)
  else if t = "MultiPoint" then (readLine c).map .multiPoint
  else if t = "MultiLineString" then
    match c with
    | .arr l => (l.mapM readLine).map .multiLineString
    | _ => none
  else if t = "MultiPolygon" then
    match c with
    | .arr l => (l.mapM readRings).map .multiPolygon
    | _ => none
  else none

mutual
/-- A geometry from JSON. -/
def readGeom : Json → Option (Geom Pos)
  | .obj [(_, .str t), (k, .arr l)] =>
    if k = "geometries" then (readGeoms l).map .collection else readCoords t (.arr l)
  | _ => none

/-- The members of a collection. -/
def readGeoms : List Json → Option (List (Geom Pos))
  | [] => some []
  | j :: js => do
    let g ← readGeom j
    let gs ← readGeoms js
    pure (g :: gs)
end

/-- The reader as a stand-in for shapely. -/
def reader : Shapely where
  shape j := ((readGeom j).elim (.error .valueError) .ok)
  ring j := (((readLine j).map (fun s => Geom.polygon s [])).elim (.error .valueError) .ok)

theorem readLine_lineJson (ps : List Pos) : readLine (lineJson ps) = some ps := by
  unfold readLine lineJson
  simp only []
  induction ps with
  | nil => rfl
  | cons p ps ih =>
    simp only [List.map_cons, List.mapM_cons, ih]
    rfl

theorem mapM_readLine (ls : List (List Pos)) : (ls.map lineJson).mapM readLine = some ls := by
  induction ls with
  | nil => rfl
  | cons p ps ih =>
    simp only [List.map_cons, List.mapM_cons, ih, readLine_lineJson]
    rfl

theorem readRings_json (s : List Pos) (hs : List (List Pos)) : readRings (.arr ((s :: hs).map lineJson)) = some (s, hs) := by
  simp only [List.map_cons, readRings, readLine_lineJson, mapM_readLine]
  rfl

theorem mapM_readRings (gs : List (List Pos × List (List Pos))) :
    (gs.map (fun g => Json.arr ((g.1 :: g.2).map lineJson))).mapM readRings = some gs := by
  induction gs with
  | nil => rfl
  | cons p ps ih =>
    rw [List.map_cons, List.mapM_cons, ih, readRings_json]
    rfl

theorem readCoords_coordinates (g : Geom Pos) (c : Json) (h : coordinates g = .ok c) : readCoords (typeName g) c = some g := by
  cases g with
  | point p => cases h; rfl
  | lineString ps => cases h; simp [readCoords, typeName, readLine_lineJson]
  | linearRing ps => cases h; simp [readCoords, typeName, readLine_lineJson]
  | polygon s hs => cases h; simp [readCoords, typeName, -List.map_cons, readRings_json]
  | multiPoint ps => cases h; simp [readCoords, typeName, readLine_lineJson]
  | multiLineString ls => cases h; simp [readCoords, typeName, -List.mapM_map, mapM_readLine]
  | multiPolygon gs => cases h; simp [readCoords, typeName, -List.map_cons, -List.mapM_map, mapM_readRings]
  | collection gs => cases h

theorem coordinates_arr (g : Geom Pos) (c : Json) (h : coordinates g = .ok c) : ∃ l, c = .arr l := by
  cases g <;> cases h
  all_goals exact ⟨_, rfl⟩

mutual
theorem readGeom_toGeoJson : ∀ g : Geom Pos, NoRing g → readGeom (toGeoJson g) = some g
  | .point p, _ => by
    simp only [toGeoJson, posJson, readGeom]
    rfl
  | .lineString ps, _ => by
    have := readCoords_coordinates (.lineString ps) _ rfl
    simp only [toGeoJson, readGeom, lineJson]
    rw [if_neg (by decide)]
    exact this
  | .linearRing ps, h => absurd h (by simp [NoRing])
  | .polygon s hs, _ => by
    have := readCoords_coordinates (.polygon s hs) _ rfl
    simp only [toGeoJson, readGeom, lineJson]
    rw [if_neg (by decide)]
    exact this
  | .multiPoint ps, _ => by
    have := readCoords_coordinates (.multiPoint ps) _ rfl
    simp only [toGeoJson, readGeom, lineJson]
    rw [if_neg (by decide)]
    exact this
  | .multiLineString ls, _ => by
    have := readCoords_coordinates (.multiLineString ls) _ rfl
    simp only [toGeoJson, readGeom, lineJson]
    rw [if_neg (by decide)]
    exact this
  | .multiPolygon gs, _ => by
    have := readCoords_coordinates (.multiPolygon gs) _ rfl
    simp only [toGeoJson, readGeom, lineJson]
    rw [if_neg (by decide)]
    exact this
  | .collection gs, h => by
    simp only [toGeoJson, readGeom, if_true, readGeoms_toGeoJsonAll gs (by simpa [NoRing] using h)]
    rfl

theorem readGeoms_toGeoJsonAll : ∀ gs : List (Geom Pos), NoRingAll gs → readGeoms (toGeoJsonAll gs) = some gs
  | [], _ => rfl
  | g :: gs, h => by
    simp only [NoRingAll] at h
    simp only [toGeoJsonAll, readGeoms, readGeom_toGeoJson g h.1, readGeoms_toGeoJsonAll gs h.2]
    rfl
end

/-- The reader meets the contract for every geometry of a GeoJSON type. -/
theorem reader_readsBack (g : Geom Pos) (h : NoRing g) : ReadsBack reader g where
  geojson := by simp [reader, readGeom_toGeoJson g h]
  mapping := by
    intro c hc
    obtain ⟨l, rfl⟩ := coordinates_arr g c hc
    have := readCoords_coordinates g _ hc
    simp [reader, readGeom, this]
  ring := by
    intro s hs _
    simp [reader, readLine_lineJson]

/-! ## Shape preservation -/

theorem mapM_ok {α β : Type} (f : α → Except PyErr β) (g : α → β) (l : List α) (h : ∀ a ∈ l, f a = .ok (g a)) :
    l.mapM f = .ok (l.map g) := by
  induction l with
  | nil => rfl
  | cons a l ih =>
    rw [List.mapM_cons, h a (by simp), ih (fun b hb => h b (by simp [hb]))]
    rfl

theorem construct_multiPoint (loc : Pos → ℚ × ℚ × ℚ) (ps : List Pos) :
    construct "MultiPoint" (ps.map (fun p => .point (loc p))) = .ok (.multiPoint (ps.map loc)) := by
  unfold construct
  rw [if_pos rfl, List.mapM_map, mapM_ok _ loc ps (by intro a _; rfl)]
  rfl

theorem construct_multiLine (loc : Pos → ℚ × ℚ × ℚ) (ls : List (List Pos)) :
    construct "MultiLineString" (ls.map (fun l => .lineString (l.map loc))) = .ok (.multiLineString (ls.map (List.map loc))) := by
  unfold construct
  rw [if_neg (by decide), if_pos rfl, List.mapM_map, mapM_ok _ (List.map loc) ls (by intro a _; rfl)]
  rfl

theorem construct_multiPolygon (loc : Pos → ℚ × ℚ × ℚ) (gs : List (List Pos × List (List Pos))) :
    construct "MultiPolygon" (gs.map (fun g => .polygon (g.1.map loc) (g.2.map (fun h => h.map loc)))) =
      .ok (.multiPolygon (gs.map (fun g => (g.1.map loc, g.2.map (List.map loc))))) := by
  unfold construct
  rw [if_neg (by decide), if_neg (by decide), if_pos rfl, List.mapM_map,
    mapM_ok _ (fun g : List Pos × List (List Pos) => (g.1.map loc, g.2.map (List.map loc))) gs (by intro a _; rfl)]
  rfl

mutual
theorem geolocate_relabel (loc : Pos → ℚ × ℚ × ℚ) : ∀ g : Geom Pos, NoRing g → geolocate loc g = .ok (relabel loc g)
  | .point p, _ => by simp only [geolocate, relabel]
  | .lineString ps, _ => by simp only [geolocate, relabel]
  | .linearRing ps, h => absurd h (by simp [NoRing])
  | .polygon s hs, _ => by simp only [geolocate, relabel]
  | .multiPoint ps, _ => by simp only [geolocate, relabel, construct_multiPoint]
  | .multiLineString ls, _ => by simp only [geolocate, relabel, construct_multiLine]
  | .multiPolygon gs, _ => by simp only [geolocate, relabel, construct_multiPolygon]
  | .collection gs, h => by
    simp only [geolocate, relabel, geolocateAll_relabel loc gs (by simpa [NoRing] using h)]
    rfl

theorem geolocateAll_relabel (loc : Pos → ℚ × ℚ × ℚ) : ∀ gs : List (Geom Pos), NoRingAll gs → geolocateAll loc gs = .ok (relabelAll loc gs)
  | [], _ => rfl
  | g :: gs, h => by
    simp only [NoRingAll] at h
    simp only [geolocateAll, relabelAll, geolocate_relabel loc g h.1, geolocateAll_relabel loc gs h.2]
    rfl
end

mutual
theorem geolocate_total (loc : Pos → ℚ × ℚ × ℚ) : ∀ g : Geom Pos, ∃ r, geolocate loc g = .ok r ∧ vertices r = (vertices g).map loc
  | .point p => ⟨_, by simp only [geolocate]; rfl, by simp [vertices]⟩
  | .lineString ps => ⟨_, by simp only [geolocate]; rfl, by simp [vertices]⟩
  | .linearRing ps => ⟨_, by simp only [geolocate]; rfl, by simp [vertices]⟩
  | .polygon s hs => ⟨_, by simp only [geolocate]; rfl, by simp [vertices, List.map_flatten]⟩
  | .multiPoint ps => ⟨_, by simp only [geolocate, construct_multiPoint]; rfl, by simp [vertices]⟩
  | .multiLineString ls => ⟨_, by simp only [geolocate, construct_multiLine]; rfl, by simp [vertices, List.map_flatten]⟩
  | .multiPolygon gs => ⟨_, by simp only [geolocate, construct_multiPolygon]; rfl, by
      simp [vertices, List.map_flatten, Function.comp_def]⟩
  | .collection gs => by
    obtain ⟨r, hr, hv⟩ := geolocateAll_total loc gs
    exact ⟨.collection r, by simp only [geolocate, hr]; rfl, by simp [vertices, hv]⟩

theorem geolocateAll_total (loc : Pos → ℚ × ℚ × ℚ) : ∀ gs : List (Geom Pos), ∃ r, geolocateAll loc gs = .ok r ∧ verticesAll r = (verticesAll gs).map loc
  | [] => ⟨[], rfl, rfl⟩
  | g :: gs => by
    obtain ⟨r, hr, hv⟩ := geolocate_total loc g
    obtain ⟨rs, hrs, hvs⟩ := geolocateAll_total loc gs
    exact ⟨r :: rs, by simp only [geolocateAll, hr, hrs]; rfl, by simp [verticesAll, hv, hvs]⟩
end

theorem typeName_relabel {P Q : Type} (f : P → Q) (g : Geom P) : typeName (relabel f g) = typeName g := by
  cases g <;> simp only [relabel, typeName]

/-! ## Bounds -/

theorem foldBounds_spec (ps : List Pos) (b : Bounds) :
    let r := ps.foldl (fun b q => (⟨min b.x0 q.1, min b.y0 q.2, max b.x1 q.1, max b.y1 q.2⟩ : Bounds)) b
    (r.x0 ≤ b.x0 ∧ r.y0 ≤ b.y0 ∧ b.x1 ≤ r.x1 ∧ b.y1 ≤ r.y1) ∧ ∀ p ∈ ps, Inside r p := by
  induction ps generalizing b with
  | nil => simp
  | cons p ps ih =>
    simp only [List.foldl_cons]
    obtain ⟨⟨h1, h2, h3, h4⟩, h⟩ := ih ⟨min b.x0 p.1, min b.y0 p.2, max b.x1 p.1, max b.y1 p.2⟩
    refine ⟨⟨h1.trans (min_le_left _ _), h2.trans (min_le_left _ _), (le_max_left _ _).trans h3, (le_max_left _ _).trans h4⟩, ?_⟩
    intro q hq
    rcases List.mem_cons.mp hq with rfl | hq
    · exact ⟨h1.trans (min_le_right _ _), (le_max_right _ _).trans h3, h2.trans (min_le_right _ _), (le_max_right _ _).trans h4⟩
    · exact h q hq

theorem boundsOf_inside (ps : List Pos) (b : Bounds) (h : boundsOf ps = some b) : ∀ p ∈ ps, Inside b p := by
  cases ps with
  | nil => simp [boundsOf] at h
  | cons p ps =>
    simp only [boundsOf, Option.some.injEq] at h
    subst h
    obtain ⟨⟨h1, h2, h3, h4⟩, hh⟩ := foldBounds_spec ps ⟨p.1, p.2, p.1, p.2⟩
    intro q hq
    rcases List.mem_cons.mp hq with rfl | hq
    · exact ⟨h1, h3, h2, h4⟩
    · exact hh q hq

/-- The bounds of the box of an ordered rectangle are that rectangle. -/
theorem bounds_box (b : Bounds) (hx : b.x0 ≤ b.x1) (hy : b.y0 ≤ b.y1) : bounds (box b) = some b := by
  simp [bounds, box, vertices, boundsOf, hx, hy]

/-! ## Interpolation -/

theorem interp_node (a s : ℚ) (hs : 0 < s) (m : Nat) (f : Nat → ℚ) (k : Nat) (hk : k ≤ m) : interp a s m f (a + k * s) = f k := by
  have hu : (a + k * s - a) / s = (k : ℚ) := by field_simp; ring
  unfold interp
  simp only [hu]
  by_cases h0 : (k : ℚ) ≤ 0
  · have : k = 0 := by exact_mod_cast le_antisymm h0 (by positivity)
    subst this
    rw [if_pos (by simp)]
  · rw [if_neg h0]
    by_cases h1 : (m : ℚ) ≤ k
    · have : k = m := le_antisymm hk (by exact_mod_cast h1)
      subst this
      rw [if_pos le_rfl]
    · rw [if_neg h1]
      have : ⌊(k : ℚ)⌋ = (k : ℤ) := by simp
      rw [this]
      simp

/-- Inside the nodes, the value is a convex combination of two neighbouring nodes around the position. -/
theorem interp_cell (a s : ℚ) (hs : 0 < s) (m : Nat) (hm : 1 ≤ m) (x : ℚ) (h0 : a ≤ x) (h1 : x ≤ a + m * s) :
    ∃ k t, k < m ∧ 0 ≤ t ∧ t ≤ 1 ∧ x = a + k * s + t * s ∧ ∀ f : Nat → ℚ, interp a s m f x = f k + (f (k + 1) - f k) * t := by
  have hu0 : 0 ≤ (x - a) / s := div_nonneg (by linarith) hs.le
  have hx : x = a + (x - a) / s * s := by field_simp; ring
  unfold interp
  generalize (x - a) / s = u at *
  have hum : u ≤ m := by
    by_contra hc
    have := mul_lt_mul_of_pos_right (not_le.mp hc) hs
    linarith
  by_cases h : u ≤ 0
  · have : u = 0 := le_antisymm h hu0
    subst this
    exact ⟨0, 0, by omega, le_rfl, zero_le_one, by simpa using hx, fun f => by simp⟩
  · by_cases h' : (m : ℚ) ≤ u
    · have : u = m := le_antisymm hum h'
      subst this
      refine ⟨m - 1, 1, by omega, zero_le_one, le_rfl, ?_, fun f => ?_⟩
      · rw [Nat.cast_sub hm]
        push_cast
        linarith
      · rw [if_neg h, if_pos le_rfl, Nat.sub_add_cancel hm]
        ring
    · have hfl : 0 ≤ ⌊u⌋ := Int.floor_nonneg.mpr hu0
      have hc : ((⌊u⌋.toNat : ℕ) : ℚ) = (⌊u⌋ : ℚ) := by
        have := Int.toNat_of_nonneg hfl
        exact_mod_cast congrArg (fun z : ℤ => (z : ℚ)) this
      refine ⟨⌊u⌋.toNat, u - ⌊u⌋, ?_, by linarith [Int.floor_le u], by linarith [Int.lt_floor_add_one u], ?_, fun f => ?_⟩
      · have : (⌊u⌋ : ℚ) < m := lt_of_le_of_lt (Int.floor_le u) (not_le.mp h')
        rw [← hc] at this
        exact_mod_cast this
      · rw [hc, hx]
        ring
      · simp only [if_neg h, if_neg h']

/-- A convex combination lies between its ends. -/
theorem combo_between (p q t lo hi : ℚ) (h0 : 0 ≤ t) (h1 : t ≤ 1) (hp : lo ≤ p ∧ p ≤ hi) (hq : lo ≤ q ∧ q ≤ hi) :
    lo ≤ p + (q - p) * t ∧ p + (q - p) * t ≤ hi := by
  constructor <;> nlinarith [mul_nonneg h0 (sub_nonneg.mpr hq.1), mul_nonneg h0 (sub_nonneg.mpr hq.2),
    mul_nonneg (sub_nonneg.mpr h1) (sub_nonneg.mpr hp.1), mul_nonneg (sub_nonneg.mpr h1) (sub_nonneg.mpr hp.2)]

end Verif.Features
