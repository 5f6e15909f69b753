import Verif.Lemmas.Memory
import Verif.Props.Sensors

/-!
# Coordinates behave as values

The sensor models and elevation models on objects (`Verif.Model.Memory`) against the ones on values that all other theorems are about, in programs that make, read and write
coordinates and arrays in any order.
-/

namespace Verif.Props.Memory

open Verif Verif.Sensors Verif.Memory Verif.Spec.Memory Verif.Lemmas.Memory
open Verif.Dem (Geo)
open Verif.Loading (compositeModel)

/-- The sensor models of the library, on objects and on values.  `P` pairs the elevation models that programs give to them. -/
inductive Modelled (P : MemElev ℝ → Elev ℝ → Prop) : MemModel ℝ (Dict ℝ) → Verif.Loading.Model → Prop
  | affine (an : Angles ℝ) (geo : List ℝ) (crs : Option (Crs ℝ)) (m i : Affine ℝ) (s : Verif.Loading.Model) (hm : affineMatrix geo = .ok (m, i)) (hs : Sensors.gdalAffine an geo crs = .ok s) :
      Modelled P (Memory.gdalAffine an m i crs) s
  | projective (lstsq : List (Transforms.Row ℝ) → Transforms.Projective ℝ) (world : List (Geo ℝ)) (image : List (ℝ × ℝ)) (t : Transforms.Projective ℝ) (s : Verif.Loading.Model)
      (ht : estimateStacked lstsq (world.map (fun g => (g.longitude, g.latitude))) image = .ok t) (hs : Sensors.projective lstsq world image = .ok s) :
      Modelled P (Memory.projective t) s
  | rpc (minimise : Rpc.Minimiser) (m : Rpc.RpcModel) : Modelled P (Memory.rpc minimise m) (m.model minimise)
  | rsm (earth : Rsm.Earth) (minimise : Rpc.Minimiser) (m : Rsm.PolyModel) : Modelled P (Memory.rsmPoly earth minimise m) (m.model earth minimise)
  | sections (earth : Rsm.Earth) (minimise : Rpc.Minimiser) (s : Rsm.Sectioned) (polys : List (List Rsm.PolyModel)) (hs : s.sections = polys.map (List.map (fun m => m.model earth minimise))) :
      Modelled P (Memory.rsmSectioned earth s (polys.map (List.map (Memory.rsmPoly earth minimise)))) (s.model earth)
  | sicd (G : SicdFiles.Ground) (right : Bool) (summary : MemElev ℝ → Sicd.Lle → Option Sicd.DemSummary) (M : Sicd.Model) (hP : ∀ me e, P me e → TerrainPair G summary me e) :
      Modelled P (Memory.sicd G.geo right summary M) (SicdFiles.sensorOf G right (.model M))
  | chipped (lstsq : List (Transforms.Row ℝ) → Transforms.Projective ℝ) (original chip : List (ℝ × ℝ)) (t : Transforms.Projective ℝ) (m : MemModel ℝ (Dict ℝ)) (full s : Verif.Loading.Model)
      (ht : estimateStacked lstsq original chip = .ok t) (hs : Sensors.chipped lstsq original chip full = .ok s) (hm : Modelled P m full) :
      Modelled P (Memory.chipped t m) s
  | composite (m1 m2 : MemModel ℝ (Dict ℝ)) (s1 s2 : Verif.Loading.Model) (h1 : Modelled P m1 s1) (h2 : Modelled P m2 s2) : Modelled P (Memory.composite m1 m2) (compositeModel s1 s2)

theorem modelled_agrees {P : MemElev ℝ → Elev ℝ → Prop} (hP : ∀ me e, P me e → ElevationOk me e) {m : MemModel ℝ (Dict ℝ)} {s : Verif.Loading.Model} (h : Modelled P m s) : Agrees P m s := by
  induction h with
  | affine an geo crs m i s hm hs =>
    obtain ⟨m', i', h1, h2⟩ := affine_agrees an geo crs s hs P hP
    rw [hm] at h1
    cases h1
    exact h2
  | projective lstsq world image t s ht hs =>
    obtain ⟨t', h1, h2⟩ := projective_agrees lstsq world image s hs P hP
    rw [ht] at h1
    cases h1
    exact h2
  | rpc minimise m => exact rpc_agrees minimise m hP
  | rsm earth minimise m => exact rsmPoly_agrees earth minimise m hP
  | sections earth minimise s polys hs =>
    refine sectioned_agrees earth s _ ?_
    rw [hs]
    unfold SectionsAgree
    rw [List.forall₂_map_left_iff, List.forall₂_map_right_iff, List.forall₂_same]
    intro l _
    rw [List.forall₂_map_left_iff, List.forall₂_map_right_iff, List.forall₂_same]
    intro m _
    exact rsmPoly_agrees earth minimise m hP
  | sicd G right summary M h => exact sicd_agrees G right summary M P h
  | chipped lstsq original chip t m full s ht hs _ ih =>
    obtain ⟨t', h1, h2⟩ := chipped_agrees lstsq original chip full s hs P m ih
    rw [ht] at h1
    cases h1
    exact h2
  | composite m1 m2 s1 s2 _ _ ih1 ih2 => exact composite_agrees m1 m2 s1 s2 ih1 ih2

/-- The interpolation grids of a terrain model, on objects and on values: the tiles' locations come from sensor models of the library. -/
def TilesModelled {A R : Type} (grid : List Char → Except PyErr (MemGrid ℝ)) (d : Verif.Dem.Terrain ℝ A R) : Prop :=
  ∀ id, match d.load id with
    | .error e => grid id = .error e
    | .ok ⟨some f, some m, _⟩ => ∃ mm s, Modelled (fun _ _ => False) mm s ∧ (∀ g, s.worldToImage g = Rpc.raise (m g)) ∧ grid id = .ok (some (f, mm.worldToImage))
    | .ok _ => grid id = .ok none

/-- The elevation models of the library, on objects and on values. -/
inductive ElevationModelled : MemElev ℝ → Elev ℝ → Prop
  | constant (z : ℝ) : ElevationModelled (Memory.constantElevation z) (Sensors.constantElevation z)
  | dem {A R : Type} (d : Verif.Dem.Terrain ℝ A R) (grid : List Char → Except PyErr (MemGrid ℝ)) (hg : TilesModelled grid d) : ElevationModelled (demElevation d.tileId grid) (surface d)

theorem elevation_ok {me : MemElev ℝ} {e : Elev ℝ} (h : ElevationModelled me e) : ElevationOk me e := by
  cases h with
  | constant z => exact constant_ok z
  | dem d grid hg =>
    refine dem_ok d grid fun id => ?_
    have h := hg id
    cases hl : d.load id with
    | error e =>
      rw [hl] at h
      exact h
    | ok gr =>
      rw [hl] at h
      obtain ⟨f, m, su⟩ := gr
      cases f with
      | none => exact h
      | some f =>
        cases m with
        | none => exact h
        | some m =>
          obtain ⟨mm, s, h1, h2, h3⟩ := h
          refine ⟨mm.worldToImage, h3, fun h a g ha => ?_⟩
          rw [← h2]
          exact (modelled_agrees (fun _ _ h => h.elim) h1).worldToImage h a g ha

/-- Sensor models and elevation models of a program, on objects and on values. -/
structure LibraryModelled (P : MemElev ℝ → Elev ℝ → Prop) (L : Library ℝ (Dict ℝ)) (F : Functions ℝ (Dict ℝ)) : Prop where
  pairs : ∀ me e, P me e → ElevationModelled me e
  models : List.Forall₂ (Modelled P) L.models F.models
  elevations : List.Forall₂ P L.elevations F.elevations

theorem library_agrees {P : MemElev ℝ → Elev ℝ → Prop} {L : Library ℝ (Dict ℝ)} {F : Functions ℝ (Dict ℝ)} (hL : LibraryModelled P L F) : LibraryAgrees P L F :=
  ⟨fun me e h => elevation_ok (hL.pairs me e h), hL.models.imp fun _ _ h => modelled_agrees (fun me e h => elevation_ok (hL.pairs me e h)) h, hL.elevations⟩

/-- A library with an affine model (2 by -3 units per pixel), an RPC model, a composite of the two, and a constant elevation; the affine model puts the pixel (3, 4) at (16, 8). -/
theorem example_library (minimise : Rpc.Minimiser) (r : Rpc.RpcModel) : ∃ (L : Library ℝ (Dict ℝ)) (F : Functions ℝ (Dict ℝ)) (s : Verif.Loading.Model),
    LibraryModelled (fun me e => me = Memory.constantElevation 5 ∧ e = Sensors.constantElevation 5) L F ∧
    F.models = [s, r.model minimise, compositeModel s (r.model minimise)] ∧ F.elevations = [Sensors.constantElevation 5] ∧
    ∀ e o, s.imageToWorld (3, 4) e o = Sensors.withElevation e ⟨16, 8, 0⟩ := by
  obtain ⟨s, hs⟩ := (Verif.Props.Sensors.affine_singular_iff (O := Dict ℝ) ⟨id, id⟩ (10 : ℝ) 2 0 20 0 (-3) [] none).2 (by norm_num)
  obtain ⟨m, i, hm⟩ : ∃ m i, affineMatrix [(10 : ℝ), 2, 0, 20, 0, -3] = .ok (m, i) := by
    cases ht : affineMatrix [(10 : ℝ), 2, 0, 20, 0, -3] with
    | error e =>
      unfold Sensors.gdalAffine at hs
      rw [ht] at hs
      cases hs
    | ok mi => exact ⟨mi.1, mi.2, rfl⟩
  set P : MemElev ℝ → Elev ℝ → Prop := fun me e => me = Memory.constantElevation 5 ∧ e = Sensors.constantElevation 5 with hP
  have h1 : Modelled P (Memory.gdalAffine ⟨id, id⟩ m i none) s := .affine _ _ _ _ _ _ hm hs
  have h2 : Modelled P (Memory.rpc minimise r) (r.model minimise) := .rpc _ _
  refine ⟨⟨[Memory.gdalAffine ⟨id, id⟩ m i none, Memory.rpc minimise r, Memory.composite (Memory.gdalAffine ⟨id, id⟩ m i none) (Memory.rpc minimise r)], [Memory.constantElevation 5]⟩,
    ⟨[s, r.model minimise, compositeModel s (r.model minimise)], [Sensors.constantElevation 5]⟩, s, ⟨?_, ?_, ?_⟩, rfl, rfl, ?_⟩
  · rintro me e ⟨rfl, rfl⟩
    exact .constant 5
  · exact .cons h1 (.cons h2 (.cons (.composite _ _ _ _ h1 h2) .nil))
  · exact .cons ⟨rfl, rfl⟩ .nil
  · intro e o
    rw [(Verif.Props.Sensors.affine_position (O := Dict ℝ) ⟨id, id⟩ (10 : ℝ) 2 0 20 0 (-3) [] none s hs 3 4 e o).1 rfl]
    norm_num

/-- Two locations of the same pixel, one of them changed; a coordinate made from an array that is changed afterwards. -/
def exampleProgram : List (Op ℝ (Dict ℝ)) :=
  [.new .image (.values [3, 4]), .imageToWorld 0 0 (some 0) none, .set 1 .longitude 99, .imageToWorld 0 0 (some 0) none, .get 2 .longitude, .get 1 .x, .get 1 .elevation,
    .array [7, 8, 9], .new .world (.variable 3), .setItem 3 0 1, .get 4 .x, .new .geodetic (.values [1, 2]), .get 0 .c]

/-- **C131**: Every program that makes arrays and coordinates, reads and writes their components, sets elevations and converts between image and ground with sensor models of the
library, in any order and going on after exceptions, gets the answers that it gets when every coordinate is a value of its own; at its end all its variables hold the same numbers. -/
theorem coordinates_are_values {P : MemElev ℝ → Elev ℝ → Prop} {L : Library ℝ (Dict ℝ)} {F : Functions ℝ (Dict ℝ)} (hL : LibraryModelled P L F) (ops : List (Op ℝ (Dict ℝ))) :
    ((⟨[], []⟩ : State ℝ).steps L ops).1 = (steps F [] ops).1 ∧ contents ((⟨[], []⟩ : State ℝ).steps L ops).2 = (steps F [] ops).2 := by
  obtain ⟨h1, h2⟩ := steps_follow (library_agrees hL) ops represents_empty
  exact ⟨h1, h2.contents⟩

example (minimise : Rpc.Minimiser) (r : Rpc.RpcModel) : ∃ (L : Library ℝ (Dict ℝ)) (F : Functions ℝ (Dict ℝ)),
    LibraryModelled (fun me e => me = Memory.constantElevation 5 ∧ e = Sensors.constantElevation 5) L F ∧
    ((⟨[], []⟩ : State ℝ).steps L exampleProgram).1 = [.ok none, .ok none, .ok none, .ok none, .ok (some 16), .ok (some 99), .ok (some 5), .ok none, .ok none, .ok none, .ok (some 7),
      .error (.raised .valueError), .ok (some 3)] := by
  obtain ⟨L, F, s, hL, hm, he, hs⟩ := example_library minimise r
  refine ⟨L, F, hL, ?_⟩
  rw [(coordinates_are_values hL exampleProgram).1]
  simp [exampleProgram, steps, step, bindNew, made, fields, component_eq, Kind.component, hm, he, hs, Sensors.withElevation, Sensors.constantElevation, Except.map, triple, readItem, writeItem]

/-- The state after any program. -/
def Reached (L : Library ℝ (Dict ℝ)) (s : State ℝ) : Prop := ∃ ops, s = ((⟨[], []⟩ : State ℝ).steps L ops).2

theorem reached_represents {P : MemElev ℝ → Elev ℝ → Prop} {L : Library ℝ (Dict ℝ)} {F : Functions ℝ (Dict ℝ)} (hL : LibraryModelled P L F) {s : State ℝ} (hs : Reached L s) :
    Represents s (contents s) := by
  obtain ⟨ops, rfl⟩ := hs
  have h2 := (steps_follow (library_agrees hL) ops represents_empty).2
  rw [h2.contents]
  exact h2

theorem bindNew_take {K : Type} (v : Values K) (k : Kind) (r : Except Fail (List K)) : (bindNew v k r).2.take v.length = v := by
  cases r <;> simp [bindNew]

/-- **C131**: Conversions write to no coordinate and no array of the caller, whether they return or raise. -/
theorem conversions_write_nothing {P : MemElev ℝ → Elev ℝ → Prop} {L : Library ℝ (Dict ℝ)} {F : Functions ℝ (Dict ℝ)} (hL : LibraryModelled P L F) {s : State ℝ} (hs : Reached L s)
    (m v : Nat) (e : Option Nat) (o : Option (Dict ℝ)) :
    (contents (s.step L (.imageToWorld m v e o)).2).take s.vars.length = contents s ∧ (contents (s.step L (.worldToImage m v)).2).take s.vars.length = contents s := by
  have hr := reached_represents hL hs
  have hlen : s.vars.length = (contents s).length := hr.length
  constructor
  · rw [(step_follows (library_agrees hL) hr (.imageToWorld m v e o)).2.contents, hlen]
    have hu : ((undefined (contents s)).2).take (contents s).length = contents s := by simp [undefined]
    simp only [step]
    split
    · split
      · exact bindNew_take _ _ _
      · split
        · exact hu
        · exact bindNew_take _ _ _
    · exact hu
  · rw [(step_follows (library_agrees hL) hr (.worldToImage m v)).2.contents, hlen]
    have hu : ((undefined (contents s)).2).take (contents s).length = contents s := by simp [undefined]
    simp only [step]
    split
    · exact bindNew_take _ _ _
    · exact hu

example (minimise : Rpc.Minimiser) (r : Rpc.RpcModel) : ∃ (L : Library ℝ (Dict ℝ)) (s : State ℝ), Reached L s ∧ contents s = [(.image, [3, 4])] ∧
    contents (s.step L (.imageToWorld 0 0 none none)).2 = [(.image, [3, 4]), (.geodetic, [16, 8, 0])] := by
  obtain ⟨L, F, s, hL, hm, he, hs⟩ := example_library minimise r
  have h1 := (coordinates_are_values hL [.new .image (.values [3, 4])]).2
  have h2 := (coordinates_are_values hL [.new .image (.values [3, 4]), .imageToWorld 0 0 none none]).2
  refine ⟨L, _, ⟨[.new .image (.values [3, 4])], rfl⟩, ?_, ?_⟩
  · rw [h1]
    simp [steps, step, bindNew, made, fields]
  · refine Eq.trans ?_ (h2.trans ?_)
    · rfl
    · simp [steps, step, bindNew, made, fields, component_eq, Kind.component, hm, hs, Sensors.withElevation, Except.map, triple]

/-- **C131**: `set_elevation` writes at most to the elevation of its argument: all other variables, and the longitude and latitude of the argument, stay as they are. -/
theorem set_elevation_writes_elevation {P : MemElev ℝ → Elev ℝ → Prop} {L : Library ℝ (Dict ℝ)} {F : Functions ℝ (Dict ℝ)} (hL : LibraryModelled P L F) {s : State ℝ} (hs : Reached L s)
    (e v : Nat) : contents (s.step L (.setElevation e v)).2 = contents s ∨
      ∃ lon lat h h', (contents s)[v]? = some (.geodetic, [lon, lat, h]) ∧ contents (s.step L (.setElevation e v)).2 = (contents s).set v (.geodetic, [lon, lat, h']) := by
  have hr := reached_represents hL hs
  rw [(step_follows (library_agrees hL) hr (.setElevation e v)).2.contents]
  simp only [step]
  split
  · rename_i f lon lat h h1 h2
    cases f ⟨lon, lat, h⟩ with
    | error x => exact Or.inl rfl
    | ok g => exact Or.inr ⟨lon, lat, h, g.elevation, h2, rfl⟩
  · exact Or.inl rfl

example (minimise : Rpc.Minimiser) (r : Rpc.RpcModel) : ∃ (L : Library ℝ (Dict ℝ)) (s : State ℝ), Reached L s ∧ contents s = [(.geodetic, [1, 2, 3]), (.geodetic, [1, 2, 3])] ∧
    contents (s.step L (.setElevation 0 1)).2 = [(.geodetic, [1, 2, 3]), (.geodetic, [1, 2, 5])] := by
  obtain ⟨L, F, s, hL, hm, he, hs⟩ := example_library minimise r
  have h1 := (coordinates_are_values hL [.new .geodetic (.values [1, 2, 3]), .new .geodetic (.variable 0)]).2
  have h2 := (coordinates_are_values hL [.new .geodetic (.values [1, 2, 3]), .new .geodetic (.variable 0), .setElevation 0 1]).2
  refine ⟨L, _, ⟨[.new .geodetic (.values [1, 2, 3]), .new .geodetic (.variable 0)], rfl⟩, ?_, ?_⟩
  · rw [h1]
    simp [steps, step, bindNew, made, fields]
  · refine Eq.trans ?_ (h2.trans ?_)
    · rfl
    · simp [steps, step, bindNew, made, fields, component_eq, Kind.component, he, Sensors.constantElevation]

end Verif.Props.Memory
