import Verif.Spec.Memory

/-!
# Coordinates behave as values
-/

namespace Verif.Lemmas.Memory

open Verif Verif.Sensors Verif.Memory Verif.Spec.Memory
open Verif.Dem (Geo)

set_option linter.unusedSectionVars false

section
variable {K O α β γ δ : Type}

/-! ## Reasoning about computations on the memory -/

/-- The first `n` objects are as before, and none has gone. -/
def Keeps (n : Nat) (h h' : Mem K) : Prop := h.length ≤ h'.length ∧ ∀ i < n, h'[i]? = h[i]?

theorem Keeps.refl (n : Nat) (h : Mem K) : Keeps n h h := ⟨le_refl _, fun _ _ => rfl⟩

theorem Keeps.trans {n m : Nat} {h h' h'' : Mem K} (hn : n ≤ m) (h1 : Keeps m h h') (h2 : Keeps n h' h'') : Keeps n h h'' :=
  ⟨h1.1.trans h2.1, fun i hi => (h2.2 i hi).trans (h1.2 i (lt_of_lt_of_le hi hn))⟩

theorem Keeps.mono {n m : Nat} {h h' : Mem K} (hn : n ≤ m) (h1 : Keeps m h h') : Keeps n h h' := ⟨h1.1, fun i hi => h1.2 i (lt_of_lt_of_le hi hn)⟩

theorem Keeps.get {m : Nat} {h h' : Mem K} (hk : Keeps m h h') {i : Nat} {vs : List K} (hi : i < m) (hv : h[i]? = some vs) : h'[i]? = some vs := by rw [hk.2 i hi, hv]

theorem lt_of_get {h : Mem K} {i : Nat} {vs : List K} (hv : h[i]? = some vs) : i < h.length := by
  by_contra hc
  rw [List.getElem?_eq_none (by omega)] at hv
  cases hv

/-- The computation `x` does on the memory `h` what `r` is for values: the same exception, or a result that stands for the value (`Q`).  The first `n` objects stay as they are. -/
def Runs (n : Nat) (x : M K α) (h : Mem K) (r : Except Fail β) (Q : α → β → Mem K → Prop) : Prop :=
  Keeps n h (x h).2 ∧ match r with
    | .error f => (x h).1 = .error f
    | .ok b => ∃ a, (x h).1 = .ok a ∧ Q a b (x h).2

/-- The result is the value. -/
def Same : α → α → Mem K → Prop := fun a b _ => a = b

/-- The result is a new object with these components. -/
def New (n : Nat) : Nat → List K → Mem K → Prop := fun a vs h => n ≤ a ∧ h[a]? = some vs

/-- The result is a new object, or one that was there before. -/
def Object : Nat → List K → Mem K → Prop := fun a vs h => h[a]? = some vs

theorem Runs.mono {n m : Nat} {x : M K α} {h : Mem K} {r : Except Fail β} {Q Q' : α → β → Mem K → Prop} (hn : n ≤ m) (hx : Runs m x h r Q)
    (hQ : ∀ a b h', Q a b h' → Q' a b h') : Runs n x h r Q' := by
  refine ⟨hx.1.mono hn, ?_⟩
  have h2 := hx.2
  cases r with
  | error f => exact h2
  | ok b =>
    obtain ⟨a, h3, h4⟩ := h2
    exact ⟨a, h3, hQ _ _ _ h4⟩

theorem bind_eq (x : M K α) (f : α → M K γ) (h : Mem K) : (x >>= f) h = match x h with
    | (.error e, h) => (.error e, h)
    | (.ok a, h) => f a h := rfl

theorem runs_bind {n m : Nat} {x : M K α} {f : α → M K γ} {h : Mem K} {r : Except Fail β} {s : β → Except Fail δ} {Q : α → β → Mem K → Prop} {Q' : γ → δ → Mem K → Prop}
    (hn : n ≤ m) (hx : Runs m x h r Q) (hf : ∀ b, r = .ok b → ∀ a h', Keeps m h h' → Q a b h' → Runs n (f a) h' (s b) Q') : Runs n (x >>= f) h (r >>= s) Q' := by
  obtain ⟨h1, h2⟩ := hx
  have hb : (x >>= f) h = match x h with
    | (.error e, h) => (.error e, h)
    | (.ok a, h) => f a h := rfl
  unfold Runs
  rw [hb]
  rcases hx' : x h with ⟨o, h'⟩
  rw [hx'] at h1 h2
  cases r with
  | error e =>
    simp only at h2
    subst h2
    exact ⟨h1.mono hn, rfl⟩
  | ok b =>
    obtain ⟨a, h3, h4⟩ := h2
    simp only at h3 h4
    subst h3
    obtain ⟨h5, h6⟩ := hf b rfl a h' h1 h4
    exact ⟨Keeps.trans hn h1 h5, h6⟩

/-- A computation that only reads. -/
theorem runs_read {n : Nat} {x : M K α} {f : α → M K γ} {h : Mem K} {a : α} {r : Except Fail δ} {Q' : γ → δ → Mem K → Prop} (hx : x h = (.ok a, h)) (hf : Runs n (f a) h r Q') :
    Runs n (x >>= f) h r Q' := by
  have hb : (x >>= f) h = match x h with
    | (.error e, h) => (.error e, h)
    | (.ok a, h) => f a h := rfl
  unfold Runs
  rw [hb, hx]
  exact hf

theorem runs_lift {n : Nat} {y : Except Fail β} {f : β → M K γ} {h : Mem K} {s : β → Except Fail δ} {Q' : γ → δ → Mem K → Prop}
    (hf : ∀ b, y = .ok b → Runs n (f b) h (s b) Q') : Runs n (lift y >>= f) h (y >>= s) Q' := by
  cases y with
  | error e => exact ⟨Keeps.refl _ _, rfl⟩
  | ok b => exact hf b rfl

theorem runs_pure {n : Nat} {a : α} {b : β} {h : Mem K} {Q : α → β → Mem K → Prop} (hQ : Q a b h) : Runs n (pure a : M K α) h (.ok b) Q := ⟨Keeps.refl _ _, a, rfl, hQ⟩

theorem runs_raised {n : Nat} {e : PyErr} {h : Mem K} {Q : α → β → Mem K → Prop} : Runs n (raised e : M K α) h (.error (.raised e)) Q := ⟨Keeps.refl _ _, rfl⟩

theorem alloc_keeps (h : Mem K) (vs : List K) : Keeps h.length h (h ++ [vs]) := ⟨by simp, fun i hi => List.getElem?_append_left hi⟩

theorem runs_alloc {n : Nat} {h : Mem K} {vs : List K} (hn : n ≤ h.length) : Runs n (alloc vs) h (.ok vs) (New n) :=
  ⟨(alloc_keeps h vs).mono hn, h.length, rfl, hn, by simp [alloc]⟩

/-- A new array, and what follows. -/
theorem runs_alloc_bind {n : Nat} {h : Mem K} {vs : List K} {f : Nat → M K γ} {r : Except Fail δ} {Q' : γ → δ → Mem K → Prop} (hn : n ≤ h.length)
    (hf : Runs n (f h.length) (h ++ [vs]) r Q') : Runs n (alloc vs >>= f) h r Q' := by
  have hb : (alloc vs >>= f) h = f h.length (h ++ [vs]) := rfl
  unfold Runs at hf ⊢
  rw [hb]
  exact ⟨Keeps.trans hn (alloc_keeps h vs) hf.1, hf.2⟩

theorem construct_some [Zero K] {k : Nat} {vs : List K} (hl : vs.length = k) : (construct k (some vs) : M K Nat) = alloc vs := by
  unfold construct
  simp [hl]

theorem construct_bad [Zero K] {k : Nat} {vs : List K} (hl : vs.length ≠ k) : (construct k (some vs) : M K Nat) = raised .valueError := by
  unfold construct
  simp [hl]

theorem world_alloc [Zero K] (a b c : K) : (worldCoordinate (some [a, b, c]) : M K Nat) = alloc [a, b, c] := construct_some rfl

theorem image_alloc [Zero K] (a b : K) : (imageCoordinate (some [a, b]) : M K Nat) = alloc [a, b] := construct_some rfl

theorem last_get (h : Mem K) (vs : List K) : (h ++ [vs])[h.length]? = some vs := by simp

theorem load_eq {h : Mem K} {a : Nat} {vs : List K} (ha : h[a]? = some vs) : load a h = (.ok vs, h) := by
  unfold load
  rw [ha]

theorem read_bind {x : M K α} {f : α → M K γ} {h : Mem K} {a : α} (hx : x h = (.ok a, h)) : (x >>= f) h = f a h := by
  have hb : (x >>= f) h = match x h with
    | (.error e, h) => (.error e, h)
    | (.ok a, h) => f a h := rfl
  rw [hb, hx]

theorem item_eq {h : Mem K} {a i : Nat} {vs : List K} {v : K} (ha : h[a]? = some vs) (hv : vs[i]? = some v) : item a i h = (.ok v, h) := by
  refine (read_bind (load_eq ha)).trans ?_
  simp only [hv]
  rfl

theorem item_none {h : Mem K} {a i : Nat} {vs : List K} (ha : h[a]? = some vs) (hv : vs[i]? = none) : item a i h = (.error (.raised .indexError), h) := by
  refine (read_bind (load_eq ha)).trans ?_
  simp only [hv]
  rfl

theorem setItem_eq {h : Mem K} {a i : Nat} {vs : List K} (v : K) (ha : h[a]? = some vs) (hi : i < vs.length) : setItem a i v h = (.ok (), h.set a (vs.set i v)) := by
  refine (read_bind (load_eq ha)).trans ?_
  exact congrFun (if_pos hi) h

theorem setItem_bad {h : Mem K} {a i : Nat} {vs : List K} (v : K) (ha : h[a]? = some vs) (hi : ¬ i < vs.length) :
    setItem a i v h = (.error (.raised .indexError), h) := by
  refine (read_bind (load_eq ha)).trans ?_
  exact congrFun (if_neg hi) h

theorem x_eq {h : Mem K} {a : Nat} {v : K} {vs : List K} (ha : h[a]? = some (v :: vs)) : Memory.x a h = (.ok v, h) := item_eq ha rfl
theorem y_eq {h : Mem K} {a : Nat} {u v : K} {vs : List K} (ha : h[a]? = some (u :: v :: vs)) : Memory.y a h = (.ok v, h) := item_eq ha rfl
theorem z_eq {h : Mem K} {a : Nat} {u v w : K} {vs : List K} (ha : h[a]? = some (u :: v :: w :: vs)) : Memory.z a h = (.ok w, h) := item_eq ha rfl

theorem geodetic_eq {h : Mem K} {a : Nat} {g : Geo K} (ha : h[a]? = some (triple g)) : geodetic a h = (.ok g, h) :=
  (read_bind (x := longitude a) (x_eq ha)).trans ((read_bind (x := latitude a) (y_eq ha)).trans ((read_bind (x := elevation a) (z_eq ha)).trans rfl))

theorem pixel_eq {h : Mem K} {a : Nat} {p : K × K} (ha : h[a]? = some (pair p)) : pixel a h = (.ok p, h) :=
  (read_bind (x := c a) (x_eq ha)).trans ((read_bind (x := r a) (y_eq ha)).trans rfl)

/-! ## Elevation models -/

/-- `set_elevation` writes to the elevation of its argument what the function of values gives, and nothing else; when it raises, nothing is written. -/
def ElevationOk (me : MemElev K) (e : Elev K) : Prop :=
  ∀ (h : Mem K) (a : Nat) (g : Geo K), h[a]? = some (triple g) →
    h.length ≤ (me a h).2.length ∧ (∀ i < h.length, i ≠ a → (me a h).2[i]? = h[i]?) ∧
    match e g with
    | .error f => (me a h).1 = .error f ∧ (me a h).2[a]? = some (triple g)
    | .ok g' => (me a h).1 = .ok () ∧ g'.longitude = g.longitude ∧ g'.latitude = g.latitude ∧ (me a h).2[a]? = some (triple g')

/-- The elevation of an object made since, and what follows. -/
theorem runs_elevation {n : Nat} {me : MemElev K} {e : Elev K} (he : ElevationOk me e) {h : Mem K} {b : Nat} {g : Geo K} (hb : h[b]? = some (triple g)) (hn : n ≤ b) {f : Unit → M K γ}
    {s : Geo K → Except Fail δ} {Q' : γ → δ → Mem K → Prop}
    (hf : ∀ g', e g = .ok g' → ∀ h', h.length ≤ h'.length → (∀ i < h.length, i ≠ b → h'[i]? = h[i]?) → h'[b]? = some (triple g') → Runs n (f ()) h' (s g') Q') :
    Runs n (me b >>= f) h (e g >>= s) Q' := by
  obtain ⟨h1, h2, h3⟩ := he h b g hb
  have hlen : b < h.length := lt_of_get hb
  have hk : Keeps n h (me b h).2 := ⟨h1, fun i hi => h2 i (by omega) (by omega)⟩
  unfold Runs
  rw [bind_eq]
  rcases hr : me b h with ⟨o, h'⟩
  rw [hr] at h1 h2 h3 hk
  cases heg : e g with
  | error x =>
    rw [heg] at h3
    obtain ⟨h4, -⟩ := h3
    simp only at h4
    subst h4
    exact ⟨hk, rfl⟩
  | ok g' =>
    rw [heg] at h3
    obtain ⟨h4, -, -, h5⟩ := h3
    simp only at h4 h5
    subst h4
    obtain ⟨h6, h7⟩ := hf g' heg h' h1 h2 h5
    exact ⟨Keeps.trans (le_refl _) hk h6, h7⟩

theorem constant_ok (z : K) : ElevationOk (Memory.constantElevation z) (Sensors.constantElevation z) := by
  intro h a g ha
  have heq : Memory.constantElevation z a h = (.ok (), h.set a (triple { g with elevation := z })) := by
    unfold Memory.constantElevation setElevation
    rw [setItem_eq z ha (by simp [triple])]
    rfl
  rw [heq]
  have hlen : a < h.length := lt_of_get ha
  refine ⟨by simp, fun i _ hi => ?_, rfl, rfl, rfl, ?_⟩
  · exact List.getElem?_set_ne (Ne.symm hi)
  · simp only [List.getElem?_set, if_true, if_pos hlen]

/-- Optional elevation models. -/
def Optionally (P : MemElev K → Elev K → Prop) : Option (MemElev K) → Option (Elev K) → Prop
  | none, none => True
  | some me, some e => P me e
  | _, _ => False

theorem runs_withElevation {n : Nat} {me : Option (MemElev K)} {e : Option (Elev K)} (he : Optionally ElevationOk me e) {h : Mem K} {b : Nat} {g : Geo K} (hb : h[b]? = some (triple g))
    (hn : n ≤ b) {f : Unit → M K γ} {s : Geo K → Except Fail δ} {Q' : γ → δ → Mem K → Prop}
    (hf : ∀ g', Sensors.withElevation e g = .ok g' → ∀ h', h.length ≤ h'.length → (∀ i < h.length, i ≠ b → h'[i]? = h[i]?) → h'[b]? = some (triple g') → Runs n (f ()) h' (s g') Q') :
    Runs n (Memory.withElevation me b >>= f) h (Sensors.withElevation e g >>= s) Q' := by
  match me, e, he with
  | none, none, _ => exact runs_read (a := ()) rfl (hf g rfl h (le_refl _) (fun _ _ _ => rfl) hb)
  | some me, some e, he => exact runs_elevation he hb hn hf

/-! ## Sensor models -/

/-- A sensor model on objects that does what the sensor model on values does, for elevation models that are paired by `P`: results are new objects, and no object that was there
before is written to, whatever the outcome. -/
structure Agrees (P : MemElev K → Elev K → Prop) (m : MemModel K O) (s : SensorModel K O) : Prop where
  imageToWorld : ∀ (h : Mem K) (a : Nat) (p : K × K) (me : Option (MemElev K)) (e : Option (Elev K)) (o : Option O), h[a]? = some (pair p) → Optionally P me e →
    Runs h.length (m.imageToWorld a me o) h ((s.imageToWorld p e o).map triple) (New h.length)
  worldToImage : ∀ (h : Mem K) (a : Nat) (g : Geo K), h[a]? = some (triple g) → Runs h.length (m.worldToImage a) h ((s.worldToImage g).map pair) (New h.length)

theorem Optionally.imp {P Q : MemElev K → Elev K → Prop} (hPQ : ∀ me e, P me e → Q me e) {me : Option (MemElev K)} {e : Option (Elev K)} (h : Optionally P me e) : Optionally Q me e := by
  match me, e, h with
  | none, none, _ => trivial
  | some me, some e, h => exact hPQ me e h

/-- The elevation of the object made before, and the object. -/
theorem runs_with {n : Nat} {me : Option (MemElev K)} {e : Option (Elev K)} (he : Optionally ElevationOk me e) {h : Mem K} {b : Nat} {g : Geo K} (hb : h[b]? = some (triple g)) (hn : n ≤ b) :
    Runs n (do Memory.withElevation me b; pure b) h ((Sensors.withElevation e g).map triple) (New n) := by
  have := runs_withElevation (γ := Nat) (f := fun _ => pure b) (s := fun g' => Except.ok (triple g')) he hb hn (Q' := New n)
    (fun g' _ h' _ _ hb' => runs_pure ⟨hn, hb'⟩)
  have hmap : (Sensors.withElevation e g).map triple = (Sensors.withElevation e g >>= fun g' => Except.ok (triple g')) := by
    cases Sensors.withElevation e g <;> rfl
  rw [hmap]
  exact this

theorem map_bind (x : Except Fail α) (f : α → Except Fail β) (g : β → γ) : (x >>= f).map g = x >>= fun a => (f a).map g := by cases x <;> rfl

end

section
variable {K O : Type} [Field K] [LinearOrder K]
open Verif.Transforms

theorem projective_agrees (lstsq : List (Row K) → Projective K) (world : List (Geo K)) (image : List (K × K)) (s : SensorModel K O) (hs : Sensors.projective lstsq world image = .ok s)
    (P : MemElev K → Elev K → Prop) (hP : ∀ me e, P me e → ElevationOk me e) :
    ∃ t, estimateStacked lstsq (world.map (fun g => (g.longitude, g.latitude))) image = .ok t ∧ Agrees P (Memory.projective t) s := by
  unfold Sensors.projective at hs
  cases ht : estimateStacked lstsq (world.map (fun g => (g.longitude, g.latitude))) image with
  | error e => rw [ht] at hs; cases hs
  | ok t =>
    rw [ht] at hs
    cases hs
    refine ⟨t, rfl, ⟨?_, ?_⟩⟩
    · intro h a p me e o ha he
      refine runs_read (pixel_eq ha) ?_
      rw [map_bind]
      refine runs_lift fun q _ => ?_
      rw [world_alloc]
      refine runs_alloc_bind (le_refl _) ?_
      exact runs_with (he.imp hP) (g := ⟨q.1, q.2, 0⟩) (last_get _ _) (le_refl _)
    · intro h a g ha
      refine runs_read (item_eq ha rfl : x a h = _) (runs_read (item_eq ha rfl : y a h = _) ?_)
      have : (finite (t.forward (g.longitude, g.latitude))).map pair = (finite (t.forward (g.longitude, g.latitude)) >>= fun p => Except.ok (pair p)) := by
        cases finite (t.forward (g.longitude, g.latitude)) <;> rfl
      rw [this]
      refine runs_lift fun p _ => ?_
      rw [image_alloc]
      exact runs_alloc (le_refl _)

theorem chipped_agrees (lstsq : List (Row K) → Projective K) (original chip : List (K × K)) (full s : SensorModel K O) (hs : Sensors.chipped lstsq original chip full = .ok s)
    (P : MemElev K → Elev K → Prop) (m : MemModel K O) (hm : Agrees P m full) :
    ∃ t, estimateStacked lstsq original chip = .ok t ∧ Agrees P (Memory.chipped t m) s := by
  unfold Sensors.chipped at hs
  cases ht : estimateStacked lstsq original chip with
  | error e => rw [ht] at hs; cases hs
  | ok t =>
    rw [ht] at hs
    cases hs
    refine ⟨t, rfl, ⟨?_, ?_⟩⟩
    · intro h a p me e o ha he
      refine runs_read (pixel_eq ha) ?_
      rw [map_bind]
      refine runs_lift fun q _ => ?_
      rw [image_alloc]
      refine runs_alloc_bind (le_refl _) ?_
      exact (hm.imageToWorld _ _ q me e o (last_get _ _) he).mono (by simp) (fun a b h' hq => ⟨by have := hq.1; simp at this; omega, hq.2⟩)
    · intro h a g ha
      rw [map_bind]
      have hw := hm.worldToImage h a g ha
      have : (full.worldToImage g >>= fun q => (finite (t.forward q)).map pair) =
          ((full.worldToImage g).map pair >>= fun vs => (finite (t.forward (vs.getD 0 0, vs.getD 1 0))).map pair) := by
        cases full.worldToImage g <;> rfl
      rw [this]
      refine runs_bind (le_refl _) hw fun vs hvs b h' hk hb => ?_
      obtain ⟨q, rfl⟩ : ∃ q : K × K, vs = pair q := by
        cases hq : full.worldToImage g with
        | error e => rw [hq] at hvs; cases hvs
        | ok q => rw [hq] at hvs; cases hvs; exact ⟨q, rfl⟩
      refine runs_read (pixel_eq hb.2) ?_
      have h2 : (finite (t.forward ((pair q).getD 0 0, (pair q).getD 1 0))).map pair = (finite (t.forward q) >>= fun p => Except.ok (pair p)) := by
        have : ((pair q).getD 0 0, (pair q).getD 1 0) = q := rfl
        rw [this]
        cases finite (t.forward q) <;> rfl
      rw [h2]
      refine runs_lift fun p _ => ?_
      rw [image_alloc]
      exact runs_alloc hk.1

theorem affine_agrees (an : Angles K) (geo : List K) (crs : Option (Crs K)) (s : SensorModel K O) (hs : Sensors.gdalAffine an geo crs = .ok s)
    (P : MemElev K → Elev K → Prop) (hP : ∀ me e, P me e → ElevationOk me e) : ∃ m i, affineMatrix geo = .ok (m, i) ∧ Agrees P (Memory.gdalAffine an m i crs) s := by
  unfold Sensors.gdalAffine at hs
  cases ht : affineMatrix geo with
  | error e => rw [ht] at hs; cases hs
  | ok mi =>
    obtain ⟨m, i⟩ := mi
    rw [ht] at hs
    cases hs
    refine ⟨m, i, rfl, ⟨?_, ?_⟩⟩
    · intro h a p me e o ha he
      refine runs_read (pixel_eq ha) ?_
      simp only
      rw [map_bind]
      refine runs_lift fun q _ => ?_
      obtain ⟨lon, lat, w⟩ := q
      simp only
      rw [world_alloc]
      refine runs_alloc_bind (le_refl _) ?_
      exact runs_with (he.imp hP) (g := ⟨an.rad lon, an.rad lat, 0⟩) (last_get _ _) (le_refl _)
    · intro h a g ha
      refine runs_read (x := longitude a) (x_eq ha) (runs_read (x := latitude a) (y_eq ha) ?_)
      simp only
      rw [map_bind]
      refine runs_lift fun q _ => ?_
      obtain ⟨u, v, w⟩ := q
      simp only
      rw [image_alloc]
      exact runs_alloc (le_refl _)

end

section
open Verif.Rpc Verif.Rsm Verif.Loading

variable {P : MemElev ℝ → Elev ℝ → Prop}

theorem composite_agrees (m1 m2 : MemModel ℝ (Dict ℝ)) (s1 s2 : Model) (h1 : Agrees P m1 s1) (h2 : Agrees P m2 s2) : Agrees P (Memory.composite m1 m2) (compositeModel s1 s2) := by
  refine ⟨?_, h2.worldToImage⟩
  intro h a p me e o ha he
  have hw := h1.imageToWorld h a p me e o ha he
  have : ((compositeModel s1 s2).imageToWorld p e o).map triple =
      ((s1.imageToWorld p e o).map triple >>= fun vs => (s2.imageToWorld p e (some (guessFrom ⟨vs.getD 0 0, vs.getD 1 0, 0⟩ o))).map triple) := by
    have hc : (compositeModel s1 s2).imageToWorld p e o = (s1.imageToWorld p e o >>= fun g => s2.imageToWorld p e (some (guessFrom g o))) := rfl
    rw [hc]
    cases s1.imageToWorld p e o <;> rfl
  rw [this]
  refine runs_bind (le_refl _) hw fun vs hvs b h' hk hb => ?_
  obtain ⟨g, rfl⟩ : ∃ g : Geo ℝ, vs = triple g := by
    cases hq : s1.imageToWorld p e o with
    | error e => rw [hq] at hvs; cases hvs
    | ok q => rw [hq] at hvs; cases hvs; exact ⟨q, rfl⟩
  refine runs_read (x := longitude b) (x_eq hb.2) (runs_read (x := latitude b) (y_eq hb.2) ?_)
  refine (h2.imageToWorld h' a p me e _ (hk.get (lt_of_get ha) ha) he).mono hk.1 ?_
  rintro a b h'' ⟨h3, h4⟩
  exact ⟨hk.1.trans h3, h4⟩

/-! ## Searches -/

theorem runs_onSurface {n : Nat} {dflt : MemElev ℝ} {d : Elev ℝ} (hd : ElevationOk dflt d) {me : Option (MemElev ℝ)} {e : Option (Elev ℝ)} (he : Optionally ElevationOk me e)
    {h : Mem ℝ} (hn : n ≤ h.length) (p : ℝ × ℝ) : Runs n (Memory.onSurface dflt me p) h ((Rpc.onSurface d e p).map triple) (New n) := by
  unfold Memory.onSurface Rpc.onSurface
  rw [world_alloc, map_bind]
  refine runs_alloc_bind hn ?_
  refine runs_elevation hd (g := ⟨p.1, p.2, 0⟩) (last_get _ _) hn fun g' _ h' hlen _ hb => ?_
  exact runs_with he hb hn

theorem ok_of_map {α β : Type} {x : Except Fail α} {f : α → β} {b : β} (h : x.map f = .ok b) : ∃ a, x = .ok a ∧ b = f a := by
  cases x with
  | error e => cases h
  | ok a => cases h; exact ⟨a, rfl, rfl⟩

theorem runs_objective {n : Nat} {w : Nat → M ℝ Nat} {W : Geo ℝ → Except Fail (ℝ × ℝ)}
    (hw : ∀ (h : Mem ℝ) (a : Nat) (g : Geo ℝ), h[a]? = some (triple g) → Runs h.length (w a) h ((W g).map pair) (New h.length)) {dflt : MemElev ℝ} {d : Elev ℝ}
    (hd : ElevationOk dflt d) {me : Option (MemElev ℝ)} {e : Option (Elev ℝ)} (he : Optionally ElevationOk me e) {h : Mem ℝ} (hn : n ≤ h.length) {a : Nat} {t : ℝ × ℝ}
    (ha : h[a]? = some (pair t)) (han : a < n) (p : ℝ × ℝ) : Runs n (Memory.objective w dflt me a p) h (Rpc.objective W d e t p).2 Same := by
  have hval : (Rpc.objective W d e t p).2 = ((Rpc.onSurface d e p).map triple >>= fun vs =>
      (W ⟨vs.getD 0 0, vs.getD 1 0, vs.getD 2 0⟩).map pair >>= fun ws => Except.ok (Real.sqrt ((t.1 - ws.getD 0 0) ^ 2 + (t.2 - ws.getD 1 0) ^ 2))) := by
    unfold Rpc.objective
    cases hg : Rpc.onSurface d e p with
    | error f => rfl
    | ok g =>
      have hgg : W g = W ⟨(triple g).getD 0 0, (triple g).getD 1 0, (triple g).getD 2 0⟩ := rfl
      simp only
      rw [hgg]
      show _ = (W ⟨(triple g).getD 0 0, (triple g).getD 1 0, (triple g).getD 2 0⟩).map pair >>= _
      cases W ⟨(triple g).getD 0 0, (triple g).getD 1 0, (triple g).getD 2 0⟩ <;> rfl
  rw [hval]
  unfold Memory.objective
  refine runs_bind (le_refl _) (runs_onSurface hd he hn p) fun vs hvs b h' hk hb => ?_
  obtain ⟨g, -, rfl⟩ := ok_of_map hvs
  refine runs_bind (hn.trans hk.1) (hw h' b g hb.2) fun ws hws q h'' hk' hq => ?_
  obtain ⟨s, -, rfl⟩ := ok_of_map hws
  refine runs_read (pixel_eq hq.2) (runs_read (pixel_eq (hk'.get (lt_of_lt_of_le han (hn.trans hk.1)) (hk.get han ha))) ?_)
  exact runs_pure rfl

theorem runs_search {n : Nat} {f : ℝ × ℝ → M ℝ ℝ} {F : ℝ × ℝ → List (Geo ℝ) × Except Fail ℝ} {a : Nat} {t : ℝ × ℝ} (han : a < n)
    (hf : ∀ (h : Mem ℝ) (p : ℝ × ℝ), n ≤ h.length → h[a]? = some (pair t) → Runs n (f p) h (F p).2 Same) (S : Search) :
    ∀ (h : Mem ℝ), n ≤ h.length → h[a]? = some (pair t) → Runs n (runSearch f S) h (S.run F).2 Same := by
  induction S with
  | done p => intro h _ _; exact runs_pure rfl
  | ask p next ih =>
    intro h hn ha
    obtain ⟨h1, h2⟩ := hf h p hn ha
    have hrun : runSearch f (.ask p next) h = match f p h with
      | (.error (.raised e), h) => (.error (.raised e), h)
      | (.error .notFinite, h) => runSearch f (next none) h
      | (.ok v, h) => runSearch f (next (some v)) h := by
      rw [runSearch]
      rfl
    unfold Runs
    rw [hrun]
    rcases hfp : f p h with ⟨o, h'⟩
    rw [hfp] at h1 h2
    have hn' : n ≤ h'.length := hn.trans h1.1
    have ha' : h'[a]? = some (pair t) := h1.get han ha
    rcases hF : F p with ⟨l, r⟩
    rw [hF] at h2
    match r, h2 with
    | .error (.raised e), h2 =>
      simp only at h2
      subst h2
      have : (Search.run F (.ask p next)).2 = .error (.raised e) := by
        rw [Search.run, hF]
      rw [this]
      exact ⟨h1, rfl⟩
    | .error .notFinite, h2 =>
      simp only at h2
      subst h2
      have : (Search.run F (.ask p next)).2 = ((next none).run F).2 := by
        rw [Search.run, hF]
      rw [this]
      obtain ⟨h3, h4⟩ := ih none h' hn' ha'
      exact ⟨Keeps.trans (le_refl _) h1 h3, h4⟩
    | .ok v, h2 =>
      obtain ⟨v', h5, h6⟩ := h2
      simp only at h5
      cases h6
      subst h5
      have : (Search.run F (.ask p next)).2 = ((next (some v)).run F).2 := by
        rw [Search.run, hF]
      rw [this]
      obtain ⟨h3, h4⟩ := ih (some v) h' hn' ha'
      exact ⟨Keeps.trans (le_refl _) h1 h3, h4⟩

theorem runs_searchImageToWorld (minimise : Minimiser) (bounds : Option ((ℝ × ℝ) × ℝ × ℝ)) {w : Nat → M ℝ Nat} {W : Geo ℝ → Except Fail (ℝ × ℝ)}
    (hw : ∀ (h : Mem ℝ) (a : Nat) (g : Geo ℝ), h[a]? = some (triple g) → Runs h.length (w a) h ((W g).map pair) (New h.length)) {dflt : MemElev ℝ} {d : Elev ℝ}
    (hd : ElevationOk dflt d) (start : ℝ × ℝ) (size : ℝ) {me : Option (MemElev ℝ)} {e : Option (Elev ℝ)} (he : Optionally ElevationOk me e) (h : Mem ℝ) (a : Nat) (t : ℝ × ℝ)
    (ha : h[a]? = some (pair t)) (o : Option (Dict ℝ)) :
    Runs h.length (Memory.searchImageToWorld minimise bounds w dflt start size a me o) h ((Rpc.searchImageToWorld minimise bounds W d start size t e o).2.map triple) (New h.length) := by
  have hval : (Rpc.searchImageToWorld minimise bounds W d start size t e o).2.map triple = (raise (startFrom o start) >>= fun st => raise (distanceFrom o size) >>= fun sz =>
      ((minimise st bounds (equilateralTriangle st sz)).run (Rpc.objective W d e t)).2 >>= fun p => (Rpc.onSurface d e p).map triple) := by
    unfold Rpc.searchImageToWorld
    cases startFrom o start with
    | error x => rfl
    | ok st =>
      cases distanceFrom o size with
      | error x => rfl
      | ok sz =>
        show _ = ((minimise st bounds (equilateralTriangle st sz)).run (Rpc.objective W d e t)).2 >>= _
        simp only
        rcases (minimise st bounds (equilateralTriangle st sz)).run (Rpc.objective W d e t) with ⟨l, r⟩
        cases r <;> rfl
  rw [hval]
  unfold Memory.searchImageToWorld
  refine runs_lift fun st _ => runs_lift fun sz _ => ?_
  refine runs_bind (le_refl _) (runs_search (lt_of_get ha) (fun h' p hn ha' => runs_objective hw hd he hn ha' (lt_of_get ha) p) _ h (le_refl _) ha) fun p _ p' h' hk hp => ?_
  cases hp
  exact runs_onSurface hd he hk.1 _

/-! ## RPC -/

theorem rpcPolynomialAt_eq {h : Mem ℝ} {b : Nat} {l p t : ℝ} (hb : h[b]? = some [l, p, t]) (cs : List ℝ) : rpcPolynomialAt cs b h = (raise (rpcPolynomial cs l p t), h) := by
  unfold rpcPolynomialAt
  exact (read_bind (x_eq hb)).trans ((read_bind (y_eq hb)).trans ((read_bind (z_eq hb)).trans rfl))

/-- A computation that only reads, and may raise. -/
theorem runs_value {n : Nat} {K α γ δ : Type} {x : M K α} {f : α → M K γ} {h : Mem K} {r : Except Fail α} {s : α → Except Fail δ} {Q' : γ → δ → Mem K → Prop} (hx : x h = (r, h))
    (hf : ∀ b, r = .ok b → Runs n (f b) h (s b) Q') : Runs n (x >>= f) h (r >>= s) Q' := by
  cases r with
  | error e =>
    unfold Runs
    rw [bind_eq, hx]
    exact ⟨Keeps.refl _ _, rfl⟩
  | ok b => exact runs_read hx (hf b rfl)

theorem rpc_worldToImage (m : RpcModel) (h : Mem ℝ) (a : Nat) (g : Geo ℝ) (ha : h[a]? = some (triple g)) :
    Runs h.length (rpcWorldToImage m a) h ((m.worldToImage g).map pair) (New h.length) := by
  unfold rpcWorldToImage RpcModel.worldToImage
  simp only [map_bind]
  refine runs_read (x_eq ha) (runs_lift fun l _ => runs_read (y_eq ha) (runs_lift fun p _ => runs_read (z_eq ha) (runs_lift fun t _ => ?_)))
  rw [world_alloc]
  refine runs_alloc_bind (le_refl _) ?_
  have hb := last_get h [l, p, t]
  refine runs_value (rpcPolynomialAt_eq hb _) fun u1 _ => runs_value (rpcPolynomialAt_eq hb _) fun u2 _ => runs_lift fun cn _ => ?_
  refine runs_value (rpcPolynomialAt_eq hb _) fun u3 _ => runs_value (rpcPolynomialAt_eq hb _) fun u4 _ => runs_lift fun rn _ => ?_
  rw [image_alloc]
  exact runs_alloc (by simp)

theorem rpc_agrees (minimise : Minimiser) (m : RpcModel) (hP : ∀ me e, P me e → ElevationOk me e) : Agrees P (Memory.rpc minimise m) (m.model minimise) :=
  ⟨fun h a p _ _ o ha he => runs_searchImageToWorld minimise none (rpc_worldToImage m) (constant_ok _) _ _ (he.imp hP) h a p ha o, rpc_worldToImage m⟩

/-! ## RSM -/

def list3 (v : Vec) : List ℝ := [v 0, v 1, v 2]

theorem runs_toDomain {n : Nat} (earth : Earth) (f : Frame) (h : Mem ℝ) (hn : n ≤ h.length) (a : Nat) (g : Geo ℝ) (ha : h[a]? = some (triple g)) :
    Runs n (Memory.toDomain earth f a) h ((raise (f.toDomain earth g)).map list3) Object := by
  unfold Memory.toDomain Frame.toDomain
  match hf : f.form with
  | .rectangular =>
    match ho : f.origin, hx : f.axes with
    | some o, some (m, mi) =>
      have hv : (![(list3 (earth.toEcef g)).getD 0 0, (list3 (earth.toEcef g)).getD 1 0, (list3 (earth.toEcef g)).getD 2 0] : Vec) = earth.toEcef g := by
        funext i
        fin_cases i <;> rfl
      have hval : (raise (.ok (m.mulVec (fun i => earth.toEcef g i - o i)))).map list3 = (Except.ok (list3 (earth.toEcef g)) >>= fun vs =>
          (raise (.ok (m.mulVec (fun i => (![vs.getD 0 0, vs.getD 1 0, vs.getD 2 0] : Vec) i - o i)))).map list3) := by
        show _ = (raise (.ok (m.mulVec (fun i => (![(list3 (earth.toEcef g)).getD 0 0, (list3 (earth.toEcef g)).getD 1 0, (list3 (earth.toEcef g)).getD 2 0] : Vec) i - o i)))).map list3
        rw [hv]
      simp only
      rw [hval]
      refine runs_bind hn (Q := New h.length) ?_ ?_
      · unfold geodeticToGeocentric
        refine runs_read (geodetic_eq ha) ?_
        simp only
        rw [world_alloc]
        exact runs_alloc (le_refl _)
      · intro vs hvs b h' hk hb
        cases hvs
        have hg : h'[b]? = some (triple (geoOf (earth.toEcef g))) := hb.2
        rw [hv]
        refine runs_read (geodetic_eq hg) ?_
        have hg2 : vecOf (geoOf (earth.toEcef g)) = earth.toEcef g := by
          funext i
          fin_cases i <;> rfl
        simp only [hg2]
        rw [world_alloc]
        exact (runs_alloc (hn.trans hk.1)).mono (le_refl _) (fun _ _ _ hq => hq.2)
    | none, _ => exact runs_raised
    | some _, none => exact runs_raised
  | .geodetic2pi =>
    refine runs_read (x_eq ha) (runs_read (y_eq ha) (runs_read (z_eq ha) ?_))
    rw [world_alloc]
    exact (runs_alloc hn).mono (le_refl _) (fun _ _ _ hq => hq.2)
  | .geodetic => exact runs_pure ha

theorem rsmPolynomialAt_eq {h : Mem ℝ} {b : Nat} {u v w : ℝ} (hb : h[b]? = some [u, v, w]) (p : RsmPoly ℝ) : rsmPolynomialAt p b h = (raise (p.evaluate u v w), h) := by
  unfold rsmPolynomialAt
  exact (read_bind (x_eq hb)).trans ((read_bind (y_eq hb)).trans ((read_bind (z_eq hb)).trans rfl))

theorem bind_map {α β γ : Type} (x : Except Fail α) (f : α → β) (g : β → Except Fail γ) : (x.map f >>= g) = x >>= fun a => g (f a) := by cases x <;> rfl

theorem poly_worldToImage (earth : Earth) (m : PolyModel) (h : Mem ℝ) (a : Nat) (g : Geo ℝ) (ha : h[a]? = some (triple g)) :
    Runs h.length (polyWorldToImage earth m a) h ((m.worldToImage earth g).map pair) (New h.length) := by
  have hval : (m.worldToImage earth g).map pair = ((raise (m.domain.frame.toDomain earth g)).map list3 >>= fun vs =>
      (norm1 (vs.getD 0 0) m.xOff m.xScale >>= fun x => norm1 (vs.getD 1 0) m.yOff m.yScale >>= fun y => norm1 (vs.getD 2 0) m.zOff m.zScale >>= fun z => Except.ok [x, y, z]) >>=
      fun ns => (do
        let row ← npDiv (← raise (m.rowNum.evaluate (ns.getD 0 0) (ns.getD 1 0) (ns.getD 2 0))) (← raise (m.rowDen.evaluate (ns.getD 0 0) (ns.getD 1 0) (ns.getD 2 0)))
        let col ← npDiv (← raise (m.colNum.evaluate (ns.getD 0 0) (ns.getD 1 0) (ns.getD 2 0))) (← raise (m.colDen.evaluate (ns.getD 0 0) (ns.getD 1 0) (ns.getD 2 0)))
        Except.ok (pair (m.denormalizeImage (col, row))))) := by
    unfold PolyModel.worldToImage
    rw [map_bind, bind_map]
    congr 1
    funext v
    unfold PolyModel.domainToImage PolyModel.normalizeWorld
    show _ = ((norm1 (v 0) m.xOff m.xScale >>= fun x => norm1 (v 1) m.yOff m.yScale >>= fun y => norm1 (v 2) m.zOff m.zScale >>= fun z => Except.ok [x, y, z]) >>= _)
    cases norm1 (v 0) m.xOff m.xScale with
    | error e => rfl
    | ok x =>
      cases norm1 (v 1) m.yOff m.yScale with
      | error e => rfl
      | ok y =>
        cases norm1 (v 2) m.zOff m.zScale with
        | error e => rfl
        | ok z =>
          show Except.map pair (do
            let row ← npDiv (← raise (m.rowNum.evaluate x y z)) (← raise (m.rowDen.evaluate x y z))
            let col ← npDiv (← raise (m.colNum.evaluate x y z)) (← raise (m.colDen.evaluate x y z))
            pure (m.denormalizeImage (col, row))) = _
          simp only [map_bind]
          rfl
  rw [hval]
  unfold polyWorldToImage
  refine runs_bind (le_refl _) (runs_toDomain earth m.domain.frame h (le_refl _) a g ha) fun vs hvs d h' hk hd => ?_
  obtain ⟨v, -, rfl⟩ := ok_of_map hvs
  unfold Memory.normalizeWorld
  have hd' : h'[d]? = some [v 0, v 1, v 2] := hd
  refine runs_bind (le_refl _) (Q := New h.length) ?_ ?_
  · refine runs_read (x_eq hd') (runs_lift fun x _ => runs_read (y_eq hd') (runs_lift fun y _ => runs_read (z_eq hd') (runs_lift fun z _ => ?_)))
    rw [world_alloc]
    exact runs_alloc hk.1
  · intro ns hns b h'' hk' hb
    obtain ⟨x, y, z, rfl⟩ : ∃ x y z, ns = [x, y, z] := by
      change (norm1 (v 0) m.xOff m.xScale >>= fun x => norm1 (v 1) m.yOff m.yScale >>= fun y => norm1 (v 2) m.zOff m.zScale >>= fun z => Except.ok [x, y, z]) = _ at hns
      cases h1 : norm1 (v 0) m.xOff m.xScale with
      | error e => rw [h1] at hns; cases hns
      | ok x =>
        cases h2 : norm1 (v 1) m.yOff m.yScale with
        | error e => rw [h1, h2] at hns; cases hns
        | ok y =>
          cases h3 : norm1 (v 2) m.zOff m.zScale with
          | error e => rw [h1, h2, h3] at hns; cases hns
          | ok z => rw [h1, h2, h3] at hns; cases hns; exact ⟨x, y, z, rfl⟩
    have hb' := hb.2
    refine runs_value (rsmPolynomialAt_eq hb' _) fun u1 _ => runs_value (rsmPolynomialAt_eq hb' _) fun u2 _ => runs_lift fun row _ => ?_
    refine runs_value (rsmPolynomialAt_eq hb' _) fun u3 _ => runs_value (rsmPolynomialAt_eq hb' _) fun u4 _ => runs_lift fun col _ => ?_
    rw [image_alloc]
    have hlen := hk.1.trans hk'.1
    refine runs_alloc_bind hlen ?_
    unfold Memory.denormalizeImage
    have hl := last_get h'' [col, row]
    refine runs_read (x := Memory.r _) (y_eq hl) (runs_read (x := Memory.c _) (x_eq hl) ?_)
    simp only
    rw [image_alloc]
    exact runs_alloc (by simp; omega)

theorem rsmPoly_agrees (earth : Earth) (minimise : Minimiser) (m : PolyModel) (hP : ∀ me e, P me e → ElevationOk me e) :
    Agrees P (Memory.rsmPoly earth minimise m) (m.model earth minimise) := by
  refine ⟨fun h a p me e o ha he => ?_, poly_worldToImage earth m⟩
  show Runs h.length ((Memory.rsmPoly earth minimise m).imageToWorld a me o) h ((m.locate earth minimise p e o).2.map triple) (New h.length)
  unfold Memory.rsmPoly PolyModel.locate
  simp only
  match m.domain.vertices[0]?, m.domain.vertices[3]? with
  | some v1, some v4 => exact runs_searchImageToWorld minimise _ (poly_worldToImage earth m) (constant_ok _) _ _ (he.imp hP) h a p ha o
  | none, _ => exact runs_raised
  | some _, none => exact runs_raised

/-- Sections, one by one. -/
def SectionsAgree (P : MemElev ℝ → Elev ℝ → Prop) : List (List (MemModel ℝ (Dict ℝ))) → List (List Model) → Prop := List.Forall₂ (List.Forall₂ (Agrees P))

theorem pyGet_forall {α β : Type} {R : α → β → Prop} {l : List α} {l' : List β} (hl : List.Forall₂ R l l') (i : Int) :
    (∃ e, pyGet l i = .error e ∧ pyGet l' i = .error e) ∨ ∃ a b, pyGet l i = .ok a ∧ pyGet l' i = .ok b ∧ R a b := by
  unfold pyGet
  rw [hl.length_eq]
  cases pyPos l'.length i with
  | error e => exact .inl ⟨e, rfl, rfl⟩
  | ok j =>
    simp only
    have : ∀ {l : List α} {l' : List β}, List.Forall₂ R l l' → ∀ j : Nat, (l[j]? = none ∧ l'[j]? = none) ∨ ∃ a b, l[j]? = some a ∧ l'[j]? = some b ∧ R a b := by
      intro l l' h
      induction h with
      | nil => intro j; exact .inl ⟨by simp, by simp⟩
      | cons hab _ ih =>
        intro j
        cases j with
        | zero => exact .inr ⟨_, _, by simp, by simp, hab⟩
        | succ j => simpa using ih j
    rcases this hl j with ⟨h1, h2⟩ | ⟨a, b, h1, h2, h3⟩
    · rw [h1, h2]; exact .inl ⟨_, rfl, rfl⟩
    · rw [h1, h2]; exact .inr ⟨a, b, rfl, rfl, h3⟩

theorem runs_select {n : Nat} {γ : Type} {δ : Type} {s : Sectioned} {ms : List (List (MemModel ℝ (Dict ℝ)))} (hms : SectionsAgree P ms s.sections) {h : Mem ℝ} {a : Nat} {p : ℝ × ℝ}
    (ha : h[a]? = some (pair p)) {f : MemModel ℝ (Dict ℝ) → M ℝ γ} {t : Model → Except Fail δ} {Q' : γ → δ → Mem ℝ → Prop}
    (hf : ∀ m m', Agrees P m m' → Runs n (f m) h (t m') Q') : Runs n (selectSection s ms a >>= f) h (raise (s.select p) >>= t) Q' := by
  have key : (∃ e, selectSection s ms a h = (.error (.raised e), h) ∧ s.select p = .error e) ∨
      ∃ m m', selectSection s ms a h = (.ok m, h) ∧ s.select p = .ok m' ∧ Agrees P m m' := by
    unfold selectSection Sectioned.select
    have hr := read_bind (f := fun p => lift (raise (s.index p)) >>= fun cr => lift (raise (pyGet ms cr.2)) >>= fun line => lift (raise (pyGet line cr.1))) (pixel_eq ha)
    cases hi : s.index p with
    | error e =>
      left
      refine ⟨e, hr.trans ?_, rfl⟩
      rw [hi]
      rfl
    | ok cr =>
      obtain ⟨col, row⟩ := cr
      rcases pyGet_forall hms row with ⟨e, h1, h2⟩ | ⟨l, l', h1, h2, h3⟩
      · left
        refine ⟨e, hr.trans ?_, ?_⟩
        · rw [hi]
          show (lift (raise (pyGet ms row)) >>= fun line => lift (raise (pyGet line col))) h = _
          rw [h1]
          rfl
        · show (pyGet s.sections row >>= fun line => pyGet line col) = _
          rw [h2]
          rfl
      · rcases pyGet_forall h3 col with ⟨e, h4, h5⟩ | ⟨m, m', h4, h5, h6⟩
        · left
          refine ⟨e, hr.trans ?_, ?_⟩
          · rw [hi]
            show (lift (raise (pyGet ms row)) >>= fun line => lift (raise (pyGet line col))) h = _
            rw [h1]
            show lift (raise (pyGet l col)) h = _
            rw [h4]
            rfl
          · show (pyGet s.sections row >>= fun line => pyGet line col) = _
            rw [h2]
            exact h5
        · right
          refine ⟨m, m', hr.trans ?_, ?_, h6⟩
          · rw [hi]
            show (lift (raise (pyGet ms row)) >>= fun line => lift (raise (pyGet line col))) h = _
            rw [h1]
            show lift (raise (pyGet l col)) h = _
            rw [h4]
            rfl
          · show (pyGet s.sections row >>= fun line => pyGet line col) = _
            rw [h2]
            exact h5
  rcases key with ⟨e, h1, h2⟩ | ⟨m, m', h1, h2, h3⟩
  · rw [h2]
    unfold Runs
    rw [bind_eq, h1]
    exact ⟨Keeps.refl _ _, rfl⟩
  · rw [h2]
    exact runs_read h1 (hf m m' h3)

theorem sectioned_agrees (earth : Earth) (s : Sectioned) (ms : List (List (MemModel ℝ (Dict ℝ)))) (hms : SectionsAgree P ms s.sections) :
    Agrees P (Memory.rsmSectioned earth s ms) (s.model earth) := by
  constructor
  · intro h a p me e o ha he
    have hval : ((s.model earth).imageToWorld p e o).map triple = (raise (s.select p) >>= fun m => (m.imageToWorld p e o).map triple) := by
      rw [← map_bind]
      rfl
    rw [hval]
    exact runs_select hms ha fun m m' hm => hm.imageToWorld h a p me e o ha he
  · intro h a g ha
    have hval : ((s.model earth).worldToImage g).map pair = ((raise (s.frame.toDomain earth g)).map list3 >>= fun vs =>
        raise (lowOrder s.rowPoly (vs.getD 0 0) (vs.getD 1 0) (vs.getD 2 0)) >>= fun row => raise (lowOrder s.colPoly (vs.getD 0 0) (vs.getD 1 0) (vs.getD 2 0)) >>= fun col =>
        raise (s.select (col, row)) >>= fun m => (m.worldToImage g).map pair) := by
      rw [bind_map]
      simp only [← map_bind]
      rfl
    rw [hval]
    refine runs_bind (le_refl _) (runs_toDomain earth s.frame h (le_refl _) a g ha) fun vs hvs d h' hk hd => ?_
    obtain ⟨v, -, rfl⟩ := ok_of_map hvs
    have hd' : h'[d]? = some (triple (geoOf v)) := hd
    refine runs_read (geodetic_eq hd') (runs_lift fun row _ => runs_lift fun col _ => ?_)
    rw [image_alloc]
    refine runs_alloc_bind hk.1 ?_
    refine runs_select hms (p := (col, row)) (last_get _ _) fun m m' hm => ?_
    refine (hm.worldToImage _ a g ?_).mono ?_ ?_
    · rw [List.getElem?_append_left (by have := hk.1; have := lt_of_get ha; omega)]
      exact hk.get (lt_of_get ha) ha
    · simp
      have := hk.1
      omega
    · rintro a b h'' ⟨h1, h2⟩
      refine ⟨?_, h2⟩
      simp at h1
      have := hk.1
      omega

end

/-! ## Terrain -/

section
variable {K A R : Type}
open Verif.Rpc (raise)

/-- The interpolation grids on objects and on values: the same exception, none, or the same surface with models that agree. -/
def GridsAgree (grid : List Char → Except PyErr (MemGrid K)) (d : Verif.Dem.Terrain K A R) : Prop :=
  ∀ id, match d.load id with
    | .error e => grid id = .error e
    | .ok ⟨some f, some m, _⟩ => ∃ w, grid id = .ok (some (f, w)) ∧
        ∀ (h : Mem K) (a : Nat) (g : Geo K), h[a]? = some (triple g) → Runs h.length (w a) h ((raise (m g)).map pair) (New h.length)
    | .ok _ => grid id = .ok none

theorem unchanged_ok {x : M K Unit} {h : Mem K} {a : Nat} {g : Geo K} (ha : h[a]? = some (triple g)) (hx : x h = (.ok (), h)) :
    h.length ≤ (x h).2.length ∧ (∀ i < h.length, i ≠ a → (x h).2[i]? = h[i]?) ∧
    (x h).1 = .ok () ∧ g.longitude = g.longitude ∧ g.latitude = g.latitude ∧ (x h).2[a]? = some (triple g) := by
  rw [hx]
  exact ⟨le_refl _, fun _ _ _ => rfl, rfl, rfl, rfl, ha⟩

theorem unchanged_error {x : M K Unit} {h : Mem K} {a : Nat} {g : Geo K} {f : Fail} (ha : h[a]? = some (triple g)) (hx : x h = (.error f, h)) :
    h.length ≤ (x h).2.length ∧ (∀ i < h.length, i ≠ a → (x h).2[i]? = h[i]?) ∧ (x h).1 = .error f ∧ (x h).2[a]? = some (triple g) := by
  rw [hx]
  exact ⟨le_refl _, fun _ _ _ => rfl, rfl, ha⟩

theorem dem_ok (d : Verif.Dem.Terrain K A R) (grid : List Char → Except PyErr (MemGrid K)) (hg : GridsAgree grid d) : ElevationOk (demElevation d.tileId grid) (surface d) := by
  intro h a g ha
  have hread : demElevation d.tileId grid a h = (match d.tileId g with
      | none => (pure () : M K Unit)
      | some [] => pure ()
      | some id =>
        match grid id with
        | .error e => raised e
        | .ok none => pure ()
        | .ok (some (f, worldToImage)) => do
          let q ← worldToImage a
          let p ← pixel q
          setElevation a (f p.1 p.2)) h := read_bind (geodetic_eq ha)
  unfold surface Verif.Dem.Terrain.tileOf
  rcases ht : d.tileId g with _ | (_ | ⟨c, cs⟩)
  · rw [ht] at hread
    exact unchanged_ok ha hread
  · rw [ht] at hread
    exact unchanged_ok ha hread
  · rw [ht] at hread
    have hgid := hg (c :: cs)
    simp only
    cases hl : d.load (c :: cs) with
    | error e =>
      rw [hl] at hgid
      simp only at hread hgid
      rw [hgid] at hread
      exact unchanged_error ha hread
    | ok gr =>
      rw [hl] at hgid
      obtain ⟨f, m, su⟩ := gr
      have hnone : grid (c :: cs) = .ok none → ∀ g', g' = g → h.length ≤ (demElevation d.tileId grid a h).2.length ∧
          (∀ i < h.length, i ≠ a → (demElevation d.tileId grid a h).2[i]? = h[i]?) ∧
          (demElevation d.tileId grid a h).1 = .ok () ∧ g'.longitude = g.longitude ∧ g'.latitude = g.latitude ∧ (demElevation d.tileId grid a h).2[a]? = some (triple g') := by
        rintro hn g' rfl
        simp only at hread
        rw [hn] at hread
        exact unchanged_ok ha hread
      cases f with
      | none => exact hnone hgid g rfl
      | some f =>
        cases m with
        | none => exact hnone hgid g rfl
        | some m =>
          obtain ⟨w, h1, h2⟩ := hgid
          simp only at hread
          rw [h1] at hread
          obtain ⟨h3, h4⟩ := h2 h a g ha
          have hval : raise ((Except.ok (⟨some f, some m, su⟩ : Verif.Dem.Grid K R) : Except PyErr _) >>= fun gr => Verif.Dem.applyGrid gr g) =
              (match m g with
                | .error e => .error (.raised e)
                | .ok (x, y) => .ok { g with elevation := f x y }) := by
            show raise (Verif.Dem.applyGrid (⟨some f, some m, su⟩ : Verif.Dem.Grid K R) g) = _
            unfold Verif.Dem.applyGrid
            simp only
            cases m g with
            | error e => rfl
            | ok p => rfl
          rw [hval]
          have hread2 : demElevation d.tileId grid a h = (w a >>= fun q => pixel q >>= fun p => setElevation a (f p.1 p.2)) h := hread
          rw [bind_eq] at hread2
          rcases hw : w a h with ⟨o, h'⟩
          rw [hw] at h3 h4 hread2
          cases hm : m g with
          | error e =>
            rw [hm] at h4
            simp only [raise, Except.map] at h4
            subst h4
            rw [hread2]
            exact ⟨h3.1, fun i hi _ => h3.2 i hi, rfl, h3.get (lt_of_get ha) ha⟩
          | ok p =>
            obtain ⟨px, py⟩ := p
            rw [hm] at h4
            obtain ⟨b, h5, h6, h7⟩ := h4
            simp only at h5 h7
            subst h5
            have ha' := h3.get (lt_of_get ha) ha
            have hb : h'[b]? = some (pair (px, py)) := h7
            have heq : demElevation d.tileId grid a h = (.ok (), h'.set a (triple { g with elevation := f px py })) := by
              rw [hread2]
              refine (read_bind (pixel_eq hb)).trans ?_
              unfold setElevation
              rw [setItem_eq _ ha' (by simp [triple])]
              rfl
            rw [heq]
            refine ⟨by simp [h3.1], fun i hi hia => ?_, rfl, rfl, rfl, ?_⟩
            · exact (List.getElem?_set_ne (Ne.symm hia)).trans (h3.2 i hi)
            · simp only [List.getElem?_set, if_true, if_pos (lt_of_get ha')]

end

/-! ## SICD -/

section
open Verif.Sicd (V3 Contour Lle)
open Verif.SicdFiles (Ground sensorOf)
open Verif.Rpc (raise)

def list3V (p : V3) : List ℝ := [p.x, p.y, p.z]

theorem vector_eq {h : Mem ℝ} {a : Nat} {p : V3} (ha : h[a]? = some (list3V p)) : vector a h = (.ok p, h) :=
  (read_bind (x := Memory.x a) (x_eq ha)).trans ((read_bind (x := Memory.y a) (y_eq ha)).trans ((read_bind (x := Memory.z a) (z_eq ha)).trans rfl))

theorem setItem_bind {γ : Type} {h : Mem ℝ} {a i : Nat} {vs : List ℝ} {v : ℝ} {f : Unit → Memory.M ℝ γ} (ha : h[a]? = some vs) (hi : i < vs.length) :
    (setItem a i v >>= f) h = f () (h.set a (vs.set i v)) := by
  rw [bind_eq, setItem_eq v ha hi]

theorem set3 {γ : Type} {h : Mem ℝ} {a : Nat} {p : V3} (ha : h[a]? = some (list3V p)) (u v w : ℝ) (f : Memory.M ℝ γ) :
    (do setItem a 0 u; setItem a 1 v; setItem a 2 w; f) h = f (h.set a [u, v, w]) := by
  have hl := lt_of_get ha
  refine (setItem_bind ha (by simp [list3V])).trans ?_
  have h1 : (h.set a ((list3V p).set 0 u))[a]? = some ((list3V p).set 0 u) := by simp only [List.getElem?_set, if_true, if_pos hl]
  refine (setItem_bind h1 (by simp [list3V])).trans ?_
  rw [List.set_set]
  have h2 : (h.set a (((list3V p).set 0 u).set 1 v))[a]? = some (((list3V p).set 0 u).set 1 v) := by simp only [List.getElem?_set, if_true, if_pos hl]
  refine (setItem_bind h2 (by simp [list3V])).trans ?_
  rw [List.set_set]
  rfl

theorem round_eq (M : Verif.Sicd.Model) {h : Mem ℝ} {scene gn : Nat} {S g : V3} (hs : h[scene]? = some (list3V S)) (hg : h[gn]? = some (list3V g)) :
    sicdRound M scene gn h = (match M.project (M.gridOf g) with
      | .error e => (.error (.raised e), h)
      | .ok none => (.ok (M.gridOf g, none), h)
      | .ok (some p) => (.ok (M.gridOf g, some (V3.norm (V3.sub S p))), h.set gn (list3V (V3.add g (V3.sub S p))))) := by
  refine (read_bind (vector_eq hg)).trans ?_
  cases hp : M.project (M.gridOf g) with
  | error e =>
    simp only [hp]
    rfl
  | ok o =>
    simp only [hp]
    refine (read_bind (a := o) (x := lift (raise (.ok o))) rfl).trans ?_
    cases o with
    | none => rfl
    | some p => exact (read_bind (vector_eq hs)).trans (set3 hg _ _ _ _)

theorem runs_of_eq {n : Nat} {α β : Type} {x y : Memory.M ℝ α} {h : Mem ℝ} {r : Except Fail β} {Q : α → β → Mem ℝ → Prop} (hxy : x h = y h) (hy : Runs n y h r Q) : Runs n x h r Q := by
  unfold Runs at hy ⊢
  rw [hxy]
  exact hy

theorem search_runs (M : Verif.Sicd.Model) (left : Nat) : ∀ (k n : Nat) (h : Mem ℝ) (scene gn : Nat) (S g : V3), h[scene]? = some (list3V S) → h[gn]? = some (list3V g) → scene ≠ gn →
    n ≤ gn → Runs n (sicdSearch M scene gn left) h ((raise (M.search S left k g)).map Prod.fst) Same := by
  induction left with
  | zero =>
    intro k n h scene gn S g hs hg hne hn
    have hr := round_eq M hs hg
    have hdef : sicdSearch M scene gn 0 = (sicdRound M scene gn >>= fun q => pure q.1) := rfl
    rw [hdef]
    have hsearch : M.search S 0 k g = (M.project (M.gridOf g) >>= fun o => match o with
      | none => pure (M.gridOf g, k)
      | some _ => pure (M.gridOf g, k)) := by
      rw [Verif.Sicd.Model.search]
      rfl
    rw [hsearch]
    unfold Runs
    rw [bind_eq, hr]
    cases M.project (M.gridOf g) with
    | error e => exact ⟨Keeps.refl _ _, rfl⟩
    | ok o =>
      cases o with
      | none => exact ⟨Keeps.refl _ _, _, rfl, rfl⟩
      | some p =>
        refine ⟨⟨(le_of_eq (List.length_set (as := h)).symm), fun i hi => ?_⟩, _, rfl, rfl⟩
        exact List.getElem?_set_ne (by omega)
  | succ left ih =>
    intro k n h scene gn S g hs hg hne hn
    have hr := round_eq M hs hg
    have hdef : sicdSearch M scene gn (left + 1) = (sicdRound M scene gn >>= fun q =>
      match q.2 with
      | none => pure q.1
      | some d => if 1 / 100 < d then sicdSearch M scene gn left else pure q.1) := rfl
    rw [hdef]
    have hsearch : M.search S (left + 1) k g = (M.project (M.gridOf g) >>= fun o => match o with
      | none => pure (M.gridOf g, k)
      | some p => if 1 / 100 < V3.norm (V3.sub S p) then M.search S left (k + 1) (V3.add g (V3.sub S p)) else pure (M.gridOf g, k)) := by
      rw [Verif.Sicd.Model.search]
      rfl
    rw [hsearch]
    unfold Runs
    rw [bind_eq, hr]
    cases M.project (M.gridOf g) with
    | error e => exact ⟨Keeps.refl _ _, rfl⟩
    | ok o =>
      cases o with
      | none => exact ⟨Keeps.refl _ _, _, rfl, rfl⟩
      | some p =>
        have hk : Keeps n h (h.set gn (list3V (V3.add g (V3.sub S p)))) := ⟨by simp, fun i hi => List.getElem?_set_ne (by omega)⟩
        by_cases hd : 1 / 100 < V3.norm (V3.sub S p)
        · have := ih (k + 1) n (h.set gn (list3V (V3.add g (V3.sub S p)))) scene gn S (V3.add g (V3.sub S p))
            ((List.getElem?_set_ne (Ne.symm hne)).trans hs) (by simp only [List.getElem?_set, if_true, if_pos (lt_of_get hg)]) hne hn
          obtain ⟨h1, h2⟩ := this
          have e1 : (match (M.gridOf g, some (V3.norm (V3.sub S p))).2 with
            | none => (pure (M.gridOf g) : Memory.M ℝ (ℝ × ℝ))
            | some d => if 1 / 100 < d then sicdSearch M scene gn left else pure (M.gridOf g)) = sicdSearch M scene gn left := if_pos hd
          have e2 : ((Except.ok (some p) : Except PyErr (Option V3)) >>= fun o => match o with
            | none => pure (M.gridOf g, k)
            | some p => if 1 / 100 < V3.norm (V3.sub S p) then M.search S left (k + 1) (V3.add g (V3.sub S p)) else pure (M.gridOf g, k)) =
              M.search S left (k + 1) (V3.add g (V3.sub S p)) := if_pos hd
          rw [e2]
          simp only at e1 ⊢
          rw [e1]
          exact ⟨Keeps.trans (le_refl _) hk h1, h2⟩
        · have e1 : (match (M.gridOf g, some (V3.norm (V3.sub S p))).2 with
            | none => (pure (M.gridOf g) : Memory.M ℝ (ℝ × ℝ))
            | some d => if 1 / 100 < d then sicdSearch M scene gn left else pure (M.gridOf g)) = pure (M.gridOf g) := if_neg hd
          have e2 : ((Except.ok (some p) : Except PyErr (Option V3)) >>= fun o => match o with
            | none => pure (M.gridOf g, k)
            | some p => if 1 / 100 < V3.norm (V3.sub S p) then M.search S left (k + 1) (V3.add g (V3.sub S p)) else pure (M.gridOf g, k)) = .ok (M.gridOf g, k) := if_neg hd
          rw [e2]
          simp only at e1 ⊢
          rw [e1]
          exact ⟨hk, _, rfl, rfl⟩

/-- What the SICD model uses of an elevation model, on objects and on values. -/
def TerrainPair (G : Ground) (summary : MemElev ℝ → Lle → Option Verif.Sicd.DemSummary) (me : MemElev ℝ) (e : Elev ℝ) : Prop :=
  ElevationOk me e ∧ (∀ g, e g = .ok { g with elevation := ((G.dem e).terrain g.longitude g.latitude).getD g.elevation }) ∧ summary me = (G.dem e).summary

theorem heightAt_runs (G : Ground) {me : MemElev ℝ} {e : Elev ℝ} {terrain : ℝ → ℝ → Option ℝ} (he : ElevationOk me e)
    (ht : ∀ g, e g = .ok { g with elevation := (terrain g.longitude g.latitude).getD g.elevation }) {n : Nat} {h : Mem ℝ} (hn : n ≤ h.length) (p : V3) :
    Runs n (heightAt G.geo me p) h (.ok (Verif.Sicd.heightAbove G.geo terrain p)) Same := by
  unfold heightAt
  rw [world_alloc]
  refine runs_alloc_bind hn ?_
  have hb : (h ++ [[p.x, p.y, p.z]])[h.length]? = some (list3V p) := last_get _ _
  unfold toGeodetic
  have hassoc : ∀ f : Nat → Memory.M ℝ ℝ, ((vector h.length >>= fun p => worldCoordinate (some [(G.geo.toLle p).lon, (G.geo.toLle p).lat, (G.geo.toLle p).h])) >>= f) (h ++ [[p.x, p.y, p.z]]) =
      (alloc [(G.geo.toLle p).lon, (G.geo.toLle p).lat, (G.geo.toLle p).h] >>= f) (h ++ [[p.x, p.y, p.z]]) := by
    intro f
    rw [bind_eq, read_bind (vector_eq hb), world_alloc]
    rfl
  refine runs_of_eq (hassoc _) (runs_alloc_bind (by simp; omega) ?_)
  set h1 := h ++ [[p.x, p.y, p.z]] with hh1
  have hl : (h1 ++ [[(G.geo.toLle p).lon, (G.geo.toLle p).lat, (G.geo.toLle p).h]])[h1.length]? = some [(G.geo.toLle p).lon, (G.geo.toLle p).lat, (G.geo.toLle p).h] := last_get _ _
  refine runs_read (load_eq hl) ?_
  rw [world_alloc]
  refine runs_alloc_bind (by simp [hh1]; omega) ?_
  set h2 := h1 ++ [[(G.geo.toLle p).lon, (G.geo.toLle p).lat, (G.geo.toLle p).h]] with hh2
  have hlen1 : h1.length = h.length + 1 := by simp [hh1]
  have hlen2 : h2.length = h.length + 2 := by simp [hh2, hh1]
  have hd : (h2 ++ [[(G.geo.toLle p).lon, (G.geo.toLle p).lat, (G.geo.toLle p).h]])[h2.length]? = some (triple ⟨(G.geo.toLle p).lon, (G.geo.toLle p).lat, (G.geo.toLle p).h⟩) := last_get _ _
  have hval : (Except.ok (Verif.Sicd.heightAbove G.geo terrain p) : Except Fail ℝ) = (e ⟨(G.geo.toLle p).lon, (G.geo.toLle p).lat, (G.geo.toLle p).h⟩ >>= fun g' =>
      Except.ok ((G.geo.toLle p).h - g'.elevation)) := by
    rw [ht]
    rfl
  rw [hval]
  refine runs_elevation he hd (by omega) ?_
  intro g' _ h3 hle hkeep hg'
  have hlle : h3[h1.length]? = some [(G.geo.toLle p).lon, (G.geo.toLle p).lat, (G.geo.toLle p).h] := by
    rw [hkeep h1.length (by simp; omega) (by omega), List.getElem?_append_left (by omega)]
    exact hl
  refine runs_read (x := elevation h1.length) (z_eq hlle) (runs_read (x := elevation h2.length) (z_eq hg') ?_)
  exact runs_pure rfl

theorem heightsAt_runs (G : Ground) {me : MemElev ℝ} {e : Elev ℝ} {terrain : ℝ → ℝ → Option ℝ} (he : ElevationOk me e)
    (ht : ∀ g, e g = .ok { g with elevation := (terrain g.longitude g.latitude).getD g.elevation }) {n : Nat} (ps : List V3) : ∀ {h : Mem ℝ}, n ≤ h.length →
    Runs n (heightsAt G.geo me ps) h (.ok (ps.map (Verif.Sicd.heightAbove G.geo terrain))) Same := by
  induction ps with
  | nil => intro h _; exact runs_pure rfl
  | cons p ps ih =>
    intro h hn
    have hval : (Except.ok ((p :: ps).map (Verif.Sicd.heightAbove G.geo terrain)) : Except Fail (List ℝ)) =
        (Except.ok (Verif.Sicd.heightAbove G.geo terrain p) >>= fun x => Except.ok (ps.map (Verif.Sicd.heightAbove G.geo terrain)) >>= fun xs => Except.ok (x :: xs)) := rfl
    rw [hval]
    refine runs_bind (le_refl _) (heightAt_runs G he ht hn p) fun x hx a h' hk hQ => ?_
    cases hQ
    refine runs_bind (le_refl _) (ih (hn.trans hk.1)) fun xs hxs b h'' hk' hQ' => ?_
    cases hQ'
    exact runs_pure rfl

theorem demToGround_runs (G : Ground) (scp : V3) (right : Bool) {summary : MemElev ℝ → Lle → Option Verif.Sicd.DemSummary} {me : MemElev ℝ} {e : Elev ℝ} (hp : TerrainPair G summary me e)
    (maxAdjacent lim : ℝ) (k : Contour) {n : Nat} {h : Mem ℝ} (hn : n ≤ h.length) :
    Runs n (Memory.demToGround G.geo scp right (summary me) me maxAdjacent lim k) h (raise (Verif.Sicd.demToGround G.geo scp right (G.dem e) maxAdjacent lim k)) Same := by
  obtain ⟨h1, h2, h3⟩ := hp
  unfold Memory.demToGround Verif.Sicd.demToGround
  rw [h3]
  cases (G.dem e).summary (G.geo.toLle scp) with
  | none => exact runs_raised
  | some s =>
    simp only
    cases Verif.Sicd.haeToGround G.geo scp right s.highest 1 3 k with
    | error x => exact ⟨Keeps.refl _ _, rfl⟩
    | ok a =>
      refine runs_read (a := a) (x := lift (raise (.ok a))) rfl ?_
      cases Verif.Sicd.haeToGround G.geo scp right s.lowest 1 3 k with
      | error x => exact ⟨Keeps.refl _ _, rfl⟩
      | ok b =>
        refine runs_read (a := b) (x := lift (raise (.ok b))) rfl ?_
        match a, b with
        | none, _ => exact runs_raised
        | some _, none => exact runs_raised
        | some (a, _), some (b, _) =>
          by_cases c1 : V3.dot k.V k.V < k.rdot * k.rdot ∨ V3.dot (V3.cross k.P k.V) (V3.cross k.P k.V) = 0 ∨ (Verif.Sicd.circleOf k).radius = 0 ∨ 1 < |(Verif.Sicd.circleOf k).cosine b|
          · show Runs n (if _ then _ else _) h (raise (if _ then _ else _)) Same
            rw [if_pos c1, if_pos c1]
            exact runs_raised
          · show Runs n (if _ then _ else _) h (raise (if _ then _ else _)) Same
            rw [if_neg c1, if_neg c1]
            by_cases c2 : Verif.Sicd.demStep maxAdjacent s.postSpacing (Verif.Sicd.circleOf k).radius ((Verif.Sicd.circleOf k).cosine b) = 0
            · rw [if_pos c2, if_pos c2]
              exact runs_raised
            · rw [if_neg c2, if_neg c2]
              set pts := (List.range (Verif.Sicd.samples ((Verif.Sicd.circleOf k).cosine a) ((Verif.Sicd.circleOf k).cosine b)
                (Verif.Sicd.demStep maxAdjacent s.postSpacing (Verif.Sicd.circleOf k).radius ((Verif.Sicd.circleOf k).cosine b))).toNat).map
                (fun (m : Nat) => (Verif.Sicd.circleOf k).point (if right then -1 else 1) ((Verif.Sicd.circleOf k).cosine b + m *
                  Verif.Sicd.demStep maxAdjacent s.postSpacing (Verif.Sicd.circleOf k).radius ((Verif.Sicd.circleOf k).cosine b))) with hpts
              have hh := heightsAt_runs G h1 h2 pts hn
              have hval : raise (Except.ok (Verif.Sicd.demPoints (Verif.Sicd.circleOf k) (if right then -1 else 1) ((Verif.Sicd.circleOf k).cosine a) ((Verif.Sicd.circleOf k).cosine b)
                  (Verif.Sicd.demStep maxAdjacent s.postSpacing (Verif.Sicd.circleOf k).radius ((Verif.Sicd.circleOf k).cosine b)) lim (Verif.Sicd.heightAbove G.geo (G.dem e).terrain))) =
                  (Except.ok (pts.map (Verif.Sicd.heightAbove G.geo (G.dem e).terrain)) >>= fun hs => Except.ok ((Verif.Sicd.scan lim 0 none hs).map
                    (fun u => (Verif.Sicd.circleOf k).point (if right then -1 else 1) ((Verif.Sicd.circleOf k).cosine b + u *
                      Verif.Sicd.demStep maxAdjacent s.postSpacing (Verif.Sicd.circleOf k).radius ((Verif.Sicd.circleOf k).cosine b))))) := rfl
              rw [hval]
              refine runs_bind (le_refl _) hh fun hs _ hs' h' _ hQ => ?_
              cases hQ
              exact runs_pure rfl

theorem toGeodetic_runs (G : Verif.Sicd.Geo) {h : Mem ℝ} {a n : Nat} {p : V3} (ha : h[a]? = some (list3V p)) (hn : n ≤ h.length) :
    Runs n (toGeodetic G a) h (.ok (triple ⟨(G.toLle p).lon, (G.toLle p).lat, (G.toLle p).h⟩)) (New n) := by
  unfold toGeodetic
  refine runs_read (vector_eq ha) ?_
  simp only
  rw [world_alloc]
  exact runs_alloc hn

theorem sicd_agrees (G : Ground) (right : Bool) (summary : MemElev ℝ → Lle → Option Verif.Sicd.DemSummary) (M : Verif.Sicd.Model) (P : MemElev ℝ → Elev ℝ → Prop)
    (hP : ∀ me e, P me e → TerrainPair G summary me e) : Agrees P (Memory.sicd G.geo right summary M) (sensorOf G right (.model M)) := by
  constructor
  · intro h a p me e o ha he
    set k := M.coa.contour (M.conv.toGrid (p.2 + M.conv.firstRow, p.1 + M.conv.firstCol)) with hk
    refine runs_read (x := Memory.r a) (y_eq ha) (runs_read (x := Memory.c a) (x_eq ha) ?_)
    have finish : ∀ (q : V3) (h' : Mem ℝ), h.length ≤ h'.length →
        Runs h.length (worldCoordinate (some [q.x, q.y, q.z]) >>= fun b => toGeodetic G.geo b) h' (.ok (triple ⟨(G.geo.toLle q).lon, (G.geo.toLle q).lat, (G.geo.toLle q).h⟩)) (New h.length) := by
      intro q h' hl
      rw [world_alloc]
      exact runs_alloc_bind hl (toGeodetic_runs G.geo (last_get _ _) (by simp; omega))
    match me, e, he with
    | none, none, _ =>
      have hval : ((sensorOf G right (.model M)).imageToWorld p none o).map triple = (projected (M.plane.toGround k) >>= fun q =>
          Except.ok (triple ⟨(G.geo.toLle q).lon, (G.geo.toLle q).lat, (G.geo.toLle q).h⟩)) := by
        show (Verif.SicdFiles.outcome (M.plane.toGround k >>= fun p => pure (p.map G.geo.toLle))).map triple = _
        cases M.plane.toGround k with
        | error x => rfl
        | ok q => cases q <;> rfl
      rw [hval]
      exact runs_lift fun q _ => finish q h (le_refl _)
    | some me, some e, he =>
      have hval : ((sensorOf G right (.model M)).imageToWorld p (some e) o).map triple = ((raise (Verif.Sicd.demToGround G.geo M.conv.scp right (G.dem e) 10 (1 / 1000) k) >>= fun ps =>
          match ps with
          | [] => Except.error (Fail.raised .indexError)
          | q :: _ => Except.ok q) >>= fun q =>
          Except.ok (triple ⟨(G.geo.toLle q).lon, (G.geo.toLle q).lat, (G.geo.toLle q).h⟩)) := by
        show (Verif.SicdFiles.outcome (some <$> (Verif.Sicd.demToGround G.geo M.conv.scp right (G.dem e) 10 (1 / 1000) k >>= fun ps =>
          match ps with
          | [] => Except.error .indexError
          | q :: _ => Except.ok (G.geo.toLle q)))).map triple = _
        cases Verif.Sicd.demToGround G.geo M.conv.scp right (G.dem e) 10 (1 / 1000) k with
        | error x => rfl
        | ok ps => cases ps <;> rfl
      rw [hval]
      refine runs_bind (Q := Same) (le_refl _) ?_ fun q _ q' h' hk' hQ => ?_
      · refine runs_bind (le_refl _) (demToGround_runs G M.conv.scp right (hP me e he) 10 (1 / 1000) k (le_refl _)) fun ps _ ps' h' hk' hQ => ?_
        cases hQ
        cases ps with
        | nil => exact runs_raised
        | cons q qs => exact runs_pure rfl
      · cases hQ
        exact finish q h' hk'.1
  · intro h a g ha
    set S := G.geo.toEcf ⟨g.longitude, g.latitude, g.elevation⟩ with hS
    have hval : ((sensorOf G right (.model M)).worldToImage g).map pair = ((raise (M.search S 9 1 S)).map Prod.fst >>= fun xy =>
        Except.ok [(M.conv.toPixel xy).2 - M.conv.firstCol, (M.conv.toPixel xy).1 - M.conv.firstRow]) := by
      show (match (M.search S 9 1 S >>= fun r => pure ((M.conv.toPixel r.1).1 - M.conv.firstRow, (M.conv.toPixel r.1).2 - M.conv.firstCol)) with
        | .ok rc => (Except.ok (rc.2, rc.1) : Except Fail (ℝ × ℝ))
        | .error e => .error (.raised e)).map pair = _
      cases M.search S 9 1 S <;> rfl
    rw [hval]
    unfold Memory.sicd
    show Runs h.length (sicdWorldToImage G.geo M a) h _ _
    unfold sicdWorldToImage toGeocentric
    have hassoc : ∀ f : Nat → Memory.M ℝ Nat, ((geodetic a >>= fun g => worldCoordinate (some [(G.geo.toEcf ⟨g.longitude, g.latitude, g.elevation⟩).x,
        (G.geo.toEcf ⟨g.longitude, g.latitude, g.elevation⟩).y, (G.geo.toEcf ⟨g.longitude, g.latitude, g.elevation⟩).z])) >>= f) h = (alloc [S.x, S.y, S.z] >>= f) h := by
      intro f
      rw [bind_eq, read_bind (geodetic_eq ha), world_alloc]
      rfl
    refine runs_of_eq (hassoc _) (runs_alloc_bind (le_refl _) ?_)
    set h1 := h ++ [[S.x, S.y, S.z]] with hh1
    have hb : h1[h.length]? = some (list3V S) := last_get _ _
    refine runs_read (vector_eq hb) ?_
    refine runs_alloc_bind (by simp [hh1]) ?_
    set h2 := h1 ++ [[S.x, S.y, S.z]] with hh2
    have hlen1 : h1.length = h.length + 1 := by simp [hh1]
    have hlen2 : h2.length = h.length + 2 := by simp [hh2, hh1]
    have hs : h2[h1.length]? = some [S.x, S.y, S.z] := last_get _ _
    refine runs_read (load_eq hs) (runs_alloc_bind (by omega) ?_)
    refine runs_bind (le_refl _) (search_runs M 9 1 h.length _ h1.length h2.length S S ?_ (last_get _ _) (by omega) (by omega)) fun xy _ xy' h' hk' hQ => ?_
    · rw [List.getElem?_append_left (by omega)]
      exact hs
    · cases hQ
      simp only
      rw [image_alloc]
      refine runs_alloc ?_
      have := hk'.1
      simp at this
      omega

end

/-! ## Programs -/

section
variable {K O : Type}

/-- Every variable has its own array, with the components of the value. -/
structure Represents (s : State K) (v : Values K) : Prop where
  length : s.vars.length = v.length
  value : ∀ (i : Nat) (k : Kind) (a : Nat), s.vars[i]? = some (k, a) → ∃ vs, v[i]? = some (k, vs) ∧ s.mem[a]? = some vs ∧ (k ≠ .array → vs.length = k.size)
  distinct : ∀ (i j : Nat) (k l : Kind) (a : Nat), s.vars[i]? = some (k, a) → s.vars[j]? = some (l, a) → i = j

theorem Represents.contents {s : State K} {v : Values K} (hr : Represents s v) : Verif.Spec.Memory.contents s = v := by
  apply List.ext_getElem?
  intro i
  unfold Verif.Spec.Memory.contents
  rw [List.getElem?_map]
  cases hi : s.vars[i]? with
  | none =>
    have : v[i]? = none := by
      rw [List.getElem?_eq_none_iff] at hi ⊢
      have := hr.length
      omega
    rw [this]
    rfl
  | some ka =>
    obtain ⟨k, a⟩ := ka
    obtain ⟨vs, h1, h2, -⟩ := hr.value i k a hi
    rw [h1]
    simp [h2]

theorem Represents.none {s : State K} {v : Values K} (hr : Represents s v) {i : Nat} (hi : s.vars[i]? = none) : v[i]? = none := by
  rw [List.getElem?_eq_none_iff] at hi ⊢
  have := hr.length
  omega

theorem Represents.keep {s : State K} {v : Values K} (hr : Represents s v) {h : Mem K} (hk : Keeps s.mem.length s.mem h) : Represents { s with mem := h } v := by
  refine ⟨hr.length, ?_, hr.distinct⟩
  intro i k a hi
  obtain ⟨vs, h1, h2, h3⟩ := hr.value i k a hi
  exact ⟨vs, h1, hk.get (lt_of_get h2) h2, h3⟩

theorem Represents.new {s : State K} {v : Values K} (hr : Represents s v) {h : Mem K} (hk : Keeps s.mem.length s.mem h) {b : Nat} {vs : List K} (hb : s.mem.length ≤ b)
    (hv : h[b]? = some vs) {k : Kind} (hs : k ≠ .array → vs.length = k.size) : Represents ⟨h, s.vars ++ [(k, b)]⟩ (v ++ [(k, vs)]) := by
  have hold : ∀ (i : Nat) (l : Kind) (a : Nat), (s.vars ++ [(k, b)])[i]? = some (l, a) → (i < s.vars.length ∧ s.vars[i]? = some (l, a) ∧ a < s.mem.length) ∨ (i = s.vars.length ∧ l = k ∧ a = b) := by
    intro i l a hi
    by_cases hlt : i < s.vars.length
    · rw [List.getElem?_append_left hlt] at hi
      obtain ⟨ws, -, h2, -⟩ := hr.value i l a hi
      exact Or.inl ⟨hlt, hi, lt_of_get h2⟩
    · rw [List.getElem?_append_right (by omega)] at hi
      have hz : i - s.vars.length = 0 := by
        by_contra hc
        rw [List.getElem?_eq_none (by simp; omega)] at hi
        cases hi
      rw [hz] at hi
      cases hi
      exact Or.inr ⟨by omega, rfl, rfl⟩
  refine ⟨by simp [hr.length], ?_, ?_⟩
  · intro i l a hi
    rcases hold i l a hi with ⟨h1, h2, h3⟩ | ⟨h1, rfl, rfl⟩
    · obtain ⟨ws, h4, h5, h6⟩ := hr.value i l a h2
      refine ⟨ws, ?_, hk.get (lt_of_get h5) h5, h6⟩
      rw [List.getElem?_append_left (by rw [← hr.length]; exact h1), h4]
    · refine ⟨vs, ?_, hv, hs⟩
      rw [h1, hr.length]
      simp
  · intro i j l l' a hi hj
    rcases hold i l a hi with ⟨h1, h2, h3⟩ | ⟨h1, rfl, rfl⟩
    · rcases hold j l' a hj with ⟨h4, h5, h6⟩ | ⟨h4, rfl, rfl⟩
      · exact hr.distinct i j l l' a h2 h5
      · omega
    · rcases hold j l' _ hj with ⟨h4, h5, h6⟩ | ⟨h4, rfl, -⟩
      · omega
      · omega

theorem Represents.write {s : State K} {v : Values K} (hr : Represents s v) {i : Nat} {k : Kind} {a : Nat} (hi : s.vars[i]? = some (k, a)) {h : Mem K}
    (hk : ∀ j < s.mem.length, j ≠ a → h[j]? = s.mem[j]?) {ws : List K} (ha : h[a]? = some ws) (hs : k ≠ .array → ws.length = k.size) :
    Represents { s with mem := h } (v.set i (k, ws)) := by
  refine ⟨by simp [hr.length], ?_, hr.distinct⟩
  intro j l b hj
  by_cases hij : j = i
  · subst hij
    rw [hi] at hj
    cases hj
    refine ⟨ws, ?_, ha, hs⟩
    obtain ⟨vs, h1, -, -⟩ := hr.value j k a hi
    have hlt : j < v.length := by
      by_contra hc
      rw [List.getElem?_eq_none (by omega)] at h1
      cases h1
    simp [List.getElem?_set, hlt]
  · obtain ⟨vs, h1, h2, h3⟩ := hr.value j l b hj
    refine ⟨vs, ?_, ?_, h3⟩
    · rw [List.getElem?_set_ne (fun hc => hij hc.symm), h1]
    · show h[b]? = _
      rw [hk b (lt_of_get h2) ?_, h2]
      rintro rfl
      exact hij (hr.distinct j i l k b hj hi)

/-- Same answer, and the new state stands for the new values. -/
def Follows (x : Except Fail (Option K) × State K) (y : Except Fail (Option K) × Values K) : Prop := x.1 = y.1 ∧ Represents x.2 y.2

theorem follows_new {s : State K} {v : Values K} (hr : Represents s v) {k : Kind} {m : M K Nat} {r : Except Fail (List K)} (hm : Runs s.mem.length m s.mem r (New s.mem.length))
    (hs : ∀ vs, r = .ok vs → k ≠ .array → vs.length = k.size) : Follows (s.bindNew k m) (bindNew v k r) := by
  unfold State.bindNew
  obtain ⟨h1, h2⟩ := hm
  rcases hx : m s.mem with ⟨o, h⟩
  rw [hx] at h1 h2
  cases r with
  | error f =>
    simp only at h2
    subst h2
    exact ⟨rfl, hr.keep h1⟩
  | ok vs =>
    obtain ⟨a, h3, h4, h5⟩ := h2
    simp only at h3 h5
    subst h3
    exact ⟨rfl, hr.new h1 h4 h5 (hs vs rfl)⟩

theorem follows_undefined {s : State K} {v : Values K} (hr : Represents s v) : Follows s.nameError (undefined v) := ⟨rfl, hr⟩

theorem map_eq {α β : Type} (f : α → β) (x : M K α) (h : Mem K) : (f <$> x : M K β) h = match x h with
    | (.error e, h) => (.error e, h)
    | (.ok a, h) => (.ok (f a), h) := rfl

theorem follows_read {s : State K} {v : Values K} (hr : Represents s v) {a i : Nat} {vs : List K} (ha : s.mem[a]? = some vs) :
    Follows (s.run (some <$> item a i)) (readItem v vs i) := by
  unfold State.run readItem
  rw [map_eq]
  cases hv : vs[i]? with
  | none =>
    rw [item_none ha hv]
    exact ⟨rfl, hr⟩
  | some w =>
    rw [item_eq ha hv]
    exact ⟨rfl, hr⟩

theorem follows_write {s : State K} {v : Values K} (hr : Represents s v) {j : Nat} {k : Kind} {a i : Nat} {vs : List K} (hj : s.vars[j]? = some (k, a)) (ha : s.mem[a]? = some vs)
    (hs : k ≠ .array → vs.length = k.size) (w : K) : Follows (s.run ((fun _ => none) <$> setItem a i w)) (writeItem v j k vs i w) := by
  unfold State.run writeItem
  rw [map_eq]
  by_cases hi : i < vs.length
  · rw [setItem_eq w ha hi, if_pos hi]
    refine ⟨rfl, hr.write hj ?_ ?_ ?_⟩
    · intro l _ hl
      exact List.getElem?_set_ne (Ne.symm hl)
    · simp only [List.getElem?_set, if_true, if_pos (lt_of_get ha)]
    · intro hne
      rw [List.length_set]
      exact hs hne
  · rw [setItem_bad w ha hi, if_neg hi]
    exact ⟨rfl, hr⟩

/-- Sensor models and elevation models that agree. -/
structure LibraryAgrees (P : MemElev K → Elev K → Prop) (L : Library K O) (F : Functions K O) : Prop where
  elevation : ∀ me e, P me e → ElevationOk me e
  models : List.Forall₂ (Agrees P) L.models F.models
  elevations : List.Forall₂ P L.elevations F.elevations

theorem forall2_get {α β : Type} {R : α → β → Prop} {xs : List α} {ys : List β} (h : List.Forall₂ R xs ys) (i : Nat) :
    (xs[i]? = none ∧ ys[i]? = none) ∨ ∃ x y, xs[i]? = some x ∧ ys[i]? = some y ∧ R x y := by
  induction h generalizing i with
  | nil => exact Or.inl ⟨rfl, rfl⟩
  | cons hxy _ ih =>
    cases i with
    | zero => exact Or.inr ⟨_, _, rfl, rfl, hxy⟩
    | succ i => simpa using ih i

theorem triple_of_length {vs : List K} (h : vs.length = 3) : ∃ g : Geo K, vs = triple g := by
  match vs, h with
  | [a, b, c], _ => exact ⟨⟨a, b, c⟩, rfl⟩

theorem pair_of_length {vs : List K} (h : vs.length = 2) : ∃ p : K × K, vs = pair p := by
  match vs, h with
  | [a, b], _ => exact ⟨(a, b), rfl⟩

theorem component_eq (k : Kind) (p : Property) : component k p = k.component p := by
  cases k <;> cases p <;> decide

theorem fields_length {k : Kind} (hk : k ≠ .array) : (fields k).length = k.size := by
  cases k with
  | array => exact absurd rfl hk
  | world => rfl
  | geodetic => rfl
  | image => rfl

theorem runs_construct [Zero K] {h : Mem K} {k : Kind} (hk : k ≠ .array) (vs : List K) : Runs h.length (construct k.size (some vs)) h (made k vs) (New h.length) := by
  unfold made
  rw [fields_length hk]
  by_cases hl : vs.length = k.size
  · rw [construct_some hl, if_pos hl]
    exact runs_alloc (le_refl _)
  · rw [construct_bad hl, if_neg hl]
    exact runs_raised

theorem made_length {k : Kind} (hk : k ≠ .array) {vs ws : List K} (h : made k vs = .ok ws) : ws.length = k.size := by
  unfold made at h
  rw [fields_length hk] at h
  by_cases hl : vs.length = k.size
  · rw [if_pos hl] at h
    cases h
    exact hl
  · rw [if_neg hl] at h
    cases h

theorem construct_none [Zero K] (k : Kind) : (construct k.size none : M K Nat) = alloc (List.replicate k.size 0) := by
  unfold construct
  simp

theorem step_follows [Zero K] {P : MemElev K → Elev K → Prop} {L : Library K O} {F : Functions K O} (hL : LibraryAgrees P L F) {s : State K} {v : Values K} (hr : Represents s v)
    (o : Op K O) : Follows (s.step L o) (step F v o) := by
  cases o with
  | array vs => exact follows_new hr (runs_alloc (le_refl _)) (fun _ _ h => absurd rfl h)
  | new k src =>
    have key : ∀ k : Kind, k ≠ .array → Follows (match src with
        | .nothing => s.bindNew k (construct k.size none)
        | .values vs => s.bindNew k (construct k.size (some vs))
        | .variable i => match s.vars[i]? with
          | none => s.nameError
          | some (_, a) => s.bindNew k (do construct k.size (some (← load a)))) (match src with
        | .nothing => bindNew v k (.ok (List.replicate (fields k).length 0))
        | .values vs => bindNew v k (made k vs)
        | .variable i => match v[i]? with
          | none => undefined v
          | some (_, vs) => bindNew v k (made k vs)) := by
      intro k hk
      cases src with
      | nothing =>
        simp only
        rw [construct_none, fields_length hk]
        exact follows_new hr (runs_alloc (le_refl _)) (fun vs h _ => by cases h; simp)
      | values vs => exact follows_new hr (runs_construct hk vs) (fun ws h _ => made_length hk h)
      | «variable» i =>
        simp only
        cases hi : s.vars[i]? with
        | none =>
          rw [hr.none hi]
          exact follows_undefined hr
        | some ka =>
          obtain ⟨l, a⟩ := ka
          obtain ⟨vs, h1, h2, -⟩ := hr.value i l a hi
          rw [h1]
          exact follows_new hr (runs_read (load_eq h2) (runs_construct hk vs)) (fun ws h _ => made_length hk h)
    cases k with
    | array => exact follows_undefined hr
    | world => have := key .world (by decide); cases src <;> exact this
    | geodetic => have := key .geodetic (by decide); cases src <;> exact this
    | image => have := key .image (by decide); cases src <;> exact this
  | get i p =>
    simp only [State.step, step]
    cases hi : s.vars[i]? with
    | none =>
      rw [hr.none hi]
      exact follows_undefined hr
    | some ka =>
      obtain ⟨k, a⟩ := ka
      obtain ⟨vs, h1, h2, -⟩ := hr.value i k a hi
      rw [h1]
      simp only
      rw [component_eq]
      cases k.component p with
      | none => exact follows_undefined hr
      | some j => exact follows_read hr h2
  | set i p w =>
    simp only [State.step, step]
    cases hi : s.vars[i]? with
    | none =>
      rw [hr.none hi]
      exact follows_undefined hr
    | some ka =>
      obtain ⟨k, a⟩ := ka
      obtain ⟨vs, h1, h2, h3⟩ := hr.value i k a hi
      rw [h1]
      simp only
      rw [component_eq]
      cases k.component p with
      | none => exact follows_undefined hr
      | some j => exact follows_write hr hi h2 h3 w
  | getItem i j =>
    simp only [State.step, step]
    cases hi : s.vars[i]? with
    | none =>
      rw [hr.none hi]
      exact follows_undefined hr
    | some ka =>
      obtain ⟨k, a⟩ := ka
      obtain ⟨vs, h1, h2, -⟩ := hr.value i k a hi
      rw [h1]
      exact follows_read hr h2
  | setItem i j w =>
    simp only [State.step, step]
    cases hi : s.vars[i]? with
    | none =>
      rw [hr.none hi]
      exact follows_undefined hr
    | some ka =>
      obtain ⟨k, a⟩ := ka
      obtain ⟨vs, h1, h2, h3⟩ := hr.value i k a hi
      rw [h1]
      exact follows_write hr hi h2 h3 w
  | setElevation j i =>
    simp only [State.step, step]
    rcases forall2_get hL.elevations j with ⟨h1, h2⟩ | ⟨me, e, h1, h2, h3⟩
    · rw [h1, h2]
      exact follows_undefined hr
    · rw [h1, h2]
      cases hi : s.vars[i]? with
      | none =>
        rw [hr.none hi]
        exact follows_undefined hr
      | some ka =>
        obtain ⟨k, a⟩ := ka
        obtain ⟨vs, h4, h5, h6⟩ := hr.value i k a hi
        rw [h4]
        cases k with
        | array => exact follows_undefined hr
        | world => exact follows_undefined hr
        | image => exact follows_undefined hr
        | geodetic =>
          obtain ⟨g, rfl⟩ := triple_of_length (h6 (by decide))
          obtain ⟨h7, h8, h9⟩ := hL.elevation me e h3 s.mem a g h5
          show Follows (s.run ((fun _ => none) <$> me a)) (match e g with
            | .error x => (.error x, v)
            | .ok g' => (.ok none, v.set i (.geodetic, [g.longitude, g.latitude, g'.elevation])))
          unfold State.run
          rw [map_eq]
          rcases hm : me a s.mem with ⟨o, h⟩
          rw [hm] at h7 h8 h9
          cases heg : e g with
          | error f =>
            rw [heg] at h9
            obtain ⟨h10, h11⟩ := h9
            simp only at h10 h11
            subst h10
            refine ⟨rfl, hr.keep ⟨h7, fun l hl => ?_⟩⟩
            by_cases hla : l = a
            · rw [hla, h5]
              exact h11
            · exact h8 l hl hla
          | ok g' =>
            rw [heg] at h9
            obtain ⟨h10, h11, h12, h13⟩ := h9
            simp only at h10 h13
            subst h10
            refine ⟨rfl, hr.write hi h8 ?_ (fun _ => rfl)⟩
            rw [h13, ← h11, ← h12]
            rfl
  | imageToWorld j i oe o =>
    simp only [State.step, step]
    rcases forall2_get hL.models j with ⟨h1, h2⟩ | ⟨m, f, h1, h2, h3⟩
    · rw [h1, h2]
      exact follows_undefined hr
    · rw [h1, h2]
      cases hi : s.vars[i]? with
      | none =>
        rw [hr.none hi]
        exact follows_undefined hr
      | some ka =>
        obtain ⟨k, a⟩ := ka
        obtain ⟨vs, h4, h5, h6⟩ := hr.value i k a hi
        rw [h4]
        cases k with
        | array => exact follows_undefined hr
        | world => exact follows_undefined hr
        | geodetic => exact follows_undefined hr
        | image =>
          obtain ⟨p, rfl⟩ := pair_of_length (h6 (by decide))
          have hsize : ∀ r : Except Fail (Geo K), ∀ vs, r.map triple = .ok vs → Kind.geodetic ≠ .array → vs.length = Kind.geodetic.size := by
            intro r vs hvs _
            cases r with
            | error e => cases hvs
            | ok g => cases hvs; rfl
          cases oe with
          | none => exact follows_new hr (h3.imageToWorld s.mem a p none none o h5 trivial) (hsize _)
          | some l =>
            show Follows (match L.elevations[l]? with
              | none => s.nameError
              | some e => s.bindNew .geodetic (m.imageToWorld a (some e) o)) (match F.elevations[l]? with
              | none => undefined v
              | some e => bindNew v .geodetic ((f.imageToWorld p (some e) o).map triple))
            rcases forall2_get hL.elevations l with ⟨h7, h8⟩ | ⟨me, e, h7, h8, h9⟩
            · rw [h7, h8]
              exact follows_undefined hr
            · rw [h7, h8]
              exact follows_new hr (h3.imageToWorld s.mem a p (some me) (some e) o h5 h9) (hsize _)
  | worldToImage j i =>
    simp only [State.step, step]
    rcases forall2_get hL.models j with ⟨h1, h2⟩ | ⟨m, f, h1, h2, h3⟩
    · rw [h1, h2]
      exact follows_undefined hr
    · rw [h1, h2]
      cases hi : s.vars[i]? with
      | none =>
        rw [hr.none hi]
        exact follows_undefined hr
      | some ka =>
        obtain ⟨k, a⟩ := ka
        obtain ⟨vs, h4, h5, h6⟩ := hr.value i k a hi
        rw [h4]
        cases k with
        | array => exact follows_undefined hr
        | world => exact follows_undefined hr
        | image => exact follows_undefined hr
        | geodetic =>
          obtain ⟨g, rfl⟩ := triple_of_length (h6 (by decide))
          refine follows_new hr (h3.worldToImage s.mem a g h5) ?_
          intro vs hvs _
          cases hw : f.worldToImage g with
          | error e => simp [hw, Except.map] at hvs
          | ok p =>
            simp [hw, Except.map] at hvs
            subst hvs
            rfl

theorem steps_follow [Zero K] {P : MemElev K → Elev K → Prop} {L : Library K O} {F : Functions K O} (hL : LibraryAgrees P L F) (ops : List (Op K O)) {s : State K} {v : Values K}
    (hr : Represents s v) : (s.steps L ops).1 = (steps F v ops).1 ∧ Represents (s.steps L ops).2 (steps F v ops).2 := by
  induction ops generalizing s v with
  | nil => exact ⟨rfl, hr⟩
  | cons o os ih =>
    obtain ⟨h1, h2⟩ := step_follows hL hr o
    obtain ⟨h3, h4⟩ := ih h2
    refine ⟨?_, h4⟩
    show (s.step L o).1 :: _ = (step F v o).1 :: _
    rw [h1]
    exact congrArg _ h3

theorem represents_empty : Represents (⟨[], []⟩ : State K) [] := ⟨rfl, fun i k a h => by simp at h, fun i j k l a h => by simp at h⟩

end

end Verif.Lemmas.Memory
