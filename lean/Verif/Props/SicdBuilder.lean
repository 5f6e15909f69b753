import Verif.Model.SicdBuilder
import Verif.Props.Sicd
import Verif.Props.Tre
import Verif.Props.Rsm
import Verif.Props.Updaters

/-! # Properties of the SICD builder and of SICD chips -/

namespace Verif.Props.SicdBuilder

open Verif.Sicd Verif.Sicd.V3 Verif.Spec.Tre Verif.Spec.Sicd Verif.Props.Tre

/-! ## Polynomials -/

theorem stored_nonneg {n : Int} {es : List (Int × ℝ)} {l : List ℝ} (h : Stored n es l) (h0 : ∀ e ∈ es, 0 ≤ e.1) (j : Nat) (v : ℝ) (hv : l[j]? = some v) :
    LastValue es (fun i => i = j) v := by
  have hj : j < l.length := (List.getElem?_eq_some_iff.1 hv).1
  have hjn : (j : Int) < n := by have := h.1; omega
  rcases h.2.2 j v hv with ⟨pre, e, post, h4, h5, h6, h7⟩ | ⟨h4, h5⟩
  · refine .inl ⟨pre, e, post, h4, ?_, h6, fun q hq hq' => h7 q hq (.inl hq')⟩
    have := h0 e (by simp [h4])
    rcases h5 with h5 | h5
    · exact h5
    · omega
  · exact .inr ⟨fun e he h => h4 e he (.inl h), h5⟩

/-- **C61** A polynomial of one variable has `order + 1` coefficients; each is the last value given for its exponent, or 0; an exponent above the order
raises.

Missing for the full claim: negative exponents, which count from the highest (`negative_exponent_wraps`). -/
theorem poly1_native_partial (p : Poly1) (h0 : ∀ e ∈ p.coef, 0 ≤ e.1) :
    ((∀ e ∈ p.coef, e.1 ≤ p.order) → ∃ l, p.native = .ok l ∧ l.length = (p.order + 1).toNat
      ∧ ∀ (j : Nat) v, l[j]? = some v → LastValue p.coef (fun i => i = j) v)
    ∧ ((∃ e ∈ p.coef, p.order < e.1) → p.native = .error .indexError) := by
  refine ⟨fun h => ?_, fun ⟨e, he, h⟩ => ?_⟩
  · obtain ⟨l, h1, h2⟩ := (fold_stored (p.order + 1) p.coef).1 (fun e he => by have := h e he; have := h0 e he; omega)
    exact ⟨l, h1, h2.1, fun j v hv => stored_nonneg h2 h0 j v hv⟩
  · exact (fold_stored (p.order + 1) p.coef).2 ⟨e, he, by omega⟩

example : (⟨2, [(1, 5), (0, 3), (1, 7)]⟩ : Poly1).native = .ok [3, 7, 0] := rfl

example : (⟨1, [(2, 5)]⟩ : Poly1).native = .error .indexError := rfl

/-- **C61** negation: a negative exponent is stored as the highest one. -/
theorem negative_exponent_wraps : ∃ p : Poly1, (∃ e ∈ p.coef, e.1 < 0) ∧ p.native = .ok [0, 5] :=
  ⟨⟨1, [(-1, 5)]⟩, ⟨(-1, 5), by simp, by norm_num⟩, rfl⟩

/-- The coefficients given for the row of exponent `j`. -/
def rowOf (es : List (Int × Int × ℝ)) (j : Nat) : List (Int × ℝ) := (es.filter (fun e => decide (e.1 = (j : Int)))).map (fun e => e.2)

theorem rowOf_concat (es : List (Int × Int × ℝ)) (e : Int × Int × ℝ) (j : Nat) :
    rowOf (es ++ [e]) j = if e.1 = (j : Int) then rowOf es j ++ [e.2] else rowOf es j := by
  unfold rowOf
  rw [List.filter_append, List.map_append]
  by_cases h : e.1 = (j : Int)
  · rw [if_pos h]; simp [h]
  · rw [if_neg h]; simp [h]

/-- The table after some assignments. -/
def Table (n m : Int) (es : List (Int × Int × ℝ)) (t : List (List ℝ)) : Prop :=
  t.length = n.toNat ∧ ∀ j row, t[j]? = some row → Stored m (rowOf es j) row

theorem table_nil (n m : Int) : Table n m [] (List.replicate n.toNat (List.replicate m.toNat 0)) := by
  refine ⟨by simp, fun j row h => ?_⟩
  rw [List.getElem?_replicate] at h
  split at h
  · simp only [Option.some.injEq] at h
    subst h
    exact stored_nil m
  · cases h

theorem pyPos_nat {n : Nat} {i : Int} (h0 : 0 ≤ i) (h : i < n) : pyPos n i = .ok i.toNat := by
  unfold pyPos
  simp only
  rw [if_neg (by omega : ¬ i < 0), if_neg (by omega)]

theorem pyPos_high {n : Nat} {i : Int} (h0 : 0 ≤ i) (h : (n : Int) ≤ i) : pyPos n i = .error .indexError := by
  unfold pyPos
  simp only
  rw [if_neg (by omega : ¬ i < 0), if_pos (by omega)]

theorem table_step {n m : Int} {es : List (Int × Int × ℝ)} {t : List (List ℝ)} {e : Int × Int × ℝ} (h : Table n m es t) (h1 : 0 ≤ e.1) (h2 : 0 ≤ e.2.1) :
    (e.1 < n ∧ e.2.1 < m → ∃ t', setCell t e = .ok t' ∧ Table n m (es ++ [e]) t')
    ∧ (n ≤ e.1 ∨ m ≤ e.2.1 → setCell t e = .error .indexError) := by
  obtain ⟨hl, hr⟩ := h
  by_cases hn : e.1 < n
  · have hpos : pyPos t.length e.1 = .ok e.1.toNat := pyPos_nat h1 (by omega)
    have hlt : e.1.toNat < t.length := by omega
    have hget : t[e.1.toNat]? = some t[e.1.toNat] := List.getElem?_eq_getElem hlt
    have hg : pyGet t e.1 = .ok t[e.1.toNat] := by
      unfold pyGet
      rw [hpos]
      simp only [hget]
    have hs := stored_step m _ _ e.2 (hr _ _ hget)
    have hset : setCell t e = pySet t[e.1.toNat] e.2.1 e.2.2 >>= fun row' => pySet t e.1 row' := by
      simp only [setCell, hg, bind, Except.bind]
    constructor
    · rintro ⟨_, hm⟩
      rw [if_pos (by omega)] at hs
      obtain ⟨l', hl', hst⟩ := hs
      refine ⟨t.set e.1.toNat l', ?_, by simpa using hl, fun j row hj => ?_⟩
      · rw [hset, hl']
        simp only [bind, Except.bind, pySet, hpos]
      · rw [rowOf_concat]
        by_cases he : e.1.toNat = j
        · subst he
          rw [List.getElem?_set_self hlt] at hj
          simp only [Option.some.injEq] at hj
          subst hj
          rw [if_pos (by omega)]
          exact hst
        · rw [List.getElem?_set_ne he] at hj
          rw [if_neg (by omega)]
          exact hr _ _ hj
    · intro hm
      rw [if_neg (by omega)] at hs
      rw [hset, hs]; rfl
  · refine ⟨fun h => absurd h.1 hn, fun _ => ?_⟩
    have hpos : pyPos t.length e.1 = .error .indexError := pyPos_high h1 (by omega)
    simp only [setCell, pyGet, hpos, bind, Except.bind]

theorem table_fold (n m : Int) (es : List (Int × Int × ℝ)) (h0 : ∀ e ∈ es, 0 ≤ e.1 ∧ 0 ≤ e.2.1) :
    ((∀ e ∈ es, e.1 < n ∧ e.2.1 < m) → ∃ t, es.foldlM setCell (List.replicate n.toNat (List.replicate m.toNat 0)) = .ok t ∧ Table n m es t)
    ∧ ((∃ e ∈ es, n ≤ e.1 ∨ m ≤ e.2.1) → es.foldlM setCell (List.replicate n.toNat (List.replicate m.toNat 0)) = .error .indexError) := by
  induction es using List.reverseRecOn with
  | nil => exact ⟨fun _ => ⟨_, rfl, table_nil n m⟩, by simp⟩
  | append_singleton es e ih =>
    obtain ⟨ih1, ih2⟩ := ih (fun q hq => h0 q (by simp [hq]))
    have he := h0 e (by simp)
    rw [foldlM_concat]
    by_cases hall : ∀ q ∈ es, q.1 < n ∧ q.2.1 < m
    · obtain ⟨t, ht, hT⟩ := ih1 hall
      rw [ht]
      have hstep := table_step hT he.1 he.2
      constructor
      · intro h
        exact hstep.1 (h e (by simp))
      · rintro ⟨q, hq, hq'⟩
        rcases List.mem_append.1 hq with hq | hq
        · have := hall q hq; omega
        · rw [List.mem_singleton.1 hq] at hq'
          exact hstep.2 hq'
    · constructor
      · intro h
        exact absurd (fun q hq => h q (by simp [hq])) hall
      · intro _
        push Not at hall
        obtain ⟨q, hq, hq'⟩ := hall
        rw [ih2 ⟨q, hq, by by_contra hc; push Not at hc; have := hq' hc.1; omega⟩]
        rfl

/-- **C61** A polynomial of two variables has `order1 + 1` rows of `order2 + 1` coefficients; each is the last value given for its pair of exponents, or 0; an exponent
above its order raises.

Missing for the full claim: negative exponents, as for one variable. -/
theorem poly2_native_partial (p : Poly2) (h0 : ∀ e ∈ p.coef, 0 ≤ e.1 ∧ 0 ≤ e.2.1) (hn : 0 ≤ p.order1) :
    ((∀ e ∈ p.coef, e.1 ≤ p.order1 ∧ e.2.1 ≤ p.order2) → ∃ t, p.native = .ok t ∧ t.length = (p.order1 + 1).toNat
      ∧ ∀ (i : Nat) row, t[i]? = some row → row.length = (p.order2 + 1).toNat
        ∧ ∀ (j : Nat) v, row[j]? = some v →
          LastValue ((p.coef.filter (fun e => decide (e.1 = (i : Int)))).map (fun e => (e.2.1, e.2.2))) (fun k => k = j) v)
    ∧ ((∃ e ∈ p.coef, p.order1 < e.1 ∨ p.order2 < e.2.1) → p.native = .error .indexError) := by
  have key := table_fold (p.order1 + 1) (p.order2 + 1) p.coef h0
  refine ⟨fun h => ?_, fun ⟨e, he, h⟩ => ?_⟩
  · obtain ⟨t, h1, h2⟩ := key.1 (fun e he => by have := h e he; omega)
    have hne : ¬ t.isEmpty = true := by
      rw [List.isEmpty_iff]
      rintro rfl
      have := h2.1
      simp at this
      omega
    refine ⟨t, ?_, h2.1, fun i row hi => ⟨(h2.2 i row hi).1, fun j v hv => ?_⟩⟩
    · simp only [Poly2.native, h1, bind, Except.bind]
      rw [if_neg hne]; rfl
    · refine stored_nonneg (h2.2 i row hi) (fun e he => ?_) j v hv
      obtain ⟨q, hq, rfl⟩ := List.mem_map.1 he
      exact (h0 q (List.mem_filter.1 hq).1).2
  · have := key.2 ⟨e, he, by omega⟩
    simp only [Poly2.native, this, bind, Except.bind]

example : (⟨1, 2, [(0, 1, 5), (1, 0, 3), (0, 1, 7)]⟩ : Poly2).native = .ok [[0, 7, 0], [3, 0, 0]] := rfl

/-! ## Which model is built -/

theorem built_model (G : Geo) (m : Meta) (b : Built) (h : m.fromDataclass G = .ok (some b))
    (halgo : m.gridType = .rgazim → m.algo = .pfa ∨ m.algo = .rgazcomp) :
    ∃ M, b = .model M ∧ M.conv = ⟨m.scpRow, m.scpCol, m.scp, m.uRow, m.uCol, m.rowSS, m.colSS, m.firstRow, m.firstCol⟩
      ∧ M.spn = slantNormal m.scp m.arpPos m.arpVel m.right
      ∧ M.plane.ref = m.scp ∧ m.timeCoa.native = .ok M.coa.time ∧ m.arp.native = .ok M.coa.arp
      ∧ match M.coa.grid with
        | .pfa s a f => s = m.scp ∧ m.gridType = .rgazim ∧ m.algo = .pfa ∧ ∃ n pa pf, m.pfa = some (n, pa, pf) ∧ pa.native = .ok a ∧ pf.native = .ok f
            ∧ M.plane.u = V3.unit n
        | .rgazcomp s az => s = m.scp ∧ m.gridType = .rgazim ∧ m.algo = .rgazcomp ∧ m.rgAzComp = some az
        | .inca r t d => m.gridType = .rgzero ∧ ∃ pt pd, m.inca = some (r, pt, pd) ∧ pt.native = .ok t ∧ pd.native = .ok d
        | .plane s ur uc => s = m.scp ∧ ur = m.uRow ∧ uc = m.uCol ∧ (m.gridType = .plane ∨ m.gridType = .xctyat ∨ m.gridType = .xrgycr) := by
  simp only [Meta.fromDataclass, bind_ok] at h
  obtain ⟨time, ht, arp, ha, g, hg, h⟩ := h
  rcases g with _ | ⟨_ | g, gpn⟩
  · simp [pure, Except.pure] at h
  · exfalso
    unfold Meta.grid at hg
    rcases hgt : m.gridType with _ | _ | _ | _ | _ | _ <;> rw [hgt] at hg <;> simp only [pure, Except.pure] at hg
    · rcases hal : m.algo with _ | _ | _ | _ <;> rw [hal] at hg <;> simp only at hg
      · rcases hp : m.pfa with _ | ⟨n, pa, pf⟩ <;> rw [hp] at hg <;> simp only at hg
        · cases hg
        · simp [bind_ok] at hg
      · have := halgo hgt; rw [hal] at this; simp at this
      · rcases hp : m.rgAzComp with _ | az <;> rw [hp] at hg <;> simp at hg
      · have := halgo hgt; rw [hal] at this; simp at this
    · rcases hp : m.inca with _ | ⟨r, pt, pd⟩ <;> rw [hp] at hg <;> simp only at hg
      · cases hg
      · simp [bind_ok] at hg
    all_goals simp at hg
  · simp only [pure, Except.pure, Except.ok.injEq, Option.some.injEq] at h
    refine ⟨_, h.symm, rfl, rfl, ?_, ht, ha, ?_⟩
    · rcases gpn with _ | n <;> rfl
    · unfold Meta.grid at hg
      simp only [Model.new]
      rcases hgt : m.gridType with _ | _ | _ | _ | _ | _ <;> rw [hgt] at hg <;> simp only [pure, Except.pure] at hg
      · rcases hal : m.algo with _ | _ | _ | _ <;> rw [hal] at hg <;> simp only at hg
        · rcases hp : m.pfa with _ | ⟨n, pa, pf⟩ <;> rw [hp] at hg <;> simp only at hg
          · cases hg
          · simp only [bind_ok, Except.ok.injEq, Option.some.injEq, Prod.mk.injEq] at hg
            obtain ⟨a, ha', f, hf, rfl, rfl⟩ := hg
            exact ⟨rfl, rfl, rfl, n, pa, pf, rfl, ha', hf, rfl⟩
        · simp at hg
        · rcases hp : m.rgAzComp with _ | az <;> rw [hp] at hg <;> simp only [Except.ok.injEq, Option.some.injEq, Prod.mk.injEq] at hg
          · cases hg
          · obtain ⟨rfl, _⟩ := hg
            exact ⟨rfl, rfl, rfl, rfl⟩
        · simp at hg
      · rcases hp : m.inca with _ | ⟨r, pt, pd⟩ <;> rw [hp] at hg <;> simp only at hg
        · cases hg
        · simp only [bind_ok, Except.ok.injEq, Option.some.injEq, Prod.mk.injEq] at hg
          obtain ⟨a, ha', f, hf, rfl, rfl⟩ := hg
          exact ⟨rfl, pt, pd, rfl, ha', hf⟩
      · simp only [Except.ok.injEq, Option.some.injEq, Prod.mk.injEq] at hg
        obtain ⟨rfl, _⟩ := hg
        exact ⟨rfl, rfl, rfl, .inr (.inr rfl)⟩
      · simp only [Except.ok.injEq, Option.some.injEq, Prod.mk.injEq] at hg
        obtain ⟨rfl, _⟩ := hg
        exact ⟨rfl, rfl, rfl, .inr (.inl rfl)⟩
      · simp only [Except.ok.injEq, Option.some.injEq, Prod.mk.injEq] at hg
        obtain ⟨rfl, _⟩ := hg
        exact ⟨rfl, rfl, rfl, .inl rfl⟩
      · simp at hg

theorem XyzPoly.native_eq {p : XyzPoly} {q : PolyXYZ} (h : p.native = .ok q) : p.x.native = .ok q.px ∧ p.y.native = .ok q.py ∧ p.z.native = .ok q.pz := by
  simp only [XyzPoly.native, bind_ok, pure, Except.pure, Except.ok.injEq] at h
  obtain ⟨a, ha, b, hb, c, hc, rfl⟩ := h
  exact ⟨ha, hb, hc⟩

/-- **C89** What a returned object is: a model whose grid kind is the one that grid type and algorithm ask for, with the coordinates of the metadata's grid, its polynomials each in its place, no adjustable offsets, and a slant plane through
platform and scene whose normal is a unit vector that points away from the center of the Earth when the scene is on the stated side of the track.  Metadata that raise give no object.

Missing for the full claim: range-azimuth grids of another algorithm (`model_without_projection`). -/
theorem built_model_partial (G : Geo) (m : Meta) (b : Built) (h : m.build G = some b)
    (halgo : m.gridType = .rgazim → m.algo = .pfa ∨ m.algo = .rgazcomp) :
    m.fromDataclass G = .ok (some b) ∧
    ∃ M, b = .model M ∧ M.conv = ⟨m.scpRow, m.scpCol, m.scp, m.uRow, m.uCol, m.rowSS, m.colSS, m.firstRow, m.firstCol⟩
      ∧ M.plane.ref = m.scp ∧ m.timeCoa.native = .ok M.coa.time
      ∧ m.arp.x.native = .ok M.coa.arp.px ∧ m.arp.y.native = .ok M.coa.arp.py ∧ m.arp.z.native = .ok M.coa.arp.pz
      ∧ (Independent m.arpVel (sub m.scp m.arpPos) → Spec.Sicd.IsUnit M.spn ∧ Perp M.spn m.arpVel ∧ along M.spn m.scp m.arpPos = 0
          ∧ ((if m.right then along (cross m.arpPos m.arpVel) m.scp m.arpPos < 0 else 0 < along (cross m.arpPos m.arpVel) m.scp m.arpPos)
              → 0 < along M.spn m.scp ⟨0, 0, 0⟩))
      ∧ match M.coa.grid with
        | .pfa s a f => s = m.scp ∧ m.gridType = .rgazim ∧ m.algo = .pfa ∧ ∃ n pa pf, m.pfa = some (n, pa, pf) ∧ pa.native = .ok a ∧ pf.native = .ok f
            ∧ M.plane.u = V3.unit n
        | .rgazcomp s az => s = m.scp ∧ m.gridType = .rgazim ∧ m.algo = .rgazcomp ∧ m.rgAzComp = some az
        | .inca r t d => m.gridType = .rgzero ∧ ∃ pt pd, m.inca = some (r, pt, pd) ∧ pt.native = .ok t ∧ pd.native = .ok d
        | .plane s ur uc => s = m.scp ∧ ur = m.uRow ∧ uc = m.uCol ∧ (m.gridType = .plane ∨ m.gridType = .xctyat ∨ m.gridType = .xrgycr) := by
  have h' : m.fromDataclass G = .ok (some b) := by
    unfold Meta.build at h
    split at h
    · rename_i b' hb; rw [hb, h]
    · exact absurd h (by simp)
  refine ⟨h', ?_⟩
  obtain ⟨M, h1, h2, h3, h4, h5, h6, h7⟩ := built_model G m b h' halgo
  obtain ⟨hx, hy, hz⟩ := XyzPoly.native_eq h6
  refine ⟨M, h1, h2, h4, h5, hx, hy, hz, fun hi => ?_, h7⟩
  obtain ⟨a1, a2, a3, a4⟩ := Props.Sicd.slant_normal_outward m.scp m.arpPos m.arpVel m.right hi
  rw [h3]
  exact ⟨a1, a2, a3, fun hs => (a4 hs).1⟩

/-- Metadata with one coefficient per polynomial. -/
noncomputable def exMeta (g : GridType) (a : Algo) : Meta :=
  ⟨⟨0, 4, 0⟩, 10, 20, 2, 3, ⟨1, 0, 0⟩, ⟨0, 1, 0⟩, 1, 1, ⟨0, 0, [(0, 0, 0)]⟩, ⟨⟨1, [(1, 1)]⟩, ⟨0, []⟩, ⟨0, [(0, 3)]⟩⟩, g, a, some (⟨0, 0, 1⟩, ⟨0, []⟩, ⟨0, [(0, 2)]⟩),
    none, none, ⟨0, 0, 3⟩, ⟨1, 0, 0⟩, false⟩

example (G : Geo) : (∃ M, (exMeta .rgazim .pfa).build G = some (.model M)) ∧ Independent (exMeta .rgazim .pfa).arpVel (sub (exMeta .rgazim .pfa).scp (exMeta .rgazim .pfa).arpPos) := by
  refine ⟨⟨_, rfl⟩, ?_⟩
  right; left; norm_num [exMeta, sub]

/-- **C89** negation: for a range-azimuth grid of another algorithm the builder returns an object whose every projection raises. -/
theorem model_without_projection (G : Geo) :
    ∃ m b, Meta.build G m = some b ∧ m.gridType = .rgazim ∧ (∀ rc, b.toWorld G rc = .error .attributeError) ∧ ∀ l, b.toImage G l = .error .attributeError :=
  ⟨exMeta .rgazim .rma, .noProjection _, rfl, rfl, fun _ => rfl, fun _ => rfl⟩

/-! ## Chips -/

/-- The model built from metadata that differs in the first row and column only. -/
def withFirst (M : Model) (r c : ℝ) : Model := { M with conv := { M.conv with firstRow := r, firstCol := c } }

theorem search_withFirst (M : Model) (r c : ℝ) (S : V3) : ∀ left n g, (withFirst M r c).search S left n g = M.search S left n g := by
  intro left
  induction left with
  | zero => intro n g; rw [Model.search, Model.search]; rfl
  | succ left ih =>
    intro n g
    rw [Model.search, Model.search]
    have e1 : (withFirst M r c).gridOf g = M.gridOf g := rfl
    have e2 : ∀ xy, (withFirst M r c).project xy = M.project xy := fun xy => rfl
    simp only [e1, e2, ih]

/-- **C60** The sensor model built from the metadata of a SICD chip, after any history of chip requests on the same updater, maps a chip pixel on any surface to the
point that the image's model gives for the pixel plus the chip offset, and maps a world coordinate to the image's pixel minus the offset. -/
theorem chip_model_shifted (M : Model) (G : Geo) (d : Updaters.ImageData) (history : List Updaters.Request) (win : Updaters.Window)
    (out : Option (Int × Int)) (hout : out = none ∨ out = some (win.w, win.h)) :
    ∃ s, (Updaters.runAll Updaters.Sicd.update (Updaters.Sicd.new d) history).update ⟨win, out⟩ = .ok s
      ∧ (∀ surface rc, (withFirst M s.image.firstRow s.image.firstCol).toWorldOn surface G rc
          = (withFirst M d.firstRow d.firstCol).toWorldOn surface G (rc.1 + win.y, rc.2 + win.x))
      ∧ ∀ l, (withFirst M s.image.firstRow s.image.firstCol).toImage G l
          = ((withFirst M d.firstRow d.firstCol).toImage G l).map (fun rc : ℝ × ℝ => (rc.1 - (win.y : ℝ), rc.2 - (win.x : ℝ))) := by
  obtain ⟨s, h1, h2⟩ := Props.Updaters.sicd_tile_metadata d history win out hout
  refine ⟨s, h1, fun surface rc => ?_, fun l => ?_⟩
  · rw [h2]
    have : (withFirst M (d.firstRow + win.y : Int) (d.firstCol + win.x : Int)).conv.toGrid
        (rc.1 + (withFirst M (d.firstRow + win.y : Int) (d.firstCol + win.x : Int)).conv.firstRow,
          rc.2 + (withFirst M (d.firstRow + win.y : Int) (d.firstCol + win.x : Int)).conv.firstCol)
        = (withFirst M d.firstRow d.firstCol).conv.toGrid (rc.1 + win.y + (withFirst M d.firstRow d.firstCol).conv.firstRow,
          rc.2 + win.x + (withFirst M d.firstRow d.firstCol).conv.firstCol) := by
      simp only [withFirst, Converter.toGrid, Int.cast_add]
      ext <;> simp only <;> ring
    simp only [Model.toWorldOn, this]
    rfl
  · rw [h2]
    simp only [Model.toImage, search_withFirst, bind, Except.bind, pure, Except.pure]
    rcases M.search (G.toEcf l) 9 1 (G.toEcf l) with e | r
    · rfl
    · simp only [Except.map, Except.ok.injEq, withFirst, Converter.toPixel, Int.cast_add]
      ext <;> simp only <;> ring

/-- A chip at (7, 5) of an image that is a chip itself, after another request. -/
example : (Updaters.runAll Updaters.Sicd.update (Updaters.Sicd.new ⟨100, 200, 50, 60⟩) [⟨⟨1, 2, 3, 4⟩, none⟩]).update ⟨⟨7, 5, 3, 4⟩, none⟩
    = .ok ⟨100, 200, ⟨105, 207, 4, 3⟩⟩ := rfl

end Verif.Props.SicdBuilder
