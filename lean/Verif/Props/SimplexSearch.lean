import Mathlib.Data.List.Perm.Subperm
import Mathlib.Order.WithBot
import Verif.Props.NelderMead
import Verif.Spec.Simplex

/-!
# The search of `image_to_world` makes the passes of the literature until three tries agree or 400 tries have been made
-/

namespace Verif.Props.SimplexSearch

open Verif.Rpc Verif.NelderMead Verif.Spec.Rpc Verif.Spec.Simplex Verif.Lemmas.NelderMead Verif.Sensors Verif.Rsm
open Verif.Spec.Rsm (Within)
open Verif.Dem (Geo)

/-! ## Values -/

theorem less_iff {inf : Bool} {u v : Option ℝ} : Less inf u v ↔ Smaller inf u v := by
  cases u <;> cases v <;> simp [Less, Smaller]

theorem lessEq_iff {inf : Bool} {u v : Option ℝ} : LessEq inf u v ↔ NotLarger inf u v := by
  cases u <;> cases v <;> simp [LessEq, NotLarger]

theorem before_iff' {u v : Option ℝ} : Before u v ↔ NotLarger true u v := by
  cases u <;> cases v <;> simp [Before, NotLarger]

/-- The value of a try on the line with `∞`. -/
def extended : Option ℝ → WithTop ℝ
  | none => ⊤
  | some t => t

/-- With `∞` the comparisons are those of the extended line. -/
theorem extended_line (u v : Option ℝ) : (Smaller true u v ↔ extended u < extended v) ∧ (NotLarger true u v ↔ extended u ≤ extended v) := by
  cases u <;> cases v <;> simp [Smaller, NotLarger, extended]

/-! ## One pass -/

/-- A vertex as a try. -/
def try_ (v : Vertex) : Try := (v.x, v.f)

/-- A simplex as a triangle. -/
def tri (s : Simplex) : Triangle := ⟨try_ s.a, try_ s.b, try_ s.c⟩

theorem away_eq (s : Simplex) (t : ℝ) : s.away t = (tri s).opposite t := by
  simp only [Simplex.away, Triangle.opposite, tri, try_, Prod.mk.injEq]
  constructor <;> ring

theorem halfway_eq (a v : Vertex) : halfway a v = midway (try_ a).1 (try_ v).1 := by
  simp only [halfway, midway, try_, Prod.mk.injEq]
  constructor <;> ring

theorem ranked_sort (s : Simplex) : Ranked (tri s).all (tri (sort s)) := by
  obtain ⟨⟨h1, h2⟩, _⟩ := sort_spec s
  refine ⟨?_, before_iff'.mp h1, before_iff'.mp h2⟩
  have p1 : ∀ u v c : Vertex, (tri (insertLast u v c)).all.Perm [try_ u, try_ v, try_ c] := by
    intro u v c
    unfold insertLast
    split
    · exact .refl _
    split
    · exact .cons _ (.swap _ _ _)
    · exact .trans (.swap _ _ _) (.cons _ (.swap _ _ _))
  unfold sort
  split
  · exact p1 _ _ _
  · exact (p1 _ _ _).trans (.swap _ _ _)

theorem tries_evaluate {A : ℝ × ℝ → Option ℝ → Prop} {n : Nat} {x : ℝ × ℝ} {stop : Search} {k : Option ℝ → Nat → Search} {ts : List Try} {p : ℝ × ℝ}
    (h : Tries A (evaluate n x stop k) ts p) : n = 0 ∧ Tries A stop ts p ∨ ∃ v m us, n = m + 1 ∧ ts = (x, v) :: us ∧ A x v ∧ Tries A (k v m) us p := by
  cases n with
  | zero => exact .inl ⟨rfl, h⟩
  | succ n =>
    cases h with
    | ask _ _ v us _ hv hf => exact .inr ⟨v, n, us, rfl, rfl, hv, hf⟩

/-- A pass is made in full, with `m` evaluations left, or the last evaluation has been used. -/
theorem tries_step {A : ℝ × ℝ → Option ℝ → Prop} {inf : Bool} {clip : ℝ × ℝ → ℝ × ℝ} {s : Simplex} {n : Nat} {next : Simplex → Nat → Search}
    {stop : Simplex → Search} {ts : List Try} {p : ℝ × ℝ} (hstop : ∀ s us q, Tries A (stop s) us q → us = [])
    (h : Tries A (step inf clip s n next stop) ts p) :
    (∃ s' m us vs, Pass inf clip (tri s) us (tri s') ∧ us ≠ [] ∧ ts = us ++ vs ∧ n = us.length + m ∧ Tries A (next s' m) vs p) ∨ ts.length = n := by
  have shrinks : ∀ (n : Nat) (ts : List Try), Tries A (shrink clip s n next stop) ts p →
      (∃ fb fc m vs, ts = (clip (midway (tri s).best.1 (tri s).middle.1), fb) :: (clip (midway (tri s).best.1 (tri s).worst.1), fc) :: vs ∧ n = 2 + m ∧
        Tries A (next ⟨s.a, ⟨clip (halfway s.a s.b), fb⟩, ⟨clip (halfway s.a s.c), fc⟩⟩ m) vs p) ∨ ts.length = n := by
    intro n ts h
    rcases tries_evaluate h with ⟨rfl, h⟩ | ⟨fb, m, us, rfl, rfl, _, h⟩
    · rw [hstop _ _ _ h]; exact .inr rfl
    rcases tries_evaluate h with ⟨rfl, h⟩ | ⟨fc, m, us, rfl, rfl, _, h⟩
    · rw [hstop _ _ _ h]; exact .inr rfl
    · exact .inl ⟨fb, fc, m, us, by rw [halfway_eq, halfway_eq]; rfl, by omega, h⟩
  rcases tries_evaluate h with ⟨rfl, h⟩ | ⟨fr, m, us, rfl, rfl, _, h⟩
  · rw [hstop _ _ _ h]; exact .inr rfl
  rw [away_eq]
  split at h
  · rename_i c1
    rcases tries_evaluate h with ⟨rfl, h⟩ | ⟨fe, m, us, rfl, rfl, _, h⟩
    · rw [hstop _ _ _ h]; exact .inr rfl
    rw [away_eq, away_eq] at *
    split at h
    · rename_i c2
      exact .inl ⟨_, m, _, us, .expanded fr fe (less_iff.mp c1) (less_iff.mp c2), by simp, rfl, by simp; omega, h⟩
    · rename_i c2
      exact .inl ⟨_, m, _, us, .unexpanded fr fe (less_iff.mp c1) (fun k => c2 (less_iff.mpr k)), by simp, rfl, by simp; omega, h⟩
  rename_i c1
  have c1' : ¬ Smaller inf fr (tri s).best.2 := fun k => c1 (less_iff.mpr k)
  split at h
  · rename_i c2
    rw [away_eq] at *
    exact .inl ⟨_, m, _, us, .reflected fr c1' (less_iff.mp c2), by simp, rfl, by simp; omega, h⟩
  rename_i c2
  have c2' : ¬ Smaller inf fr (tri s).middle.2 := fun k => c2 (less_iff.mpr k)
  split at h
  · rename_i c3
    rcases tries_evaluate h with ⟨rfl, h⟩ | ⟨fo, m, us, rfl, rfl, _, h⟩
    · rw [hstop _ _ _ h]; exact .inr rfl
    rw [away_eq] at *
    split at h
    · rename_i c4
      exact .inl ⟨_, m, _, us, .outside fr fo c1' c2' (less_iff.mp c3) (lessEq_iff.mp c4), by simp, rfl, by simp; omega, h⟩
    · rename_i c4
      rcases shrinks _ _ h with ⟨fb, fc, m', vs, rfl, rfl, h'⟩ | h'
      · rw [halfway_eq, halfway_eq] at h'
        exact .inl ⟨_, m', _, vs, .shrunk fr fo fb fc (1 / 2) c1' c2' (.inl ⟨less_iff.mp c3, rfl, fun k => c4 (lessEq_iff.mpr k)⟩), by simp, rfl, by simp; omega, h'⟩
      · right; simp [h']
  · rename_i c3
    have c3' : ¬ Smaller inf fr (tri s).worst.2 := fun k => c3 (less_iff.mpr k)
    rcases tries_evaluate h with ⟨rfl, h⟩ | ⟨fi, m, us, rfl, rfl, _, h⟩
    · rw [hstop _ _ _ h]; exact .inr rfl
    rw [away_eq] at *
    split at h
    · rename_i c4
      exact .inl ⟨_, m, _, us, .inside fr fi c1' c2' c3' (less_iff.mp c4), by simp, rfl, by simp; omega, h⟩
    · rename_i c4
      rcases shrinks _ _ h with ⟨fb, fc, m', vs, rfl, rfl, h'⟩ | h'
      · rw [halfway_eq, halfway_eq] at h'
        exact .inl ⟨_, m', _, vs, .shrunk fr fi fb fc (-1 / 2) c1' c2' (.inr ⟨c3', rfl, fun k => c4 (less_iff.mpr k)⟩), by simp, rfl, by simp; omega, h'⟩
      · right; simp [h']

theorem converged_iff (x f : ℝ) (s : Simplex) : Converged x f s ↔ Agree x f (tri s) := by
  simp only [Converged, Agree, tri, List.mem_cons, List.not_mem_nil, or_false, forall_eq_or_imp, forall_eq, try_]
  constructor
  · rintro ⟨⟨⟨a1, a2⟩, a3, a4⟩, v, hv, ⟨g, g1, g2⟩, k, k1, k2⟩
    exact ⟨⟨a1, a2, v, g, hv, g1, g2⟩, a3, a4, v, k, hv, k1, k2⟩
  · rintro ⟨⟨a1, a2, v, g, hv, g1, g2⟩, a3, a4, v', k, hv', k1, k2⟩
    obtain rfl : v = v' := Option.some.inj (hv.symm.trans hv')
    exact ⟨⟨⟨a1, a2⟩, a3, a4⟩, v, hv, ⟨g, g1, g2⟩, k, k1, k2⟩

/-- The loop: with more iterations left than evaluations, only the latter end it. -/
theorem tries_loop {A : ℝ × ℝ → Option ℝ → Prop} (inf : Bool) (clip : ℝ × ℝ → ℝ × ℝ) (x f : ℝ) (m : Nat) : ∀ (s : Simplex) (n : Nat) (ts : List Try) (p : ℝ × ℝ),
    n < m → Tries A (loop inf clip x f m s n) ts p →
      ∃ s' us vs, Passes inf clip x f (tri s) us s' ∧ ts = us ++ vs ∧ (vs = [] ∧ Agree x f s' ∧ p = s'.best.1 ∨ ts.length = n) := by
  induction m with
  | zero => intro s n ts p h; omega
  | succ m ih =>
    intro s n ts p hn h
    unfold loop at h
    split at h
    · rename_i c
      cases h
      refine ⟨tri s, [], [], .none _, rfl, ?_⟩
      rcases c with rfl | c
      · exact .inr rfl
      · exact .inl ⟨rfl, (converged_iff _ _ _).mp c, rfl⟩
    · rename_i c
      rcases tries_step (by intro s us q h; cases h; rfl) h with ⟨s1, k, us, vs, h1, h2, rfl, rfl, h3⟩ | h
      · have : 0 < us.length := List.length_pos_iff.mpr h2
        obtain ⟨s', ws, zs, k1, rfl, k2⟩ := ih _ _ _ _ (by omega) h3
        refine ⟨s', us ++ ws, zs, .more _ _ _ _ _ _ (fun k => c (.inr ((converged_iff _ _ _).mpr k))) h1 (ranked_sort s1) k1, by simp, ?_⟩
        rcases k2 with k2 | k2
        · exact .inl k2
        · right; simp only [List.length_append] at k2 ⊢; omega
      · exact ⟨tri s, [], ts, .none _, rfl, .inr h⟩

theorem clipTo_eq (bounds : Option ((ℝ × ℝ) × ℝ × ℝ)) : clipTo bounds = intoBounds bounds := by
  funext p
  cases bounds <;> rfl

theorem enters_eq (bounds : Option ((ℝ × ℝ) × ℝ × ℝ)) (p : ℝ × ℝ) : clipTo bounds (reflectAt bounds p) = enters bounds p := by
  have mirror : ∀ a b : ℝ, (if b < a then 2 * b - a else a) = min a (2 * b - a) := by
    intro a b
    split
    · rw [min_eq_right (by linarith)]
    · rw [min_eq_left (by linarith)]
  cases bounds with
  | none => rfl
  | some b => simp only [clipTo, reflectAt, enters, Verif.Spec.Simplex.inside, mirror]

/-- **C169**: the search tries the corners of the triangle, then makes passes as in the literature until the triangle agrees, and returns its best corner; or it makes 400 tries. -/
theorem search_makes_passes (inf : Bool) (A : ℝ × ℝ → Option ℝ → Prop) (start : ℝ × ℝ) (bounds : Option ((ℝ × ℝ) × ℝ × ℝ)) (p q r : ℝ × ℝ) (ts : List Try) (x : ℝ × ℝ)
    (h : Tries A (nelderMead inf start bounds [p, q, r]) ts x) :
    ∃ fp fq fr s0 us s vs, Ranked [(enters bounds p, fp), (enters bounds q, fq), (enters bounds r, fr)] s0 ∧
      Passes inf (intoBounds bounds) (1 / 1000000 * (Real.pi / 180)) (1 / 2) s0 us s ∧
      ts = [(enters bounds p, fp), (enters bounds q, fq), (enters bounds r, fr)] ++ us ++ vs ∧
      (vs = [] ∧ Agree (1 / 1000000 * (Real.pi / 180)) (1 / 2) s ∧ x = s.best.1 ∨ ts.length = 400) := by
  simp only [nelderMead] at h
  obtain _ | ⟨_, _, f1, ts, _, _, h⟩ := h
  obtain _ | ⟨_, _, f2, ts, _, _, h⟩ := h
  obtain _ | ⟨_, _, f3, ts, _, _, h⟩ := h
  obtain ⟨s', us, vs, k1, rfl, k2⟩ := tries_loop _ _ _ _ _ _ _ _ _ (by norm_num) h
  have e1 : radians 0.000001 = 1 / 1000000 * (Real.pi / 180) := by unfold radians; ring
  have e2 : (0.5 : ℝ) = 1 / 2 := by norm_num
  rw [e1, e2, clipTo_eq] at k1
  rw [e1, e2] at k2
  have rk := ranked_sort ⟨⟨clipTo bounds (reflectAt bounds p), f1⟩, ⟨clipTo bounds (reflectAt bounds q), f2⟩, ⟨clipTo bounds (reflectAt bounds r), f3⟩⟩
  rw [← clipTo_eq] at k1
  simp only [enters_eq, clipTo_eq] at k1 rk ⊢
  refine ⟨f1, f2, f3, _, us, s', vs, rk, k1, by simp, ?_⟩
  rcases k2 with k2 | k2
  · exact .inl k2
  · right
    simp only [List.length_cons, k2]

/-! ## Three tries -/

theorem pass_subperm {inf : Bool} {clip : ℝ × ℝ → ℝ × ℝ} {s s' : Triangle} {ts us : List Try} (h : Pass inf clip s us s') (hs : s.all.Subperm ts) :
    s'.all.Subperm (ts ++ us) := by
  have two : [s.best, s.middle].Subperm ts := (List.sublist_append_left [s.best, s.middle] [s.worst]).subperm.trans hs
  have one : [s.best].Subperm ts := (List.sublist_append_left [s.best] [s.middle, s.worst]).subperm.trans hs
  have put : ∀ t ∈ us, (s.replaced t).all.Subperm (ts ++ us) := fun t ht =>
    two.append (List.singleton_subperm_iff.mpr ht)
  cases h with
  | expanded => exact put _ (by simp)
  | unexpanded => exact put _ (by simp)
  | reflected => exact put _ (by simp)
  | outside => exact put _ (by simp)
  | inside => exact put _ (by simp)
  | shrunk => exact one.append (by
      refine List.Sublist.subperm ?_
      exact .cons _ (.cons _ (.refl _)))

theorem passes_subperm {inf : Bool} {clip : ℝ × ℝ → ℝ × ℝ} {x f : ℝ} {s s' : Triangle} {us : List Try} (h : Passes inf clip x f s us s') :
    ∀ ts, s.all.Subperm ts → s'.all.Subperm (ts ++ us) := by
  induction h with
  | none => intro ts h; simpa using h
  | more s us s1 s2 vs s3 _ hp hr _ ih =>
    intro ts h
    rw [← List.append_assoc]
    exact ih _ (hr.1.subperm.trans (pass_subperm hp h))

theorem tries_answered {A : ℝ × ℝ → Option ℝ → Prop} {s : Search} {ts : List Try} {x : ℝ × ℝ} (h : Tries A s ts x) : ∀ t ∈ ts, A t.1 t.2 := by
  induction h with
  | done => simp
  | ask q next v ts p ha _ ih =>
    intro t ht
    rcases List.mem_cons.mp ht with rfl | ht
    · exact ha
    · exact ih t ht

theorem tries_of_finds {A : ℝ × ℝ → Option ℝ → Prop} {s : Search} {x : ℝ × ℝ} (h : Finds A s x) : ∃ ts, Tries A s ts x := by
  induction h with
  | done p => exact ⟨[], .done p⟩
  | ask q next v p ha _ ih =>
    obtain ⟨ts, h⟩ := ih
    exact ⟨_, .ask _ _ _ _ _ ha h⟩

theorem at_most_tries {A : ℝ × ℝ → Option ℝ → Prop} {n : Nat} {s : Search} (h : Verif.Spec.Rsm.AtMost n s) : ∀ {ts : List Try} {x : ℝ × ℝ}, Tries A s ts x → ts.length ≤ n := by
  induction h with
  | done n p => intro ts x h; cases h; simp
  | ask n q next _ ih =>
    intro ts x h
    obtain _ | ⟨_, _, v, ts, _, _, h⟩ := h
    have := ih v h
    simp only [List.length_cons]
    omega

/-- **C169**: fewer than 400 tries have been made only if the result and two further tries are within a millionth of a degree and have values within 1/2. -/
theorem three_tries_agree (inf : Bool) (A : ℝ × ℝ → Option ℝ → Prop) (start : ℝ × ℝ) (bounds : Option ((ℝ × ℝ) × ℝ × ℝ)) (p q r : ℝ × ℝ) (ts : List Try) (x : ℝ × ℝ)
    (h : Tries A (nelderMead inf start bounds [p, q, r]) ts x) (hl : ts.length ≠ 400) :
    ∃ y z f g k, [(x, some f), (y, some g), (z, some k)].Subperm ts ∧
      (|y.1 - x.1| ≤ 1 / 1000000 * (Real.pi / 180) ∧ |y.2 - x.2| ≤ 1 / 1000000 * (Real.pi / 180) ∧ |f - g| ≤ 1 / 2) ∧
      (|z.1 - x.1| ≤ 1 / 1000000 * (Real.pi / 180) ∧ |z.2 - x.2| ≤ 1 / 1000000 * (Real.pi / 180) ∧ |f - k| ≤ 1 / 2) := by
  obtain ⟨fp, fq, fr, s0, us, s, vs, h1, h2, rfl, ⟨rfl, h3, rfl⟩ | h3⟩ := search_makes_passes inf A start bounds p q r ts x h
  · have sub := passes_subperm h2 _ h1.1.subperm
    obtain ⟨a1, a2, f, g, hf, hg, a3⟩ := h3 s.middle (by simp)
    obtain ⟨b1, b2, f', k, hf', hk, b3⟩ := h3 s.worst (by simp)
    obtain rfl : f = f' := Option.some.inj (hf.symm.trans hf')
    refine ⟨s.middle.1, s.worst.1, f, g, k, ?_, ⟨a1, a2, a3⟩, b1, b2, b3⟩
    rw [List.append_nil, ← hf, ← hg, ← hk]
    exact sub
  · exact absurd h3 hl

/-- **C169**: where no value is finite, 400 tries are made. -/
theorem no_value_400 (inf : Bool) (A : ℝ × ℝ → Option ℝ → Prop) (hA : ∀ q v, A q v → v = none) (start : ℝ × ℝ) (bounds : Option ((ℝ × ℝ) × ℝ × ℝ)) (p q r : ℝ × ℝ)
    (ts : List Try) (x : ℝ × ℝ) (h : Tries A (nelderMead inf start bounds [p, q, r]) ts x) : ts.length = 400 := by
  by_contra hl
  obtain ⟨y, z, f, g, k, sub, _⟩ := three_tries_agree inf A start bounds p q r ts x h hl
  have := hA _ _ (tries_answered h _ (sub.subset (List.mem_cons_self ..)))
  simp at this

/-! ## The searches of the sensor models -/

/-- The result and two further tries are close, and so are their values. -/
def Settled (ts : List Try) (x : ℝ × ℝ) : Prop :=
  ∃ y z f g k, [(x, some f), (y, some g), (z, some k)].Subperm ts ∧
    (|y.1 - x.1| ≤ 1 / 1000000 * (Real.pi / 180) ∧ |y.2 - x.2| ≤ 1 / 1000000 * (Real.pi / 180) ∧ |f - g| ≤ 1 / 2) ∧
    (|z.1 - x.1| ≤ 1 / 1000000 * (Real.pi / 180) ∧ |z.2 - x.2| ≤ 1 / 1000000 * (Real.pi / 180) ∧ |f - k| ≤ 1 / 2)

/-- **C169**: `image_to_world` of an RPC model returns the place of a search whose tries have the misfits to the pixel as values; it has settled, or 400 places have been tried. -/
theorem rpc_settles_or_400 (inf : Bool) (r : RpcModel) (p : ℝ × ℝ) (e : Option (Elev ℝ)) (o : Option (Dict ℝ)) (g : Geo ℝ)
    (hg : (r.model (nelderMead inf)).imageToWorld p e o = .ok g) :
    ∃ x ts, ground r.heightOff e x.1 x.2 = .ok g ∧ (∀ t ∈ ts, IsMisfit r.worldToImage r.heightOff e p t.1 t.2) ∧ (ts.length = 400 ∨ ts.length < 400 ∧ Settled ts x) := by
  obtain ⟨start, size, lon, lat, _, _, hf, hgr⟩ := (Verif.Props.Rpc.rpc_image_to_world (nelderMead inf) r p e o).2 g hg
  obtain ⟨ts, ht⟩ := tries_of_finds hf
  have le := at_most_tries (Verif.Props.NelderMead.nelder_mead_at_most_400 inf start none (equilateralTriangle start size)) ht
  refine ⟨(lon, lat), ts, hgr, tries_answered ht, ?_⟩
  by_cases hl : ts.length = 400
  · exact .inl hl
  · exact .inr ⟨by omega, three_tries_agree inf _ _ _ _ _ _ _ _ ht hl⟩

/-- **C169** for RSM models. -/
theorem rsm_settles_or_400 (inf : Bool) (earth : Earth) (form : Form) (vs : List Vec) (origin : Option Vec) (units : Option Mat) (ref : Option Vec) (m : PolyModel)
    (hd : groundDomain earth form vs origin units ref = .ok m.domain) (p : ℝ × ℝ) (e : Option (Elev ℝ)) (o : Option (Dict ℝ)) (g : Geo ℝ)
    (hg : (m.model earth (nelderMead inf)).imageToWorld p e o = .ok g) :
    ∃ x ts, ground m.domain.defaultHeight e x.1 x.2 = .ok g ∧
      (∀ t ∈ ts, IsMisfit (m.model earth (nelderMead inf)).worldToImage m.domain.defaultHeight e p t.1 t.2) ∧ (ts.length = 400 ∨ ts.length < 400 ∧ Settled ts x) := by
  obtain ⟨start, size, lon, lat, v1, v4, box, _, _, _, _, _, hf, hgr⟩ :=
    (Verif.Props.RsmModel.rsm_image_to_world earth (nelderMead inf) form vs origin units ref m hd p e o).2 g hg
  obtain ⟨ts, ht⟩ := tries_of_finds hf
  have le := at_most_tries (Verif.Props.NelderMead.nelder_mead_at_most_400 inf start (some box) (equilateralTriangle start size)) ht
  refine ⟨(lon, lat), ts, hgr, tries_answered ht, ?_⟩
  by_cases hl : ts.length = 400
  · exact .inl hl
  · exact .inr ⟨by omega, three_tries_agree inf _ _ _ _ _ _ _ _ ht hl⟩

/-! ## Examples -/

/-- The classic first pass: from the corners (0, 0), (1, 0) and (0, 1) with the values 3, 4 and 5 the worst one is replaced by its mirror image (1, -1), if that has a value between. -/
example : Pass true id ⟨((0, 0), some 3), ((1, 0), some 4), ((0, 1), some 5)⟩ [((1, -1), some (7 / 2))] ⟨((0, 0), some 3), ((1, 0), some 4), ((1, -1), some (7 / 2))⟩ := by
  have h := Pass.reflected (inf := true) (clip := id) (s := ⟨((0, 0), some 3), ((1, 0), some 4), ((0, 1), some 5)⟩) (some (7 / 2))
    (by rintro ⟨s, h, ⟨t, h', k⟩ | ⟨h', _⟩⟩
        · simp only [Option.some.injEq] at h h'; subst h h'; norm_num at k
        · cases h') ⟨7 / 2, rfl, .inl ⟨4, rfl, by norm_num⟩⟩
  have e : (Triangle.opposite ⟨((0, 0), some 3), ((1, 0), some 4), ((0, 1), some 5)⟩ 1) = ((1, -1) : ℝ × ℝ) := by
    simp only [Triangle.opposite]; norm_num
  rw [e] at h
  exact h

/-- A search that settles, from a triangle around a first guess. -/
example (inf : Bool) : ∃ g x ts, (Verif.Props.NelderMead.plain.model (nelderMead inf)).imageToWorld (50, -20) none (some Verif.Props.NelderMead.tinyHint) = .ok g ∧
    ground Verif.Props.NelderMead.plain.heightOff none x.1 x.2 = .ok g ∧ (ts.length = 400 ∨ ts.length < 400 ∧ Settled ts x) := by
  obtain ⟨q, _, h⟩ := Verif.Props.NelderMead.plain_stays inf (50, -20)
  obtain ⟨x, ts, h1, _, h3⟩ := rpc_settles_or_400 inf _ _ _ _ _ h
  exact ⟨_, x, ts, h, h1, h3⟩

/-- A search of three tries. -/
example (inf : Bool) : Tries (fun _ v => v = some 7) (nelderMead inf (0, 0) none [(0, 0), (0, 0), (0, 0)]) [((0, 0), some 7), ((0, 0), some 7), ((0, 0), some 7)] (0, 0) := by
  have h0 : 0 ≤ radians 0.000001 := by unfold radians; have := Real.pi_pos; positivity
  refine .ask _ _ _ _ _ rfl (.ask _ _ _ _ _ rfl (.ask _ _ _ _ _ rfl ?_))
  have e : sort ⟨⟨(0, 0), some 7⟩, ⟨(0, 0), some 7⟩, ⟨(0, 0), some 7⟩⟩ = ⟨⟨(0, 0), some 7⟩, ⟨(0, 0), some 7⟩, ⟨(0, 0), some 7⟩⟩ := by
    simp [sort, insertLast, Before]
  simp only [clipTo, reflectAt]
  rw [e]
  unfold loop
  rw [if_pos (.inr (by simp only [Converged, List.mem_cons, List.not_mem_nil, or_false, forall_eq_or_imp, forall_eq]; refine ⟨by simpa using h0, 7, rfl, ⟨7, rfl, by norm_num⟩, 7, rfl, by norm_num⟩))]
  exact .done _

end Verif.Props.SimplexSearch
