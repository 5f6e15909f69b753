import Verif.Spec.Scene
import Verif.Props.SicdSurface
import Verif.Props.SicdBuilder

/-!
# The place of a pixel follows from the numbers of the document
-/

namespace Verif.Props.Located

open Verif Verif.Sicd Verif.Sicd.V3 Verif.Spec.Sicd Verif.Spec.Scene Verif.Props.Sicd Verif.Props.SicdSurface

/-! ## Polynomials -/

theorem polyval_set (t : ℝ) : ∀ (l : List ℝ) (i : Nat) (v w : ℝ), l[i]? = some w → polyval (l.set i v) t = polyval l t + (v - w) * t ^ i
  | [], i, v, w, h => by simp at h
  | a :: l, 0, v, w, h => by
    simp only [List.getElem?_cons_zero, Option.some.injEq] at h
    subst h
    simp only [List.set_cons_zero, polyval]
    ring
  | a :: l, i + 1, v, w, h => by
    simp only [List.getElem?_cons_succ] at h
    simp only [List.set_cons_succ, polyval, polyval_set t l i v w h]
    ring

theorem polyval_zeros (n : Nat) (t : ℝ) : polyval (List.replicate n 0) t = 0 := by
  induction n with
  | zero => rfl
  | succ n ih => simp only [List.replicate_succ, polyval, ih]; ring

theorem pySet_nat {α : Type} (l : List α) (i : Int) (a : α) (h0 : 0 ≤ i) (h : i < l.length) : pySet l i a = .ok (l.set i.toNat a) := by
  unfold pySet
  rw [Verif.Props.SicdBuilder.pyPos_nat h0 h]

theorem pyGet_nat {α : Type} (l : List α) (i : Int) (a : α) (h0 : 0 ≤ i) (h : i < l.length) (ha : l[i.toNat]? = some a) : pyGet l i = .ok a := by
  unfold pyGet
  rw [Verif.Props.SicdBuilder.pyPos_nat h0 h]
  simp only [ha]

theorem fold1 : ∀ (es : List (Int × ℝ)) (l : List ℝ), (es.map (·.1)).Nodup → (∀ e ∈ es, 0 ≤ e.1 ∧ e.1 < l.length ∧ l[e.1.toNat]? = some 0) →
    ∃ l', es.foldlM (fun l e => pySet l e.1 e.2) l = (.ok l' : Except PyErr (List ℝ)) ∧ ∀ t, polyval l' t = polyval l t + value1 es t
  | [], l, _, _ => ⟨l, rfl, fun t => by simp [value1]⟩
  | e :: es, l, hn, h => by
    rw [List.map_cons, List.nodup_cons] at hn
    obtain ⟨h0, h1, h2⟩ := h e (by simp)
    have hs := pySet_nat l e.1 e.2 h0 h1
    obtain ⟨l', h3, h4⟩ := fold1 es (l.set e.1.toNat e.2) hn.2 (fun e' he' => by
      obtain ⟨k0, k1, k2⟩ := h e' (List.mem_cons_of_mem _ he')
      refine ⟨k0, by simpa using k1, ?_⟩
      rw [List.getElem?_set_ne ?_]
      · exact k2
      · intro hc
        apply hn.1
        rw [show e.1 = e'.1 by omega]
        exact List.mem_map.2 ⟨e', he', rfl⟩)
    refine ⟨l', ?_, fun t => ?_⟩
    · rw [List.foldlM_cons, hs]
      exact h3
    · rw [h4 t, polyval_set t l _ _ 0 h2]
      simp only [value1, List.map_cons, List.sum_cons]
      ring

/-- The code's polynomial is the one of the document. -/
theorem native1 (p : Poly1) (h : Good1 p) : ∃ l, p.native = .ok l ∧ ∀ t, polyval l t = value1 p.coef t := by
  obtain ⟨l, h1, h2⟩ := fold1 p.coef (List.replicate (p.order + 1).toNat 0) h.1 (fun e he => by
    have := h.2 e he
    refine ⟨this.1, by rw [List.length_replicate]; omega, ?_⟩
    rw [List.getElem?_replicate, if_pos (by omega)])
  exact ⟨l, h1, fun t => by rw [h2 t, polyval_zeros, zero_add]⟩

theorem polyval2d_set (x y : ℝ) : ∀ (l : List (List ℝ)) (i : Nat) (v w : List ℝ), l[i]? = some w →
    polyval2d (l.set i v) x y = polyval2d l x y + (polyval v y - polyval w y) * x ^ i
  | [], i, v, w, h => by simp at h
  | a :: l, 0, v, w, h => by
    simp only [List.getElem?_cons_zero, Option.some.injEq] at h
    subst h
    simp only [List.set_cons_zero, polyval2d]
    ring
  | a :: l, i + 1, v, w, h => by
    simp only [List.getElem?_cons_succ] at h
    simp only [List.set_cons_succ, polyval2d, polyval2d_set x y l i v w h]
    ring

theorem polyval2d_zeros (n m : Nat) (x y : ℝ) : polyval2d (List.replicate n (List.replicate m 0)) x y = 0 := by
  induction n with
  | zero => rfl
  | succ n ih => simp only [List.replicate_succ, polyval2d, ih, polyval_zeros]; ring

/-- A cell of a table. -/
def cell (t : List (List ℝ)) (i j : Nat) : Option ℝ := t[i]?.bind (fun r => r[j]?)

theorem fold2 : ∀ (es : List (Int × Int × ℝ)) (l : List (List ℝ)), (es.map (fun e => (e.1, e.2.1))).Nodup →
    (∀ e ∈ es, 0 ≤ e.1 ∧ 0 ≤ e.2.1 ∧ cell l e.1.toNat e.2.1.toNat = some 0) →
    ∃ l', es.foldlM setCell l = (.ok l' : Except PyErr (List (List ℝ))) ∧ l'.length = l.length ∧ ∀ x y, polyval2d l' x y = polyval2d l x y + value2 es x y
  | [], l, _, _ => ⟨l, rfl, rfl, fun x y => by simp [value2]⟩
  | e :: es, l, hn, h => by
    rw [List.map_cons, List.nodup_cons] at hn
    obtain ⟨h0, h1, h2⟩ := h e (by simp)
    unfold cell at h2
    obtain ⟨row, hrow, hcell⟩ := Option.bind_eq_some_iff.1 h2
    have hi : e.1.toNat < l.length := by
      by_contra hc
      rw [List.getElem?_eq_none (by omega)] at hrow
      cases hrow
    have hj : e.2.1.toNat < row.length := by
      by_contra hc
      rw [List.getElem?_eq_none (by omega)] at hcell
      cases hcell
    have hset : setCell l e = .ok (l.set e.1.toNat (row.set e.2.1.toNat e.2.2)) := by
      unfold setCell
      rw [pyGet_nat l e.1 row h0 (by omega) hrow]
      show (do let row' ← pySet row e.2.1 e.2.2; pySet l e.1 row') = _
      rw [pySet_nat row e.2.1 e.2.2 h1 (by omega)]
      exact pySet_nat l e.1 _ h0 (by omega)
    obtain ⟨l', h3, h4, h5⟩ := fold2 es (l.set e.1.toNat (row.set e.2.1.toNat e.2.2)) hn.2 (fun e' he' => by
      obtain ⟨k0, k1, k2⟩ := h e' (List.mem_cons_of_mem _ he')
      refine ⟨k0, k1, ?_⟩
      unfold cell at k2 ⊢
      by_cases hc : e.1.toNat = e'.1.toNat
      · rw [← hc, List.getElem?_set_self hi]
        rw [← hc, hrow] at k2
        simp only [Option.bind_some] at k2 ⊢
        rw [List.getElem?_set_ne ?_]
        · exact k2
        · intro hc'
          apply hn.1
          rw [show (e.1, e.2.1) = (e'.1, e'.2.1) by ext <;> simp only <;> omega]
          exact List.mem_map.2 ⟨e', he', rfl⟩
      · rw [List.getElem?_set_ne hc]
        exact k2)
    refine ⟨l', ?_, by rw [h4, List.length_set], fun x y => ?_⟩
    · rw [List.foldlM_cons, hset]
      exact h3
    · rw [h5 x y, polyval2d_set x y l _ _ row hrow, polyval_set y row _ _ 0 hcell]
      simp only [value2, List.map_cons, List.sum_cons]
      ring

theorem native2 (p : Poly2) (h : Good2 p) : ∃ l, p.native = .ok l ∧ ∀ x y, polyval2d l x y = value2 p.coef x y := by
  obtain ⟨l, h1, h2, h3⟩ := fold2 p.coef (List.replicate (p.order1 + 1).toNat (List.replicate (p.order2 + 1).toNat 0)) h.1 (fun e he => by
    have := h.2.1 e he
    refine ⟨this.1, this.2.2.1, ?_⟩
    unfold cell
    rw [List.getElem?_replicate, if_pos (by omega), Option.bind_some, List.getElem?_replicate, if_pos (by omega)])
  refine ⟨l, ?_, fun x y => by rw [h3 x y, polyval2d_zeros, zero_add]⟩
  unfold Poly2.native
  rw [h1]
  have : l.isEmpty = false := by
    rw [List.isEmpty_eq_false_iff]
    rintro rfl
    have := h.2.2
    rw [List.length_replicate, List.length_nil] at h2
    omega
  show (if l.isEmpty = true then (Except.error PyErr.valueError : Except PyErr _) else pure l) = .ok l
  rw [this]
  rfl

/-! ## Platform -/

theorem sqDist_eq (p q : V3) : sqDist p q = dot (sub p q) (sub p q) := by
  simp only [sqDist, dot, sub]
  ring

theorem distance_eq (p q : V3) : distance p q = V3.norm (sub p q) := by
  unfold distance V3.norm
  rw [sqDist_eq]

theorem platform_eq (m : Meta) (q : PolyXYZ) (hx : ∀ t, polyval q.px t = value1 m.arp.x.coef t) (hy : ∀ t, polyval q.py t = value1 m.arp.y.coef t)
    (hz : ∀ t, polyval q.pz t = value1 m.arp.z.coef t) : (∀ t, q.at t = platform m t) ∧ ∀ t, q.deriv.at t = velocity m t := by
  have h1 : ∀ t, q.at t = platform m t := fun t => by
    unfold PolyXYZ.at platform
    rw [hx, hy, hz]
  refine ⟨h1, fun t => ?_⟩
  unfold velocity
  simp only [← h1]
  unfold PolyXYZ.deriv PolyXYZ.at
  rw [(hasDerivAt_polyval q.px t).deriv, (hasDerivAt_polyval q.py t).deriv, (hasDerivAt_polyval q.pz t).deriv]

theorem speed_eq (m : Meta) (t : ℝ) : speed m t = V3.norm (velocity m t) := by
  unfold speed
  rw [distance_eq]
  congr 1
  simp [sub]

theorem contour_plain (T : List (List ℝ)) (A : PolyXYZ) (g : Grid) (xy : ℝ × ℝ) :
    let s : Coa := ⟨T, A, g, ⟨0, 0, 0⟩, ⟨0, 0, 0⟩, 0⟩
    let t := polyval2d T xy.1 xy.2
    s.contour xy = ⟨(s.specific xy t (A.at t) (A.deriv.at t)).1, (s.specific xy t (A.at t) (A.deriv.at t)).2, A.at t, A.deriv.at t⟩ := by
  intro s t
  simp only [Coa.contour, Coa.timeAt, s, t, V3.add, add_zero]

theorem unit_smul {n : V3} (hn : n ≠ ⟨0, 0, 0⟩) : ∃ c : ℝ, 0 < c ∧ unit n = smul c n := by
  have h : dot n n ≠ 0 := by rw [ne_eq, dot_self_eq_zero]; exact hn
  exact ⟨1 / V3.norm n, by have := norm_pos h; positivity, rfl⟩

theorem platform_ne {P q : V3} (h : P ≠ q) : dot (sub P q) (sub P q) ≠ 0 := by
  intro e
  rw [dot_self_eq_zero] at e
  apply h
  simp only [sub, V3.mk.injEq] at e
  ext <;> linarith [e.1, e.2.1, e.2.2]

/-- What the builder makes of the numbers of the document. -/
theorem built (G : Geo) (m : Meta) (hg : Good m) (x y : ℝ) (R extra : ℝ → ℝ) (n : V3) (hp : Pixel G m x y R extra n) (hn : n ≠ ⟨0, 0, 0⟩) :
    ∃ M, m.build G = some (.model M) ∧ M.conv = ⟨m.scpRow, m.scpCol, m.scp, m.uRow, m.uCol, m.rowSS, m.colSS, m.firstRow, m.firstCol⟩ ∧ M.plane.ref = m.scp ∧
      (∃ c : ℝ, 0 < c ∧ M.plane.u = smul c n) ∧ (M.coa.contour (x, y)).P = platform m (value2 m.timeCoa.coef x y) ∧
      (M.coa.contour (x, y)).V = velocity m (value2 m.timeCoa.coef x y) ∧ (M.coa.contour (x, y)).r = R (value2 m.timeCoa.coef x y) ∧
      (0 < R (value2 m.timeCoa.coef x y) → platform m (value2 m.timeCoa.coef x y) ≠ m.scp →
        HasDerivAt R ((M.coa.contour (x, y)).rdot - extra (value2 m.timeCoa.coef x y)) (value2 m.timeCoa.coef x y)) := by
  obtain ⟨T, hT, eT⟩ := native2 m.timeCoa hg.time
  obtain ⟨ax, hax, eax⟩ := native1 m.arp.x hg.arp.1
  obtain ⟨ay, hay, eay⟩ := native1 m.arp.y hg.arp.2.1
  obtain ⟨az, haz, eaz⟩ := native1 m.arp.z hg.arp.2.2
  have hA : m.arp.native = .ok ⟨ax, ay, az⟩ := by
    unfold XyzPoly.native
    rw [hax, hay, haz]
    rfl
  obtain ⟨hP, hV⟩ := platform_eq m ⟨ax, ay, az⟩ eax eay eaz
  have hb : ∀ g gpn, m.grid = .ok (some (some g, gpn)) → m.build G = some (.model (Model.new G
      ⟨m.scpRow, m.scpCol, m.scp, m.uRow, m.uCol, m.rowSS, m.colSS, m.firstRow, m.firstCol⟩ ⟨T, ⟨ax, ay, az⟩, g, ⟨0, 0, 0⟩, ⟨0, 0, 0⟩, 0⟩
      (slantNormal m.scp m.arpPos m.arpVel m.right) gpn)) := by
    intro g gpn h
    unfold Meta.build Meta.fromDataclass
    rw [hT, hA, h]
    rfl
  have hup : ∃ c : ℝ, 0 < c ∧ upAt (G.toLle m.scp).lon (G.toLle m.scp).lat = smul c (up G m) := ⟨1, one_pos, by simp [upAt, up, smul]⟩
  cases hp with
  | plane h =>
    have hgrid : m.grid = .ok (some (some (.plane m.scp m.uRow m.uCol), none)) := by
      unfold Meta.grid
      rcases h with h | h | h <;> rw [h] <;> rfl
    refine ⟨_, hb _ _ hgrid, rfl, rfl, hup, ?_⟩
    simp only [Model.new, contour_plain, hP, hV, eT]
    have hr : ∀ t, V3.norm (sub (platform m t) (add m.scp (add (smul x m.uRow) (smul y m.uCol)))) = distance (platform m t)
        ⟨m.scp.x + (x * m.uRow.x + y * m.uCol.x), m.scp.y + (x * m.uRow.y + y * m.uCol.y), m.scp.z + (x * m.uRow.z + y * m.uCol.z)⟩ := by
      intro t
      rw [distance_eq]
      rfl
    refine ⟨trivial, trivial, by simp only [Coa.specific]; exact hr _, fun h1 h2 => ?_⟩
    have := (range_rate_is_derivative ⟨T, ⟨ax, ay, az⟩, .plane m.scp m.uRow m.uCol, ⟨0, 0, 0⟩, ⟨0, 0, 0⟩, 0⟩ (x, y) (value2 m.timeCoa.coef x y) (by
      simp only [hP]
      intro hc
      rw [← hr, hc] at h1
      simp [sub, V3.norm, dot] at h1)).1
    simp only [Coa.specific, hP, hV, hr] at this
    simp only [Coa.specific, sub_zero, hr]
    exact this
  | pfa fpn ang sf h ha hpfa =>
    obtain ⟨hga, hgs⟩ := hg.pfa _ _ _ hpfa
    obtain ⟨A, hA', eA⟩ := native1 ang hga
    obtain ⟨K, hK', eK⟩ := native1 sf hgs
    have hgrid : m.grid = .ok (some (some (.pfa m.scp A K), some n)) := by
      unfold Meta.grid
      simp only [h, ha, hpfa, hA', hK']
      rfl
    refine ⟨_, hb _ _ hgrid, rfl, rfl, unit_smul hn, ?_⟩
    simp only [Model.new, contour_plain, hP, hV, eT]
    refine ⟨trivial, trivial, by simp only [Coa.specific, eA, eK, distance_eq], fun h1 h2 => ?_⟩
    have := (range_rate_is_derivative ⟨T, ⟨ax, ay, az⟩, .pfa m.scp A K, ⟨0, 0, 0⟩, ⟨0, 0, 0⟩, 0⟩ (x, y) (value2 m.timeCoa.coef x y) (by
      simp only [hP]
      exact h2)).1
    simp only [Coa.specific, hP, hV, eA, eK] at this
    simp only [Coa.specific, sub_zero, distance_eq, eA, eK]
    exact this
  | rgazcomp a h ha hpa =>
    have hgrid : m.grid = .ok (some (some (.rgazcomp m.scp a), none)) := by
      unfold Meta.grid
      simp only [h, ha, hpa]
      rfl
    refine ⟨_, hb _ _ hgrid, rfl, rfl, hup, ?_⟩
    simp only [Model.new, contour_plain, hP, hV, eT]
    refine ⟨trivial, trivial, by simp only [Coa.specific, distance_eq], fun h1 h2 => ?_⟩
    have := (hasDerivAt_range ⟨ax, ay, az⟩ m.scp (value2 m.timeCoa.coef x y) (by rw [hP]; exact platform_ne h2)).add_const x
    simp only [hP, hV] at this
    simp only [Coa.specific, distance_eq, speed_eq, add_sub_cancel_right]
    exact this
  | inca rca tca drate h hpi =>
    obtain ⟨hgc, hgd⟩ := hg.inca _ _ _ hpi
    obtain ⟨C, hC', eC⟩ := native1 tca hgc
    obtain ⟨D, hD', eD⟩ := native2 drate hgd
    have hgrid : m.grid = .ok (some (some (.inca rca C D), none)) := by
      unfold Meta.grid
      simp only [h, hpi, hC', hD']
      rfl
    refine ⟨_, hb _ _ hgrid, rfl, rfl, hup, ?_⟩
    simp only [Model.new, contour_plain, hP, hV, eT]
    refine ⟨trivial, trivial, by simp only [Coa.specific, hV, eC, eD, speed_eq], fun h1 h2 => ?_⟩
    have := (range_rate_is_derivative ⟨T, ⟨ax, ay, az⟩, .inca rca C D, ⟨0, 0, 0⟩, ⟨0, 0, 0⟩, 0⟩ (x, y) (value2 m.timeCoa.coef x y) (by
      simp only [Coa.specific, hV, eC, eD]
      simpa only [speed_eq] using h1)).1
    simp only [Coa.specific, hV, eC, eD] at this
    simp only [Coa.specific, hV, sub_zero, eC, eD, speed_eq]
    exact this

theorem onPlane_smul (ref n p : V3) (c : ℝ) (hc : 0 < c) : OnPlane ref (smul c n) p ↔ OnPlane ref n p := by
  unfold OnPlane along smul
  constructor <;> intro h
  · have : c * (n.x * (p.x - ref.x) + n.y * (p.y - ref.y) + n.z * (p.z - ref.z)) = 0 := by simp only at h; linarith
    rcases mul_eq_zero.1 this with h' | h'
    · exact absurd h' hc.ne'
    · exact h'
  · simp only
    linear_combination c * h

theorem along_dot (v p q : V3) : along v p q = dot v (sub p q) := by
  simp only [along, dot, sub]

theorem side_ne {P V n q : V3} (h : side P V n q ≠ 0) : P ≠ q := by
  rintro rfl
  apply h
  simp [side]

/-- The rate at which the distance of a point from the platform changes. -/
theorem distance_rate (m : Meta) (hg : Good m) (p : V3) (t : ℝ) (h : platform m t ≠ p) :
    HasDerivAt (fun s => distance (platform m s) p) (along (velocity m t) (platform m t) p / distance (platform m t) p) t := by
  obtain ⟨ax, hax, eax⟩ := native1 m.arp.x hg.arp.1
  obtain ⟨ay, hay, eay⟩ := native1 m.arp.y hg.arp.2.1
  obtain ⟨az, haz, eaz⟩ := native1 m.arp.z hg.arp.2.2
  obtain ⟨hP, hV⟩ := platform_eq m ⟨ax, ay, az⟩ eax eay eaz
  have := hasDerivAt_range ⟨ax, ay, az⟩ p t (by rw [hP]; exact platform_ne h)
  simp only [hP, hV] at this
  simp only [distance_eq, along_dot]
  exact this

/-- **C167**: where a pixel is.  The point that `image_to_world` returns is in the ground plane, at the range of the pixel from the platform at the time of the pixel, with the rate of
that range, on the scene's side of the track.  The example is at the end of `Props/DocumentLocated`. -/
theorem located (G : Geo) (m : Meta) (hg : Good m) (r c : ℝ) (x y t : ℝ) (hx : x = (r + m.firstRow - m.scpRow) * m.rowSS) (hy : y = (c + m.firstCol - m.scpCol) * m.colSS)
    (ht : t = value2 m.timeCoa.coef x y) (R extra : ℝ → ℝ) (n : V3) (hp : Pixel G m x y R extra n) (hs : side (platform m t) (velocity m t) n m.scp ≠ 0) (M : Model)
    (hM : m.build G = some (.model M)) (l : Lle) (hl : M.toWorld G (r, c) = .ok (some l)) :
    ∃ p, l = G.toLle p ∧ OnPlane m.scp n p ∧ Sees m t R extra p ∧ 0 ≤ side (platform m t) (velocity m t) n p * side (platform m t) (velocity m t) n m.scp := by
  have hn : n ≠ ⟨0, 0, 0⟩ := by
    rintro rfl
    apply hs
    simp [side]
  obtain ⟨M', hM', hconv, href, ⟨a, ha, hu⟩, kP, kV, kr, krate⟩ := built G m hg x y R extra n hp hn
  rw [hM] at hM'
  cases hM'
  rw [← ht] at kP kV kr krate
  unfold Model.toWorld Model.toWorldOn at hl
  rw [hconv] at hl
  simp only [Converter.toGrid, ← hx, ← hy] at hl
  generalize hk : M.coa.contour (x, y) = k at *
  cases hgnd : M.plane.toGround k with
  | error e => rw [hgnd] at hl; cases hl
  | ok o =>
    rw [hgnd] at hl
    cases o with
    | none => cases hl
    | some p =>
      have hl' : l = G.toLle p := by
        have : (Except.ok (some (G.toLle p)) : Except PyErr (Option Lle)) = .ok (some l) := hl
        cases this
        rfl
      have hu0 : ¬ (M.plane.u.x = 0 ∧ M.plane.u.y = 0 ∧ M.plane.u.z = 0) := by
        rw [hu]
        rintro ⟨h1, h2, h3⟩
        apply hn
        simp only [smul, mul_eq_zero, ha.ne', false_or] at h1 h2 h3
        ext <;> assumption
      obtain ⟨g1, g2, g3, g4⟩ := ground_point_solves_partial M.plane k p hu0 hgnd
      rw [href, hu, side_smul, kP, kV] at g4
      rw [side_smul] at g4
      obtain ⟨g5, g6, -⟩ := g4 (mul_ne_zero ha.ne' hs)
      rw [href, hu, onPlane_smul _ _ _ _ ha] at g1
      have hr : 0 < R t := by rw [← kr]; exact g3
      have hd : distance (platform m t) p = R t := by
        unfold distance
        rw [g5.1, kr]
        exact Real.sqrt_sq hr.le
      have hne : platform m t ≠ p := by
        intro h
        rw [h] at hd
        simp [distance, sqDist] at hd
        linarith
      refine ⟨p, hl', g1, ⟨hd, _, krate hr (side_ne hs), ?_⟩, ?_⟩
      · have := distance_rate m hg p t hne
        rw [hd, g5.2, kr] at this
        rw [sub_add_cancel]
        rwa [mul_div_cancel_left₀ _ hr.ne'] at this
      · have : 0 < a * a := by positivity
        nlinarith [g6]

/-- **C167**: and it is found.  A point of the ground plane that the pixel sees, on the scene's side of the track, is where `image_to_world` puts the pixel; so there is only one. -/
theorem found (G : Geo) (m : Meta) (hg : Good m) (r c : ℝ) (x y t : ℝ) (hx : x = (r + m.firstRow - m.scpRow) * m.rowSS) (hy : y = (c + m.firstCol - m.scpCol) * m.colSS)
    (ht : t = value2 m.timeCoa.coef x y) (R extra : ℝ → ℝ) (n : V3) (hp : Pixel G m x y R extra n) (hR : 0 < R t) (hV : Independent (velocity m t) n) (p : V3)
    (hpn : Independent (sub (platform m t) p) n) (hpl : OnPlane m.scp n p) (hs : Sees m t R extra p)
    (hside : 0 < side (platform m t) (velocity m t) n p * side (platform m t) (velocity m t) n m.scp) :
    ∃ M, m.build G = some (.model M) ∧ M.toWorld G (r, c) = .ok (some (G.toLle p)) := by
  have hs0 : side (platform m t) (velocity m t) n m.scp ≠ 0 := by
    intro h
    rw [h, mul_zero] at hside
    exact lt_irrefl _ hside
  have hn : n ≠ ⟨0, 0, 0⟩ := by
    rintro rfl
    apply hs0
    simp [side]
  obtain ⟨M, hM, hconv, href, ⟨a, ha, hu⟩, kP, kV, kr, krate⟩ := built G m hg x y R extra n hp hn
  rw [← ht] at kP kV kr krate
  refine ⟨M, hM, ?_⟩
  unfold Model.toWorld Model.toWorldOn
  rw [hconv]
  simp only [Converter.toGrid, ← hx, ← hy]
  generalize hk : M.coa.contour (x, y) = k at *
  have hne : platform m t ≠ p := by
    intro h
    have := hs.1
    rw [h] at this
    simp [distance, sqDist] at this
    linarith
  obtain ⟨hd, d, hd1, hd2⟩ := hs
  have e1 := hd1.unique (krate hR (side_ne hs0))
  have e2 := hd2.unique (distance_rate m hg p t hne)
  have hseen : Seen k.P k.V k.r k.rdot p := by
    constructor
    · rw [kP, kr, ← hd]
      unfold distance
      rw [Real.sq_sqrt]
      unfold sqDist
      positivity
    · rw [kP, kV, kr]
      rw [hd, e1, sub_add_cancel] at e2
      rw [e2]
      field_simp
  have hgnd : M.plane.toGround k = .ok (some p) := by
    refine ground_point_found M.plane k p (by rw [kr]; exact hR) ?_ ?_ ?_ hseen (.inr ?_)
    · rw [kV, hu]
      exact independent_smul ha.ne' hV
    · rw [kP, hu]
      exact independent_smul ha.ne' hpn
    · rw [href, hu, onPlane_smul _ _ _ _ ha]
      exact hpl
    · rw [href, hu, kP, kV, side_smul, side_smul]
      have : 0 < a * a := by positivity
      nlinarith
  rw [hgnd]
  rfl

end Verif.Props.Located
