import Verif.Props.Tre

/-!
# From TREs to the projections of a sectioned RSM model
-/

namespace Verif.Props.TreModel

open Verif.Sensors Verif.Tre Verif.Rpc Verif.Rsm Verif.Spec.Tre Verif.Spec.Rsm Verif.Props.Tre
open Verif.Dem (Geo)

theorem isFirst_unique (x : Xml) (tag name : String) (e e' : Xml) (h : IsFirst x tag name e) (h' : IsFirst x tag name e') : e = e' := by
  have h1 := (find_some x tag name e).2 h
  have h2 := (find_some x tag name e').2 h'
  rw [h1] at h2
  exact Option.some.inj h2

theorem hasField_unique {α : Type} (t : Xml) (name : String) (read : String → Option α) (v w : α) (h : HasField t name read v)
    (h' : HasField t name read w) : v = w := by
  obtain ⟨e, s, h1, h2, h3⟩ := h
  obtain ⟨e', s', h1', h2', h3'⟩ := h'
  obtain rfl := isFirst_unique _ _ _ _ _ h1 h1'
  rw [h2] at h2'
  cases h2'
  rw [h3] at h3'
  exact Option.some.inj h3'

theorem forall₂_split {α β : Type} (R : α → β → Prop) (l : List α) (pre post : List β) (b : β) (h : List.Forall₂ R l (pre ++ b :: post)) :
    ∃ pre' a post', l = pre' ++ a :: post' ∧ R a b ∧ List.Forall₂ R post' post := by
  induction pre generalizing l with
  | nil =>
    cases h with
    | cons hab hrest => exact ⟨[], _, _, rfl, hab, hrest⟩
  | cons c pre ih =>
    cases h with
    | @cons a _ l' _ _ hrest =>
      obtain ⟨pre', a', post', rfl, h1, h2⟩ := ih _ hrest
      exact ⟨a :: pre', a', post', rfl, h1, h2⟩

theorem forall₂_left {α β : Type} (R : α → β → Prop) (l : List α) (r : List β) (h : List.Forall₂ R l r) (a : α) (ha : a ∈ l) : ∃ b ∈ r, R a b := by
  induction h with
  | nil => simp at ha
  | cons hab _ ih =>
    rcases List.mem_cons.1 ha with rfl | ha
    · exact ⟨_, by simp, hab⟩
    · obtain ⟨b, hb, hR⟩ := ih ha
      exact ⟨b, by simp [hb], hR⟩

/-- The RSMPCA TRE that counts for section `(i, j)`, both from 0, and the polynomial model it describes: the last one with the section numbers
`i + 1` and `j + 1`. -/
def SectionTre (c : Conv) (d : GroundDomain) (tres : Xml) (i j : Nat) (m : PolyModel) : Prop :=
  ∃ pre p post, allNamed tres "tre" "RSMPCA" = pre ++ p :: post ∧ HasField p "RSN" c.int ((i : Int) + 1) ∧ HasField p "CSN" c.int ((j : Int) + 1) ∧
    (∀ q ∈ post, ¬ (HasField q "RSN" c.int ((i : Int) + 1) ∧ HasField q "CSN" c.int ((j : Int) + 1))) ∧ DescribesRsm c d p m

theorem section_tre (c : Conv) (d : GroundDomain) (tres : Xml) (models : List PolyModel) (i j : Nat) (m : PolyModel)
    (hm : List.Forall₂ (DescribesRsm c d) (allNamed tres "tre" "RSMPCA") models)
    (hs : IsSection (models.map (fun m => (m.rowSection, m.colSection, m))) ((i : Int) + 1) ((j : Int) + 1) m) : SectionTre c d tres i j m := by
  obtain ⟨pre, post, he, hpost⟩ := hs
  obtain ⟨l1, l2, rfl, -, h2⟩ := List.map_eq_append_iff.1 he
  obtain ⟨m', l3, rfl, h3, rfl⟩ := List.map_eq_cons_iff.1 h2
  simp only [Prod.mk.injEq] at h3
  obtain ⟨hr, hc, rfl⟩ := h3
  obtain ⟨pre', p, post', hp, hd, hrest⟩ := forall₂_split _ _ _ _ _ hm
  have e1 := hd.2.1 ("RSN", (·.rowSection)) (by simp [rsmInts])
  have e2 := hd.2.1 ("CSN", (·.colSection)) (by simp [rsmInts])
  refine ⟨pre', p, post', hp, hr ▸ e1, hc ▸ e2, ?_, hd⟩
  rintro q hq ⟨a1, a2⟩
  obtain ⟨mq, hmq, hdq⟩ := forall₂_left _ _ _ hrest q hq
  have b1 := hdq.2.1 ("RSN", (·.rowSection)) (by simp [rsmInts])
  have b2 := hdq.2.1 ("CSN", (·.colSection)) (by simp [rsmInts])
  exact hpost (mq.rowSection, mq.colSection, mq) (List.mem_map.2 ⟨mq, hmq, rfl⟩)
    ⟨hasField_unique _ _ _ _ _ b1 a1, hasField_unique _ _ _ _ _ b2 a2⟩

theorem built_sectioned (earth : Earth) (c : Conv) (tres : Xml) (r : RsmResult) (h : buildRsm earth c tres = .ok (some r))
    (hm : 2 ≤ (allNamed tres "tre" "RSMPCA").length) : ∃ fr a b rows cols x y p q g, r = .sectioned fr a b rows cols x y p q g := by
  cases r with
  | sectioned fr a b rows cols x y p q g => exact ⟨_, _, _, _, _, _, _, _, _, _, rfl⟩
  | single m =>
    obtain ⟨t, d, p, x1, x2, x3, x4, -, -, hp, -⟩ := (rsm_builder_single earth c tres m).1 h
    rw [hp] at hm
    simp at hm

/-- **C94**: the sensor model made from the TREs of an image with several RSM sections: `MINR`, `MINC` of RSMIDA and `RNIS`, `CNIS`, `RSSIZ`,
`CSSIZ` of RSMPIA say which section a pixel belongs to, the low order polynomials of RSMPIA where a ground point is roughly, and the
RSMPCA TRE with the numbers of that section gives the polynomials. -/
theorem sectioned_image (earth : Earth) (minimise : Minimiser) (c : Conv) (tres t q : Xml) (res : RsmResult)
    (h : buildRsm earth c tres = .ok (some res)) (hm : 2 ≤ (allNamed tres "tre" "RSMPCA").length)
    (ht : IsFirst tres "tre" "RSMIDA" t) (hq : IsFirst tres "tre" "RSMPIA" q)
    (nr nc : Nat) (hnr : 0 < nr) (hnc : 0 < nc) (rs cs : ℝ) (hrs : 0 < rs) (hcs : 0 < cs)
    (f1 : HasField q "RNIS" c.int (nr : Int)) (f2 : HasField q "CNIS" c.int (nc : Int)) (f3 : HasField q "RSSIZ" c.float rs)
    (f4 : HasField q "CSSIZ" c.float cs) :
    ∃ d minRow maxRow minCol maxCol rowPoly colPoly, DescribesContext earth c t d minRow maxRow minCol maxCol ∧
      List.Forall₂ (fun n v => HasField q n c.float v) ["R0", "RX", "RY", "RZ", "RXX", "RXY", "RXZ", "RYY", "RYZ", "RZZ"] rowPoly ∧
      List.Forall₂ (fun n v => HasField q n c.float v) ["C0", "CX", "CY", "CZ", "CXX", "CXY", "CXZ", "CYY", "CYZ", "CZZ"] colPoly ∧
      (∀ x y e o, ∃ i j m, Responsible minRow rs y nr i ∧ Responsible minCol cs x nc j ∧ SectionTre c d tres i j m ∧
        (res.model earth minimise).imageToWorld (x, y) e o = (m.model earth minimise).imageToWorld (x, y) e o) ∧
      (∀ g v, d.frame.toDomain earth g = .ok v → ∃ i j m, Responsible minRow rs (quadratic rowPoly (v 0) (v 1) (v 2)) nr i ∧
        Responsible minCol cs (quadratic colPoly (v 0) (v 1) (v 2)) nc j ∧ SectionTre c d tres i j m ∧
        (res.model earth minimise).worldToImage g = m.worldToImage earth g) := by
  obtain ⟨fr, a, b, rows, cols, x, y, p, q', gr, rfl⟩ := built_sectioned earth c tres res h hm
  obtain ⟨t', s, d, mr, mc, models, h1, h2, rfl, h4, -, h6, h7, h8⟩ := (rsm_builder_sectioned earth c tres fr a b rows cols x y p q' gr).1 h
  obtain rfl := isFirst_unique _ _ _ _ _ ht h1
  obtain rfl := isFirst_unique _ _ _ _ _ hq h6
  obtain rfl := hasField_unique _ _ _ _ _ f1 h7.rows
  obtain rfl := hasField_unique _ _ _ _ _ f2 h7.cols
  obtain rfl := hasField_unique _ _ _ _ _ f3 h7.rowSize
  obtain rfl := hasField_unique _ _ _ _ _ f4 h7.colSize
  have hlen : gr.length = nr := by simpa using h8.1
  have hrow : ∀ l ∈ gr, l.length = nc := by
    intro l hl
    obtain ⟨k, hk⟩ := List.mem_iff_getElem?.1 hl
    simpa using (h8.2 k l hk).1
  have hp10 : p.length = 10 := by simpa using h7.rowPoly.length_eq.symm
  have hq10 : q'.length = 10 := by simpa using h7.colPoly.length_eq.symm
  obtain ⟨k1, k2⟩ := RsmModel.sectioned_model_delegates earth
    ⟨d.frame, a, b, nr, nc, rs, cs, p, q', gr.map (fun l => l.map (fun m => m.model earth minimise))⟩ nr nc hnr hnc rfl rfl hrs hcs
    (by simpa using hlen) (by
      intro l hl
      obtain ⟨l', hl', rfl⟩ := List.mem_map.1 hl
      simpa using hrow l' hl') hp10 hq10
  have pick : ∀ (i j : Nat) strip m, (gr.map (fun l => l.map (fun m => m.model earth minimise)))[i]? = some strip → strip[j]? = some m →
      ∃ pm, m = pm.model earth minimise ∧ SectionTre c d tres i j pm := by
    intro i j strip m hs hj
    rw [List.getElem?_map, Option.map_eq_some_iff] at hs
    obtain ⟨l, hl, rfl⟩ := hs
    rw [List.getElem?_map, Option.map_eq_some_iff] at hj
    obtain ⟨pm, hpm, rfl⟩ := hj
    exact ⟨pm, rfl, section_tre c d tres models i j pm h4 ((h8.2 i l hl).2 j pm hpm)⟩
  refine ⟨d, a, mr, b, mc, p, q', h2, h7.rowPoly, h7.colPoly, ?_, ?_⟩
  · intro x y e o
    obtain ⟨i, j, strip, m, r1, r2, hs, hj, he⟩ := k1 (x, y) e o
    obtain ⟨pm, rfl, hsec⟩ := pick i j strip m hs hj
    exact ⟨i, j, pm, r1, r2, hsec, he⟩
  · intro g v hv
    obtain ⟨i, j, strip, m, r1, r2, hs, hj, he⟩ := k2 g v hv
    obtain ⟨pm, rfl, hsec⟩ := pick i j strip m hs hj
    exact ⟨i, j, pm, r1, r2, hsec, he⟩

/-- The premises: an image with two sections below each other, listed in the wrong order. -/
example (earth : Earth) : ∃ res, buildRsm earth demoReal (.node "tres" [] [demoIda, demoPca "2" "1", demoPca "1" "1", demoPiaFull "2" "1"]) = .ok (some res) ∧
    HasField (demoPiaFull "2" "1") "RNIS" demoReal.int ((2 : Nat) : Int) ∧ HasField (demoPiaFull "2" "1") "RSSIZ" demoReal.float 1 :=
  ⟨_, rfl, ⟨_, "2", (find_some _ _ _ _).1 rfl, rfl, by simp [demoReal]⟩, ⟨_, "1", (find_some _ _ _ _).1 rfl, rfl, by simp [demoReal]⟩⟩

end Verif.Props.TreModel
