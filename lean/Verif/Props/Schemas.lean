import Verif.Model.Schemas
import Verif.Props.Objects

/-!
# The SICD and SIDD dataclasses
-/

namespace Verif.Props.Schemas

open Verif Verif.Xsdata Verif.Schema Verif.Props.Xsdata Verif.Props.Objects Verif.Xsdata.Namespace

variable {P : Type} [DecidableEq P]

set_option linter.unusedSectionVars false

set_option maxRecDepth 100000 in
/-- **C153**: in all dataclasses, different fields have different names in the XML, at most one is the text, and the classes of the elements exist. -/
theorem all_sound : Sound all = true := by decide +kernel

/-! ## Versions -/

set_option maxRecDepth 100000 in
/-- **C153**: the root element of each version is read as the dataclass of that version. -/
theorem roots : all.root (sicd121, n!"SICD") = some Sicd121.SICD ∧ all.root (sicd130, n!"SICD") = some Sicd130.SICD ∧ all.root (sidd100, n!"SIDD") = some Sidd100.SIDD ∧
    all.root (sidd200, n!"SIDD") = some Sidd200.SIDD ∧ all.root (sidd300, n!"SIDD") = some Sidd300.SIDD := by decide +kernel

set_option maxRecDepth 100000 in
theorem all_namespaces : List.all all (fun c => [sicd121, sicd130, sicommon01, sicommon10, sfa, sidd100, sidd200, sidd300].any (Nat.beq c.ns)) = true := by decide +kernel

set_option maxRecDepth 100000 in
theorem all_named : List.all all (fun c => (!Nat.beq c.xml n!"SICD" || Nat.beq c.ns sicd121 || Nat.beq c.ns sicd130) &&
    (!Nat.beq c.xml n!"SIDD" || Nat.beq c.ns sidd100 || Nat.beq c.ns sidd200 || Nat.beq c.ns sidd300)) = true := by decide +kernel

/-- **C153**: a SICD document is read if its version is 1.2.1 or 1.3.0 and a SIDD document if it is 1.0.0, 2.0.0 or 3.0.0; with the namespace of any other version, reading raises. -/
theorem other_versions (K : Codec P) (ns : Name) (ats : List (QName × String)) (txt : String) (ts : List Tree) :
    (ns ≠ sicd121 → ns ≠ sicd130 → parse all K (.node (ns, n!"SICD") none ats txt ts) = .error .valueError) ∧
    (ns ≠ sidd100 → ns ≠ sidd200 → ns ≠ sidd300 → parse all K (.node (ns, n!"SIDD") none ats txt ts) = .error .valueError) := by
  have key : ∀ x : Name, (∀ c ∈ (all : List Class), c.xml = x → c.ns ≠ ns) → parse all K (.node (ns, x) none ats txt ts) = .error .valueError := by
    intro x h
    rw [parse]
    cases hr : all.root ((none : Option QName).getD (ns, x)) with
    | none => rfl
    | some c =>
      obtain ⟨hm, hq⟩ := root_again all _ c hr
      simp only [Option.getD_none, Class.qname, Prod.mk.injEq] at hq
      exact absurd hq.1 (h c hm hq.2)
  have hall := all_named
  rw [List.all_eq_true] at hall
  constructor
  · intro h1 h2
    refine key _ fun c hc hx hn => ?_
    have := hall c hc
    simp only [hx, hn, Bool.and_eq_true, Bool.or_eq_true, Bool.not_eq_true'] at this
    rcases this.1 with (h | h) | h
    · exact absurd h (by decide)
    · exact h1 (Nat.eq_of_beq_eq_true h)
    · exact h2 (Nat.eq_of_beq_eq_true h)
  · intro h1 h2 h3
    refine key _ fun c hc hx hn => ?_
    have := hall c hc
    simp only [hx, hn, Bool.and_eq_true, Bool.or_eq_true, Bool.not_eq_true'] at this
    rcases this.2 with ((h | h) | h) | h
    · exact absurd h (by decide)
    · exact h1 (Nat.eq_of_beq_eq_true h)
    · exact h2 (Nat.eq_of_beq_eq_true h)
    · exact h3 (Nat.eq_of_beq_eq_true h)

/-! ## Attributes that the code uses -/

/-- An element with one text of the given type. -/
def isA (type : Name) (f : Field) : Bool := f.kind = .element && !f.many && f.ty = .plain [type]

/-- An attribute of the given type. -/
def isAttribute (type : Name) (f : Field) : Bool := f.kind = .attribute && !f.many && f.ty = .plain [type]

/-- The text of an element, of the given type. -/
def isText (type : Name) (f : Field) : Bool := f.kind = .text && !f.many && f.ty = .plain [type]

/-- A list of elements. -/
def isList (f : Field) : Bool := f.kind = .element && f.many

/-- The attributes of one-dimensional polynomials. -/
def poly1Paths (p : List Name) : List (List Name × (Field → Bool)) := [(p ++ [n!"order1"], isAttribute n!"int"), (p ++ [n!"coef"], isList)]

/-- The attributes of two-dimensional polynomials. -/
def poly2Paths (p : List Name) : List (List Name × (Field → Bool)) :=
  [(p ++ [n!"order1"], isAttribute n!"int"), (p ++ [n!"order2"], isAttribute n!"int"), (p ++ [n!"coef"], isList)]

/-- The attributes of vectors. -/
def xyzPaths (p : List Name) : List (List Name × (Field → Bool)) := [(p ++ [n!"x"], isA n!"float"), (p ++ [n!"y"], isA n!"float"), (p ++ [n!"z"], isA n!"float")]

/-- What the SICD builder and updater read, with types. -/
def sicdPaths : List (List Name × (Field → Bool)) :=
  xyzPaths [n!"geo_data", n!"scp", n!"ecf"] ++ xyzPaths [n!"grid", n!"row", n!"uvect_ecf"] ++ xyzPaths [n!"grid", n!"col", n!"uvect_ecf"] ++
  xyzPaths [n!"pfa", n!"fpn"] ++ xyzPaths [n!"scpcoa", n!"arppos"] ++ xyzPaths [n!"scpcoa", n!"arpvel"] ++
  poly2Paths [n!"grid", n!"time_coapoly"] ++ poly1Paths [n!"position", n!"arppoly", n!"x"] ++ poly1Paths [n!"position", n!"arppoly", n!"y"] ++
  poly1Paths [n!"position", n!"arppoly", n!"z"] ++ poly1Paths [n!"pfa", n!"polar_ang_poly"] ++ poly1Paths [n!"pfa", n!"spatial_freq_sfpoly"] ++
  poly1Paths [n!"rma", n!"inca", n!"time_capoly"] ++ poly2Paths [n!"rma", n!"inca", n!"drate_sfpoly"] ++
  [([n!"image_data", n!"scppixel", n!"row"], isA n!"int"), ([n!"image_data", n!"scppixel", n!"col"], isA n!"int"),
   ([n!"image_data", n!"first_row"], isA n!"int"), ([n!"image_data", n!"first_col"], isA n!"int"),
   ([n!"image_data", n!"num_rows"], isA n!"int"), ([n!"image_data", n!"num_cols"], isA n!"int"),
   ([n!"grid", n!"row", n!"ss"], isA n!"float"), ([n!"grid", n!"col", n!"ss"], isA n!"float"), ([n!"grid", n!"type_value"], isA n!"ImageGridType"),
   ([n!"image_formation", n!"image_form_algo"], isA n!"ImageFormAlgo"), ([n!"rg_az_comp", n!"az_sf"], isA n!"float"),
   ([n!"rma", n!"inca", n!"r_ca_scp"], isA n!"float"), ([n!"scpcoa", n!"side_of_track"], isA n!"SideOfTrack")]

/-- An element that is an object, of a class as required. -/
def isObject (good : Name → Bool) (f : Field) : Bool := f.kind = .element && !f.many && (match f.ty with | .cls d => good d | .plain _ => false)

/-- The plane projections of the versions. -/
def isPlane (d : Name) : Bool := [n!"sidd100.PlaneProjectionType", n!"sidd200.PlaneProjectionType", n!"sidd300.PlaneProjectionType"].any (Nat.beq d)

/-- What the SIDD builder and updater read of the document, with types. -/
def siddPaths : List (List Name × (Field → Bool)) :=
  poly1Paths [n!"measurement", n!"arppoly", n!"x"] ++ poly1Paths [n!"measurement", n!"arppoly", n!"y"] ++ poly1Paths [n!"measurement", n!"arppoly", n!"z"] ++
  [([n!"measurement", n!"plane_projection"], isObject isPlane),
   ([n!"downstream_reprocessing", n!"geometric_chip", n!"chip_size", n!"row"], isA n!"int"),
   ([n!"downstream_reprocessing", n!"geometric_chip", n!"chip_size", n!"col"], isA n!"int")] ++
  [n!"original_upper_left_coordinate", n!"original_upper_right_coordinate", n!"original_lower_right_coordinate", n!"original_lower_left_coordinate"].flatMap (fun c =>
    [([n!"downstream_reprocessing", n!"geometric_chip", c, n!"row"], isA n!"float"), ([n!"downstream_reprocessing", n!"geometric_chip", c, n!"col"], isA n!"float")])

/-- What the SIDD builder reads of the plane projection, with types. -/
def planePaths : List (List Name × (Field → Bool)) :=
  xyzPaths [n!"reference_point", n!"ecef"] ++ xyzPaths [n!"product_plane", n!"row_unit_vector"] ++ xyzPaths [n!"product_plane", n!"col_unit_vector"] ++ poly2Paths [n!"time_coapoly"] ++
  [([n!"reference_point", n!"point", n!"row"], isA n!"float"), ([n!"reference_point", n!"point", n!"col"], isA n!"float"),
   ([n!"sample_spacing", n!"row"], isA n!"float"), ([n!"sample_spacing", n!"col"], isA n!"float")]

set_option maxRecDepth 100000 in
theorem sicd_leads : [Sicd121.SICD, Sicd130.SICD].all (fun c => sicdPaths.all (fun p => leads all p.2 [c] p.1)) = true := by decide +kernel

set_option maxRecDepth 100000 in
theorem sidd_leads : [Sidd100.SIDD, Sidd200.SIDD, Sidd300.SIDD].all (fun c => siddPaths.all (fun p => leads all p.2 [c] p.1)) = true := by decide +kernel

set_option maxRecDepth 100000 in
theorem plane_leads : [Sidd100.PlaneProjectionType, Sidd200.PlaneProjectionType, Sidd300.PlaneProjectionType].all (fun c => planePaths.all (fun p => leads all p.2 [c] p.1)) = true := by
  decide +kernel

/-- The paths can be followed in an object: each ends with a value that fits a field of the type that the code uses, unless an attribute before the last is `None`. -/
def Readable (K : Codec P) (paths : List (List Name × (Field → Bool))) (o : Val P) : Prop :=
  ∀ p ∈ paths, (∃ f v, o.path all p.1 = .ok v ∧ p.2 f = true ∧ FitsOne all K f v) ∨
    (∃ a b, a ≠ [] ∧ b ≠ [] ∧ p.1 = a ++ b ∧ o.path all a = .ok .null ∧ o.path all p.1 = .error .attributeError)

theorem readable_of_leads (K : Codec P) (cs : List Class) (paths : List (List Name × (Field → Bool))) (h : cs.all (fun c => paths.all (fun p => leads all p.2 [c] p.1)) = true)
    (c : Class) (hc : c ∈ cs) (hf : all.find c.name = some c) (vs : List (Val P)) (hv : FitsAll all K c.fields vs) : Readable K paths (.obj c.name vs) := by
  intro p hp
  rw [List.all_eq_true] at h
  have h1 := h c hc
  rw [List.all_eq_true] at h1
  exact path_fits all K p.2 p.1 [c] (h1 p hp) c (by simp) hf vs hv

theorem root_some (K : Codec P) (hK : Faithful K) (tag : QName) (c : Class) (hr : all.root tag = some c) (ats : List (QName × String)) (txt : String) (ts : List Tree) (o : Val P)
    (h : parse all K (.node tag none ats txt ts) = .ok o) :
    all.find c.name = some c ∧ all.root c.qname = some c ∧ ∃ vs, o = .obj c.name vs ∧ FitsAll all K c.fields vs ∧ rereadAll all K c.fields vs = vs := by
  obtain ⟨hm, hq⟩ := root_again all _ c hr
  have hf := find_self all all_sound c hm
  obtain ⟨c', vs, h1, _, h3, h4, h5⟩ := parse_settled all K all_sound hK _ _ h
  have hn : c'.name = c.name := by
    rw [parse] at h
    simp only [Option.getD_none, hr] at h
    cases hk : bindKids all K c ts with
    | error e => rw [hk] at h; cases h
    | ok ks =>
      rw [hk] at h
      simp only [bind, Except.bind, assemble] at h
      cases hb : c.fields.mapM (Field.bind K ats txt ks) with
      | error e => rw [hb] at h; cases h
      | ok l =>
        rw [hb] at h
        cases h
        injection h3 with e
        exact e.symm
  have : c' = c := by
    rw [hn, hf] at h1
    exact (Option.some.inj h1).symm
  subst this
  exact ⟨hf, by rw [hq, hr], vs, h3, h4, h5⟩

/-- A SICD document that was read is an object of version 1.2.1 or 1.3.0. -/
theorem sicd_root (K : Codec P) (hK : Faithful K) (ns : Name) (ats : List (QName × String)) (txt : String) (ts : List Tree) (o : Val P)
    (h : parse all K (.node (ns, n!"SICD") none ats txt ts) = .ok o) :
    ∃ c ∈ [Sicd121.SICD, Sicd130.SICD], all.find c.name = some c ∧ all.root c.qname = some c ∧
      ∃ vs, o = .obj c.name vs ∧ FitsAll all K c.fields vs ∧ rereadAll all K c.fields vs = vs := by
  have hv := (other_versions K ns ats txt ts).1
  rw [h] at hv
  by_cases h1 : ns = sicd121
  · subst h1
    exact ⟨_, by simp, root_some K hK _ _ roots.1 ats txt ts o h⟩
  · by_cases h2 : ns = sicd130
    · subst h2
      exact ⟨_, by simp, root_some K hK _ _ roots.2.1 ats txt ts o h⟩
    · exact absurd (hv h1 h2) (by simp)

/-- A SIDD document that was read is an object of version 1.0.0, 2.0.0 or 3.0.0. -/
theorem sidd_root (K : Codec P) (hK : Faithful K) (ns : Name) (ats : List (QName × String)) (txt : String) (ts : List Tree) (o : Val P)
    (h : parse all K (.node (ns, n!"SIDD") none ats txt ts) = .ok o) :
    ∃ c ∈ [Sidd100.SIDD, Sidd200.SIDD, Sidd300.SIDD], all.find c.name = some c ∧ all.root c.qname = some c ∧
      ∃ vs, o = .obj c.name vs ∧ FitsAll all K c.fields vs ∧ rereadAll all K c.fields vs = vs := by
  have hv := (other_versions K ns ats txt ts).2
  rw [h] at hv
  by_cases h1 : ns = sidd100
  · subst h1
    exact ⟨_, by simp, root_some K hK _ _ roots.2.2.1 ats txt ts o h⟩
  · by_cases h2 : ns = sidd200
    · subst h2
      exact ⟨_, by simp, root_some K hK _ _ roots.2.2.2.1 ats txt ts o h⟩
    · by_cases h3 : ns = sidd300
      · subst h3
        exact ⟨_, by simp, root_some K hK _ _ roots.2.2.2.2 ats txt ts o h⟩
      · exact absurd (hv h1 h2 h3) (by simp)

/-- **C153**: of a SICD document that was read, whatever the builder and the updater look at is there with the type that they use, unless an element is missing. -/
theorem sicd_attributes (K : Codec P) (hK : Faithful K) (ns : Name) (ats : List (QName × String)) (txt : String) (ts : List Tree) (o : Val P)
    (h : parse all K (.node (ns, n!"SICD") none ats txt ts) = .ok o) : Readable K sicdPaths o := by
  obtain ⟨c, hc, h1, _, vs, rfl, h2, _⟩ := sicd_root K hK ns ats txt ts o h
  exact readable_of_leads K _ _ sicd_leads c hc h1 vs h2

/-- **C153**: the same of a SIDD document, down to the plane projection, and in this if it is an object of the declared class (`xsi:type` could name another projection, which has
fewer attributes, see `plane_other`). -/
theorem sidd_attributes (K : Codec P) (hK : Faithful K) (ns : Name) (ats : List (QName × String)) (txt : String) (ts : List Tree) (o : Val P)
    (h : parse all K (.node (ns, n!"SIDD") none ats txt ts) = .ok o) : Readable K siddPaths o ∧
      ∀ c ∈ [Sidd100.PlaneProjectionType, Sidd200.PlaneProjectionType, Sidd300.PlaneProjectionType], ∀ vs,
        o.path all [n!"measurement", n!"plane_projection"] = .ok (.obj c.name vs) → Readable K planePaths (.obj c.name vs) := by
  obtain ⟨c, hc, h1, _, vs, rfl, h2, _⟩ := sidd_root K hK ns ats txt ts o h
  have hr := readable_of_leads K _ _ sidd_leads c hc h1 vs h2
  refine ⟨hr, fun d hd ws hw => ?_⟩
  rcases hr ([n!"measurement", n!"plane_projection"], isObject isPlane) (by simp [siddPaths]) with ⟨f, v, h3, h4, h5⟩ | ⟨a, b, _, _, _, _, h6⟩
  · rw [hw] at h3
    cases h3
    simp only [isObject, Bool.and_eq_true, decide_eq_true_eq] at h4
    simp only [FitsOne, h4.1.1, if_true] at h5
    rw [Fits] at h5
    obtain ⟨_, _, k, _, hk, _, hf⟩ := h5
    have hk' := find_name all _ k hk
    have hd' : all.find d.name = some d := by
      have : ∀ c ∈ [Sidd100.PlaneProjectionType, Sidd200.PlaneProjectionType, Sidd300.PlaneProjectionType], all.find c.name = some c := by decide +kernel
      exact this d hd
    have : k = d := by
      rw [hd'] at hk
      exact (Option.some.inj hk).symm
    subst this
    exact readable_of_leads K _ _ plane_leads k hd hd' ws hf
  · rw [hw] at h6
    cases h6

set_option maxRecDepth 100000 in
/-- **C153**: a plane projection whose `xsi:type` names a geographic projection is accepted, and has no product plane. -/
theorem plane_other : all.target n!"sidd200.PlaneProjectionType" (some (sidd200, n!"GeographicProjectionType")) = some Sidd200.GeographicProjectionType ∧
    Sidd200.GeographicProjectionType.fields.any (fun f => Nat.beq f.py n!"product_plane") = false := by decide +kernel

end Verif.Props.Schemas
