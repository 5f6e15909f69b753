import Verif.Model.Des

/-!
# Model of `sensor_model_factory.py`

The type `M` of sensor models and the builders are parameters: the RPC, RSM and CSCRNA builders are
modelled in `Verif.Model.Tre`, the affine, projective, chipped and composite models in
`Verif.Model.Sensors`.
-/

namespace Verif.Factory

open Verif.Tre Verif.Des

/-- sensor_model_factory.py L56-68 -/
inductive Kind
  | affine
  | projective
  | rpc
  | rsm
  | sicd
deriving DecidableEq

/-- A GDAL ground control point: X, Y, Z, pixel, line.  Read by `gdal_sensor_model_builder.py` L67-70. -/
structure Gcp where
  x : ℝ
  y : ℝ
  z : ℝ
  pixel : ℝ
  line : ℝ

/-- sensor_model_factory.py L78-114: the arguments of the factory (the geo transform comes with its
CRS). -/
structure Metadata where
  width : Int
  height : Int
  tres : Option Xml
  dess : Option (List String)
  geo : Option (List ℝ)
  gcps : Option (List Gcp)
  selected : Option (List Kind)

/-- The builders.  SIDD and SICD builders catch every exception (sidd_sensor_model_builder.py L46-61,
sicd_sensor_model_builder.py L99-112). -/
structure Builders (M : Type) where
  affine : List ℝ → Except PyErr M
  gcps : List Gcp → Except PyErr M
  rsm : Xml → Except PyErr (Option M)
  rpc : Xml → Except PyErr (Option M)
  corners : Xml → Int → Int → Except PyErr (Option M)
  chip : List (ℝ × ℝ) → List (ℝ × ℝ) → M → Except PyErr M
  sidd : String → Option M
  sicd : String → Option M
  composite : M → M → M

/-- What the ICHIPB TRE says: full image and chip coordinates of four points, full image size.  `sensor_model_factory.py` L22-53. -/
structure ChipInfo where
  full : List (ℝ × ℝ)
  chip : List (ℝ × ℝ)
  width : Int
  height : Int

/-- sensor_model_factory.py L36-50 -/
def readChip (c : Conv) (t : Xml) : Except PyErr ChipInfo := do
  let points ← ["11", "12", "21", "22"].mapM (fun g => do
    let opCol ← fieldValue t ("OP_COL_" ++ g) c.float
    let opRow ← fieldValue t ("OP_ROW_" ++ g) c.float
    let fiCol ← fieldValue t ("FI_COL_" ++ g) c.float
    let fiRow ← fieldValue t ("FI_ROW_" ++ g) c.float
    pure ((fiCol, fiRow), (opCol, opRow)))
  let width ← fieldValue t "FI_COL" c.int
  let height ← fieldValue t "FI_ROW" c.int
  pure ⟨points.map Prod.fst, points.map Prod.snd, width, height⟩

/-- sensor_model_factory.py L143-148, L51-53: the facade swallows the `ValueError` and is left without the
attributes `full_image_width` and `full_image_height`, so reading them raises `AttributeError`. -/
def chipInfo (c : Conv) (tres : Xml) : Except PyErr (Option ChipInfo) :=
  match tres.find "tre" "ICHIPB" with
  | none => .ok none
  | some t =>
    match readChip c t with
    | .ok i => .ok (some i)
    | .error .valueError => .error .attributeError
    | .error e => .error e

/-- sensor_model_factory.py L159-164, L174-179 -/
def wrap {M : Type} (b : Builders M) (info : Option ChipInfo) (m : Option M) : Except PyErr (Option M) :=
  match m, info with
  | some m, some i => some <$> b.chip i.full i.chip m
  | m, _ => .ok m

/-- `sub in s`.  `sensor_model_factory.py` L194, L199. -/
def contains (s sub : String) : Bool := decide (sub.toList <:+: s.toList)

/-- sensor_model_factory.py L189-201: the loop over the segments. -/
def fromSegments {M : Type} (b : Builders M) (k : Codec) (sicdSelected : Bool) (precision : Option M) :
    List Xml → Except PyErr (Option M)
  | [] => .ok precision
  | s :: rest => do
    match ← extractXml k s with
    | none => fromSegments b k sicdSelected precision rest
    | some xml =>
      if xml = "" then fromSegments b k sicdSelected precision rest
      else if contains xml "SIDD" then pure (b.sidd xml)
      else if contains xml "SICD" && sicdSelected then pure (b.sicd xml)
      else fromSegments b k sicdSelected precision rest

/-- The libraries used: number conversion, XML parser for DES texts, decoders.
Used by `sensor_model_factory.py` L135-201 and `nitf_des_accessor.py` L39-40, L118-125. -/
structure Lib where
  conv : Conv
  parse : List Char → Except PyErr Xml
  codec : Codec

/-- `t in self.selected_sensor_model_types`, with the default of L105-106. -/
def Metadata.isSelected (md : Metadata) (k : Kind) : Bool :=
  match md.selected with
  | none => true
  | some l => decide (k ∈ l)

/-- sensor_model_factory.py L127-129 -/
def fromGeo {M : Type} (b : Builders M) (md : Metadata) : Except PyErr (Option M) :=
  match md.isSelected .affine, md.geo with
  | true, some g => some <$> b.affine g
  | _, _ => pure none

/-- sensor_model_factory.py L127-133 -/
def approximate {M : Type} (b : Builders M) (md : Metadata) : Except PyErr (Option M) := do
  let a ← fromGeo b md
  match md.isSelected .projective, md.gcps with
  | true, some l => if l.length > 3 then some <$> b.gcps l else pure a
  | _, _ => pure a

/-- sensor_model_factory.py L154-158 -/
def rsmOrRpc {M : Type} (b : Builders M) (md : Metadata) (tres : Xml) : Except PyErr (Option M) := do
  let p ← (if md.isSelected .rsm then b.rsm tres else pure none)
  match p with
  | some m => pure (some m)
  | none => if md.isSelected .rpc then b.rpc tres else pure none

/-- sensor_model_factory.py L135-179: (approximate, precision) -/
def fromTres {M : Type} (b : Builders M) (lib : Lib) (md : Metadata) (a : Option M) (tres : Xml) : Except PyErr (Option M × Option M) := do
  let info ← chipInfo lib.conv tres
  let width := info.elim md.width (·.width)
  let height := info.elim md.height (·.height)
  let p ← rsmOrRpc b md tres
  let p ← wrap b info p
  if md.isSelected .projective && (tres.find "tre" "CSCRNA").isSome then do
    let a ← b.corners tres width height
    let a ← wrap b info a
    pure (a, p)
  else pure (a, p)

/-- sensor_model_factory.py L135: (approximate, precision) -/
def treModels {M : Type} (b : Builders M) (lib : Lib) (md : Metadata) (a : Option M) : Except PyErr (Option M × Option M) :=
  match md.tres with
  | none => pure (a, none)
  | some tres => fromTres b lib md a tres

/-- sensor_model_factory.py L184-201 -/
def desModel {M : Type} (b : Builders M) (lib : Lib) (md : Metadata) (p : Option M) : Except PyErr (Option M) :=
  match md.dess with
  | none => pure p
  | some [] => pure p
  | some l => do
    let lists ← parsedLists lib.parse (l.map String.toList)
    fromSegments b lib.codec (md.isSelected .sicd) p (segments lists "XML_DATA_CONTENT")

/-- sensor_model_factory.py L206-214 -/
def combine {M : Type} (b : Builders M) : Option M → Option M → Option M
  | some a, some p => some (b.composite a p)
  | none, some p => some p
  | a, none => a

/-- sensor_model_factory.py L116-214 -/
def build {M : Type} (b : Builders M) (lib : Lib) (md : Metadata) : Except PyErr (Option M) := do
  let a ← approximate b md
  let ap ← treModels b lib md a
  let p ← desModel b lib md ap.2
  pure (combine b ap.1 p)

end Verif.Factory
