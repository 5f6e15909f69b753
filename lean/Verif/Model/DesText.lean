import Verif.Model.Des

/-!
# The text of a metadata segment between the file and the code

Before version 3.9 GDAL shows the content of a data extension segment as base64 in the metadata domain `xml:DES`; `nitf_des_accessor.py` L114-119 decodes it with Python's `base64` and UTF-8.  Both decoders are
written out here, in place of the parameter `Codec.b64` of `Verif.Des`.  The second part is what GDAL (external) does with the option `DES=…` of `gdal_tile_factory.py` L122 when it writes a file.
-/

namespace Verif.DesText

open Verif.Des

/-- The table of `binascii.a2b_base64`.  Called by `nitf_des_accessor.py` L118. -/
def value (c : Char) : Option Nat :=
  if 65 ≤ c.toNat ∧ c.toNat ≤ 90 then some (c.toNat - 65)
  else if 97 ≤ c.toNat ∧ c.toNat ≤ 122 then some (c.toNat - 71)
  else if 48 ≤ c.toNat ∧ c.toNat ≤ 57 then some (c.toNat + 4)
  else if c = '+' then some 62
  else if c = '/' then some 63
  else none

/-- The loop of `binascii.a2b_base64` (not strict): the position in a group of four, the bits that are left over, the number of `=` in a row.  Enough padding ends the loop; other characters are skipped;
a group that is not complete at the end raises `binascii.Error`, a `ValueError`.  Called by `nitf_des_accessor.py` L118. -/
def scan : Nat → Nat → Nat → List Char → Except PyErr (List UInt8)
  | q, _, _, [] => if q = 0 then .ok [] else .error .valueError
  | q, left, pads, c :: cs =>
    if c = '=' then
      if 2 ≤ q ∧ 4 ≤ q + (pads + 1) then .ok [] else scan q left (if 2 ≤ q then pads + 1 else pads) cs
    else
      match value c with
      | none => scan q left pads cs
      | some v =>
        if q = 0 then scan 1 v 0 cs
        else if q = 1 then (scan 2 (v % 16) 0 cs).map (UInt8.ofNat (left * 4 + v / 16) :: ·)
        else if q = 2 then (scan 3 (v % 4) 0 cs).map (UInt8.ofNat (left * 16 + v / 4) :: ·)
        else (scan 0 0 0 cs).map (UInt8.ofNat (left * 64 + v) :: ·)

/-- `base64.b64decode(s)` for a text: characters that are not ASCII raise `ValueError`.  Called by `nitf_des_accessor.py` L118. -/
def b64decode (s : List Char) : Except PyErr (List UInt8) := if s.all (fun c => decide (c.toNat < 128)) then scan 0 0 0 s else .error .valueError

/-- `bytes.decode("utf-8")`; `UnicodeDecodeError` is a `ValueError`.  Called by `nitf_des_accessor.py` L119. -/
def utf8decode (bytes : List UInt8) : Except PyErr String :=
  match bytes.toByteArray.utf8Decode? with
  | some cs => .ok (String.ofList cs.toList)
  | none => .error .valueError

/-- nitf_des_accessor.py L118-119 -/
def decodeValue (v : String) : Except PyErr String := do
  let bytes ← b64decode v.toList
  utf8decode bytes

/-! ## Writing -/

/-- The UTF-8 form in which Python hands a text over to GDAL (`gdal_tile_factory.py` L122-133). -/
def utf8 (s : List Char) : List UInt8 := s.flatMap String.utf8EncodeChar

/-- `CPLUnescapeString(contents, …, CPLES_BackslashQuotable)`, which GDAL's NITF driver applies to the contents of a `DES=` option (`gdal_tile_factory.py` L122). -/
def unescape : List Char → List Char
  | [] => []
  | [c] => if c = '\\' then [] else [c]
  | c :: d :: rest =>
    if c = '\\' then (if d = 'n' then '\n' else if d = '0' then Char.ofNat 0 else d) :: unescape rest
    else c :: unescape (d :: rest)

/-- C `atoi` on the columns of a number: the digits at the beginning (GDAL, for the file of `gdal_tile_factory.py` L122-133). -/
def atoi (digits : List UInt8) : Nat := (digits.takeWhile (fun d => decide (48 ≤ d.toNat ∧ d.toNat ≤ 57))).foldl (fun n d => n * 10 + (d.toNat - 48)) 0

/-- Where GDAL finds the data of a segment: behind the 173 columns DESVER to DESSHL and the DESSHL columns that follow (GDAL, for the file of `gdal_tile_factory.py` L122-133).  The columns DE and DESID before
them are not part of the contents of the option. -/
def desData (contents : List UInt8) : List UInt8 := contents.drop (173 + atoi ((contents.drop 169).take 4))

end Verif.DesText
