import Verif.Model.Float64

/-!
# Model of `aws/osml/photogrammetry/coordinates.py`: `GeodeticWorldCoordinate.__format__`

Texts are lists of characters.  Rounding of arithmetic results, the conversion to
degrees and the printing of decimal numbers are parameters (`Arith`).
-/

namespace Verif.Coordinates

open Verif.Float64

/-- The runtime primitives used by the formatting code: rounding of an arithmetic
result, `np.degrees`, and `str` of a float.  `coordinates.py` L139-226. -/
structure Arith where
  rnd : ℚ → ℚ
  deg : ℚ → ℚ
  str : ℚ → List Char

/-- coordinates.py L61-137: longitude and latitude in radians, elevation in metres. -/
structure Geodetic where
  longitude : ℚ
  latitude : ℚ
  elevation : ℚ
deriving DecidableEq

/-- The local variables `ld, lm, ls` (or `od, om, os`), the unsigned degrees and the
"negative hemisphere" flag.  `coordinates.py` L157-173. -/
structure Fields where
  absDeg : ℚ
  south : Bool
  d : Int
  m : Int
  s : Int
deriving DecidableEq

/-- coordinates.py L157-164 (latitude) and L166-173 (longitude); `d` is the result of `np.degrees`. -/
def fields (rnd : ℚ → ℚ) (d : ℚ) : Fields :=
  let neg := decide (d < 0)
  let a := if d < 0 then rnd (d * -1) else d
  let ld := pyInt a
  let lm := pyInt (rnd (round6 rnd (rnd (a - ld)) * 60))
  let ls := pyInt (rnd (round6 rnd (rnd (rnd (a - ld) - rnd (lm / 60))) * 3600))
  { absDeg := a, south := neg, d := ld, m := lm, s := ls }

/-- Left padding with zeros.  `format(n, "02d")` and `"03d"` in `coordinates.py` L190-211. -/
def zfill (w : Nat) (s : List Char) : List Char := List.replicate (w - s.length) '0' ++ s

/-- Python `format(n, "0wd")` (coordinates.py L190-194, L207-211): sign-aware zero padding. -/
def fmt0d (w : Nat) (n : Int) : List Char :=
  if n < 0 then '-' :: zfill (w - 1) (Nat.toDigits 10 n.natAbs) else zfill w (Nat.toDigits 10 n.natAbs)

/-- coordinates.py L186-199 / L203-216: the text of a two-letter directive, `none`
when the character is not one of `d m s h H`.  `w` is the width of the degrees. -/
def partText (w : Nat) (pos neg posLower negLower : Char) (f : Fields) (p : Char) : Option (List Char) :=
  if p = 'd' then some (fmt0d w f.d)
  else if p = 'm' then some (fmt0d 2 f.m)
  else if p = 's' then some (fmt0d 2 f.s)
  else if p = 'h' then some [if f.south then negLower else posLower]
  else if p = 'H' then some [if f.south then neg else pos]
  else none

/-- coordinates.py L177-226: the loop over the format specification. -/
def run (A : Arith) (c : Geodetic) (la lo : Fields) : List Char → List Char
  | [] => []
  | [x] => [x]
  | x :: directive :: rest =>
    if x = '%' then
      if directive = 'L' then A.str c.latitude ++ run A c la lo rest
      else if directive = 'O' then A.str c.longitude ++ run A c la lo rest
      else if directive = 'l' then
        match rest with
        | [] => A.str la.absDeg
        | p :: rest' =>
          match partText 2 'N' 'S' 'n' 's' la p with
          | some t => t ++ run A c la lo rest'
          | none => A.str la.absDeg ++ run A c la lo (p :: rest')
      else if directive = 'o' then
        match rest with
        | [] => A.str lo.absDeg
        | p :: rest' =>
          match partText 3 'E' 'W' 'e' 'w' lo p with
          | some t => t ++ run A c la lo rest'
          | none => A.str lo.absDeg ++ run A c la lo (p :: rest')
      else if directive = 'E' then A.str c.elevation ++ run A c la lo rest
      else if directive = '%' then '%' :: run A c la lo rest
      else run A c la lo rest
    else x :: run A c la lo (directive :: rest)

/-- coordinates.py L155: the default format specification. -/
def defaultSpec : List Char := "%ld%lm%ls%lH %od%om%os%oH %E".toList

/-- coordinates.py L153-226: `__format__`. -/
def format (A : Arith) (c : Geodetic) (spec : List Char) : List Char :=
  let spec := if spec = [] then defaultSpec else spec
  run A c (fields A.rnd (A.deg c.latitude)) (fields A.rnd (A.deg c.longitude)) spec

/-- coordinates.py L139-148: `to_dms_string`. -/
def toDmsString (A : Arith) (c : Geodetic) : List Char :=
  format A c "%ld%lm%ls%lH%od%om%os%oH".toList

/-- The primitives of IEEE double arithmetic with a given printing function.  Used for `coordinates.py` L139-226. -/
def ieee (str : ℚ → List Char) : Arith := { rnd := rne64, deg := degrees, str := str }

end Verif.Coordinates
