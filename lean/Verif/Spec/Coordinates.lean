import Mathlib.Data.Rat.Defs
import Mathlib.Data.List.Forall2

/-!
# Specification of the coordinate format language and of DMS strings
(independent of the model)
-/

namespace Verif.Spec.Coordinates

inductive Ax | lat | lon
deriving DecidableEq

/-- The pieces a format specification is made of. -/
inductive Piece
  | lit (c : Char)                 -- a character other than %
  | percent                        -- %%
  | radians (a : Ax)               -- %L %O
  | decimal (a : Ax)               -- %l %o
  | part (a : Ax) (p : Char)       -- %ld ... %oH
  | elevation                      -- %E
  | unknown (c : Char)             -- % and any other character
  | lone                           -- a single % at the very end

def partLetters : List Char := ['d', 'm', 's', 'h', 'H']

def axLetter : Ax → Char
  | .lat => 'l'
  | .lon => 'o'

/-- How a piece is written. -/
def Piece.text : Piece → List Char
  | .lit c => [c]
  | .percent => ['%', '%']
  | .radians .lat => ['%', 'L']
  | .radians .lon => ['%', 'O']
  | .decimal a => ['%', axLetter a]
  | .part a p => ['%', axLetter a, p]
  | .elevation => ['%', 'E']
  | .unknown c => ['%', c]
  | .lone => ['%']

/-- The texts a coordinate provides for the directives. -/
structure Texts where
  radians : Ax → List Char
  decimal : Ax → List Char
  part : Ax → Char → List Char
  elevation : List Char

/-- What a piece prints. -/
def Piece.output (t : Texts) : Piece → List Char
  | .lit c => [c]
  | .percent => ['%']
  | .radians a => t.radians a
  | .decimal a => t.decimal a
  | .part a p => t.part a p
  | .elevation => t.elevation
  | .unknown _ => []
  | .lone => ['%']

/-- Side conditions of a single piece. -/
def Piece.ok : Piece → Prop
  | .lit c => c ≠ '%'
  | .part _ p => p ∈ partLetters
  | .unknown c => c ∉ ['L', 'O', 'l', 'o', 'E', '%']
  | _ => True

/-- `b` may follow `a`: a decimal directive must not swallow the next character,
and a lone % is last. -/
def follows : Piece → Piece → Prop
  | .decimal _, b => ∀ p ∈ partLetters, b.text.head? ≠ some p
  | .lone, _ => False
  | _, _ => True

/-- A well-formed sequence of pieces. -/
def WellFormed : List Piece → Prop
  | [] => True
  | [p] => p.ok
  | p :: q :: rest => p.ok ∧ follows p q ∧ WellFormed (q :: rest)

/-- ddmmssXdddmmssY, character by character. -/
def dmsPattern : List (Char → Bool) :=
  let dig := fun c : Char => c.isDigit
  [dig, dig, dig, dig, dig, dig, fun c => c == 'N' || c == 'S',
   dig, dig, dig, dig, dig, dig, dig, fun c => c == 'E' || c == 'W']

def DmsShape (s : List Char) : Prop := List.Forall₂ (fun p c => p c = true) dmsPattern s

/-- The number written by decimal digits. -/
def number (s : List Char) : Nat := s.foldl (fun acc c => 10 * acc + (c.toNat - '0'.toNat)) 0

/-- Reader of one half: `w` digits of degrees, two of minutes, two of seconds, hemisphere. -/
def readHalf (w : Nat) (neg : Char) (s : List Char) : ℚ :=
  let v : ℚ := (number (s.take w) : ℚ) + (number ((s.drop w).take 2) : ℚ) / 60
    + (number ((s.drop (w + 2)).take 2) : ℚ) / 3600
  if s.drop (w + 4) = [neg] then -v else v

/-- The signed decimal degrees (latitude, longitude) a DMS string denotes. -/
def readDms (s : List Char) : ℚ × ℚ := (readHalf 2 'S' (s.take 7), readHalf 3 'W' (s.drop 7))

end Verif.Spec.Coordinates
