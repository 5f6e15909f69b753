import Mathlib.Data.List.Basic

/-! # Base64 (RFC 4648, section 4) -/

namespace Verif.Spec.Base64

/-- Table 1 of RFC 4648. -/
def alphabet : List Char := "ABCDEFGHIJKLMNOPQRSTUVWXYZabcdefghijklmnopqrstuvwxyz0123456789+/".toList

def digit (n : Nat) : Char := alphabet.getD n 'A'

/-- The characters that base64 texts consist of. -/
def relevant (c : Char) : Bool := decide (c = '=' ∨ c ∈ alphabet)

/-- Groups of three bytes as four characters; a last group of one or two bytes is filled up with `=`. -/
def encode : List UInt8 → List Char
  | [] => []
  | [a] => [digit (a.toNat / 4), digit (a.toNat % 4 * 16), '=', '=']
  | [a, b] => [digit (a.toNat / 4), digit (a.toNat % 4 * 16 + b.toNat / 16), digit (b.toNat % 16 * 4), '=']
  | a :: b :: c :: rest =>
    [digit (a.toNat / 4), digit (a.toNat % 4 * 16 + b.toNat / 16), digit (b.toNat % 16 * 4 + c.toNat / 64), digit (c.toNat % 64)] ++ encode rest

example : encode "Man".toUTF8.data.toList = "TWFu".toList ∧ encode "Ma".toUTF8.data.toList = "TWE=".toList ∧ encode "M".toUTF8.data.toList = "TQ==".toList := by
  decide +kernel

end Verif.Spec.Base64
