/-!
# Base64 (RFC 4648, section 4)

The standard alphabet with padding.  The decoder follows sections 3.2, 3.3 and 3.5 to the letter: padding
is required, characters outside the alphabet are refused, pad bits must be zero.
-/

namespace Verif.Rfc4648

/-- Table 1. -/
def alphabet : List Char := "ABCDEFGHIJKLMNOPQRSTUVWXYZabcdefghijklmnopqrstuvwxyz0123456789+/".toList

/-- The character of a 6-bit value. -/
def char (i : Nat) : Char := alphabet.getD i '='

/-- The 6-bit value of a character. -/
def value (c : Char) : Option Nat := if c ∈ alphabet then some (alphabet.idxOf c) else none

/-- Three bytes give four characters; one or two bytes at the end are padded. -/
def encode : List UInt8 → List Char
  | [] => []
  | [a] => [char (a.toNat / 4), char (a.toNat % 4 * 16), '=', '=']
  | [a, b] => [char (a.toNat / 4), char (a.toNat % 4 * 16 + b.toNat / 16), char (b.toNat % 16 * 4), '=']
  | a :: b :: c :: l =>
    char (a.toNat / 4) :: char (a.toNat % 4 * 16 + b.toNat / 16) :: char (b.toNat % 16 * 4 + c.toNat / 64) :: char (c.toNat % 64) ::
      encode l

/-- Four characters give three bytes, or fewer if the text ends with padding. -/
def decode : List Char → Option (List UInt8)
  | [] => some []
  | c0 :: c1 :: c2 :: c3 :: l =>
    if l = [] ∧ c3 = '=' ∧ c2 = '=' then do
      let v0 ← value c0
      let v1 ← value c1
      if v1 % 16 = 0 then some [UInt8.ofNat (v0 * 4 + v1 / 16)] else none
    else if l = [] ∧ c3 = '=' then do
      let v0 ← value c0
      let v1 ← value c1
      let v2 ← value c2
      if v2 % 4 = 0 then some [UInt8.ofNat (v0 * 4 + v1 / 16), UInt8.ofNat (v1 % 16 * 16 + v2 / 4)] else none
    else do
      let v0 ← value c0
      let v1 ← value c1
      let v2 ← value c2
      let v3 ← value c3
      let r ← decode l
      some (UInt8.ofNat (v0 * 4 + v1 / 16) :: UInt8.ofNat (v1 % 16 * 16 + v2 / 4) :: UInt8.ofNat (v2 % 4 * 64 + v3) :: r)
  | _ => none

end Verif.Rfc4648
