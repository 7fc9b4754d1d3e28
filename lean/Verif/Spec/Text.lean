/-! The decimal numbers in a text. -/

namespace Verif.Spec

/-- The numbers written by the maximal runs of decimal digits of `cs`; `acc` is the number of the run being read. -/
def numbersFrom : List Char → (acc : Option Nat) → List Nat
  | [], acc => acc.toList
  | c :: cs, acc =>
    if c.isDigit then numbersFrom cs (some (10 * acc.getD 0 + (c.toNat - '0'.toNat))) else acc.toList ++ numbersFrom cs none

/-- The numbers in a text, from left to right. -/
def numbers (cs : List Char) : List Nat := numbersFrom cs none

/-- The number with the given digits in base `2^b`, least significant digit first. -/
def fromLimbs (b : Nat) (l : List Nat) : Nat := l.foldr (fun d v => d + 2 ^ b * v) 0

/-- The value of a lowercase hexadecimal digit. -/
def hexDigit (c : Char) : Nat := if c.isDigit then c.toNat - '0'.toNat else c.toNat - 'a'.toNat + 10

/-- The number written in hexadecimal by `cs`. -/
def hexNumber (cs : List Char) : Nat := cs.foldl (fun v c => 16 * v + hexDigit c) 0

end Verif.Spec
