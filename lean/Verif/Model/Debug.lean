import Verif.Model.Lib
import Verif.Model.StaticContext

/-!
# The `Debug` texts of the values of the library

`#[derive(Debug)]` in src/lib.rs:62-87, core/src/scalar.rs:24, core/src/field.rs:12, 1771, core/src/group.rs:3-24, core/src/error.rs:1.  The contexts
have no `Debug`.  The derived code calls
`debug_tuple` and `debug_struct` of `core::fmt`; integers, booleans and arrays use the implementations of `core::fmt`.  The model
covers `{:?}` and, with `pretty`, `{:#?}`, without width, precision, sign or `x?` flags.  `core::fmt` and the `Debug` of
`GenericArray` (a list of its elements) are modelled from their documentation: they are not in /repo.
-/

namespace Verif.Debug
open StaticContext

/-- `PadAdapter` of `core::fmt::builders`: four spaces before the first character of every line.  `nl`: at the start of a line. -/
def indent : (nl : Bool) → List Char → List Char
  | _, [] => []
  | nl, c :: cs => (if nl then [' ', ' ', ' ', ' '] else []) ++ c :: indent (c == '\n') cs

/-- One field or element of the `{:#?}` form: indented, with a trailing comma, on its own lines. -/
def line (v : List Char) : List Char := indent true (v ++ [',', '\n'])

/-- `debug_tuple(name).field(v).finish()`. -/
def tuple (pretty : Bool) (name v : List Char) : List Char :=
  if pretty then name ++ ['(', '\n'] ++ line v ++ [')'] else name ++ ['('] ++ v ++ [')']

/-- The elements of a list after the first, in the `{:?}` form. -/
def rest (vs : List (List Char)) : List Char := vs.flatMap fun v => [',', ' '] ++ v

/-- `debug_list().entries(vs).finish()`. -/
def list (pretty : Bool) : List (List Char) → List Char
  | [] => ['[', ']']
  | v :: vs => if pretty then ['[', '\n'] ++ (v :: vs).flatMap line ++ [']'] else ['['] ++ v ++ rest vs ++ [']']

/-- `name: value` in a struct. -/
def field (f : List Char × List Char) : List Char := f.1 ++ [':', ' '] ++ f.2

/-- `debug_struct(name).field(..)…finish()` with at least one field. -/
def struct (pretty : Bool) (name : List Char) (f : List Char × List Char) (fs : List (List Char × List Char)) : List Char :=
  if pretty then name ++ [' ', '{', '\n'] ++ (f :: fs).flatMap (fun f => line (field f)) ++ ['}']
  else name ++ [' ', '{', ' '] ++ field f ++ rest (fs.map field) ++ [' ', '}']

/-- `bool`. -/
def bool (b : Bool) : List Char := if b then "true".toList else "false".toList

/-- `u8`. -/
def u8 (x : UInt8) : List Char := Nat.toDigits 10 x.toNat

/-- scalar.rs:24-26 `Scalar(pub [u32; 8])`. -/
def scalar (pretty : Bool) (a : Scalar) : List Char :=
  tuple pretty "Scalar".toList (list pretty
    [fmtU32 a.d0, fmtU32 a.d1, fmtU32 a.d2, fmtU32 a.d3, fmtU32 a.d4, fmtU32 a.d5, fmtU32 a.d6, fmtU32 a.d7])

/-- field.rs:12-23 `Field`. -/
def felem (pretty : Bool) (a : FElem) : List Char :=
  struct pretty "Field".toList
    ("n".toList, list pretty [fmtU32 a.n.n0, fmtU32 a.n.n1, fmtU32 a.n.n2, fmtU32 a.n.n3, fmtU32 a.n.n4, fmtU32 a.n.n5, fmtU32 a.n.n6,
      fmtU32 a.n.n7, fmtU32 a.n.n8, fmtU32 a.n.n9])
    [("magnitude".toList, fmtU32 a.magnitude), ("normalized".toList, bool a.normalized)]

/-- group.rs:3-9 `Affine`. -/
def affine (pretty : Bool) (a : Affine) : List Char :=
  struct pretty "Affine".toList ("x".toList, felem pretty a.x) [("y".toList, felem pretty a.y), ("infinity".toList, bool a.infinity)]

/-- lib.rs:62-64 `PublicKey`. -/
def publicKey (pretty : Bool) (a : PublicKey) : List Char := tuple pretty "PublicKey".toList (affine pretty a.pt)

/-- lib.rs:66-68 `SecretKey`. -/
def secretKey (pretty : Bool) (a : SecretKey) : List Char := tuple pretty "SecretKey".toList (scalar pretty a.sc)

/-- lib.rs:70-75 `Signature`. -/
def signature (pretty : Bool) (a : Signature) : List Char :=
  struct pretty "Signature".toList ("r".toList, scalar pretty a.r) [("s".toList, scalar pretty a.s)]

/-- lib.rs:77-79 `RecoveryId`. -/
def recoveryId (pretty : Bool) (a : RecoveryId) : List Char := tuple pretty "RecoveryId".toList (u8 a.id)

/-- lib.rs:81-83 `Message`. -/
def message (pretty : Bool) (a : Message) : List Char := tuple pretty "Message".toList (scalar pretty a.sc)

/-- lib.rs:85-87 `SharedSecret`; its content is a `GenericArray<u8, _>`. -/
def sharedSecret (pretty : Bool) (a : SharedSecret) : List Char :=
  tuple pretty "SharedSecret".toList (list pretty (a.bytes.map u8))

/-- field.rs:1771-1773 `FieldStorage(pub [u32; 8])`. -/
def fieldStorage (pretty : Bool) (a : FieldStorage) : List Char :=
  tuple pretty "FieldStorage".toList (list pretty
    [fmtU32 a.w0, fmtU32 a.w1, fmtU32 a.w2, fmtU32 a.w3, fmtU32 a.w4, fmtU32 a.w5, fmtU32 a.w6, fmtU32 a.w7])

/-- group.rs:20-25 `AffineStorage`. -/
def affineStorage (pretty : Bool) (a : AffineStorage) : List Char :=
  struct pretty "AffineStorage".toList ("x".toList, fieldStorage pretty a.x) [("y".toList, fieldStorage pretty a.y)]

/-- group.rs:11-18 `Jacobian`. -/
def jacobian (pretty : Bool) (a : Jacobian) : List Char :=
  struct pretty "Jacobian".toList ("x".toList, felem pretty a.x)
    [("y".toList, felem pretty a.y), ("z".toList, felem pretty a.z), ("infinity".toList, bool a.infinity)]

/-- error.rs:1-11 `Error`; a variant without fields is written as its name in both forms. -/
def error : Error → List Char
  | .invalidSignature => "InvalidSignature".toList
  | .invalidPublicKey => "InvalidPublicKey".toList
  | .invalidSecretKey => "InvalidSecretKey".toList
  | .invalidRecoveryId => "InvalidRecoveryId".toList
  | .invalidMessage => "InvalidMessage".toList
  | .invalidInputLength => "InvalidInputLength".toList
  | .tweakOutOfRange => "TweakOutOfRange".toList
  | .invalidAffine => "InvalidAffine".toList

/-- lib.rs:355-358, 383-387 `expecting` of the two serde visitors: the text of the error serde reports for a value of another type. -/
def expecting (humanReadable : Bool) : List Char :=
  if humanReadable then "a bytestring of either 33 (compressed), 64 (raw), or 65 bytes in length".toList
  else "a byte slice that is either 33 (compressed), 64 (raw), or 65 bytes in length".toList

end Verif.Debug
