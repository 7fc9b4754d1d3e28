import Mathlib.Data.ZMod.Defs

/-!
# Specification: constants of secp256k1 and big-endian integers

Independent of the model.  Values from SEC 2, section 2.4.1.
-/

namespace Verif.Spec

/-- The field prime `2^256 - 2^32 - 977`. -/
def p : ℕ := 0xFFFFFFFFFFFFFFFFFFFFFFFFFFFFFFFFFFFFFFFFFFFFFFFFFFFFFFFEFFFFFC2F

/-- The group order. -/
def n : ℕ := 0xFFFFFFFFFFFFFFFFFFFFFFFFFFFFFFFEBAAEDCE6AF48A03BBFD25E8CD0364141

/-- The integers modulo the field prime: the type of coordinates. -/
abbrev Fp : Type := ZMod p

/-- The integer denoted by a big-endian byte string. -/
def beNat (bs : List UInt8) : ℕ := bs.foldl (fun acc b => 256 * acc + b.toNat) 0

/-- The `k`-byte big-endian encoding of an integer (modulo `256^k`). -/
def beBytes : (k : ℕ) → ℕ → List UInt8
  | 0, _ => []
  | k + 1, v => beBytes k (v / 256) ++ [UInt8.ofNat v]

end Verif.Spec
