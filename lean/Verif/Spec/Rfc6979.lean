import Verif.Spec.Api

/-!
# Specification: deterministic nonces (RFC 6979) and HMAC_DRBG (NIST SP 800-90A)

`hmac K M` is HMAC with a 32-byte result and is left abstract. The two definitions are written
independently from their documents.
-/

namespace Verif.Spec

/-- RFC 6979, section 3.2, for a 256-bit group order and a 256-bit hash: the pair `(K, V)` before
step h, where `x` is `int2octets(x)` and `h` is `bits2octets(H(m))`. -/
def rfc6979Start (hmac : List UInt8 → List UInt8 → Vector UInt8 32) (x h : List UInt8) : List UInt8 × List UInt8 :=
  let V := List.replicate 32 0x01
  let K := List.replicate 32 0x00
  let K := (hmac K (V ++ [0x00] ++ x ++ h)).toList
  let V := (hmac K V).toList
  let K := (hmac K (V ++ [0x01] ++ x ++ h)).toList
  let V := (hmac K V).toList
  (K, V)

/-- RFC 6979, section 3.2, step h: the pair `(K, V)` when candidate number `i` has been computed; the
candidate is `V`. -/
def rfc6979Step (hmac : List UInt8 → List UInt8 → Vector UInt8 32) (x h : List UInt8) : ℕ → List UInt8 × List UInt8
  | 0 =>
    let (K, V) := rfc6979Start hmac x h
    (K, (hmac K V).toList)
  | i + 1 =>
    let (K, V) := rfc6979Step hmac x h i
    let K := (hmac K (V ++ [0x00])).toList
    let V := (hmac K V).toList
    (K, (hmac K V).toList)

/-- Candidate number `i` for the nonce, for the secret key `d` and the hash `h` of the message:
`int2octets` and `bits2octets` give 32 bytes, the latter after reduction modulo `n`. -/
def rfc6979Nonce (hmac : List UInt8 → List UInt8 → Vector UInt8 32) (d : ℕ) (h : Vector UInt8 32) (i : ℕ) : ℕ :=
  beNat (rfc6979Step hmac (beBytes 32 d) (beBytes 32 (beNat h.toList % n)) i).2

/-- The nonce `k` is accepted: it is in `1 … n-1` and neither component of the signature is zero. -/
def Rfc6979Accepts (d m : ZMod n) (k : ℕ) : Prop :=
  0 < k ∧ k < n ∧ ∃ x y : Fp, IsPt (k • G) x y ∧ (x.val : ZMod n) ≠ 0 ∧ m + (x.val : ZMod n) * d ≠ 0

/-- SP 800-90A, section 10.1.2.2 `HMAC_DRBG_Update`. -/
def hmacUpdate (hmac : List UInt8 → List UInt8 → Vector UInt8 32) (data : List UInt8) (s : Vector UInt8 32 × Vector UInt8 32) :
    Vector UInt8 32 × Vector UInt8 32 :=
  let K := hmac s.1.toList (s.2.toList ++ 0x00 :: data)
  let V := hmac K.toList s.2.toList
  if data = [] then (K, V)
  else
    let K := hmac K.toList (V.toList ++ 0x01 :: data)
    (K, hmac K.toList V.toList)

/-- SP 800-90A, sections 10.1.2.3 (instantiation from entropy, nonce and personalization) and
10.1.2.5 (generation of 32 bytes without additional input). -/
def hmacDrbg (hmac : List UInt8 → List UInt8 → Vector UInt8 32) : Drbg where
  State := Vector UInt8 32 × Vector UInt8 32
  new entropy nonce pers := hmacUpdate hmac (entropy ++ nonce ++ pers) (Vector.replicate 32 0x00, Vector.replicate 32 0x01)
  generate s :=
    let V := hmac s.1.toList s.2.toList
    (V, hmacUpdate hmac [] (s.1, V))

end Verif.Spec
