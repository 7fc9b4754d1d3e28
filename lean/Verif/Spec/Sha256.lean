import Verif.Spec.Rfc6979

/-!
# Specification: SHA-256 (FIPS 180-4) and HMAC (FIPS 198-1)

The hash functions that `sign` and ECDH are used with, written from the documents.  No proof
unfolds them; they make the parameters of C69 and C33 concrete.
-/

namespace Verif.Spec

namespace Sha256

/-- FIPS 180-4, section 4.2.2: the constants `K`. -/
def K : List UInt32 := [
  0x428a2f98, 0x71374491, 0xb5c0fbcf, 0xe9b5dba5, 0x3956c25b, 0x59f111f1, 0x923f82a4, 0xab1c5ed5,
  0xd807aa98, 0x12835b01, 0x243185be, 0x550c7dc3, 0x72be5d74, 0x80deb1fe, 0x9bdc06a7, 0xc19bf174,
  0xe49b69c1, 0xefbe4786, 0x0fc19dc6, 0x240ca1cc, 0x2de92c6f, 0x4a7484aa, 0x5cb0a9dc, 0x76f988da,
  0x983e5152, 0xa831c66d, 0xb00327c8, 0xbf597fc7, 0xc6e00bf3, 0xd5a79147, 0x06ca6351, 0x14292967,
  0x27b70a85, 0x2e1b2138, 0x4d2c6dfc, 0x53380d13, 0x650a7354, 0x766a0abb, 0x81c2c92e, 0x92722c85,
  0xa2bfe8a1, 0xa81a664b, 0xc24b8b70, 0xc76c51a3, 0xd192e819, 0xd6990624, 0xf40e3585, 0x106aa070,
  0x19a4c116, 0x1e376c08, 0x2748774c, 0x34b0bcb5, 0x391c0cb3, 0x4ed8aa4a, 0x5b9cca4f, 0x682e6ff3,
  0x748f82ee, 0x78a5636f, 0x84c87814, 0x8cc70208, 0x90befffa, 0xa4506ceb, 0xbef9a3f7, 0xc67178f2]

/-- The eight working variables. -/
structure Hash where
  (a b c d e f g h : UInt32)

/-- FIPS 180-4, section 5.3.3: the initial hash value. -/
def H0 : Hash := ⟨0x6a09e667, 0xbb67ae85, 0x3c6ef372, 0xa54ff53a, 0x510e527f, 0x9b05688c, 0x1f83d9ab, 0x5be0cd19⟩

/-- Rotation to the right. -/
def rotr (x k : UInt32) : UInt32 := (x >>> k) ||| (x <<< (32 - k))

/-- FIPS 180-4, section 4.1.2. -/
def Sigma0 (x : UInt32) : UInt32 := rotr x 2 ^^^ rotr x 13 ^^^ rotr x 22
/-- FIPS 180-4, section 4.1.2. -/
def Sigma1 (x : UInt32) : UInt32 := rotr x 6 ^^^ rotr x 11 ^^^ rotr x 25
/-- FIPS 180-4, section 4.1.2. -/
def sigma0 (x : UInt32) : UInt32 := rotr x 7 ^^^ rotr x 18 ^^^ (x >>> 3)
/-- FIPS 180-4, section 4.1.2. -/
def sigma1 (x : UInt32) : UInt32 := rotr x 17 ^^^ rotr x 19 ^^^ (x >>> 10)
/-- FIPS 180-4, section 4.1.2. -/
def Ch (x y z : UInt32) : UInt32 := (x &&& y) ^^^ (~~~x &&& z)
/-- FIPS 180-4, section 4.1.2. -/
def Maj (x y z : UInt32) : UInt32 := (x &&& y) ^^^ (x &&& z) ^^^ (y &&& z)

/-- FIPS 180-4, section 5.1.1: the padded message. -/
def pad (m : List UInt8) : List UInt8 :=
  m ++ 0x80 :: List.replicate ((119 - m.length % 64) % 64) 0 ++ beBytes 8 (8 * m.length)

/-- The 32-bit words of a byte string. -/
def words : List UInt8 → List UInt32
  | a :: b :: c :: d :: l => UInt32.ofNat (beNat [a, b, c, d]) :: words l
  | _ => []

/-- FIPS 180-4, section 6.2.2, step 1: the message schedule from the last sixteen words, newest first. -/
def schedule : ℕ → List UInt32 → List UInt32
  | 0, w => w.reverse
  | k + 1, w => schedule k ((sigma1 (w.getD 1 0) + w.getD 6 0 + sigma0 (w.getD 14 0) + w.getD 15 0) :: w)

/-- FIPS 180-4, section 6.2.2, step 3. -/
def round (v : Hash) (kw : UInt32 × UInt32) : Hash :=
  let T1 := v.h + Sigma1 v.e + Ch v.e v.f v.g + kw.1 + kw.2
  let T2 := Sigma0 v.a + Maj v.a v.b v.c
  ⟨T1 + T2, v.a, v.b, v.c, v.d + T1, v.e, v.f, v.g⟩

/-- FIPS 180-4, section 6.2.2: one block. -/
def compress (v : Hash) (block : List UInt8) : Hash :=
  let r := (K.zip (schedule 48 (words block).reverse)).foldl round v
  ⟨v.a + r.a, v.b + r.b, v.c + r.c, v.d + r.d, v.e + r.e, v.f + r.f, v.g + r.g, v.h + r.h⟩

/-- The blocks in turn. -/
def blocks : ℕ → Hash → List UInt8 → Hash
  | 0, v, _ => v
  | k + 1, v, m => blocks k (compress v (m.take 64)) (m.drop 64)

/-- The bytes of the hash value. -/
def Hash.bytes (v : Hash) : Vector UInt8 32 :=
  let w (x : UInt32) (i : ℕ) : UInt8 := UInt8.ofNat (x.toNat / 256 ^ (3 - i))
  #v[w v.a 0, w v.a 1, w v.a 2, w v.a 3, w v.b 0, w v.b 1, w v.b 2, w v.b 3,
     w v.c 0, w v.c 1, w v.c 2, w v.c 3, w v.d 0, w v.d 1, w v.d 2, w v.d 3,
     w v.e 0, w v.e 1, w v.e 2, w v.e 3, w v.f 0, w v.f 1, w v.f 2, w v.f 3,
     w v.g 0, w v.g 1, w v.g 2, w v.g 3, w v.h 0, w v.h 1, w v.h 2, w v.h 3]

end Sha256

/-- SHA-256 of a byte string. -/
def sha256 (m : List UInt8) : Vector UInt8 32 :=
  (Sha256.blocks ((Sha256.pad m).length / 64) Sha256.H0 (Sha256.pad m)).bytes

/-- FIPS 198-1: HMAC with SHA-256. -/
def hmacSha256 (key m : List UInt8) : Vector UInt8 32 :=
  let k := if key.length > 64 then (sha256 key).toList else key
  let k := k ++ List.replicate (64 - k.length) 0
  sha256 (k.map (· ^^^ 0x5c) ++ (sha256 (k.map (· ^^^ 0x36) ++ m)).toList)

/-- SHA-256 as a digest that is fed in pieces. -/
def sha256Digest : Digest where
  State := List UInt8
  init := []
  update s b := s ++ b
  finalize s := (sha256 s).toList
  update_append := fun s a b => List.append_assoc s a b

end Verif.Spec
