import Verif.Spec.Numbers

/-!
# Specification: DER (X.690) encodings of a sequence of two integers

`beNat` is the big-endian value of a list of bytes.
-/

namespace Verif.Spec

/-- The bytes `L` are the DER encoding of the length `v`: one byte below 128, or a byte `128 + k`
followed by the `k` bytes of `v ≥ 128` without leading zeros (X.690, 8.1.3 and 10.1). -/
def DerLen (L : List UInt8) (v : ℕ) : Prop :=
  (∃ b : UInt8, b.toNat < 128 ∧ L = [b] ∧ v = b.toNat) ∨
  (∃ (b : UInt8) (c : List UInt8), b.toNat = 128 + c.length ∧ c.length < 127 ∧ L = b :: c ∧ v = beNat c ∧ 128 ≤ v ∧
    256 ^ (c.length - 1) ≤ v)

/-- The bytes `b` are the tag, the length and the contents `c`. -/
def DerTlv (tag : UInt8) (c b : List UInt8) : Prop := ∃ L, DerLen L c.length ∧ b = tag :: (L ++ c)

/-- The bytes `c` are the contents of the DER INTEGER `v ≥ 0`: big-endian two's complement, without
a superfluous leading byte (X.690, 8.3). -/
def DerNat (c : List UInt8) (v : ℕ) : Prop :=
  c ≠ [] ∧ beNat c = v ∧ v < 128 * 256 ^ (c.length - 1) ∧ (c.length ≠ 1 → 128 * 256 ^ (c.length - 2) ≤ v)

/-- The bytes `b` are the DER INTEGER `v ≥ 0`. -/
def DerInteger (v : ℕ) (b : List UInt8) : Prop := ∃ c, DerNat c v ∧ DerTlv 0x02 c b

/-- The bytes `b` are the DER SEQUENCE of the two INTEGERs `r` and `s`. -/
def DerSignature (r s : ℕ) (b : List UInt8) : Prop :=
  ∃ i j, DerInteger r i ∧ DerInteger s j ∧ DerTlv 0x30 (i ++ j) b

/-- The integer `v` as a component of a signature: zero if it is not below the group order. -/
def component (v : ℕ) : ℕ := if v < n then v else 0

/-- A BER length of any form: one byte below 128, or `128 + k` followed by `k` bytes. -/
def BerLen (L : List UInt8) (v : ℕ) : Prop :=
  (∃ b : UInt8, b.toNat < 128 ∧ L = [b] ∧ v = b.toNat) ∨
  (∃ (b : UInt8) (c : List UInt8), b.toNat = 128 + c.length ∧ L = b :: c ∧ v = beNat c)

/-- A lax sequence header: tag and a length whose value is ignored. -/
def LaxHeader (h : List UInt8) : Prop := ∃ L v, BerLen L v ∧ h = 0x30 :: L

/-- A lax integer at the front of `l`: tag, any BER length, contents `c` of fewer than `M` bytes, read
as an unsigned integer. A value of more than 256 bits counts as zero, and reading goes on at its first nonzero byte, inside
the contents. The value zero is refused at the end of the input. -/
def LaxRead (M : ℕ) (l : List UInt8) (v : ℕ) (rest : List UInt8) : Prop :=
  ∃ L c t, l = 0x02 :: (L ++ (c ++ t)) ∧ BerLen L c.length ∧ c.length < M ∧
    ((beNat c < 2 ^ 256 ∧ v = component (beNat c) ∧ rest = t ∧ (beNat c = 0 → t ≠ [])) ∨
     (2 ^ 256 ≤ beNat c ∧ v = 0 ∧ rest = c.dropWhile (· == 0) ++ t))

/-- A strict integer at the front of `l`: tag, DER length, contents `c`. A value below `2 ^ 256` is read; the value zero is refused at the
end of the input. A larger value counts as zero, and reading goes on at its first nonzero byte. A negative value counts as zero, and reading
goes on at its first byte; a leading `ff` is refused before a byte below 128. -/
def StrictRead (l : List UInt8) (v : ℕ) (rest : List UInt8) : Prop :=
  ∃ L c t, l = 0x02 :: (L ++ (c ++ t)) ∧ DerLen L c.length ∧ (128 ≤ c.length → t ≠ []) ∧
    ((∃ w, DerNat c w ∧ w < 2 ^ 256 ∧ v = component w ∧ rest = t ∧ (w = 0 → t ≠ [])) ∨
     (∃ w, DerNat c w ∧ 2 ^ 256 ≤ w ∧ v = 0 ∧ rest = c.dropWhile (· == 0) ++ t) ∨
     (∃ b d, c = b :: d ∧ 128 ≤ b.toNat ∧ (b = 0xff → ∀ b' ∈ d.head?, 128 ≤ b'.toNat) ∧ v = 0 ∧ rest = c ++ t))

/-- The DER length `2 ^ W - 1` at the front of `l`, and `2 ^ (W - 8)` bytes or more after it. -/
def HugeLen (W : ℕ) (l : List UInt8) : Prop := ∃ L t, l = L ++ t ∧ DerLen L (2 ^ W - 1) ∧ 2 ^ (W - 8) ≤ t.length

end Verif.Spec
