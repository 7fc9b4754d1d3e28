import Verif.Spec.Group

/-!
# Specification: ECDSA over secp256k1 (SEC 1, sections 4.1.3, 4.1.4, 4.1.6) and SEC 1 point encodings

Scalars are integers modulo the group order `n`; `z.val • P` is the multiple of the point `P` by
the representative of `z` in `[0, n)`.
-/

namespace Verif.Spec

/-- `(r, s)` is a valid signature of the message representative `m` under the public key `Q`. -/
def EcdsaValid (m r s : ZMod n) (Q : Pt) : Prop :=
  r ≠ 0 ∧ s ≠ 0 ∧ ∃ x y : Fp, IsPt ((m / s).val • G + (r / s).val • Q) x y ∧ ((x.val : ℕ) : ZMod n) = r

/-- The comparison that verification makes for a component `r` of any 256-bit value: the x coordinate
of `P` is the residue of `r` modulo `p`, or it is `r + n`. For `r < n` this says that it is `r` modulo `n`. -/
def XMatches (P : Pt) (r : ℕ) : Prop :=
  ∃ x y : Fp, IsPt P x y ∧ (x.val = r % p ∨ x.val = r + n)

/-- `(r, s)` is the signature of `m` under the secret key `d` made with the nonce `k`, and `id`
its recovery id: bit 0 is the parity of `y` and bit 1 tells `x ≥ n`, where `(x, y) = k • G`.
`s` is determined up to sign; negating it flips bit 0 of the id. -/
def IsSignature (d m k : ZMod n) (r s id : ℕ) : Prop :=
  ∃ x y : Fp, IsPt (k.val • G) x y ∧ r = x.val % n ∧ (m + r * d) / k ≠ 0 ∧
    ((s = ((m + r * d) / k).val ∧ id = 2 * (x.val / n) + y.val % 2) ∨
     (s = (-((m + r * d) / k)).val ∧ id = 2 * (x.val / n) + (y.val + 1) % 2))

/-- The signature of `m` under `d` that the library computes from the nonce `k`, where
`(x, y) = k • G`: `s₀ = (m + r d) / k` is negated if it is at least `(n-1)/2`. -/
def NonceSignature (d m k : ZMod n) (x y : Fp) (r s id : ℕ) : Prop :=
  r = x.val % n ∧
    let s₀ := (m + r * d) / k
    if s₀.val < (n - 1) / 2 then s = s₀.val ∧ id = 2 * (x.val / n) + y.val % 2
    else s = n - s₀.val ∧ id = 2 * (x.val / n) + (y.val + 1) % 2

/-- The nonce `k` gives a nonzero `s`. -/
def UsableNonce (d m : ZMod n) (k : ℕ) : Prop :=
  ∃ x y : Fp, IsPt (k • G) x y ∧ m + (x.val : ZMod n) * d ≠ 0

/-- The x coordinate of `k • G` is below the group order. -/
def NoOverflow (k : ℕ) : Prop := ∀ x y : Fp, IsPt (k • G) x y → x.val < n

/-- `R` is the point that the recovery id `id` selects for the signature component `r`. -/
def IsRecoveryPoint (r id : ℕ) (R : Pt) : Prop :=
  ∃ x y : Fp, IsPt R x y ∧ x.val = r + n * (id / 2) ∧ y.val % 2 = id % 2

/-- The public key recovered from the point `R`. -/
def recoveredKey (m r s : ZMod n) (R : Pt) : Pt := (s / r).val • R - (m / r).val • G

/-- SEC 1 uncompressed encoding of the finite point `(x, y)`. -/
def sec1Full (x y : Fp) : List UInt8 := 4 :: (beBytes 32 x.val ++ beBytes 32 y.val)

/-- SEC 1 compressed encoding of the finite point `(x, y)`. -/
def sec1Compressed (x y : Fp) : List UInt8 := (if y.val % 2 = 1 then 3 else 2) :: beBytes 32 x.val

/-- The 65 bytes encode the point `(x, y)`: tag 4, or a hybrid tag 6/7 that agrees with the parity
of `y`, then the two coordinates. -/
def Encodes65 (b : List UInt8) (x y : Fp) : Prop :=
  ∃ tag : UInt8, b = tag :: (beBytes 32 x.val ++ beBytes 32 y.val) ∧
    (tag = 4 ∨ (tag = 6 ∧ y.val % 2 = 0) ∨ (tag = 7 ∧ y.val % 2 = 1))

end Verif.Spec
