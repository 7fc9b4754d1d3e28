import Verif.Model.Lib
import Verif.Spec.Points
import Verif.Spec.Ecdsa

/-!
# Specification: what the values of the public API denote
-/

namespace Verif.Spec

/-- The integer denoted by the limbs of a secret key. -/
def secretInt (k : SecretKey) : ℕ := k.sc.val

/-- A secret key in the range `1 … n-1`. -/
def ValidSecret (k : SecretKey) : Prop := 0 < k.sc.val ∧ k.sc.val < n

/-- A signature whose components are below the group order. -/
def Canonical (sig : Signature) : Prop := sig.r.val < n ∧ sig.s.val < n

/-- The public key stands for the finite curve point `P`, its coordinates being well-formed field
elements of magnitude at most 8. -/
def IsKey (k : PublicKey) (P : Pt) : Prop := DenotesA k.pt P ∧ P ≠ 0

/-- The public key stands for some finite curve point. -/
def ValidKey (k : PublicKey) : Prop := ∃ P, IsKey k P

/-- The 32 bytes encode an integer in `1 … n-1`. -/
def InRange (b : Vector UInt8 32) : Prop := 0 < beNat b.toList ∧ beNat b.toList < n

/-- The state of a generator after `i` draws. -/
def stateAt {σ : Type} (draw : σ → Vector UInt8 32 × σ) (s : σ) : ℕ → σ
  | 0 => s
  | i + 1 => stateAt draw (draw s).2 i

/-- Draw number `i` (from 0) of a generator. -/
def blockAt {σ : Type} (draw : σ → Vector UInt8 32 × σ) (s : σ) (i : ℕ) : Vector UInt8 32 :=
  (draw (stateAt draw s i)).1

/-- The lowercase hex digits of a byte string, high nibble first. -/
def hexOf (l : List UInt8) : List Char :=
  l.flatMap fun b => ["0123456789abcdef".toList[b.toNat / 16]!, "0123456789abcdef".toList[b.toNat % 16]!]

/-- The lengths and format hints accepted by `parse_slice`. -/
def Admissible (len : ℕ) (format : Option PublicKeyFormat) : Prop :=
  (len = 65 ∧ (format = none ∨ format = some .full)) ∨
  (len = 33 ∧ (format = none ∨ format = some .compressed)) ∨
  (len = 64 ∧ (format = none ∨ format = some .raw))

end Verif.Spec
