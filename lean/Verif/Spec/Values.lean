import Verif.Model.Field
import Verif.Spec.Numbers

/-!
# Specification: the integers denoted by limbs, and the invariant of field elements
-/

namespace Verif

/-- The 256-bit integer denoted by the limbs. -/
def Scalar.val (a : Scalar) : ℕ :=
  a.d0.toNat + a.d1.toNat * 2 ^ 32 + a.d2.toNat * 2 ^ 64 + a.d3.toNat * 2 ^ 96 +
    a.d4.toNat * 2 ^ 128 + a.d5.toNat * 2 ^ 160 + a.d6.toNat * 2 ^ 192 + a.d7.toNat * 2 ^ 224

/-- The integer stored in the eight words. -/
def FieldStorage.val (a : FieldStorage) : ℕ :=
  a.w0.toNat + a.w1.toNat * 2 ^ 32 + a.w2.toNat * 2 ^ 64 + a.w3.toNat * 2 ^ 96 + a.w4.toNat * 2 ^ 128 + a.w5.toNat * 2 ^ 160 + a.w6.toNat * 2 ^ 192 + a.w7.toNat * 2 ^ 224

/-- The integer denoted by ten limbs. -/
def Limbs10.val (t : Limbs10) : ℕ :=
  t.n0.toNat + t.n1.toNat * 2 ^ 26 + t.n2.toNat * 2 ^ 52 + t.n3.toNat * 2 ^ 78 + t.n4.toNat * 2 ^ 104 + t.n5.toNat * 2 ^ 130 + t.n6.toNat * 2 ^ 156 + t.n7.toNat * 2 ^ 182 + t.n8.toNat * 2 ^ 208 + t.n9.toNat * 2 ^ 234

/-- Limb bounds. -/
structure Limbs10.LB (t : Limbs10) (A B : ℕ) : Prop where
  h0 : t.n0.toNat ≤ A
  h1 : t.n1.toNat ≤ A
  h2 : t.n2.toNat ≤ A
  h3 : t.n3.toNat ≤ A
  h4 : t.n4.toNat ≤ A
  h5 : t.n5.toNat ≤ A
  h6 : t.n6.toNat ≤ A
  h7 : t.n7.toNat ≤ A
  h8 : t.n8.toNat ≤ A
  h9 : t.n9.toNat ≤ B

namespace FElem
open Spec

/-- The integer denoted by a field element. -/
def val (f : FElem) : ℕ := f.n.val

/-- The representation invariant (what `verify` checks). -/
structure WF (f : FElem) : Prop where
  lb : f.n.LB (134217726 * f.magnitude.toNat) (8388606 * f.magnitude.toNat)
  mag : f.magnitude.toNat ≤ 32
  norm : f.normalized = true →
    f.magnitude.toNat ≤ 1 ∧ f.n.LB (67108863 * f.magnitude.toNat) (4194303 * f.magnitude.toNat) ∧ f.val < p

end FElem

end Verif
