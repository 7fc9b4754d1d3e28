import Verif.Proofs.Curve

/-!
# Specification: the secp256k1 group

Points of `y² = x³ + 7` over `ZMod p` and the standard base point (SEC 2, section 2.4.1).
The import supplies the primality of `p`, needed for `ZMod p` to be a field.
-/

namespace Verif.Spec

open WeierstrassCurve

/-- The group: finite points of the curve and the point at infinity `0`. -/
abbrev Pt : Type := (curve Fp).Point

/-- Coordinates of the base point. -/
def Gx : ℕ := 0x79BE667EF9DCBBAC55A06295CE870B07029BFCDB2DCE28D959F2815B16F81798
def Gy : ℕ := 0x483ADA7726A3C4655DA4FBFC0E1108A8FD17B448A68554199C47D08FFB10D4B8

theorem G_on_curve : (curve Fp).Nonsingular (Gx : Fp) (Gy : Fp) := by
  have hp : ((p : ℕ) : Fp) = 0 := ZMod.natCast_self p
  obtain ⟨_, h, _⟩ := Chain.exists_base (K := Fp) hp
  exact h.choose

/-- The base point. -/
def G : Pt := Affine.Point.some (Gx : Fp) (Gy : Fp) G_on_curve

end Verif.Spec
