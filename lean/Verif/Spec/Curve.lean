import Mathlib.AlgebraicGeometry.EllipticCurve.Affine.Point

/-!
# Specification: the curve `y² = x³ + 7`

The group is Mathlib's group of points of a Weierstrass curve, nothing of the model is used.
-/

namespace Verif.Spec

open WeierstrassCurve

/-- `y² = x³ + 7` over a field. -/
def curve (K : Type*) [Field K] : WeierstrassCurve.Affine K :=
  { a₁ := 0, a₂ := 0, a₃ := 0, a₄ := 0, a₆ := 7 }

/-- `P` is the finite point with coordinates `x`, `y`. -/
def IsPt {K : Type*} [Field K] (P : (curve K).Point) (x y : K) : Prop :=
  ∃ h : (curve K).Nonsingular x y, P = Affine.Point.some x y h

end Verif.Spec
