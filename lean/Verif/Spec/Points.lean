import Verif.Model.Group
import Verif.Spec.Group
import Verif.Spec.Values

/-!
# Specification: what a point representation denotes

`FElem.WF` is the invariant checked by `Field::verify`.  Coordinates must have magnitude at most
8, the bound required by field multiplication.
-/

namespace Verif.Spec

/-- A well-formed coordinate. -/
def Coord (f : FElem) : Prop := FElem.WF f ∧ f.magnitude.toNat ≤ 8

/-- The affine pair denotes the point `P`. -/
def DenotesA (a : Affine) (P : Pt) : Prop :=
  Coord a.x ∧ Coord a.y ∧
    ((a.infinity = true ∧ P = 0) ∨ (a.infinity = false ∧ IsPt P (a.x.val : Fp) (a.y.val : Fp)))

/-- The Jacobian triple `(X : Y : Z)` denotes the point `(X / Z², Y / Z³)`; `s` is an extra factor
of `Z` (1 for a plain Jacobian point). -/
def DenotesScaled (j : Jacobian) (s : Fp) (P : Pt) : Prop :=
  Coord j.x ∧ Coord j.y ∧ Coord j.z ∧
    ((j.infinity = true ∧ P = 0) ∨
      (j.infinity = false ∧ (j.z.val : Fp) * s ≠ 0 ∧
        IsPt P ((j.x.val : Fp) / ((j.z.val : Fp) * s) ^ 2) ((j.y.val : Fp) / ((j.z.val : Fp) * s) ^ 3)))

/-- The Jacobian triple denotes the point `P`. -/
def DenotesJ (j : Jacobian) (P : Pt) : Prop := DenotesScaled j 1 P

end Verif.Spec
