import Mathlib.Tactic.Ring

/-! # Specification: signed-digit expansions -/

namespace Verif.Spec

/-- `d₀ + d₁ · base + d₂ · base² + …`. -/
def digitSum (base : ℤ) : List ℤ → ℤ
  | [] => 0
  | d :: ds => d + base * digitSum base ds

end Verif.Spec
