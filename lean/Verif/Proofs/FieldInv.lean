import Verif.Proofs.FieldBytes
import Verif.Proofs.Order
import Verif.Proofs.ScalarInv

/-! Inversion and square roots, now that the moduli are known to be prime. -/

namespace Verif
open Spec

theorem pow_p_sub_two (x : Fp) : x ^ (p - 2) = x⁻¹ := by
  by_cases hx : x = 0
  · subst hx; rw [inv_zero, zero_pow]; decide +kernel
  · have h := ZMod.pow_card_sub_one_eq_one hx
    have e : p - 1 = (p - 2) + 1 := by decide +kernel
    rw [e, pow_succ] at h
    exact eq_inv_of_mul_eq_one_left h

theorem sqrt_iff (x : Fp) : (x ^ ((p + 1) / 4)) ^ 2 = x ↔ IsSquare x := by
  constructor
  · intro h; exact ⟨x ^ ((p + 1) / 4), by rw [← pow_two, h]⟩
  · intro h
    by_cases hx : x = 0
    · subst hx; rw [zero_pow (by decide +kernel), zero_pow (by norm_num)]
    · have h1 := (ZMod.euler_criterion p hx).1 h
      rw [← pow_mul]
      have e : (p + 1) / 4 * 2 = p / 2 + 1 := by decide +kernel
      rw [e, pow_succ, h1, one_mul]

namespace FElem

theorem fe_inv {f : FElem} {m : ℕ} {x : Fp} (h : Fe f m x) (hm : m ≤ 8) :
    Runs (inv f) (fun r => Fe r 1 x⁻¹) := by
  rw [← pow_p_sub_two]; exact inv_pow h hm

theorem fe_sqrt {f : FElem} {m : ℕ} {x : Fp} (h : Fe f m x) (hm : m ≤ 8) :
    Runs (sqrt f) (fun r => ∃ y, Fe r.1 1 y ∧ (r.2 = true ↔ IsSquare x) ∧ (IsSquare x → y ^ 2 = x)) := by
  refine (sqrt_pow h hm).mono fun r hr => ⟨_, hr.1, ?_, fun hs => (sqrt_iff x).2 hs⟩
  rw [hr.2, decide_eq_true_eq, sqrt_iff]

theorem fe_isQuadVar {f : FElem} {m : ℕ} {x : Fp} (h : Fe f m x) (hm : m ≤ 8) :
    Runs (isQuadVar f) (fun r => r = true ↔ IsSquare x) := by
  unfold isQuadVar
  refine Runs.bind (fe_sqrt h hm) fun r hr => ?_
  obtain ⟨y, _, h2, _⟩ := hr
  exact runs_pure h2

end FElem

namespace Scalar

/-- `a.val` as a residue. -/
theorem inv_val {a : Scalar} : Runs (inv a) (fun r => r.val < n ∧ (r.val : ZMod n) = (a.val : ZMod n)⁻¹) := by
  refine (inv_runs a).mono fun r hr => ⟨by rw [hr]; exact Nat.mod_lt _ (by decide +kernel), ?_⟩
  rw [hr, ZMod.natCast_mod]
  push_cast
  generalize (a.val : ZMod n) = x
  by_cases hx : x = 0
  · subst hx; rw [inv_zero, zero_pow]; decide +kernel
  · have h := ZMod.pow_card_sub_one_eq_one hx
    have e : n - 1 = (n - 2) + 1 := by decide +kernel
    rw [e, pow_succ] at h
    exact eq_inv_of_mul_eq_one_left h

end Scalar

end Verif
