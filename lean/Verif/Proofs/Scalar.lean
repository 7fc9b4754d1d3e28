import Verif.Model.Scalar
import Verif.Proofs.Machine
import Verif.Spec.Values

/-! Value-level correctness of the basic scalar operations. -/

namespace Verif.Scalar
open Verif Spec

theorem val_lt (a : Scalar) : a.val < 2 ^ 256 := by
  have h0 := u32_le a.d0; have h1 := u32_le a.d1; have h2 := u32_le a.d2; have h3 := u32_le a.d3
  have h4 := u32_le a.d4; have h5 := u32_le a.d5; have h6 := u32_le a.d6; have h7 := u32_le a.d7
  unfold val; omega

theorem val_inj {a b : Scalar} (h : a.val = b.val) : a = b := by
  cases a; cases b
  rename_i a0 a1 a2 a3 a4 a5 a6 a7 b0 b1 b2 b3 b4 b5 b6 b7
  simp only [val] at h
  have h0 := u32_le a0; have h1 := u32_le a1; have h2 := u32_le a2; have h3 := u32_le a3
  have h4 := u32_le a4; have h5 := u32_le a5; have h6 := u32_le a6; have h7 := u32_le a7
  have g0 := u32_le b0; have g1 := u32_le b1; have g2 := u32_le b2; have g3 := u32_le b3
  have g4 := u32_le b4; have g5 := u32_le b5; have g6 := u32_le b6; have g7 := u32_le b7
  have e0 : a0.toNat = b0.toNat := by omega
  have e1 : a1.toNat = b1.toNat := by omega
  have e2 : a2.toNat = b2.toNat := by omega
  have e3 : a3.toNat = b3.toNat := by omega
  have e4 : a4.toNat = b4.toNat := by omega
  have e5 : a5.toNat = b5.toNat := by omega
  have e6 : a6.toNat = b6.toNat := by omega
  have e7 : a7.toNat = b7.toNat := by omega
  simp only [UInt32.toNat_inj] at e0 e1 e2 e3 e4 e5 e6 e7
  subst_vars; rfl

/-- One comparison step of `check_overflow` / `is_high`: `yes`/`no` record whether the high
part is already known to be above / below the constant. -/
theorem cmpStep {yes no : Bool} {H K : ℕ} {d m : UInt32}
    (hy : yes = true ↔ K < H) (hn : no = true ↔ H < K) :
    let no' := no || (decide (d < m) && !yes)
    let yes' := yes || (decide (d > m) && !no')
    (yes' = true ↔ K * 2 ^ 32 + m.toNat < H * 2 ^ 32 + d.toNat) ∧
      (no' = true ↔ H * 2 ^ 32 + d.toNat < K * 2 ^ 32 + m.toNat) := by
  have h1 := u32_le d; have h2 := u32_le m
  rcases lt_trichotomy H K with h | h | h
  · have e1 : no = true := hn.2 h
    have e2 : yes = false := by rw [← Bool.not_eq_true, hy]; omega
    subst e1; subst e2
    simp; omega
  · have e1 : no = false := by rw [← Bool.not_eq_true, hn]; omega
    have e2 : yes = false := by rw [← Bool.not_eq_true, hy]; omega
    subst e1; subst e2; subst h
    simp [UInt32.lt_iff_toNat_lt]; omega
  · have e1 : yes = true := hy.2 h
    have e2 : no = false := by rw [← Bool.not_eq_true, hn]; omega
    subst e1; subst e2
    simp; omega

/-- The comparison step when the constant limb is maximal ("no need for a > check"). -/
theorem cmpStepMax {yes no : Bool} {H K : ℕ} {d m : UInt32} (hm : m = 0xFFFFFFFF)
    (hy : yes = true ↔ K < H) (hn : no = true ↔ H < K) :
    (yes = true ↔ K * 2 ^ 32 + m.toNat < H * 2 ^ 32 + d.toNat) ∧
      ((no || (decide (d < m) && !yes)) = true ↔ H * 2 ^ 32 + d.toNat < K * 2 ^ 32 + m.toNat) := by
  have h1 := u32_le d
  subst hm
  have hm : (0xFFFFFFFF : UInt32).toNat = 4294967295 := rfl
  rw [hm]
  rcases lt_trichotomy H K with h | h | h
  · have e1 : no = true := hn.2 h
    have e2 : yes = false := by rw [← Bool.not_eq_true, hy]; omega
    subst e1; subst e2
    simp; omega
  · have e1 : no = false := by rw [← Bool.not_eq_true, hn]; omega
    have e2 : yes = false := by rw [← Bool.not_eq_true, hy]; omega
    subst e1; subst e2; subst h
    simp [UInt32.lt_iff_toNat_lt, hm]; omega
  · have e1 : yes = true := hy.2 h
    have e2 : no = false := by rw [← Bool.not_eq_true, hn]; omega
    subst e1; subst e2
    simp; omega

/-- The final (`≥`) comparison step. -/
theorem cmpLast {yes no : Bool} {H K : ℕ} {d m : UInt32}
    (hy : yes = true ↔ K < H) (hn : no = true ↔ H < K) :
    (yes || (decide (d ≥ m) && !no)) = true ↔ K * 2 ^ 32 + m.toNat ≤ H * 2 ^ 32 + d.toNat := by
  have h1 := u32_le d; have h2 := u32_le m
  rcases lt_trichotomy H K with h | h | h
  · have e1 : no = true := hn.2 h
    have e2 : yes = false := by rw [← Bool.not_eq_true, hy]; omega
    subst e1; subst e2
    simp; omega
  · have e1 : no = false := by rw [← Bool.not_eq_true, hn]; omega
    have e2 : yes = false := by rw [← Bool.not_eq_true, hy]; omega
    subst e1; subst e2; subst h
    simp [UInt32.le_iff_toNat_le]
  · have e1 : yes = true := hy.2 h
    have e2 : no = false := by rw [← Bool.not_eq_true, hn]; omega
    subst e1; subst e2
    simp; omega

theorem checkOverflow_iff (a : Scalar) : a.checkOverflow = true ↔ n ≤ a.val := by
  have z : (false = true ↔ (0:ℕ) < 0) := by simp
  obtain ⟨y7, n7⟩ := cmpStepMax (d := a.d7) (m := N7) rfl z z
  simp only [Bool.not_false, Bool.and_true] at n7
  obtain ⟨y6, n6⟩ := cmpStepMax (d := a.d6) (m := N6) rfl y7 n7
  simp only [Bool.not_false, Bool.and_true] at n6
  obtain ⟨y5, n5⟩ := cmpStepMax (d := a.d5) (m := N5) rfl y6 n6
  simp only [Bool.not_false, Bool.and_true] at n5
  obtain ⟨y4, n4⟩ := cmpStep (d := a.d4) (m := N4) y5 n5
  simp only [Bool.not_false, Bool.and_true] at y4 n4
  obtain ⟨y3, n3⟩ := cmpStep (d := a.d3) (m := N3) y4 n4
  obtain ⟨y2, n2⟩ := cmpStep (d := a.d2) (m := N2) y3 n3
  obtain ⟨y1, n1⟩ := cmpStep (d := a.d1) (m := N1) y2 n2
  have h := cmpLast (d := a.d0) (m := N0) y1 n1
  have e : a.checkOverflow = true ↔ _ := h
  rw [e]
  simp only [show N0.toNat = 0xD0364141 from rfl, show N1.toNat = 0xBFD25E8C from rfl,
    show N2.toNat = 0xAF48A03B from rfl, show N3.toNat = 0xBAAEDCE6 from rfl,
    show N4.toNat = 0xFFFFFFFE from rfl, show N5.toNat = 0xFFFFFFFF from rfl,
    show N6.toNat = 0xFFFFFFFF from rfl, show N7.toNat = 0xFFFFFFFF from rfl]
  unfold val n
  omega

/-- `is_high` as written: true iff the value is at least `(n-1)/2`. -/
theorem isHigh_iff (a : Scalar) : a.isHigh = true ↔ (n - 1) / 2 ≤ a.val := by
  have z : (false = true ↔ (0:ℕ) < 0) := by simp
  obtain ⟨y7, n7⟩ := cmpStep (d := a.d7) (m := nH7) z z
  simp only [Bool.not_false, Bool.and_true] at y7 n7
  obtain ⟨y6, n6⟩ := cmpStepMax (d := a.d6) (m := nH6) rfl y7 n7
  obtain ⟨y5, n5⟩ := cmpStepMax (d := a.d5) (m := nH5) rfl y6 n6
  obtain ⟨y4, n4⟩ := cmpStepMax (d := a.d4) (m := nH4) rfl y5 n5
  obtain ⟨y3, n3⟩ := cmpStep (d := a.d3) (m := nH3) y4 n4
  obtain ⟨y2, n2⟩ := cmpStep (d := a.d2) (m := nH2) y3 n3
  obtain ⟨y1, n1⟩ := cmpStep (d := a.d1) (m := nH1) y2 n2
  have h := cmpLast (d := a.d0) (m := nH0) y1 n1
  have e : a.isHigh = true ↔ _ := h
  rw [e]
  simp only [show nH0.toNat = 0x681B20A0 from rfl, show nH1.toNat = 0xDFE92F46 from rfl,
    show nH2.toNat = 0x57A4501D from rfl, show nH3.toNat = 0x5D576E73 from rfl,
    show nH4.toNat = 0xFFFFFFFF from rfl, show nH5.toNat = 0xFFFFFFFF from rfl,
    show nH6.toNat = 0xFFFFFFFF from rfl, show nH7.toNat = 0x7FFFFFFF from rfl]
  unfold val n
  omega

theorem carryStep_runs {t x : UInt64} {T X : ℕ} (C : ℕ) (ht : t.toNat ≤ T) (hx : x.toNat ≤ X)
    (hC : T + X ≤ C) (h : C < 2 ^ 64) :
    Runs (carryStep t x) (fun r => r.1.toNat + 2 ^ 32 * r.2.toNat = t.toNat + x.toNat ∧
      r.2.toNat ≤ C / 2 ^ 32) := by
  unfold carryStep
  refine Runs.bind (add64_runs C ht hx hC h) fun r hr => runs_pure ?_
  simp only [u64_and_mask32, u64_shr32]
  omega

theorem addMul_runs {x c : UInt32} {o : UInt64} {O X : ℕ} (C : ℕ) (hx : x.toNat ≤ X)
    (ho : o.toNat ≤ O) (hC : X + O * c.toNat ≤ C)
    (h : C < 2 ^ 64) :
    Runs (addMul x o c) (fun r => r.toNat = x.toNat + o.toNat * c.toNat ∧ r.toNat ≤ C) := by
  unfold addMul
  refine Runs.bind (mul64_runs (O * c.toNat) ho (u32_u64 c).le le_rfl (by omega)) fun m hm => ?_
  refine (add64_runs C (by rw [u32_u64]; exact hx) hm.2 hC h).mono fun r hr => ?_
  refine ⟨?_, hr.2⟩
  rw [hr.1, hm.1, u32_u64, u32_u64]

theorem reduce_runs (a : Scalar) (o : Bool) :
    Runs (reduce a o) (fun r => r.val = (a.val + if o then 2 ^ 256 - n else 0) % 2 ^ 256) := by
  unfold reduce
  have ho : (if o then (1 : UInt64) else 0).toNat ≤ 1 := by cases o <;> decide
  have ho' : (if o then (1 : UInt64) else 0).toNat = if o then 1 else 0 := by cases o <;> rfl
  generalize (if o then (1 : UInt64) else 0) = w at ho ho'
  refine Runs.bind (addMul_runs 0xFFFFFFFFF (u32_le _) ho (by decide) (by norm_num)) fun x0 hx0 => ?_
  refine Runs.bind (carryStep_runs 0xFFFFFFFFF (t := 0) (T := 0) (by simp) hx0.2 (by norm_num) (by norm_num)) fun ⟨d0, t0⟩ ht0 => ?_
  refine Runs.bind (addMul_runs 0xFFFFFFFFF (u32_le _) ho (by decide) (by norm_num)) fun x1 hx1 => ?_
  refine Runs.bind (carryStep_runs 0xFFFFFFFFFF ht0.2 hx1.2 (by norm_num) (by norm_num)) fun ⟨d1, t1⟩ ht1 => ?_
  refine Runs.bind (addMul_runs 0xFFFFFFFFF (u32_le _) ho (by decide) (by norm_num)) fun x2 hx2 => ?_
  refine Runs.bind (carryStep_runs 0xFFFFFFFFFF ht1.2 hx2.2 (by norm_num) (by norm_num)) fun ⟨d2, t2⟩ ht2 => ?_
  refine Runs.bind (addMul_runs 0xFFFFFFFFF (u32_le _) ho (by decide) (by norm_num)) fun x3 hx3 => ?_
  refine Runs.bind (carryStep_runs 0xFFFFFFFFFF ht2.2 hx3.2 (by norm_num) (by norm_num)) fun ⟨d3, t3⟩ ht3 => ?_
  refine Runs.bind (addMul_runs 0xFFFFFFFFF (u32_le _) ho (by decide) (by norm_num)) fun x4 hx4 => ?_
  refine Runs.bind (carryStep_runs 0xFFFFFFFFFF ht3.2 hx4.2 (by norm_num) (by norm_num)) fun ⟨d4, t4⟩ ht4 => ?_
  refine Runs.bind (carryStep_runs 0xFFFFFFFFFF ht4.2 (u32_u64_le _) (by norm_num) (by norm_num)) fun ⟨d5, t5⟩ ht5 => ?_
  refine Runs.bind (carryStep_runs 0xFFFFFFFFFF ht5.2 (u32_u64_le _) (by norm_num) (by norm_num)) fun ⟨d6, t6⟩ ht6 => ?_
  refine Runs.bind (carryStep_runs 0xFFFFFFFFFF ht6.2 (u32_u64_le _) (by norm_num) (by norm_num)) fun ⟨d7, t7⟩ ht7 => ?_
  refine runs_pure ?_
  simp only [u32_u64, UInt64.toNat_zero] at *
  have := val_lt ⟨d0, d1, d2, d3, d4, d5, d6, d7⟩
  simp only [show nC0.toNat = 0x2FC9BEBF from rfl, show nC1.toNat = 0x402DA173 from rfl,
    show nC2.toNat = 0x50B75FC4 from rfl, show nC3.toNat = 0x45512319 from rfl,
    show nC4.toNat = 1 from rfl] at *
  have hw : w.toNat = 0 ∨ w.toNat = 1 := by omega
  unfold val n at *
  cases o <;> simp only [if_true, if_false, Bool.false_eq_true] at ho' ⊢ <;> simp only [ho'] at * <;> omega

end Verif.Scalar
