import Verif.Proofs.ScalarBytes

/-! The `define_ops!` accumulator macros. -/

namespace Verif.Scalar
open Verif Spec

/-- Integer denoted by the accumulator words. -/
def Acc.val (c : Acc) : ℕ := c.c0.toNat + c.c1.toNat * 2 ^ 32 + c.c2.toNat * 2 ^ 64

theorem b2w_toNat (b : Bool) : (b2w b).toNat = if b then 1 else 0 := by cases b <;> rfl

theorem wadd_carry (x y : UInt32) :
    (x + y).toNat + 2 ^ 32 * (b2w (decide (x + y < y))).toNat = x.toNat + y.toNat := by
  have := u32_le x; have := u32_le y
  rw [b2w_toNat]
  simp only [decide_eq_true_eq, UInt32.lt_iff_toNat_lt, UInt32.toNat_add]
  split <;> omega

theorem b2w_le (b : Bool) : (b2w b).toNat ≤ 1 := by cases b <;> decide

theorem b2w_zero_of {b : Bool} (h : (b2w b).toNat = 0) : b = false := by cases b; rfl; cases h
theorem b2w_one_of {b : Bool} (h : (b2w b).toNat = 1) : b = true := by cases b; cases h; rfl

theorem mulw_hi (a b : UInt32) : ((a.toUInt64 * b.toUInt64) >>> 32).toUInt32.toNat =
    a.toNat * b.toNat / 2 ^ 32 := by
  rw [UInt64.toNat_toUInt32, u64_shr32, mulw_toNat, Nat.mod_eq_of_lt]
  have h : a.toNat * b.toNat ≤ 4294967295 * 4294967295 := Nat.mul_le_mul (u32_le a) (u32_le b)
  omega

theorem mulw_lo (a b : UInt32) : (a.toUInt64 * b.toUInt64).toUInt32.toNat =
    a.toNat * b.toNat % 2 ^ 32 := by
  rw [UInt64.toNat_toUInt32, mulw_toNat]

theorem not_lt_ge {x y : UInt32} : decide (x ≥ y) = !decide (x < y) := by
  simp only [GE.ge, UInt32.le_iff_toNat_le, UInt32.lt_iff_toNat_lt]
  by_cases h : x.toNat < y.toNat
  · simp [h]
  · simp [h]; omega

theorem bne_zero_of_pos {x : UInt32} (h : 0 < x.toNat) : (x != 0) = true := by
  simp only [bne_iff_ne, ne_eq, ← UInt32.toNat_inj, UInt32.toNat_zero]; omega

theorem eq_zero_beq {x : UInt32} (h : x.toNat = 0) : (x == 0) = true := by
  simp only [beq_iff_eq, ← UInt32.toNat_inj, UInt32.toNat_zero]; omega

theorem muladd_runs {c : Acc} {a b : UInt32} {V A B : ℕ} (C : ℕ) (hc : c.val ≤ V)
    (ha : a.toNat ≤ A) (hb : b.toNat ≤ B) (hC : V + A * B ≤ C) (h : C < 2 ^ 96) :
    Runs (muladd c a b) (fun r => r.val = c.val + a.toNat * b.toNat ∧ r.val ≤ C) := by
  unfold muladd
  dsimp only
  have hp : a.toNat * b.toNat ≤ 4294967295 * 4294967295 := Nat.mul_le_mul (u32_le a) (u32_le b)
  have hp2 : a.toNat * b.toNat ≤ A * B := Nat.mul_le_mul ha hb
  have e1 := mulw_hi a b; have e2 := mulw_lo a b
  generalize ((a.toUInt64 * b.toUInt64) >>> 32).toUInt32 = th at *
  generalize (a.toUInt64 * b.toUInt64).toUInt32 = tl at *
  have k0 := wadd_carry c.c0 tl
  have w0 := b2w_le (decide (c.c0 + tl < tl))
  generalize b2w (decide (c.c0 + tl < tl)) = carry at *
  have h3 : (th + carry).toNat = th.toNat + carry.toNat := by
    rw [UInt32.toNat_add]; omega
  have k1 := wadd_carry c.c1 (th + carry)
  have w1 := b2w_le (decide (c.c1 + (th + carry) < th + carry))
  have z1 := @b2w_zero_of (decide (c.c1 + (th + carry) < th + carry))
  generalize hq : b2w (decide (c.c1 + (th + carry) < th + carry)) = carry1 at *
  unfold Acc.val at *
  have h4 : (c.c2 + carry1).toNat = c.c2.toNat + carry1.toNat := by
    rw [UInt32.toNat_add]; omega
  refine runs_dassert ?_ (runs_pure ?_)
  · rw [not_lt_ge]
    rcases Nat.eq_zero_or_pos carry1.toNat with hz | hz
    · rw [z1 hz]; rfl
    · rw [bne_zero_of_pos (by omega), Bool.or_true]
  · dsimp only
    omega

theorem muladdFast_runs {c : Acc} {a b : UInt32} {V A B : ℕ} (C : ℕ) (hc : c.val ≤ V)
    (ha : a.toNat ≤ A) (hb : b.toNat ≤ B) (hC : V + A * B ≤ C) (h : C < 2 ^ 64) :
    Runs (muladdFast c a b) (fun r => r.val = c.val + a.toNat * b.toNat ∧ r.val ≤ C) := by
  unfold muladdFast
  dsimp only
  have hp : a.toNat * b.toNat ≤ 4294967295 * 4294967295 := Nat.mul_le_mul (u32_le a) (u32_le b)
  have hp2 : a.toNat * b.toNat ≤ A * B := Nat.mul_le_mul ha hb
  have e1 := mulw_hi a b; have e2 := mulw_lo a b
  generalize ((a.toUInt64 * b.toUInt64) >>> 32).toUInt32 = th at *
  generalize (a.toUInt64 * b.toUInt64).toUInt32 = tl at *
  have k0 := wadd_carry c.c0 tl
  have w0 := b2w_le (decide (c.c0 + tl < tl))
  generalize b2w (decide (c.c0 + tl < tl)) = carry at *
  have h3 : (th + carry).toNat = th.toNat + carry.toNat := by
    rw [UInt32.toNat_add]; omega
  have k1 := wadd_carry c.c1 (th + carry)
  have w1 := b2w_le (decide (c.c1 + (th + carry) < th + carry))
  have z1 := @b2w_zero_of (decide (c.c1 + (th + carry) < th + carry))
  generalize hq : b2w (decide (c.c1 + (th + carry) < th + carry)) = carry1 at *
  unfold Acc.val at *
  refine runs_dassert ?_ (runs_pure ?_)
  · rw [not_lt_ge, z1 (by omega)]; rfl
  · dsimp only
    omega

theorem sumadd_runs {c : Acc} {a : UInt32} {V A : ℕ} (C : ℕ) (hc : c.val ≤ V)
    (ha : a.toNat ≤ A) (hC : V + A ≤ C) (h : C < 2 ^ 96) :
    Runs (sumadd c a) (fun r => r.val = c.val + a.toNat ∧ r.val ≤ C) := by
  unfold sumadd
  have k0 := wadd_carry c.c0 a
  have w0 := b2w_le (decide (c.c0 + a < a))
  dsimp only
  generalize b2w (decide (c.c0 + a < a)) = carry at *
  have k1 := wadd_carry c.c1 carry
  have w1 := b2w_le (decide (c.c1 + carry < carry))
  generalize hq : b2w (decide (c.c1 + carry < carry)) = carry1 at *
  unfold Acc.val at *
  have h4 : (c.c2 + carry1).toNat = c.c2.toNat + carry1.toNat := by
    rw [UInt32.toNat_add]; omega
  refine runs_pure ?_
  dsimp only
  omega

theorem sumaddFast_runs {c : Acc} {a : UInt32} {V A : ℕ} (C : ℕ) (hc : c.val ≤ V)
    (ha : a.toNat ≤ A) (hC : V + A ≤ C) (h : C < 2 ^ 64) :
    Runs (sumaddFast c a) (fun r => r.val = c.val + a.toNat ∧ r.val ≤ C) := by
  unfold sumaddFast
  have k0 := wadd_carry c.c0 a
  have w0 := b2w_le (decide (c.c0 + a < a))
  have z0 := @b2w_zero_of (decide (c.c0 + a < a))
  dsimp only
  generalize b2w (decide (c.c0 + a < a)) = carry at *
  unfold Acc.val at *
  have h4 : (c.c1 + carry).toNat = c.c1.toNat + carry.toNat := by
    rw [UInt32.toNat_add]; omega
  refine runs_dassert ?_ (runs_dassert (eq_zero_beq (by omega)) (runs_pure ?_))
  · rw [not_lt_ge]
    rcases Nat.eq_zero_or_pos carry.toNat with hz | hz
    · rw [z0 hz]; simp
    · rw [bne_zero_of_pos (by omega), Bool.true_or]
  dsimp only
  omega

theorem muladd2_runs {c : Acc} {a b : UInt32} {V A B : ℕ} (C : ℕ) (hc : c.val ≤ V)
    (ha : a.toNat ≤ A) (hb : b.toNat ≤ B) (hC : V + 2 * (A * B) ≤ C) (h : C < 2 ^ 96) :
    Runs (muladd2 c a b) (fun r => r.val = c.val + 2 * (a.toNat * b.toNat) ∧ r.val ≤ C) := by
  unfold muladd2
  dsimp only
  have hp : a.toNat * b.toNat ≤ 4294967295 * 4294967295 := Nat.mul_le_mul (u32_le a) (u32_le b)
  have hp2 : a.toNat * b.toNat ≤ A * B := Nat.mul_le_mul ha hb
  have e1 := mulw_hi a b; have e2 := mulw_lo a b
  generalize ((a.toUInt64 * b.toUInt64) >>> 32).toUInt32 = th at *
  generalize (a.toUInt64 * b.toUInt64).toUInt32 = tl at *
  unfold Acc.val at *
  -- th2 = th + th
  have k0 := wadd_carry th th
  have w0 := b2w_le (decide (th + th < th))
  have z0 := @b2w_zero_of (decide (th + th < th))
  generalize b2w (decide (th + th < th)) = q0 at *
  have h0 : (c.c2 + q0).toNat = c.c2.toNat + q0.toNat := by rw [UInt32.toNat_add]; omega
  refine runs_dassert ?_ ?_
  · rw [not_lt_ge]
    rcases Nat.eq_zero_or_pos q0.toNat with hz | hz
    · rw [z0 hz]; rfl
    · rw [bne_zero_of_pos (by omega), Bool.or_true]
  generalize th + th = th2 at *
  generalize c.c2 + q0 = c2 at *
  -- tl2 = tl + tl
  have k1 := wadd_carry tl tl
  have w1 := b2w_le (decide (tl + tl < tl))
  generalize b2w (decide (tl + tl < tl)) = q1 at *
  generalize tl + tl = tl2 at *
  have hth2 := u32_le th2
  have h1 : (th2 + q1).toNat = th2.toNat + q1.toNat := by rw [UInt32.toNat_add]; omega
  generalize th2 + q1 = th3 at *
  -- c0 += tl2
  have k2 := wadd_carry c.c0 tl2
  have w2 := b2w_le (decide (c.c0 + tl2 < tl2))
  have z2 := @b2w_zero_of (decide (c.c0 + tl2 < tl2))
  have y2 := @b2w_one_of (decide (c.c0 + tl2 < tl2))
  generalize hd2 : decide (c.c0 + tl2 < tl2) = d2 at *
  -- th3 + carry may wrap to zero only if th3 = 2^32-1
  have h2 : (th3 + b2w d2).toNat + 2 ^ 32 * (b2w (d2 && th3 + b2w d2 == 0)).toNat
      = th3.toNat + (b2w d2).toNat := by
    rcases d2 with _ | _
    · simp [b2w]
    · have e : (b2w true) = 1 := rfl
      rw [Bool.true_and, e, b2w_toNat]
      have h3 := u32_le th3
      by_cases hm : th3.toNat = 4294967295
      · have e : (th3 + 1).toNat = 0 := by rw [UInt32.toNat_add, hm]; rfl
        rw [eq_zero_beq e, e, hm]; rfl
      · have e : (th3 + 1).toNat = th3.toNat + 1 := by
          rw [UInt32.toNat_add]; simp; omega
        have : (th3 + 1 == 0) = false := by
          rw [← Bool.not_eq_true, beq_iff_eq, ← UInt32.toNat_inj, e]; simp
        rw [this, e]; rfl
  have w3 := b2w_le (d2 && th3 + b2w d2 == 0)
  have hq3 : (b2w (d2 && th3 + b2w d2 == 0)).toNat = 0 →
      d2 = false ∨ (th3 + b2w d2 != 0) = true := by
    intro hz
    have := b2w_zero_of hz
    revert this
    cases d2 <;> simp
  generalize hq3' : b2w (d2 && th3 + b2w d2 == 0) = q3 at *
  generalize b2w d2 = q2 at *
  generalize th3 + q2 = th4 at *
  have h3 : (c2 + q3).toNat = c2.toNat + q3.toNat := by rw [UInt32.toNat_add]; omega
  refine runs_dassert ?_ ?_
  · rw [not_lt_ge, hd2]
    rcases Nat.eq_zero_or_pos q3.toNat with hz | hz
    · rcases hq3 hz with h | h
      · rw [h]; rfl
      · rw [h]; simp
    · rw [bne_zero_of_pos (x := c2 + q3) (by omega), Bool.or_true]
  generalize c2 + q3 = c2' at *
  generalize c.c0 + tl2 = c0 at *
  have k4 := wadd_carry c.c1 th4
  have w4 := b2w_le (decide (c.c1 + th4 < th4))
  have z4 := @b2w_zero_of (decide (c.c1 + th4 < th4))
  generalize hd4 : decide (c.c1 + th4 < th4) = d4 at *
  generalize c.c1 + th4 = c1 at *
  have h5 : (c2' + b2w d4).toNat = c2'.toNat + (b2w d4).toNat := by
    rw [UInt32.toNat_add]; omega
  refine runs_dassert ?_ (runs_pure ?_)
  · rw [not_lt_ge, hd4]
    rcases Nat.eq_zero_or_pos (b2w d4).toNat with hz | hz
    · rw [z4 hz]; rfl
    · rw [bne_zero_of_pos (by omega), Bool.or_true]
  · dsimp only
    omega

theorem extract_runs {c : Acc} {V : ℕ} (C : ℕ) (hc : c.val ≤ V) (hC : V / 2 ^ 32 ≤ C) :
    Runs (extract c) (fun r => r.1.toNat + 2 ^ 32 * r.2.val = c.val ∧ r.2.val ≤ C) := by
  unfold extract
  refine runs_pure ?_
  simp only [Acc.val, UInt32.toNat_zero] at *
  have := u32_le c.c0
  omega

theorem extractFast_runs {c : Acc} {V : ℕ} (C : ℕ) (hc : c.val ≤ V) (hC : V / 2 ^ 32 ≤ C)
    (h : V < 2 ^ 64) :
    Runs (extractFast c) (fun r => r.1.toNat + 2 ^ 32 * r.2.val = c.val ∧ r.2.val ≤ C) := by
  unfold extractFast
  have hz : c.c2.toNat = 0 := by unfold Acc.val at hc; omega
  refine runs_dassert (eq_zero_beq hz) (runs_pure ?_)
  simp only [Acc.val, UInt32.toNat_zero] at *
  have := u32_le c.c0
  omega

end Verif.Scalar
