import Verif.Proofs.ScalarBytes
import Mathlib.Tactic.IntervalCases
import Mathlib.Tactic.LinearCombination

/-! Bit access, shifts and conditional bit addition of scalars. -/

namespace Verif.Scalar
open Verif Spec

theorem and_1f (k : ℕ) : k &&& 0x1F = k % 32 := Nat.and_two_pow_sub_one_eq_mod k 5

theorem limb_pure (a : Scalar) {i : ℕ} (h : i < 8) :
    ∃ w : UInt32, limb a i = pure w ∧ w.toNat = a.val / 2 ^ (32 * i) % 2 ^ 32 := by
  have h0 := u32_le a.d0; have h1 := u32_le a.d1; have h2 := u32_le a.d2; have h3 := u32_le a.d3
  have h4 := u32_le a.d4; have h5 := u32_le a.d5; have h6 := u32_le a.d6; have h7 := u32_le a.d7
  unfold limb
  rw [idx_pure (by simpa using h)]
  refine ⟨_, rfl, ?_⟩
  unfold val
  interval_cases i <;> simp only [List.getElem_cons_zero, List.getElem_cons_succ] <;> norm_num <;> omega

theorem shrw_toNat (w : UInt32) {k : ℕ} (h : k < 32) :
    (w >>> UInt32.ofNat k).toNat = w.toNat / 2 ^ k := by
  rw [UInt32.toNat_shiftRight, UInt32.toNat_ofNat_of_lt' (by unfold UInt32.size; omega), Nat.mod_eq_of_lt h,
    Nat.shiftRight_eq_div_pow]

theorem shlw_toNat (w : UInt32) {k : ℕ} (h : k < 32) :
    (w <<< UInt32.ofNat k).toNat = w.toNat * 2 ^ k % 2 ^ 32 := by
  rw [UInt32.toNat_shiftLeft, UInt32.toNat_ofNat_of_lt' (by unfold UInt32.size; omega), Nat.mod_eq_of_lt h,
    Nat.shiftLeft_eq]

theorem mask_runs {c : ℕ} (h : c < 32) {β : Type} {f : UInt32 → Exec β} {Q : β → Prop}
    (hf : ∀ m : UInt32, m.toNat = 2 ^ c - 1 → Runs (f m) Q) :
    Runs (shl32 1 c >>= fun m => sub32 m 1 >>= f) Q := by
  rw [shl32_pure h, pure_bind]
  have hp : (2 : ℕ) ^ c < 2 ^ 32 := Nat.pow_lt_pow_right (by norm_num) h
  have hpos : 0 < (2 : ℕ) ^ c := by positivity
  have hv : ((1 : UInt32) <<< UInt32.ofNat c).toNat = 2 ^ c := by
    rw [shlw_toNat 1 h]; simp only [UInt32.toNat_one, one_mul]; exact Nat.mod_eq_of_lt hp
  have h1 : (1 : UInt32).toNat ≤ ((1 : UInt32) <<< UInt32.ofNat c).toNat := by
    rw [hv, UInt32.toNat_one]; omega
  refine Runs.bind (sub32_runs h1) fun m hm => hf m ?_
  rw [hm, hv, UInt32.toNat_one]

theorem and_mask (x c : ℕ) : x &&& (2 ^ c - 1) = x % 2 ^ c := Nat.and_two_pow_sub_one_eq_mod x c

theorem bits_runs (a : Scalar) {o c : ℕ} (hc : 0 < c) (hc' : c < 32) (ho : o < 256)
    (hs : o % 32 + c ≤ 32) :
    Runs (bits a o c) (fun r => r.toNat = a.val / 2 ^ o % 2 ^ c) := by
  unfold bits
  rw [subNat_pure (by omega), pure_bind]
  refine runs_dassert ?_ ?_
  · simp only [Nat.shiftRight_eq_div_pow, beq_iff_eq]; omega
  obtain ⟨w, e, hw⟩ := limb_pure a (i := o >>> 5) (by rw [Nat.shiftRight_eq_div_pow]; omega)
  rw [e, pure_bind, and_1f, shr32_pure (Nat.mod_lt _ (by norm_num)), pure_bind]
  refine mask_runs hc' fun m hm => runs_pure ?_
  rw [UInt32.toNat_and, hm, and_mask, shrw_toNat _ (Nat.mod_lt _ (by norm_num)), hw,
    Nat.shiftRight_eq_div_pow]
  apply Nat.eq_of_testBit_eq
  intro j
  simp only [Nat.testBit_mod_two_pow, Nat.testBit_div_two_pow]
  by_cases hj : j < c
  · have : j + o % 32 < 32 := by omega
    simp only [hj, this, decide_true, Bool.true_and]
    congr 1; omega
  · simp [hj]

theorem bitsVar_runs (a : Scalar) {o c : ℕ} (hc : 0 < c) (hc' : c < 32) (ho : o + c ≤ 256) :
    Runs (bitsVar a o c) (fun r => r.toNat = a.val / 2 ^ o % 2 ^ c) := by
  unfold bitsVar
  refine runs_dassert (by simpa using hc') (runs_dassert (by simpa using ho) ?_)
  rw [subNat_pure (by omega), pure_bind]
  split
  · rename_i h
    simp only [Nat.shiftRight_eq_div_pow, beq_iff_eq] at h
    exact bits_runs a hc hc' (by omega) (by omega)
  · rename_i h
    simp only [Nat.shiftRight_eq_div_pow, beq_iff_eq] at h
    have hk : 0 < o % 32 := by omega
    refine runs_dassert ?_ ?_
    · simp only [Nat.shiftRight_eq_div_pow, decide_eq_true_eq]; omega
    obtain ⟨w0, e0, hw0⟩ := limb_pure a (i := o >>> 5) (by rw [Nat.shiftRight_eq_div_pow]; omega)
    obtain ⟨w1, e1, hw1⟩ := limb_pure a (i := (o >>> 5) + 1) (by rw [Nat.shiftRight_eq_div_pow]; omega)
    rw [e0, pure_bind, and_1f, shr32_pure (Nat.mod_lt _ (by norm_num)), pure_bind, e1, pure_bind,
      subNat_pure (by omega), pure_bind, shl32_pure (by omega), pure_bind]
    refine mask_runs hc' fun m hm => runs_pure ?_
    rw [UInt32.toNat_and, hm, and_mask, UInt32.toNat_or, shrw_toNat _ (Nat.mod_lt _ (by norm_num)),
      shlw_toNat _ (by omega), hw0, hw1, Nat.shiftRight_eq_div_pow]
    apply Nat.eq_of_testBit_eq
    intro j
    simp only [Nat.testBit_mod_two_pow, Nat.testBit_div_two_pow, Nat.testBit_or,
      Nat.testBit_mul_two_pow]
    by_cases hj : j < c
    · have hj2 : j < 32 := by omega
      simp only [hj, hj2, decide_true, Bool.true_and]
      by_cases hlt : j + o % 32 < 32
      · have h2 : ¬ (j ≥ 32 - o % 32) := by omega
        simp only [hlt, h2, decide_true, decide_false, Bool.true_and, Bool.false_and, Bool.or_false]
        congr 1; omega
      · have h2 : j ≥ 32 - o % 32 := by omega
        have h3 : j - (32 - o % 32) < 32 := by omega
        simp only [hlt, h2, h3, decide_true, decide_false, Bool.true_and, Bool.false_and, Bool.false_or]
        congr 1; omega
    · simp [hj]

theorem shrStep_runs (lo hi : UInt32) {k : ℕ} (h0 : 0 < k) (h1 : k < 32) :
    Runs (shrStep lo hi k) (fun r => r.toNat = lo.toNat / 2 ^ k + hi.toNat % 2 ^ k * 2 ^ (32 - k)) := by
  unfold shrStep
  rw [shr32_pure h1, pure_bind, subNat_pure (by omega), pure_bind, shl32_pure (by omega), pure_bind]
  have e : (2 : ℕ) ^ k * 2 ^ (32 - k) = 2 ^ 32 := by rw [← pow_add]; congr 1; omega
  have p1 : 0 < (2 : ℕ) ^ k := by positivity
  have p2 : 0 < (2 : ℕ) ^ (32 - k) := by positivity
  have hv : (hi <<< UInt32.ofNat (32 - k)).toNat = hi.toNat % 2 ^ k * 2 ^ (32 - k) := by
    rw [shlw_toNat hi (by omega), ← e, Nat.mul_mod_mul_right]
  have hr : (lo >>> UInt32.ofNat k).toNat = lo.toNat / 2 ^ k := shrw_toNat lo h1
  have b1 : lo.toNat / 2 ^ k ≤ 2 ^ (32 - k) - 1 := by
    have : lo.toNat / 2 ^ k < 2 ^ (32 - k) := by
      rw [Nat.div_lt_iff_lt_mul p1, mul_comm, e]; exact lo.toNat_lt
    omega
  have b2 : hi.toNat % 2 ^ k * 2 ^ (32 - k) ≤ 2 ^ 32 - 2 ^ (32 - k) := by
    have : hi.toNat % 2 ^ k ≤ 2 ^ k - 1 := by have := Nat.mod_lt hi.toNat p1; omega
    calc _ ≤ (2 ^ k - 1) * 2 ^ (32 - k) := Nat.mul_le_mul_right _ this
      _ = _ := by rw [Nat.sub_mul, e, one_mul]
  have b3 : (2 : ℕ) ^ (32 - k) ≤ 2 ^ 32 := Nat.pow_le_pow_right (by norm_num) (by omega)
  refine (add32_runs (2 ^ 32 - 1) (hr.le.trans b1) (hv.le.trans b2) (by omega) (by norm_num)).mono
    fun r hr' => ?_
  rw [hr'.1, hr, hv]

theorem shrInt_runs (a : Scalar) {k : ℕ} (h0 : 0 < k) (h1 : k < 16) :
    Runs (shrInt a k) (fun r => r.1.toNat = a.val % 2 ^ k ∧ r.2.val = a.val / 2 ^ k) := by
  unfold shrInt
  refine runs_dassert (by simpa using h0) (runs_dassert (by simpa using h1) ?_)
  refine mask_runs (by omega) fun m hm => ?_
  refine Runs.bind (shrStep_runs a.d0 a.d1 h0 (by omega)) fun r0 hr0 => ?_
  refine Runs.bind (shrStep_runs a.d1 a.d2 h0 (by omega)) fun r1 hr1 => ?_
  refine Runs.bind (shrStep_runs a.d2 a.d3 h0 (by omega)) fun r2 hr2 => ?_
  refine Runs.bind (shrStep_runs a.d3 a.d4 h0 (by omega)) fun r3 hr3 => ?_
  refine Runs.bind (shrStep_runs a.d4 a.d5 h0 (by omega)) fun r4 hr4 => ?_
  refine Runs.bind (shrStep_runs a.d5 a.d6 h0 (by omega)) fun r5 hr5 => ?_
  refine Runs.bind (shrStep_runs a.d6 a.d7 h0 (by omega)) fun r6 hr6 => ?_
  rw [shr32_pure (by omega), pure_bind]
  refine runs_pure ?_
  have hr7 := shrw_toNat a.d7 (k := k) (by omega)
  generalize a.d7 >>> UInt32.ofNat k = r7 at hr7
  have l0 := u32_le a.d0; have l1 := u32_le a.d1; have l2 := u32_le a.d2; have l3 := u32_le a.d3
  have l4 := u32_le a.d4; have l5 := u32_le a.d5; have l6 := u32_le a.d6; have l7 := u32_le a.d7
  dsimp only
  rw [UInt32.toNat_and, hm, and_mask]
  clear hm m
  simp only [val]
  rw [hr0, hr1, hr2, hr3, hr4, hr5, hr6, hr7]
  clear hr0 hr1 hr2 hr3 hr4 hr5 hr6 hr7
  have e : (2 : ℕ) ^ k * 2 ^ (32 - k) = 2 ^ 32 := by rw [← pow_add]; congr 1; omega
  have p1 : 0 < (2 : ℕ) ^ k := by positivity
  have key : ∀ x : ℕ, x = 2 ^ k * (x / 2 ^ k) + x % 2 ^ k := fun x => (Nat.div_add_mod x _).symm
  have hsum : a.d0.toNat + a.d1.toNat * 2 ^ 32 + a.d2.toNat * 2 ^ 64 + a.d3.toNat * 2 ^ 96 +
    a.d4.toNat * 2 ^ 128 + a.d5.toNat * 2 ^ 160 + a.d6.toNat * 2 ^ 192 + a.d7.toNat * 2 ^ 224 =
    a.d0.toNat % 2 ^ k + 2 ^ k * (
      (a.d0.toNat / 2 ^ k + a.d1.toNat % 2 ^ k * 2 ^ (32 - k)) * 2 ^ 0 +
      (a.d1.toNat / 2 ^ k + a.d2.toNat % 2 ^ k * 2 ^ (32 - k)) * 2 ^ 32 +
      (a.d2.toNat / 2 ^ k + a.d3.toNat % 2 ^ k * 2 ^ (32 - k)) * 2 ^ 64 +
      (a.d3.toNat / 2 ^ k + a.d4.toNat % 2 ^ k * 2 ^ (32 - k)) * 2 ^ 96 +
      (a.d4.toNat / 2 ^ k + a.d5.toNat % 2 ^ k * 2 ^ (32 - k)) * 2 ^ 128 +
      (a.d5.toNat / 2 ^ k + a.d6.toNat % 2 ^ k * 2 ^ (32 - k)) * 2 ^ 160 +
      (a.d6.toNat / 2 ^ k + a.d7.toNat % 2 ^ k * 2 ^ (32 - k)) * 2 ^ 192 +
      a.d7.toNat / 2 ^ k * 2 ^ 224) := by
    have k0 := key a.d0.toNat
    have k1 := key a.d1.toNat
    have k2 := key a.d2.toNat
    have k3 := key a.d3.toNat
    have k4 := key a.d4.toNat
    have k5 := key a.d5.toNat
    have k6 := key a.d6.toNat
    have k7 := key a.d7.toNat
    generalize a.d0.toNat / 2 ^ k = q0 at k0 ⊢
    generalize a.d0.toNat % 2 ^ k = m0 at k0 ⊢
    rw [k0]
    generalize a.d1.toNat / 2 ^ k = q1 at k1 ⊢
    generalize a.d1.toNat % 2 ^ k = m1 at k1 ⊢
    rw [k1]
    generalize a.d2.toNat / 2 ^ k = q2 at k2 ⊢
    generalize a.d2.toNat % 2 ^ k = m2 at k2 ⊢
    rw [k2]
    generalize a.d3.toNat / 2 ^ k = q3 at k3 ⊢
    generalize a.d3.toNat % 2 ^ k = m3 at k3 ⊢
    rw [k3]
    generalize a.d4.toNat / 2 ^ k = q4 at k4 ⊢
    generalize a.d4.toNat % 2 ^ k = m4 at k4 ⊢
    rw [k4]
    generalize a.d5.toNat / 2 ^ k = q5 at k5 ⊢
    generalize a.d5.toNat % 2 ^ k = m5 at k5 ⊢
    rw [k5]
    generalize a.d6.toNat / 2 ^ k = q6 at k6 ⊢
    generalize a.d6.toNat % 2 ^ k = m6 at k6 ⊢
    rw [k6]
    generalize a.d7.toNat / 2 ^ k = q7 at k7 ⊢
    generalize a.d7.toNat % 2 ^ k = m7 at k7 ⊢
    rw [k7]
    generalize (2 : ℕ) ^ k = A at *
    generalize (2 : ℕ) ^ (32 - k) = B at *
    zify at e ⊢
    linear_combination -(m1 * 2 ^ 0 + m2 * 2 ^ 32 + m3 * 2 ^ 64 + m4 * 2 ^ 96 + m5 * 2 ^ 128 + m6 * 2 ^ 160 + m7 * 2 ^ 192 : ℤ) * e
  rw [hsum]
  have hm := Nat.mod_lt a.d0.toNat p1
  constructor
  · rw [Nat.add_mul_mod_self_left, Nat.mod_mod]
  · rw [Nat.add_mul_div_left _ _ p1, Nat.div_eq_of_lt hm, zero_add, pow_zero, mul_one]

theorem bitWord_toNat (b k : ℕ) : (bitWord b k).toNat = if b / 32 = k then 2 ^ (b % 32) else 0 := by
  unfold bitWord
  rw [and_1f, Nat.shiftRight_eq_div_pow]
  have hlt : b % 32 < 32 := Nat.mod_lt _ (by norm_num)
  have hp : (2 : ℕ) ^ (b % 32) < 2 ^ 64 := Nat.pow_lt_pow_right (by norm_num) (by omega)
  have e : (UInt64.ofNat (b % 32)).toNat % 64 = b % 32 := by
    rw [UInt64.toNat_ofNat_of_lt' (by unfold UInt64.size; omega)]; omega
  by_cases h : b / 32 = k
  · have h' : b / 2 ^ 5 = k := h
    simp only [h', h, beq_self_eq_true, if_true, UInt64.toNat_shiftLeft, e, UInt64.toNat_one,
      Nat.one_shiftLeft]
    exact Nat.mod_eq_of_lt hp
  · have h' : (b / 2 ^ 5 == k) = false := by simpa using h
    rw [h']
    simp [h, UInt64.toNat_shiftLeft]

theorem bitWord_le (b k : ℕ) : (bitWord b k).toNat ≤ 2147483648 := by
  rw [bitWord_toNat]
  split
  · have : (2 : ℕ) ^ (b % 32) ≤ 2 ^ 31 := Nat.pow_le_pow_right (by norm_num) (by omega)
    omega
  · omega

theorem caddBit_runs (a : Scalar) {bit : ℕ} (flag : Bool) (hb : bit < 256)
    (h : a.val + (if flag then 2 ^ bit else 0) < n) :
    Runs (caddBit a bit flag) (fun r => r.val = a.val + if flag then 2 ^ bit else 0) := by
  unfold caddBit
  refine runs_dassert (by simpa using hb) ?_
  generalize hB : bit + ((if flag then 0 else 2 ^ 64 - 1) &&& 0x100) = B
  have hsum : (bitWord B 0).toNat + (bitWord B 1).toNat * 2 ^ 32 + (bitWord B 2).toNat * 2 ^ 64
      + (bitWord B 3).toNat * 2 ^ 96 + (bitWord B 4).toNat * 2 ^ 128 + (bitWord B 5).toNat * 2 ^ 160
      + (bitWord B 6).toNat * 2 ^ 192 + (bitWord B 7).toNat * 2 ^ 224 = if flag then 2 ^ bit else 0 := by
    simp only [bitWord_toNat]
    cases flag with
    | true =>
      have : B = bit := by rw [← hB]; rfl
      subst this
      have e : (2 : ℕ) ^ B = 2 ^ (B % 32) * 2 ^ (32 * (B / 32)) := by
        rw [← pow_add]; congr 1; omega
      have : B / 32 < 8 := by omega
      rw [if_pos rfl, e]
      generalize B / 32 = q at *
      interval_cases q <;> simp
    | false =>
      have : B = bit + 256 := by rw [← hB]; rfl
      subst this
      have e : (bit + 256) / 32 = bit / 32 + 8 := by omega
      rw [e]
      simp
  refine Runs.bind (add64_runs 6442450943 (u32_u64_le _) (bitWord_le B 0) (by norm_num) (by norm_num)) fun x0 hx0 => ?_
  refine Runs.bind (carryStep_runs 6442450944 (t := 0) (T := 0) (by simp) hx0.2 (by norm_num) (by norm_num)) fun ⟨d0, t0⟩ ht0 => ?_
  refine Runs.bind (add64_runs 6442450943 (u32_u64_le _) (bitWord_le B 1) (by norm_num) (by norm_num)) fun x1 hx1 => ?_
  refine Runs.bind (carryStep_runs 6442450944 ht0.2 hx1.2 (by norm_num) (by norm_num)) fun ⟨d1, t1⟩ ht1 => ?_
  refine Runs.bind (add64_runs 6442450943 (u32_u64_le _) (bitWord_le B 2) (by norm_num) (by norm_num)) fun x2 hx2 => ?_
  refine Runs.bind (carryStep_runs 6442450944 ht1.2 hx2.2 (by norm_num) (by norm_num)) fun ⟨d2, t2⟩ ht2 => ?_
  refine Runs.bind (add64_runs 6442450943 (u32_u64_le _) (bitWord_le B 3) (by norm_num) (by norm_num)) fun x3 hx3 => ?_
  refine Runs.bind (carryStep_runs 6442450944 ht2.2 hx3.2 (by norm_num) (by norm_num)) fun ⟨d3, t3⟩ ht3 => ?_
  refine Runs.bind (add64_runs 6442450943 (u32_u64_le _) (bitWord_le B 4) (by norm_num) (by norm_num)) fun x4 hx4 => ?_
  refine Runs.bind (carryStep_runs 6442450944 ht3.2 hx4.2 (by norm_num) (by norm_num)) fun ⟨d4, t4⟩ ht4 => ?_
  refine Runs.bind (add64_runs 6442450943 (u32_u64_le _) (bitWord_le B 5) (by norm_num) (by norm_num)) fun x5 hx5 => ?_
  refine Runs.bind (carryStep_runs 6442450944 ht4.2 hx5.2 (by norm_num) (by norm_num)) fun ⟨d5, t5⟩ ht5 => ?_
  refine Runs.bind (add64_runs 6442450943 (u32_u64_le _) (bitWord_le B 6) (by norm_num) (by norm_num)) fun x6 hx6 => ?_
  refine Runs.bind (carryStep_runs 6442450944 ht5.2 hx6.2 (by norm_num) (by norm_num)) fun ⟨d6, t6⟩ ht6 => ?_
  refine Runs.bind (add64_runs 6442450943 (u32_u64_le _) (bitWord_le B 7) (by norm_num) (by norm_num)) fun x7 hx7 => ?_
  refine Runs.bind (carryStep_runs 6442450944 ht6.2 hx7.2 (by norm_num) (by norm_num)) fun ⟨d7, t7⟩ ht7 => ?_
  simp only [u32_u64, UInt64.toNat_zero] at *
  have hv : val ⟨d0, d1, d2, d3, d4, d5, d6, d7⟩ + 2 ^ 256 * t7.toNat =
      a.val + if flag then 2 ^ bit else 0 := by
    rw [← hsum]; simp only [val]; omega
  rw [← hv] at h
  have h7 : t7.toNat = 0 := by unfold n at h; omega
  rw [h7, Nat.mul_zero, Nat.add_zero] at hv h
  refine runs_dassert ?_ (runs_dassert ?_ (runs_pure hv))
  · simp only [beq_iff_eq, ← UInt64.toNat_inj]; exact h7
  · have := checkOverflow_iff ⟨d0, d1, d2, d3, d4, d5, d6, d7⟩
    rw [Bool.not_eq_true', ← Bool.not_eq_true, this]; omega

end Verif.Scalar
