import Verif.Proofs.Sign
import Verif.Proofs.Raw

/-! Multiplication with scalars that are not reduced. -/

namespace Verif

open Spec Ecmult Ecdsa

namespace Ecmult

/-- Loop invariant of `ecmult_wnaf` for a scalar whose bits from 129 on are all set. -/
structure WnafInvTop (s L w : ℕ) (sign : ℤ) (st : WnafState) : Prop where
  len : st.wnaf.length = L
  bit : st.bit ≤ L
  carry : st.carry = 0 ∨ st.carry = 1
  ones : 160 ≤ st.bit → st.carry = 1
  sum : sign * digitSum 2 st.wnaf + st.carry * 2 ^ st.bit = ((s % 2 ^ st.bit : ℕ) : ℤ)
  zero : ∀ i (h : i < st.wnaf.length), st.lastSetBit < i → st.wnaf[i] = 0
  set : st.lastSetBit < st.bit
  setLo : -1 ≤ st.lastSetBit
  dig : ∀ i (h : i < st.wnaf.length), st.wnaf[i] ≠ 0 → st.wnaf[i] % 2 = 1 ∧ -2 ^ (w - 1) < st.wnaf[i] ∧ st.wnaf[i] < 2 ^ (w - 1)


theorem wnafDigitTop_runs {s : Scalar} {w : ℕ} {sign : ℤ} {st : WnafState} (hw : 2 ≤ w) (hw' : w ≤ 30)
    (hsign : sign = 1 ∨ sign = -1) (hs : ∀ i, 129 ≤ i → i < 256 → s.val / 2 ^ i = 2 ^ (256 - i) - 1) (h : WnafInvTop s.val 256 w sign st) (hb : st.bit < 256)
    (hne : ((s.val / 2 ^ st.bit % 2 : ℕ) : ℤ) ≠ st.carry) :
    Runs (wnafDigit s w sign st) (fun r => WnafInvTop s.val 256 w sign r ∧ st.bit < r.bit) := by
  unfold wnafDigit
  dsimp only
  rw [Nat.mod_eq_of_lt (show w < 32 by omega), Nat.mod_eq_of_lt (show w - 1 < 32 by omega)]
  generalize hnow : (if w > st.wnaf.length - st.bit then st.wnaf.length - st.bit else w) = now
  rw [h.len] at hnow
  have n1 : 1 ≤ now := by split at hnow <;> omega
  have n2 : now ≤ w := by split at hnow <;> omega
  have n3 : st.bit + now ≤ 256 := by split at hnow <;> omega
  have n4 : st.bit + now = 256 ∨ now = w := by split at hnow <;> omega
  refine Runs.bind (Scalar.bitsVar_runs s n1 (by omega) (by omega)) fun b hbv => ?_
  have hx : ((b.toNat : ℕ) : ℤ) < 2 ^ now := by
    rw [hbv]; exact_mod_cast Nat.mod_lt _ (by positivity)
  have hx2 : ((b.toNat : ℕ) : ℤ) % 2 ≠ st.carry := by
    rw [hbv]
    intro e
    apply hne
    rw [← e]
    have : s.val / 2 ^ st.bit % 2 ^ now % 2 = s.val / 2 ^ st.bit % 2 := by
      rw [Nat.mod_mod_of_dvd]; exact dvd_pow_self 2 (by omega)
    exact_mod_cast this.symm
  obtain ⟨c', e, hc', ho, hlo, hhi, hz1, hz2, hp0, hp1⟩ := wnaf_word hw n1 n2 (by positivity) hx h.carry hx2
  have p30 := pow_bound30 hw'
  have p29 := pow_bound30 (w := w - 1) (by omega)
  have hc30 : c' * 2 ^ w ≤ 1073741824 := by rcases hc' with rfl | rfl <;> omega
  have hc0 : 0 ≤ c' * 2 ^ w := by rcases hc' with rfl | rfl <;> positivity
  rw [i32_pure (by omega) (by omega), pure_bind, e, wrap32_eq (by omega) (by omega), i32_pure (by omega) (by omega), pure_bind]
  generalize hwd : (b.toNat : ℤ) + st.carry - c' * 2 ^ w = word at *
  rw [i32_pure (by rcases hsign with rfl | rfl <;> omega) (by rcases hsign with rfl | rfl <;> omega), pure_bind,
    setIdx_pure _ (by rw [h.len]; exact hb), pure_bind]
  have hzero : st.wnaf[st.bit]'(by rw [h.len]; exact hb) = 0 := h.zero _ _ h.set
  have hsq : sign * sign = 1 := by rcases hsign with rfl | rfl <;> rfl
  have hc'0 : now < w → c' = 0 := hz1
  refine runs_pure ⟨⟨by simpa using h.len, n3, hc', fun hend => ?_, ?_, ?_, by dsimp only; omega, by dsimp only; omega, ?_⟩, by dsimp only; omega⟩
  · dsimp only at hend
    have hb129 : 129 ≤ st.bit := by omega
    have hq := hs st.bit hb129 hb
    have hev : (2 : ℕ) ^ (256 - st.bit) % 2 = 0 := by
      obtain ⟨k, hk⟩ : ∃ k, 256 - st.bit = k + 1 := ⟨255 - st.bit, by omega⟩
      rw [hk, pow_succ]; omega
    have hpos : 0 < (2 : ℕ) ^ (256 - st.bit) := by positivity
    have hbit : s.val / 2 ^ st.bit % 2 = 1 := by rw [hq]; omega
    rw [hbit] at hne
    have hc0' : st.carry = 0 := by rcases h.carry with h | h <;> [exact h; exact absurd h.symm hne]
    have hlt160 : st.bit < 160 := by
      by_contra hge
      have := h.ones (by omega); omega
    have hnw : now = w := by omega
    have hbn : b.toNat = 2 ^ w - 1 := by
      rw [hbv, hq, hnw]
      have hd : 2 ^ (256 - st.bit) = 2 ^ w * 2 ^ (256 - st.bit - w) := by rw [← pow_add]; congr 1; omega
      have h1 : 0 < (2 : ℕ) ^ (256 - st.bit - w) := by positivity
      have h2 : 0 < (2 : ℕ) ^ w := by positivity
      rw [hd]
      obtain ⟨m, hm⟩ : ∃ m, (2 : ℕ) ^ (256 - st.bit - w) = m + 1 := ⟨2 ^ (256 - st.bit - w) - 1, by omega⟩
      rw [hm, Nat.mul_succ, Nat.add_sub_assoc h2, Nat.mul_add_mod, Nat.mod_eq_of_lt (by omega)]
    by_contra hc1
    have hz : c' = 0 := by rcases hc' with h | h <;> [exact h; exact absurd h hc1]
    have hwz : (2 : ℤ) ^ w = 2 * 2 ^ (w - 1) := by rw [← pow_succ']; congr 1; omega
    have hbz : (b.toNat : ℤ) = 2 ^ w - 1 := by
      rw [hbn, Nat.cast_sub (by exact Nat.one_le_two_pow)]; push_cast; rfl
    have h1 : (2 : ℤ) ≤ 2 ^ (w - 1) := by
      calc (2 : ℤ) = 2 ^ 1 := by norm_num
        _ ≤ 2 ^ (w - 1) := pow_le_pow_right₀ (by norm_num) (by omega)
    rw [hz, hbz, hc0', hwz] at hwd
    omega
  · dsimp only
    rw [digitSum_set 2 st.wnaf st.bit _ (by rw [h.len]; exact hb), hzero, mod_two_pow_add, ← hbv]
    push_cast
    have hsum := h.sum
    push_cast at hsum
    have hfin : c' * 2 ^ now = c' * 2 ^ w := by
      rcases Nat.lt_or_ge now w with hlt | hge
      · rw [hz1 hlt]; ring
      · rw [show now = w by omega]
    rw [pow_add]
    linear_combination hsum + (word * 2 ^ st.bit) * hsq - 2 ^ st.bit * hwd + 2 ^ st.bit * hfin
  · intro i hi hlt
    dsimp only at hlt ⊢
    rw [List.getElem_set_of_ne (by omega)]
    refine h.zero i _ ?_
    have := h.set; omega
  · intro i hi
    dsimp only
    rw [List.getElem_set]
    split
    · intro _
      rcases hsign with rfl | rfl
      · rw [one_mul]; exact ⟨ho, hlo, hhi⟩
      · refine ⟨by omega, by omega, by omega⟩
    · exact h.dig i _

theorem wnafStepTop_runs {s : Scalar} {w : ℕ} {sign : ℤ} {st : WnafState} (hw : 2 ≤ w) (hw' : w ≤ 30)
    (hsign : sign = 1 ∨ sign = -1) (hs : ∀ i, 129 ≤ i → i < 256 → s.val / 2 ^ i = 2 ^ (256 - i) - 1) (h : WnafInvTop s.val 256 w sign st) (hb : st.bit < 256) :
    Runs (wnafStep s w sign st) (fun r => WnafInvTop s.val 256 w sign r ∧ st.bit < r.bit) := by
  unfold wnafStep
  refine Runs.bind (Scalar.bits_runs s (by norm_num) (by norm_num) (by omega) (by omega)) fun b hbv => ?_
  rw [pow_one] at hbv
  by_cases hc : (b.toNat : ℤ) = st.carry
  · rw [if_pos (by simpa using hc)]
    refine runs_pure ⟨⟨h.len, by dsimp only; omega, h.carry, fun hend => ?_, ?_, h.zero, ?_, h.setLo, h.dig⟩, by dsimp only; omega⟩
    · dsimp only at hend ⊢
      rw [hs st.bit (by omega) hb] at hbv
      have hev : (2 : ℕ) ^ (256 - st.bit) % 2 = 0 := by
        obtain ⟨k, hk⟩ : ∃ k, 256 - st.bit = k + 1 := ⟨255 - st.bit, by omega⟩
        rw [hk, pow_succ]; omega
      have hpos : 0 < (2 : ℕ) ^ (256 - st.bit) := by positivity
      omega
    · dsimp only
      have hsum := h.sum
      rw [mod_two_pow_add, pow_one, ← hbv]
      push_cast at hsum ⊢
      rw [hc, pow_succ]
      linear_combination hsum
    · have := h.set
      dsimp only; push_cast; omega
  · rw [if_neg (by simpa using hc)]
    exact wnafDigitTop_runs hw hw' hsign hs h hb (by rwa [← hbv])

theorem wnafLoopTop_runs {s : Scalar} {w : ℕ} {sign : ℤ} (hw : 2 ≤ w) (hw' : w ≤ 30)
    (hsign : sign = 1 ∨ sign = -1) (hs : ∀ i, 129 ≤ i → i < 256 → s.val / 2 ^ i = 2 ^ (256 - i) - 1) :
    ∀ (fuel : ℕ) (st : WnafState), WnafInvTop s.val 256 w sign st → 256 ≤ st.bit + fuel →
      Runs (wnafLoop s w sign fuel st) (fun r => WnafInvTop s.val 256 w sign r ∧ r.bit = 256) := by
  intro fuel
  induction fuel with
  | zero =>
    intro st h hf
    unfold wnafLoop
    rw [if_neg (by rw [h.len]; omega)]
    exact runs_pure ⟨h, by have := h.bit; omega⟩
  | succ fuel ih =>
    intro st h hf
    unfold wnafLoop
    by_cases hb : st.bit < 256
    · rw [if_pos (by rw [h.len]; exact hb)]
      refine Runs.bind (wnafStepTop_runs hw hw' hsign hs h hb) fun r hr => ih r hr.1 ?_
      omega
    · rw [if_neg (by rw [h.len]; exact hb)]
      exact runs_pure ⟨h, by have := h.bit; omega⟩


theorem wnafInv_init (s L w : ℕ) (sign : ℤ) : WnafInv s L w sign ⟨List.replicate L 0, 0, 0, -1⟩ := by
  refine ⟨by simp, by simp, Or.inl rfl, fun _ => rfl, ?_, by simp, by simp, by simp, by simp⟩
  simp [digitSum_zero, Nat.mod_one]

theorem wnafInvTop_init (s L w : ℕ) (sign : ℤ) : WnafInvTop s L w sign ⟨List.replicate L 0, 0, 0, -1⟩ := by
  refine ⟨by simp, by simp, Or.inl rfl, fun h => by simp at h, ?_, by simp, by simp, by simp, by simp⟩
  simp [digitSum_zero, Nat.mod_one]

/-- Dropping a debug assertion. -/
theorem runsWhen_dassert {α : Type} {c : Prop} {b : Bool} {x : Exec α} {P : α → Prop} (hb : b = true ↔ c) (h : Runs x P) :
    RunsWhen c (dassert b >>= fun _ => x) P := by
  obtain ⟨a, rfl, ha⟩ := h
  exact RunsWhen.of_runsIf ⟨a, rfl, ha⟩ hb

theorem n_ones {s : ℕ} (h1 : n < s) (h2 : s < 2 ^ 256) : ∀ i, 129 ≤ i → i < 256 → s / 2 ^ i = 2 ^ (256 - i) - 1 := by
  intro i hi hi'
  have hle : 2 ^ 256 - 2 ^ 129 ≤ n := by decide +kernel
  have hp : (2 : ℕ) ^ 129 ≤ 2 ^ i := Nat.pow_le_pow_right (by norm_num) hi
  have he : (2 : ℕ) ^ 256 = 2 ^ (256 - i) * 2 ^ i := by rw [← pow_add]; congr 1; omega
  have h1' : 0 < (2 : ℕ) ^ (256 - i) := by positivity
  rw [Nat.div_eq_iff (by positivity), Nat.sub_mul, one_mul, ← he]
  have : (2 : ℕ) ^ 129 ≤ 2 ^ 256 := by norm_num
  have : (2 : ℕ) ^ i ≤ 2 ^ 256 := Nat.pow_le_pow_right (by norm_num) (by omega)
  have hpi : 0 < (2 : ℕ) ^ i := by positivity
  omega

theorem wnafSign_any {a : Scalar} (ha : n ≤ a.val) :
    Runs (wnafSign a) (fun r => r.2 = -1 ∧ r.1.val = (2 ^ 256 + n - a.val) % 2 ^ 256) := by
  unfold wnafSign
  refine Runs.bind (Scalar.bits_runs a (by norm_num) (by norm_num) (by norm_num) (by norm_num)) fun b hb => ?_
  have hn2 : 2 ^ 255 ≤ n := by decide +kernel
  have hlt := a.val_lt
  rw [pow_one] at hb
  have hq : a.val / 2 ^ 255 = 1 := by
    rw [Nat.div_eq_iff (by norm_num)]; constructor <;> omega
  rw [hq] at hb
  have : b = 1 := UInt32.toNat_inj.1 (by simpa using hb)
  rw [this, if_pos (by decide)]
  refine Runs.bind (Scalar.condNeg_true_any a) fun r hr => runs_pure ⟨rfl, ?_⟩
  have h0 : a.val ≠ 0 := fun h => absurd (h ▸ ha) (by decide +kernel)
  rwa [if_neg h0] at hr

/-- `ecmult_wnaf` for any scalar: the digits represent the scalar up to a multiple of `n`; above `n` the last
carry is one, which a debug build reports. -/
theorem ecmultWnaf_any {a : Scalar} {w : ℕ} (hw : 2 ≤ w) (hw' : w ≤ 30) :
    RunsWhen (a.val ≤ n) (ecmultWnaf 256 a w) (fun r => Wnaf 256 w (signedVal a.val) r) := by
  rcases Nat.lt_or_ge a.val n with hlt | hge
  · exact RunsWhen.of_runs (ecmultWnaf_runs hlt hw hw' le_rfl (Or.inl rfl)) hlt.le
  have hn255 : 2 ^ 255 ≤ n := by decide +kernel
  have hn256 : n < 2 ^ 256 := by decide +kernel
  have hlt := a.val_lt
  have hsv : signedVal a.val = (a.val : ℤ) - n := by unfold signedVal; rw [if_neg (by omega)]
  rw [hsv]
  unfold ecmultWnaf
  rw [dassert_true (by simp), pure_bind, dassert_true (by simp; omega), pure_bind]
  refine runsWhen_bind (wnafSign_any hge) fun s ⟨hs2, hs1⟩ => ?_
  rcases Nat.eq_or_lt_of_le hge with heq | hgt
  · rw [← heq, Nat.add_sub_cancel, Nat.mod_self] at hs1
    refine runsWhen_bind (wnafLoop_runs le_rfl hw hw' (Or.inr hs2) (by rw [hs1]; norm_num) 256 _ (wnafInv_init _ 256 w _) (Nat.le_add_left _ _)) fun st ⟨hst, hb⟩ => ?_
    have hc := hst.last hb
    refine RunsWhen.of_runs ?_ heq.symm.le
    refine runs_dassert (by simpa using hc) (FElem.runs_dassertE (bitsZero_runs _ _ (by rw [hs1]; positivity)) ?_)
    have g1 := hst.set; have g2 := hst.setLo
    rw [i32_pure (by omega) (by omega), pure_bind]
    refine runs_pure ⟨hst.len, by dsimp only; omega, by dsimp only; omega, ?_, fun i hi h => hst.zero i _ (by dsimp only at h; omega), hst.dig⟩
    have hsum := hst.sum
    rw [hc, hs1, hs2, Nat.zero_mod] at hsum
    rw [← heq, sub_self]
    dsimp only
    push_cast at hsum
    omega
  · have hs1' : s.1.val = 2 ^ 256 + n - a.val := by
      rw [hs1]; exact Nat.mod_eq_of_lt (by omega)
    refine runsWhen_bind (wnafLoopTop_runs hw hw' (Or.inr hs2) (n_ones (by omega) (by omega)) 256 _ (wnafInvTop_init _ 256 w _) (Nat.le_add_left _ _)) fun st ⟨hst, hb⟩ => ?_
    have hc := hst.ones (by omega)
    refine runsWhen_dassert (by rw [hc]; exact ⟨fun h => absurd h (by decide), fun h => by omega⟩) ?_
    refine FElem.runs_dassertE (bitsZero_runs _ _ (by rw [hb]; omega)) ?_
    have g1 := hst.set; have g2 := hst.setLo
    rw [i32_pure (by omega) (by omega), pure_bind]
    refine runs_pure ⟨hst.len, by dsimp only; omega, by dsimp only; omega, ?_, fun i hi h => hst.zero i _ (by dsimp only at h; omega), hst.dig⟩
    have hsum := hst.sum
    rw [hc, hb, hs2, Nat.mod_eq_of_lt (by omega), hs1'] at hsum
    have e : ((2 ^ 256 + n - a.val : ℕ) : ℤ) = 2 ^ 256 + n - a.val := by
      rw [Nat.cast_sub (by omega), Nat.cast_add, Nat.cast_pow, Nat.cast_ofNat]
    rw [e] at hsum
    dsimp only
    linarith

theorem ecmult_any {preG : List AffineStorage} {a : Jacobian} {A : Pt} {na ng : Scalar} (hG : StoTable 16384 G preG) (ha : Jac a A) (hA : A ≠ 0) :
    RunsWhen (na.val ≤ n ∧ ng.val ≤ n) (ecmult preG a na ng) (fun r => Jac r (na.val • A + ng.val • G)) := by
  unfold ecmult
  refine RunsWhen.bind (ecmultWnaf_any (w := windowA) (by decide) (by decide)) fun wa hwa => ?_
  refine runsWhen_bind (oddMultiplesTableGlobalz_runs ha hA) fun t ⟨hl, hz, hz0, ht⟩ => ?_
  refine RunsWhen.congr (c := ng.val ≤ n ∧ True) ?_ (by simp)
  refine RunsWhen.bind (ecmultWnaf_any (w := windowG) (by decide) (by decide)) fun wg hwg => ?_
  refine RunsWhen.of_runs ?_ trivial
  dsimp only
  have hba := hwa.hi; have hbg := hwg.hi; have hla := hwa.lo; have hlg := hwg.lo
  generalize hbits : (if wg.2 > wa.2 then wg.2 else wa.2) = bits
  have hb1 : wa.2 ≤ bits := by split at hbits <;> omega
  have hb2 : wg.2 ≤ bits := by split at hbits <;> omega
  have hb3 : bits ≤ 256 := by split at hbits <;> omega
  refine Runs.bind (forRev_runs (fun i r => JacZ r t.2.v (digitSum 2 (wa.1.drop i) • A + digitSum 2 (wg.1.drop i) • G)) bits.toNat _ ?_
    (fun i r hi hr => ecmultStep_runs hG hl hz hz0 ht hwa hwg (by omega) hr)) fun r hr => ?_
  · rw [wnaf_drop hwa (by omega), wnaf_drop hwg (by omega), zero_zsmul, zero_zsmul, add_zero]
    exact Jacobian.setInfinity_jac _ _
  · rw [List.drop_zero, List.drop_zero, hwa.sum, hwg.sum, signedVal_smul, signedVal_smul] at hr
    unfold ecmultFinish
    cases hi : r.infinity with
    | true =>
      rw [if_pos rfl]
      rw [hr.inf_iff.1 hi]
      exact runs_pure ⟨hr.x, hr.y, hr.z, by rw [hi]; exact rep_inf ..⟩
    | false =>
      rw [if_neg (by simp)]
      have := unscale_runs hr hz
      rwa [hi] at this


end Ecmult

namespace Scalar

theorem caddBit_any (a : Scalar) {bit : ℕ} (flag : Bool) (hb : bit < 256) :
    RunsWhen (a.val + (if flag then 2 ^ bit else 0) < Spec.n) (caddBit a bit flag)
      (fun r => r.val = (a.val + if flag then 2 ^ bit else 0) % 2 ^ 256) := by
  unfold caddBit
  rw [dassert_true (by simpa using hb), pure_bind]
  generalize hB : bit + ((if flag then 0 else 2 ^ 64 - 1) &&& 0x100) = B
  have hsum : (bitWord B 0).toNat + (bitWord B 1).toNat * 2 ^ 32 + (bitWord B 2).toNat * 2 ^ 64
      + (bitWord B 3).toNat * 2 ^ 96 + (bitWord B 4).toNat * 2 ^ 128 + (bitWord B 5).toNat * 2 ^ 160
      + (bitWord B 6).toNat * 2 ^ 192 + (bitWord B 7).toNat * 2 ^ 224 = if flag then 2 ^ bit else 0 := by
    simp only [bitWord_toNat]
    cases flag with
    | true =>
      have : B = bit := by rw [← hB]; rfl
      subst this
      have e : (2 : ℕ) ^ B = 2 ^ (B % 32) * 2 ^ (32 * (B / 32)) := by
        rw [← pow_add]; congr 1; omega
      have : B / 32 < 8 := by omega
      rw [if_pos rfl, e]
      generalize B / 32 = q at *
      interval_cases q <;> simp
    | false =>
      have : B = bit + 256 := by rw [← hB]; rfl
      subst this
      have e : (bit + 256) / 32 = bit / 32 + 8 := by omega
      rw [e]
      simp
  refine runsWhen_bind (add64_runs 6442450943 (u32_u64_le _) (bitWord_le B 0) (by norm_num) (by norm_num)) fun x0 hx0 => ?_
  refine runsWhen_bind (carryStep_runs 6442450944 (t := 0) (T := 0) (by simp) hx0.2 (by norm_num) (by norm_num)) fun ⟨d0, t0⟩ ht0 => ?_
  refine runsWhen_bind (add64_runs 6442450943 (u32_u64_le _) (bitWord_le B 1) (by norm_num) (by norm_num)) fun x1 hx1 => ?_
  refine runsWhen_bind (carryStep_runs 6442450944 ht0.2 hx1.2 (by norm_num) (by norm_num)) fun ⟨d1, t1⟩ ht1 => ?_
  refine runsWhen_bind (add64_runs 6442450943 (u32_u64_le _) (bitWord_le B 2) (by norm_num) (by norm_num)) fun x2 hx2 => ?_
  refine runsWhen_bind (carryStep_runs 6442450944 ht1.2 hx2.2 (by norm_num) (by norm_num)) fun ⟨d2, t2⟩ ht2 => ?_
  refine runsWhen_bind (add64_runs 6442450943 (u32_u64_le _) (bitWord_le B 3) (by norm_num) (by norm_num)) fun x3 hx3 => ?_
  refine runsWhen_bind (carryStep_runs 6442450944 ht2.2 hx3.2 (by norm_num) (by norm_num)) fun ⟨d3, t3⟩ ht3 => ?_
  refine runsWhen_bind (add64_runs 6442450943 (u32_u64_le _) (bitWord_le B 4) (by norm_num) (by norm_num)) fun x4 hx4 => ?_
  refine runsWhen_bind (carryStep_runs 6442450944 ht3.2 hx4.2 (by norm_num) (by norm_num)) fun ⟨d4, t4⟩ ht4 => ?_
  refine runsWhen_bind (add64_runs 6442450943 (u32_u64_le _) (bitWord_le B 5) (by norm_num) (by norm_num)) fun x5 hx5 => ?_
  refine runsWhen_bind (carryStep_runs 6442450944 ht4.2 hx5.2 (by norm_num) (by norm_num)) fun ⟨d5, t5⟩ ht5 => ?_
  refine runsWhen_bind (add64_runs 6442450943 (u32_u64_le _) (bitWord_le B 6) (by norm_num) (by norm_num)) fun x6 hx6 => ?_
  refine runsWhen_bind (carryStep_runs 6442450944 ht5.2 hx6.2 (by norm_num) (by norm_num)) fun ⟨d6, t6⟩ ht6 => ?_
  refine runsWhen_bind (add64_runs 6442450943 (u32_u64_le _) (bitWord_le B 7) (by norm_num) (by norm_num)) fun x7 hx7 => ?_
  refine runsWhen_bind (carryStep_runs 6442450944 ht6.2 hx7.2 (by norm_num) (by norm_num)) fun ⟨d7, t7⟩ ht7 => ?_
  simp only [u32_u64, UInt64.toNat_zero] at *
  have hv : val ⟨d0, d1, d2, d3, d4, d5, d6, d7⟩ + 2 ^ 256 * t7.toNat =
      a.val + if flag then 2 ^ bit else 0 := by
    rw [← hsum]; simp only [val]; omega
  have hlt := val_lt ⟨d0, d1, d2, d3, d4, d5, d6, d7⟩
  have ho := checkOverflow_iff ⟨d0, d1, d2, d3, d4, d5, d6, d7⟩
  have hn : Spec.n < 2 ^ 256 := by decide +kernel
  have key : ∀ {v t N : ℕ}, N < 2 ^ 256 → v + 2 ^ 256 * t < N → t = 0 ∧ v < N := by
    intro v t N h1 h2
    clear * - h1 h2
    omega
  rw [← hv]
  refine RunsWhen.congr (c := t7.toNat = 0 ∧ val ⟨d0, d1, d2, d3, d4, d5, d6, d7⟩ < Spec.n) ?_ ⟨?_, ?_⟩
  · have h1 : RunsWhen (t7.toNat = 0) (dassert (t7 == 0)) (fun _ => True) := by
      have := runsWhen_dassert (b := t7 == 0) (c := t7.toNat = 0) (x := pure ()) (P := fun _ => True)
        (by rw [beq_iff_eq, ← UInt64.toNat_inj]; rfl) (runs_pure trivial)
      simpa using this
    refine RunsWhen.bind h1 fun _ _ => runsWhen_dassert ?_ (runs_pure ?_)
    · rw [Bool.not_eq_true', ← Bool.not_eq_true, ho, not_le]
    · rw [Nat.add_mul_mod_self_left, Nat.mod_eq_of_lt hlt]
  · rintro ⟨h1, h2⟩; rw [h1, Nat.mul_zero, Nat.add_zero]; exact h2
  · exact key hn

end Scalar

namespace Ecmult

/-! ## `ecmult_const` -/

/-- Odd digits to base `2 ^ w` with a given sum. -/
structure WnafConstRaw (w : ℕ) (V : ℤ) (r : List ℤ × ℤ) : Prop where
  len : r.1.length = (256 + w - 1) / w + 1
  skew : r.2 = 1 ∨ r.2 = 2
  sum : digitSum (2 ^ w) r.1 = V
  dig : ∀ d ∈ r.1, d % 2 = 1 ∧ -2 ^ w < d ∧ d < 2 ^ w

theorem wnafConstTail_runs {s : Scalar} {w K : ℕ} {wnaf : List ℤ} {sign skew : ℤ} (hw : 0 < w) (hw' : w < 16) (hKe : (256 + w - 1) / w = K)
    (hl : wnaf.length = K + 1) (hsign : sign = 1 ∨ sign = -1) (hskew : skew = 1 ∨ skew = 2) (hodd : s.val % 2 = 1) :
    Runs (do
      let r ← Scalar.shrInt s w
      rassert (decide (0 < w))
      let st ← forN K (wnafConstStep w sign) ⟨r.2, r.1.toNat, 0, wnaf⟩
      let d ← i32 (st.u * sign)
      let wnaf ← setIdx st.wnaf K d
      dassert st.s.isZero
      pure (wnaf, skew)) (fun r => WnafConstRaw w (sign * s.val) r ∧ r.2 = skew) := by
  have hK : 256 ≤ w * K := by
    have := Nat.div_add_mod (256 + w - 1) w
    have := Nat.mod_lt (256 + w - 1) hw
    rw [hKe] at *
    omega
  have hK0 : 0 < K := by rw [← hKe]; exact Nat.div_pos (by omega) hw
  have hlt := s.val_lt
  refine Runs.bind (Scalar.shrInt_runs s hw hw') fun r ⟨hr1, hr2⟩ => ?_
  rw [rassert_true (by simpa using hw), pure_bind]
  have hB2 : (2 : ℤ) ^ w % 2 = 0 := by
    obtain ⟨k, rfl⟩ : ∃ k, w = k + 1 := ⟨w - 1, by omega⟩
    rw [pow_succ]; omega
  have hB : (2 : ℤ) ^ w ≤ 32768 := by
    calc (2 : ℤ) ^ w ≤ 2 ^ 15 := pow_le_pow_right₀ (by norm_num) (by omega)
      _ = _ := by norm_num
  have hsplit : s.val = r.1.toNat + 2 ^ w * r.2.val := by
    rw [hr1, hr2]; exact (Nat.mod_add_div _ _).symm
  have hinit : WnafConstInv s.val (K + 1) w sign 0 ⟨r.2, r.1.toNat, 0, wnaf⟩ := by
    refine ⟨hl, by rw [hr2]; simp, ?_, ?_, ?_, ?_, by simp, by simp, by simp⟩
    · have : (s.val : ℤ) = r.1.toNat + 2 ^ w * r.2.val := by exact_mod_cast hsplit
      have h3 : ((2 : ℤ) ^ w * r.2.val) % 2 = 0 := by rw [Int.mul_emod, hB2]; simp
      dsimp only; omega
    · have : (0 : ℤ) < 2 ^ w := by positivity
      dsimp only; omega
    · dsimp only; rw [hr1]; exact_mod_cast Nat.mod_lt _ (by positivity)
    · dsimp only
      have : (s.val : ℤ) = r.1.toNat + 2 ^ w * r.2.val := by exact_mod_cast hsplit
      rw [this]; simp [digitSum]; ring
  refine Runs.bind (forN_runs (WnafConstInv s.val (K + 1) w sign) _ _ hinit
    (fun i st hi h => wnafConstStep_runs hlt hw hw' hsign (by omega) h)) fun st hst => ?_
  have hu := hst.u hK0
  have hlo := hst.lo; have hhi := hst.hi; have hodd' := hst.odd
  have htop := hst.top (by rw [Nat.mul_add]; omega) hK0
  rw [i32_pure (by rw [hu] at *; rcases hsign with rfl | rfl <;> omega) (by rw [hu] at *; rcases hsign with rfl | rfl <;> omega), pure_bind,
    setIdx_pure _ (by rw [hst.len]; omega), pure_bind]
  have hs0 : st.s.val = 0 := by
    rw [hst.s]; apply Nat.div_eq_of_lt
    exact hlt.trans_le (Nat.pow_le_pow_right (by norm_num) (by rw [Nat.mul_add]; omega))
  refine runs_dassert ((Scalar.isZero_iff _).2 hs0) (runs_pure ?_)
  have hlen : (st.wnaf.take (K)).length = K := by
    rw [List.length_take, hst.len]; omega
  have hfull : st.wnaf.set (K) (st.u * sign) = st.wnaf.take (K) ++ [st.u * sign] := by
    rw [← take_succ_set _ _ _ (by rw [hst.len]; omega), List.take_of_length_le]
    rw [List.length_set, hst.len]
  have hsq : sign * sign = 1 := by rcases hsign with rfl | rfl <;> rfl
  have hsum : digitSum (2 ^ w) (st.wnaf.set (K) (st.u * sign)) = sign * s.val := by
    rw [hfull, digitSum_append, hlen, ← pow_mul, ← hst.sum, hs0, hu]
    push_cast
    linear_combination (-digitSum (2 ^ w) (st.wnaf.take (K))) * hsq
  refine ⟨⟨?_, hskew, hsum, ?_⟩, rfl⟩ <;> dsimp only
  · rw [List.length_set, hst.len, hKe]
  · rw [hfull]
    intro x hx
    rcases List.mem_append.1 hx with hx | hx
    · exact hst.dig x hx
    · rw [List.mem_singleton] at hx
      rw [hu] at hx
      rcases hsign with rfl | rfl <;> subst hx
      · rw [mul_one]; exact ⟨hodd', hlo, hhi⟩
      · refine ⟨by omega, by omega, by omega⟩

theorem top_arith {v N M : ℕ} (ha : N ≤ v) (hv : v + 2 < M) (hM : M % 2 = 0) (hN : N % 2 = 1) {bit : Bool}
    (hbit : bit = true ↔ v % 2 = 0) : v + 2 ^ (if bit then 1 else 0) < M ∧ N < v + 2 ^ (if bit then 1 else 0) ∧
      (M + N - (v + 2 ^ (if bit then 1 else 0))) % 2 = 1 ∧ M + N - (v + 2 ^ (if bit then 1 else 0)) < M ∧
      -(((M + N - (v + 2 ^ (if bit then 1 else 0)) : ℕ) : ℤ)) = v + (if bit then 2 else 1) - N - M := by
  cases bit with
  | true => simp only [if_true, pow_one, true_iff] at *; omega
  | false => simp only [Bool.false_eq_true, if_false, pow_zero, false_iff] at *; omega

/-- `ecmult_wnaf_const` above the order: a debug build stops in `cadd_bit`; a release build recodes
`a + skew - n - 2 ^ 256`. -/
theorem ecmultWnafConst_top {a : Scalar} {w : ℕ} {wnaf : List ℤ} (ha : n ≤ a.val) (ha' : a.val + 2 < 2 ^ 256) (hw : 0 < w) (hw' : w < 16)
    (hl : wnaf.length = (256 + w - 1) / w + 1) :
    RunsWhen False (ecmultWnafConst wnaf a w) (fun r => WnafConstRaw w (a.val + r.2 - n - 2 ^ 256) r) := by
  unfold ecmultWnafConst
  simp only [wnafBits]
  generalize hK : (256 + w - 1) / w = K at *
  have hn0 : 0 < n := by decide +kernel
  have hnM : n < 2 ^ 256 := by decide +kernel
  refine runsWhen_bind (Scalar.condNeg_true_any a) fun negS hneg => ?_
  have hnno : negS.isOne = false := by
    rw [← Bool.not_eq_true, Scalar.isOne_iff, hneg, if_neg (by omega)]
    rcases Nat.eq_or_lt_of_le ha with h | h
    · rw [← h, Nat.add_sub_cancel, Nat.mod_self]; decide
    · rw [Nat.mod_eq_of_lt (by omega)]; omega
  have hhi : a.isHigh = true := (Scalar.isHigh_iff a).2 (by omega)
  simp only [hnno, hhi, Bool.not_false, Bool.true_xor, Bool.not_not, if_true]
  have hev := Scalar.isEven_iff a
  obtain ⟨g1, g2, g3, g4, g5⟩ := top_arith ha ha' (by norm_num) (by decide +kernel) hev
  generalize a.isEven = bit at *
  refine RunsWhen.congr (c := _ ∧ True) (RunsWhen.bind (Scalar.caddBit_any a true (by split <;> norm_num)) fun s hs => RunsWhen.of_runs ?_ trivial) ?_
  · simp only [if_true] at hs
    rw [Nat.mod_eq_of_lt g1] at hs
    refine Runs.bind (Scalar.condNeg_true_any s) fun s2 hs2 => ?_
    rw [hs, if_neg (by omega), Nat.mod_eq_of_lt g4] at hs2
    refine (wnafConstTail_runs (sign := -1 * (1 * 2 - 1)) (skew := if bit then 2 else 1) hw hw' hK hl (Or.inr rfl) (by cases bit <;> simp) (by rw [hs2]; exact g3)).mono fun r ⟨hr, hr2⟩ => ?_
    rw [hs2] at hr
    have e : (-1 * (1 * 2 - 1) : ℤ) * ((2 ^ 256 + n - (a.val + 2 ^ (if bit then 1 else 0)) : ℕ) : ℤ) = a.val + r.2 - n - 2 ^ 256 := by
      rw [hr2, show (-1 * (1 * 2 - 1) : ℤ) = -1 by norm_num, neg_one_mul, g5, Nat.cast_pow, Nat.cast_ofNat]
    rwa [e] at hr
  · simp only [if_true, and_true, iff_false, not_lt]; exact g2.le

/-- The partial sums of the digits are odd and smaller than the order, except perhaps the last. -/
theorem wnafConstRaw_drop {V : ℤ} {r : List ℤ × ℤ} (h : WnafConstRaw 4 V r) (hV : |V| < 2 ^ 256) {i : ℕ} (hi0 : 1 ≤ i) (hi : i ≤ 64) {A : Pt} (hA : A ≠ 0) :
    digitSum 16 (r.1.drop i) • A ≠ 0 := by
  have hlen : r.1.length = 65 := h.len
  have hodd : digitSum 16 (r.1.drop i) % 2 = 1 := by
    apply digitSum_odd (by norm_num)
    · intro e
      have := congrArg List.length e
      rw [List.length_drop, hlen] at this; simp at this; omega
    · intro d hd; exact (h.dig d (List.mem_of_mem_drop hd)).1
  have hb := h.sum
  rw [show (2 : ℤ) ^ 4 = 16 by norm_num] at hb
  have hs := digitSum_split 16 r.1 i (by omega)
  have ht : |digitSum 16 (r.1.take i)| < 16 ^ i := by
    have := digitSum_abs_lt (B := 16) (by norm_num) (r.1.take i) (fun d hd => by
      have := (h.dig d (List.mem_of_mem_take hd)).2; norm_num at this; exact this)
    rwa [List.length_take, min_eq_left (by omega)] at this
  apply zsmul_ne_zero hA
  · omega
  · have hpos : (16 : ℤ) ≤ 16 ^ i := by
      calc (16 : ℤ) = 16 ^ 1 := by norm_num
        _ ≤ 16 ^ i := pow_le_pow_right₀ (by norm_num) hi0
    rw [hb] at hs
    generalize digitSum 16 (r.1.drop i) = v at *
    generalize digitSum 16 (r.1.take i) = u at *
    have hv1 : 1 ≤ |v| := Int.one_le_abs (by omega)
    have h16 : (16 : ℤ) ^ i * |v| = |V - u| := by
      rw [hs, add_sub_cancel_left, abs_mul, abs_of_pos (show (0 : ℤ) < 16 ^ i by omega)]
    have h3 : |V - u| ≤ |V| + |u| := abs_sub V u
    have hlt : (16 : ℤ) ^ i * (|v| - 1) < |V| := by nlinarith
    have hle : 16 * (|v| - 1) ≤ (16 : ℤ) ^ i * (|v| - 1) := by nlinarith
    have hn3 : (2 : ℤ) ^ 253 < n := by exact_mod_cast (show 2 ^ 253 < n by decide +kernel)
    have hp : (2 : ℤ) ^ 256 = 8 * 2 ^ 253 := by norm_num
    generalize (2 : ℤ) ^ 253 = B at *
    have : (16 : ℤ) ≤ B ∨ B < 16 := by omega
    linarith

theorem constStepRaw_runs {preA : List Affine} {z : Fp} {A : Pt} {V : ℤ} {w : List ℤ × ℤ} {i : ℕ} {s : Jacobian × Affine} (hA : A ≠ 0) (hl : preA.length = 8)
    (hp : ∀ j (hj : j < preA.length), AffZ preA[j] z ((2 * j + 1) • A) ∧ preA[j].infinity = false ∧ preA[j].y.Ok 1)
    (hw : WnafConstRaw 4 V w) (hV : |V| < 2 ^ 256) (hi : i < 64) (hs : JacZ s.1 z (digitSum 16 (w.1.drop (i + 1)) • A)) :
    Runs (constStep preA w.1 i s) (fun s => JacZ s.1 z (digitSum 16 (w.1.drop i) • A)) := by
  have hlen : w.1.length = 65 := hw.len
  unfold constStep
  refine Runs.bind (constDoubles_runs hs (wnafConstRaw_drop hw hV (by omega) (by omega) hA)) fun r hr => ?_
  rw [idx_pure (by omega), pure_bind]
  obtain ⟨d1, d2, d3⟩ := hw.dig w.1[i] (List.getElem_mem _)
  norm_num at d2 d3
  refine Runs.bind (tableGetGeConst_runs hl hp d1 d2 d3) fun t ht => ?_
  refine runs_dassert (by simp; omega) ?_
  refine Runs.bind (Jacobian.addGe_runs hr ht.1 ht.2) fun r' hr' => runs_pure ?_
  dsimp only
  rw [digitSum_drop 16 (show i < w.1.length by omega), add_zsmul, mul_comm, mul_zsmul, zsmul_comm, add_comm]
  exact hr'

/-- Above the order `ecmult_const` panics in a debug build and multiplies by `s - 2 ^ 256` in a release build. -/
theorem ecmultConst_top {a : Affine} {A : Pt} {s : Scalar} (ha : Aff a A) (hA : A ≠ 0) (hs : n ≤ s.val) (hs2 : s.val + 2 < 2 ^ 256) :
    RunsWhen False (ecmultConst a s) (fun r => Jac r (-((2 ^ 256 - s.val) • A))) := by
  unfold ecmultConst
  refine RunsWhen.congr (c := _ ∧ True) (RunsWhen.bind (ecmultWnafConst_top (w := 4) hs hs2 (by norm_num) (by norm_num) (by rw [List.length_replicate]; rfl)) fun w hw => RunsWhen.of_runs ?_ trivial) (by simp)
  have hlen : w.1.length = 65 := hw.len
  have hV : |(s.val : ℤ) + w.2 - n - 2 ^ 256| < 2 ^ 256 := by
    have h1 : (n : ℤ) ≤ s.val := by exact_mod_cast hs
    have h2 : (s.val : ℤ) + 2 < 2 ^ 256 := by exact_mod_cast hs2
    have h3 : (2 : ℤ) ^ 255 < n := by exact_mod_cast (show 2 ^ 255 < n by decide +kernel)
    rw [abs_lt]; rcases hw.skew with h | h <;> rw [h] <;> constructor <;> linarith
  have e64 : wnafSize = 64 := rfl
  refine Runs.bind (Jacobian.setGe_runs ha) fun r0 hr0 => ?_
  refine Runs.bind (oddMultiplesTableGlobalz_runs hr0.1 hA) fun t ⟨hl, hz, hz0, ht⟩ => ?_
  refine Runs.bind (weakTable_runs hl ht) fun preA ⟨hl', hp⟩ => ?_
  rw [e64, idx_pure (by omega), pure_bind]
  obtain ⟨d1, d2, d3⟩ := hw.dig w.1[64] (List.getElem_mem _)
  norm_num at d2 d3
  refine runs_dassert (by simp; omega) ?_
  refine Runs.bind (tableGetGeConst_runs hl' hp d1 d2 d3) fun tm htm => ?_
  refine Runs.bind (Jacobian.setGe_runs htm.1) fun r1 hr1 => ?_
  refine Runs.bind (forRev_runs (fun i (s : Jacobian × Affine) => JacZ s.1 t.2.v (digitSum 16 (w.1.drop i) • A)) 64 _ ?_
    (fun i s hi h => constStepRaw_runs hA hl' hp hw hV hi h)) fun q hs' => ?_
  · dsimp only
    rw [digitSum_drop 16 (show 64 < w.1.length by omega), List.drop_eq_nil_of_le (by omega)]
    simpa [digitSum] using hr1.1
  · rw [List.drop_zero] at hs'
    have e : Runs (FElem.mul q.1.z t.2 >>= fun z => (pure ({ q.1 with z := z } : Jacobian)) >>= constCorrect a w.2)
        (fun r => Jac r (digitSum 16 w.1 • A + -(w.2 • A))) := by
      have := Runs.bind (unscale_runs hs' hz) (fun r hr => constCorrect_runs (skew := w.2) ha hA hw.skew hr)
      rwa [bind_assoc] at this
    simp only [pure_bind] at e
    refine e.mono fun r hr => ?_
    have hsum : digitSum 16 w.1 • A + -(w.2 • A) = -((2 ^ 256 - s.val) • A) := by
      have hsum := hw.sum
      rw [show (2 : ℤ) ^ 4 = 16 by norm_num] at hsum
      have e : ((2 ^ 256 - s.val : ℕ) : ℤ) = 2 ^ 256 - s.val := by
        rw [Nat.cast_sub (by omega), Nat.cast_pow, Nat.cast_ofNat]
      rw [hsum, ← natCast_zsmul, e, ← neg_zsmul, ← neg_zsmul, ← add_zsmul,
        show (s.val : ℤ) + w.2 - n - 2 ^ 256 + -w.2 = -(2 ^ 256 - s.val) - n by ring, sub_zsmul, natCast_zsmul (n := n), n_smul]; simp
    rwa [hsum] at hr


end Ecmult


namespace Ecdsa
open FElem hiding n

/-- `ecdh_raw` above the order. -/
theorem ecdhRaw_top {D : Digest} {a : Affine} {A : Pt} {s : Scalar} (ha : Aff a A) (hA : A ≠ 0) (hs : n ≤ s.val) (hs2 : s.val + 2 < 2 ^ 256) :
    RunsWhen False (ecdhRaw D a s) (fun o => ∃ x y, IsPt (-((2 ^ 256 - s.val) • A)) x y ∧
      o = some (D.finalize (D.update D.init (sec1Compressed x y)))) := by
  unfold ecdhRaw
  have hn0 : 0 < n := by decide +kernel
  have hc : 2 ^ 256 - n < n := by decide +kernel
  rw [if_neg (fun h => by have := (Scalar.isZero_iff _).1 h; omega)]
  have hne : -((2 ^ 256 - s.val) • A) ≠ 0 := by
    rw [ne_eq, neg_eq_zero, smul_eq_zero_iff hA]
    exact fun hd => absurd (Nat.le_of_dvd (by omega) hd) (by omega)
  refine RunsWhen.congr (c := _ ∧ True) (RunsWhen.bind (ecmultConst_top ha hA hs hs2) fun res hres => RunsWhen.of_runs ?_ trivial) (by simp)
  refine Runs.bind (Affine.setGej_runs hres) fun r ⟨hr, _, hrx, hry⟩ => ?_
  have hrP := hr.isPt (hr.inf_false hne)
  refine Runs.bind (fe_normalize hrx (by norm_num)) fun fx ⟨hfx, _⟩ => ?_
  refine Runs.bind (fe_normalize hry (by norm_num)) fun fy ⟨hfy, _⟩ => ?_
  refine Runs.bind (b32_runs hfx) fun b hb => ?_
  refine Runs.bind (isOdd_runs hfy) fun odd hodd => ?_
  refine runs_pure ⟨_, _, hrP, ?_⟩
  rw [D.update_append, hb]
  unfold sec1Compressed
  congr 4
  rw [List.singleton_append]
  congr 1
  rw [hodd]
  by_cases h : r.y.v.val % 2 = 1
  · rw [if_pos (decide_eq_true h), if_pos h]; rfl
  · rw [if_neg (by simpa using h), if_neg h]; rfl

end Ecdsa

theorem tweakAdd_any {k : PublicKey} {t : SecretKey} {P : Pt} (hk : Aff k.pt P) (hP : P ≠ 0) :
    RunsWhen (t.sc.val ≤ Spec.n) (PublicKey.tweakAddAssign k t) (fun r =>
      (P + t.sc.val • G = 0 ∧ r = (k, .error .tweakOutOfRange)) ∨
      (P + t.sc.val • G ≠ 0 ∧ ∃ q, r = (q, .ok ()) ∧ Aff q.pt (P + t.sc.val • G))) := by
  unfold PublicKey.tweakAddAssign
  refine runsWhen_bind newContext_runs fun ctx hG => ?_
  unfold PublicKey.tweakAddAssignWithContext
  refine runsWhen_bind (Jacobian.setGe_runs hk) fun j hj => ?_
  have h1 : (Scalar.fromInt 1).val = 1 := by decide
  have hn1 : 1 ≤ Spec.n := by decide +kernel
  refine RunsWhen.congr (c := _ ∧ True) (RunsWhen.bind (ecmult_any hG hj.1 hP) fun r hr => RunsWhen.of_runs ?_ trivial)
    (by rw [h1, and_true]; exact ⟨fun h => h.2, fun h => ⟨hn1, h⟩⟩)
  rw [h1, one_nsmul] at hr
  by_cases h0 : P + t.sc.val • G = 0
  · rw [if_pos (hr.inf_iff.2 h0)]; exact runs_pure (Or.inl ⟨h0, rfl⟩)
  · rw [if_neg (fun h => h0 (hr.inf_iff.1 h))]
    exact Runs.bind (Affine.setGej_runs hr) fun a ha => runs_pure (Or.inr ⟨h0, _, rfl, ha.1⟩)

theorem tweakMul_any {k : PublicKey} {t : SecretKey} {P : Pt} (hk : Aff k.pt P) (hP : P ≠ 0) (h0 : t.sc.val ≠ 0) :
    RunsWhen (t.sc.val ≤ Spec.n) (PublicKey.tweakMulAssign k t) (fun r => ∃ q, r = (q, .ok ()) ∧ Aff q.pt (t.sc.val • P)) := by
  unfold PublicKey.tweakMulAssign
  refine runsWhen_bind newContext_runs fun ctx hG => ?_
  unfold PublicKey.tweakMulAssignWithContext
  rw [if_neg (fun h => h0 ((Scalar.isZero_iff _).1 h))]
  refine runsWhen_bind (Jacobian.setGe_runs hk) fun j hj => ?_
  have h1 : (Scalar.fromInt 0).val = 0 := by decide
  refine RunsWhen.congr (c := _ ∧ True) (RunsWhen.bind (ecmult_any hG hj.1 hP) fun r hr => RunsWhen.of_runs ?_ trivial)
    (by rw [h1, and_true]; exact ⟨fun h => h.1, fun h => ⟨h, Nat.zero_le _⟩⟩)
  rw [h1, zero_nsmul, add_zero] at hr
  exact Runs.bind (Affine.setGej_runs hr) fun a ha => runs_pure ⟨_, rfl, ha.1⟩

end Verif
