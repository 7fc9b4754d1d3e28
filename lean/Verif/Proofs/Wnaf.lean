import Verif.Model.Ecmult
import Verif.Spec.Digits
import Verif.Proofs.ScalarBits
import Verif.Proofs.Field

/-! Correctness of the wNAF recodings. -/

namespace Verif

open Spec

theorem wrap32_eq {x : ℤ} (h1 : -2147483648 ≤ x) (h2 : x ≤ 2147483647) : wrap32 x = x := by
  unfold wrap32; rw [Int.bmod_def]; split <;> omega

theorem i32_pure {x : ℤ} (h1 : -2147483648 ≤ x) (h2 : x ≤ 2147483647) : i32 x = pure x := by
  simp only [i32, h1, h2, decide_true, Bool.and_self, dassert_true, pure_bind, wrap32_eq]

theorem setIdx_pure {α : Type} {l : List α} {i : ℕ} (v : α) (h : i < l.length) : setIdx l i v = pure (l.set i v) := by
  simp only [setIdx, h, decide_true, rassert_true, pure_bind]

theorem digitSum_set (base : ℤ) : ∀ (l : List ℤ) (i : ℕ) (d : ℤ) (h : i < l.length),
    digitSum base (l.set i d) = digitSum base l + (d - l[i]) * base ^ i
  | [], _, _, h => by simp at h
  | x :: l, 0, d, _ => by simp [digitSum]; ring
  | x :: l, i + 1, d, h => by
    have := digitSum_set base l i d (by simpa using h)
    simp only [List.set_cons_succ, digitSum, this, List.getElem_cons_succ]; ring

theorem digitSum_zero (base : ℤ) (k : ℕ) : digitSum base (List.replicate k 0) = 0 := by
  induction k with
  | zero => rfl
  | succ k ih => simp [List.replicate_succ, digitSum, ih]

namespace Ecmult

/-- The arithmetic of one digit. -/
theorem wnaf_word {w now : ℕ} (hw : 2 ≤ w) (h1 : 1 ≤ now) (h2 : now ≤ w) {x c : ℤ} (hx0 : 0 ≤ x) (hx : x < 2 ^ now)
    (hc : c = 0 ∨ c = 1) (hne : x % 2 ≠ c) :
    ∃ c' : ℤ, (x + c) / 2 ^ (w - 1) % 2 = c' ∧ (c' = 0 ∨ c' = 1) ∧ (x + c - c' * 2 ^ w) % 2 = 1 ∧
      -2 ^ (w - 1) < x + c - c' * 2 ^ w ∧ x + c - c' * 2 ^ w < 2 ^ (w - 1) ∧ (now < w → c' = 0) ∧
      (x < 2 ^ (w - 1) → c' = 0) ∧ 0 ≤ x + c ∧ x + c < 2 ^ w := by
  obtain ⟨k, rfl⟩ : ∃ k, w = k + 2 := ⟨w - 2, by omega⟩
  obtain ⟨l, rfl⟩ : ∃ l, now = l + 1 := ⟨now - 1, by omega⟩
  rw [show k + 2 - 1 = k + 1 from rfl]
  have hmono : (2 : ℤ) ^ (l + 1) ≤ 2 ^ (k + 2) := pow_le_pow_right₀ (by norm_num) h2
  have hmono' : l + 1 < k + 2 → (2 : ℤ) ^ (l + 1) ≤ 2 ^ (k + 1) := fun h => pow_le_pow_right₀ (by norm_num) (by omega)
  have hpos : (0 : ℤ) < 2 ^ k := by positivity
  rw [show (2 : ℤ) ^ (l + 1) = 2 * 2 ^ l by ring] at hx hmono hmono'
  rw [show (2 : ℤ) ^ (k + 2) = 4 * 2 ^ k by ring] at *
  rw [show (2 : ℤ) ^ (k + 1) = 2 * 2 ^ k by ring] at *
  generalize (2 : ℤ) ^ k = B at *
  generalize (2 : ℤ) ^ l = A at *
  have hodd : (x + c) % 2 = 1 := by omega
  have hlt : x + c < 2 * A := by omega
  by_cases hB : x + c < 2 * B
  · have : (x + c) / (2 * B) = 0 := Int.ediv_eq_zero_of_lt (by omega) hB
    rw [this]
    refine ⟨0, rfl, Or.inl rfl, ?_⟩
    refine ⟨by omega, by omega, by omega, by simp, by simp, by omega, by omega⟩
  · have : (x + c) / (2 * B) = 1 := by
      rw [Int.ediv_eq_iff_of_pos (by omega)]; constructor <;> omega
    rw [this]
    refine ⟨1, rfl, Or.inr rfl, ?_⟩
    refine ⟨by omega, by omega, by omega, fun h => ?_, fun h => by omega, by omega, by omega⟩
    have := hmono' h; omega

/-- Loop invariant of `ecmult_wnaf`. -/
structure WnafInv (s L w : ℕ) (sign : ℤ) (st : WnafState) : Prop where
  len : st.wnaf.length = L
  bit : st.bit ≤ L
  carry : st.carry = 0 ∨ st.carry = 1
  last : st.bit = L → st.carry = 0
  sum : sign * digitSum 2 st.wnaf + st.carry * 2 ^ st.bit = ((s % 2 ^ st.bit : ℕ) : ℤ)
  zero : ∀ i (h : i < st.wnaf.length), st.lastSetBit < i → st.wnaf[i] = 0
  set : st.lastSetBit < st.bit
  setLo : -1 ≤ st.lastSetBit
  dig : ∀ i (h : i < st.wnaf.length), st.wnaf[i] ≠ 0 → st.wnaf[i] % 2 = 1 ∧ -2 ^ (w - 1) < st.wnaf[i] ∧ st.wnaf[i] < 2 ^ (w - 1)

theorem pow_bound30 {w : ℕ} (h : w ≤ 30) : (2 : ℤ) ^ w ≤ 1073741824 := by
  calc (2 : ℤ) ^ w ≤ 2 ^ 30 := pow_le_pow_right₀ (by norm_num) h
    _ = _ := by norm_num

theorem mod_two_pow_add (s b k : ℕ) : s % 2 ^ (b + k) = s % 2 ^ b + 2 ^ b * (s / 2 ^ b % 2 ^ k) := by
  rw [pow_add, Nat.mod_mul]

theorem wnafDigit_runs {s : Scalar} {L w : ℕ} {sign : ℤ} {st : WnafState} (hL : L ≤ 256) (hw : 2 ≤ w) (hw' : w ≤ 30)
    (hsign : sign = 1 ∨ sign = -1) (hs : 2 * s.val < 2 ^ L) (h : WnafInv s.val L w sign st) (hb : st.bit < L)
    (hne : ((s.val / 2 ^ st.bit % 2 : ℕ) : ℤ) ≠ st.carry) :
    Runs (wnafDigit s w sign st) (fun r => WnafInv s.val L w sign r ∧ st.bit < r.bit) := by
  unfold wnafDigit
  dsimp only
  rw [Nat.mod_eq_of_lt (show w < 32 by omega), Nat.mod_eq_of_lt (show w - 1 < 32 by omega)]
  generalize hnow : (if w > st.wnaf.length - st.bit then st.wnaf.length - st.bit else w) = now
  rw [h.len] at hnow
  have n1 : 1 ≤ now := by split at hnow <;> omega
  have n2 : now ≤ w := by split at hnow <;> omega
  have n3 : st.bit + now ≤ L := by split at hnow <;> omega
  have n4 : st.bit + now = L ∨ now = w := by split at hnow <;> omega
  refine Runs.bind (Scalar.bitsVar_runs s n1 (by omega) (by omega)) fun b hbv => ?_
  have hx : ((b.toNat : ℕ) : ℤ) < 2 ^ now := by
    rw [hbv]; exact_mod_cast Nat.mod_lt _ (by positivity)
  have hx2 : ((b.toNat : ℕ) : ℤ) % 2 ≠ st.carry := by
    rw [hbv]
    intro e
    apply hne
    rw [← e]
    have : s.val / 2 ^ st.bit % 2 ^ now % 2 = s.val / 2 ^ st.bit % 2 := by
      rw [Nat.mod_mod_of_dvd]; exact dvd_pow_self 2 (by omega)
    exact_mod_cast this.symm
  obtain ⟨c', e, hc', ho, hlo, hhi, hz1, hz2, hp0, hp1⟩ := wnaf_word hw n1 n2 (by positivity) hx h.carry hx2
  have p30 := pow_bound30 hw'
  have p29 := pow_bound30 (w := w - 1) (by omega)
  have hc30 : c' * 2 ^ w ≤ 1073741824 := by rcases hc' with rfl | rfl <;> omega
  have hc0 : 0 ≤ c' * 2 ^ w := by rcases hc' with rfl | rfl <;> positivity
  rw [i32_pure (by omega) (by omega), pure_bind, e, wrap32_eq (by omega) (by omega), i32_pure (by omega) (by omega), pure_bind]
  generalize hwd : (b.toNat : ℤ) + st.carry - c' * 2 ^ w = word at *
  rw [i32_pure (by rcases hsign with rfl | rfl <;> omega) (by rcases hsign with rfl | rfl <;> omega), pure_bind,
    setIdx_pure _ (by rw [h.len]; exact hb), pure_bind]
  have hzero : st.wnaf[st.bit]'(by rw [h.len]; exact hb) = 0 := h.zero _ _ h.set
  have hsq : sign * sign = 1 := by rcases hsign with rfl | rfl <;> rfl
  have hc'0 : now < w → c' = 0 := hz1
  refine runs_pure ⟨⟨by simpa using h.len, n3, hc', fun hend => ?_, ?_, ?_, by dsimp only; omega, by dsimp only; omega, ?_⟩, by dsimp only; omega⟩
  · rcases Nat.lt_or_ge now w with hlt | hge
    · exact hz1 hlt
    · have hnw : now = w := by omega
      apply hz2
      rw [hbv]
      have hend' : st.bit + w = L := by rw [← hnw]; exact hend
      have : s.val / 2 ^ st.bit < 2 ^ (w - 1) := by
        rw [Nat.div_lt_iff_lt_mul (by positivity), ← pow_add]
        have : L = (w - 1 + st.bit) + 1 := by omega
        rw [this, pow_succ] at hs; omega
      exact_mod_cast (Nat.mod_le _ _).trans_lt this
  · dsimp only
    rw [digitSum_set 2 st.wnaf st.bit _ (by rw [h.len]; exact hb), hzero, mod_two_pow_add, ← hbv]
    push_cast
    have hsum := h.sum
    push_cast at hsum
    have hfin : c' * 2 ^ now = c' * 2 ^ w := by
      rcases Nat.lt_or_ge now w with hlt | hge
      · rw [hz1 hlt]; ring
      · rw [show now = w by omega]
    rw [pow_add]
    linear_combination hsum + (word * 2 ^ st.bit) * hsq - 2 ^ st.bit * hwd + 2 ^ st.bit * hfin
  · intro i hi hlt
    dsimp only at hlt ⊢
    rw [List.getElem_set_of_ne (by omega)]
    refine h.zero i _ ?_
    have := h.set; omega
  · intro i hi
    dsimp only
    rw [List.getElem_set]
    split
    · intro _
      rcases hsign with rfl | rfl
      · rw [one_mul]; exact ⟨ho, hlo, hhi⟩
      · refine ⟨by omega, by omega, by omega⟩
    · exact h.dig i _

theorem wnafStep_runs {s : Scalar} {L w : ℕ} {sign : ℤ} {st : WnafState} (hL : L ≤ 256) (hw : 2 ≤ w) (hw' : w ≤ 30)
    (hsign : sign = 1 ∨ sign = -1) (hs : 2 * s.val < 2 ^ L) (h : WnafInv s.val L w sign st) (hb : st.bit < L) :
    Runs (wnafStep s w sign st) (fun r => WnafInv s.val L w sign r ∧ st.bit < r.bit) := by
  unfold wnafStep
  refine Runs.bind (Scalar.bits_runs s (by norm_num) (by norm_num) (by omega) (by omega)) fun b hbv => ?_
  rw [pow_one] at hbv
  by_cases hc : (b.toNat : ℤ) = st.carry
  · rw [if_pos (by simpa using hc)]
    refine runs_pure ⟨⟨h.len, by dsimp only; omega, h.carry, fun hend => ?_, ?_, h.zero, ?_, h.setLo, h.dig⟩, by dsimp only; omega⟩
    · dsimp only at hend
      have : s.val / 2 ^ st.bit = 0 := by
        rw [Nat.div_eq_zero_iff_lt (by positivity)]
        rw [← hend, pow_succ] at hs; omega
      rw [this] at hbv
      rw [← hc, hbv]; rfl
    · dsimp only
      have hsum := h.sum
      rw [mod_two_pow_add, pow_one, ← hbv]
      push_cast at hsum ⊢
      rw [hc, pow_succ]
      linear_combination hsum
    · have := h.set
      dsimp only; push_cast; omega
  · rw [if_neg (by simpa using hc)]
    exact wnafDigit_runs hL hw hw' hsign hs h hb (by rwa [← hbv])

theorem wnafLoop_runs {s : Scalar} {L w : ℕ} {sign : ℤ} (hL : L ≤ 256) (hw : 2 ≤ w) (hw' : w ≤ 30)
    (hsign : sign = 1 ∨ sign = -1) (hs : 2 * s.val < 2 ^ L) :
    ∀ (fuel : ℕ) (st : WnafState), WnafInv s.val L w sign st → L ≤ st.bit + fuel →
      Runs (wnafLoop s w sign fuel st) (fun r => WnafInv s.val L w sign r ∧ r.bit = L) := by
  intro fuel
  induction fuel with
  | zero =>
    intro st h hf
    unfold wnafLoop
    rw [if_neg (by rw [h.len]; omega)]
    exact runs_pure ⟨h, by have := h.bit; omega⟩
  | succ fuel ih =>
    intro st h hf
    unfold wnafLoop
    by_cases hb : st.bit < L
    · rw [if_pos (by rw [h.len]; exact hb)]
      refine Runs.bind (wnafStep_runs hL hw hw' hsign hs h hb) fun r hr => ih r hr.1 ?_
      omega
    · rw [if_neg (by rw [h.len]; exact hb)]
      exact runs_pure ⟨h, by have := h.bit; omega⟩

theorem bitsZero_runs {s : Scalar} : ∀ (fuel b : ℕ), s.val < 2 ^ b → Runs (bitsZero s fuel b) (fun r => r = true)
  | 0, _, _ => runs_pure rfl
  | fuel + 1, b, h => by
    unfold bitsZero
    by_cases hb : b < 256
    · rw [if_pos hb]
      refine Runs.bind (Scalar.bits_runs s (by norm_num) (by norm_num) hb (by omega)) fun c hc => ?_
      rw [Nat.div_eq_of_lt h] at hc
      have : c = 0 := UInt32.toNat_inj.1 (by simpa using hc)
      rw [this, if_pos (by decide)]
      exact bitsZero_runs fuel (b + 1) (h.trans (Nat.pow_lt_pow_right (by norm_num) (by omega)))
    · rw [if_neg hb]; exact runs_pure rfl

theorem wnafSign_runs {a : Scalar} (ha : a.val < n) :
    Runs (wnafSign a) (fun r => (r.2 = 1 ∨ r.2 = -1) ∧ r.1.val < 2 ^ 255 ∧
      (a.val < 2 ^ 255 → r.2 = 1 ∧ r.1.val = a.val) ∧ (2 ^ 255 ≤ a.val → r.2 = -1 ∧ r.1.val = n - a.val)) := by
  unfold wnafSign
  refine Runs.bind (Scalar.bits_runs a (by norm_num) (by norm_num) (by norm_num) (by norm_num)) fun b hb => ?_
  have hn : n < 2 ^ 256 := by decide +kernel
  have hn2 : n - 2 ^ 255 < 2 ^ 255 := by decide +kernel
  rw [pow_one] at hb
  by_cases h : a.val < 2 ^ 255
  · rw [Nat.div_eq_of_lt h] at hb
    have : b = 0 := UInt32.toNat_inj.1 (by simpa using hb)
    rw [this, if_neg (by decide)]
    exact runs_pure ⟨Or.inl rfl, h, fun _ => ⟨rfl, rfl⟩, fun h' => by omega⟩
  · have hq : a.val / 2 ^ 255 = 1 := by
      rw [Nat.div_eq_iff (by norm_num)]; constructor <;> omega
    rw [hq] at hb
    have : b = 1 := UInt32.toNat_inj.1 (by simpa using hb)
    rw [this, if_pos (by decide)]
    refine Runs.bind (Scalar.neg_runs ha) fun r hr => runs_pure ?_
    rw [Nat.mod_eq_of_lt (by omega)] at hr
    exact ⟨Or.inr rfl, by dsimp only; omega, fun h' => absurd h' h, fun _ => ⟨rfl, hr⟩⟩

/-- What `ecmult_wnaf` returns: the digits represent `v`. -/
structure Wnaf (L w : ℕ) (v : ℤ) (r : List ℤ × ℤ) : Prop where
  len : r.1.length = L
  lo : 0 ≤ r.2
  hi : r.2 ≤ L
  sum : digitSum 2 r.1 = v
  zero : ∀ i (h : i < r.1.length), r.2 ≤ i → r.1[i] = 0
  dig : ∀ i (h : i < r.1.length), r.1[i] ≠ 0 → r.1[i] % 2 = 1 ∧ -2 ^ (w - 1) < r.1[i] ∧ r.1[i] < 2 ^ (w - 1)

/-- The signed value `ecmult_wnaf` recodes. -/
def signedVal (a : ℕ) : ℤ := if a < 2 ^ 255 then a else (a : ℤ) - n

theorem ecmultWnaf_runs {a : Scalar} {L w : ℕ} (ha : a.val < n) (hw : 2 ≤ w) (hw' : w ≤ 30) (hL : L ≤ 256)
    (hL' : L = 256 ∨ 2 * a.val < 2 ^ L) :
    Runs (ecmultWnaf L a w) (fun r => Wnaf L w (signedVal a.val) r) := by
  unfold ecmultWnaf
  refine runs_dassert (by simpa using hL) (runs_dassert (by simp; omega) ?_)
  refine Runs.bind (wnafSign_runs ha) fun s ⟨hsg, hs255, h1, h2⟩ => ?_
  have hs : 2 * s.1.val < 2 ^ L := by
    rcases hL' with rfl | h
    · rw [show (256 : ℕ) = 255 + 1 from rfl, pow_succ]; omega
    · have : a.val < 2 ^ 255 := by
        have : 2 ^ L ≤ 2 ^ 256 := Nat.pow_le_pow_right (by norm_num) hL
        omega
      rw [(h1 this).2]; exact h
  have hinit : WnafInv s.1.val L w s.2 ⟨List.replicate L 0, 0, 0, -1⟩ := by
    refine ⟨by simp, by simp, Or.inl rfl, fun _ => rfl, ?_, by simp, by simp, by simp, by simp⟩
    simp [digitSum_zero, Nat.mod_one]
  refine Runs.bind (wnafLoop_runs hL hw hw' hsg hs L _ hinit (by simp)) fun st ⟨hst, hb⟩ => ?_
  have hc := hst.last hb
  refine runs_dassert (by simpa using hc) (FElem.runs_dassertE (bitsZero_runs _ _ ?_) ?_)
  · rw [hb]; omega
  have g1 := hst.set; have g2 := hst.setLo
  rw [i32_pure (by omega) (by omega), pure_bind]
  refine runs_pure ⟨hst.len, by dsimp only; omega, by dsimp only; omega, ?_, ?_, hst.dig⟩
  · have hsum := hst.sum
    rw [hc, hb, Nat.mod_eq_of_lt (by omega)] at hsum
    unfold signedVal
    dsimp only
    split
    · rename_i h; obtain ⟨e1, e2⟩ := h1 h
      rw [e1, e2] at hsum; linarith
    · rename_i h; obtain ⟨e1, e2⟩ := h2 (by omega)
      rw [e1, e2] at hsum
      push_cast [Nat.cast_sub ha.le] at hsum
      linarith
  · intro i hi h
    dsimp only at h ⊢
    exact hst.zero i _ (by omega)

/-! ## The constant-time recoding -/

theorem digitSum_append (base : ℤ) (l : List ℤ) (d : ℤ) : digitSum base (l ++ [d]) = digitSum base l + d * base ^ l.length := by
  induction l with
  | nil => simp [digitSum]
  | cons x l ih => simp only [List.cons_append, digitSum, ih, List.length_cons]; ring

theorem take_succ_set {α : Type} (l : List α) (i : ℕ) (d : α) (h : i < l.length) :
    (l.set i d).take (i + 1) = l.take i ++ [d] := by
  rw [List.take_add_one, List.take_set_of_le (le_refl i), List.getElem?_set_self h]
  rfl

/-- Loop invariant of `ecmult_wnaf_const` before digit `word`. -/
structure WnafConstInv (t L w : ℕ) (sign : ℤ) (word : ℕ) (st : WnafConstState) : Prop where
  len : st.wnaf.length = L
  s : st.s.val = t / 2 ^ (w * (word + 1))
  odd : st.uLast % 2 = 1
  lo : -2 ^ w < st.uLast
  hi : st.uLast < 2 ^ w
  sum : sign * digitSum (2 ^ w) (st.wnaf.take word) + st.uLast * 2 ^ (w * word) + st.s.val * 2 ^ (w * (word + 1)) = t
  dig : ∀ d ∈ st.wnaf.take word, d % 2 = 1 ∧ -2 ^ w < d ∧ d < 2 ^ w
  u : 0 < word → st.u = st.uLast
  top : 256 + w ≤ w * (word + 1) → 0 < word → -1 ≤ st.u ∧ st.u ≤ 1

theorem wnafConstStep_runs {t L w : ℕ} {sign : ℤ} {word : ℕ} {st : WnafConstState} (ht : t < 2 ^ 256) (hw : 0 < w) (hw' : w < 16)
    (hsign : sign = 1 ∨ sign = -1) (hL : word < L) (h : WnafConstInv t L w sign word st) :
    Runs (wnafConstStep w sign word st) (fun r => WnafConstInv t L w sign (word + 1) r) := by
  unfold wnafConstStep
  rw [Nat.mod_eq_of_lt (show w < 32 by omega)]
  refine Runs.bind (Scalar.shrInt_runs st.s hw hw') fun r ⟨hr1, hr2⟩ => ?_
  dsimp only
  have hu : ((r.1.toNat : ℕ) : ℤ) < 2 ^ w := by rw [hr1]; exact_mod_cast Nat.mod_lt _ (by positivity)
  have hB : (2 : ℤ) ^ w ≤ 32768 := by
    calc (2 : ℤ) ^ w ≤ 2 ^ 15 := pow_le_pow_right₀ (by norm_num) (by omega)
      _ = _ := by norm_num
  have hBe : (2 : ℤ) ^ w % 2 = 0 := by
    obtain ⟨k, rfl⟩ : ∃ k, w = k + 1 := ⟨w - 1, by omega⟩
    rw [pow_succ]; omega
  have hB2 : (2 : ℤ) ≤ 2 ^ w := by
    calc (2 : ℤ) = 2 ^ 1 := by norm_num
      _ ≤ 2 ^ w := pow_le_pow_right₀ (by norm_num) hw
  have hodd := h.odd; have hlo := h.lo; have hhi := h.hi; have hsum := h.sum
  have hsplit : st.s.val = r.1.toNat + 2 ^ w * r.2.val := by
    rw [hr1, hr2]; exact (Nat.mod_add_div _ _).symm
  have hsplit' : (st.s.val : ℤ) = r.1.toNat + 2 ^ w * r.2.val := by exact_mod_cast hsplit
  rw [hsplit'] at hsum
  have htop : 256 + w ≤ w * (word + 1 + 1) → r.1.toNat = 0 := by
    intro hle
    rw [hr1, h.s]
    have : t / 2 ^ (w * (word + 1)) = 0 := by
      apply Nat.div_eq_of_lt
      refine ht.trans_le (Nat.pow_le_pow_right (by norm_num) ?_)
      rw [Nat.mul_add w (word + 1) 1] at hle; omega
    rw [this, Nat.zero_mod]
  have hs' : r.2.val = t / 2 ^ (w * (word + 1 + 1)) := by
    rw [hr2, h.s, Nat.div_div_eq_div_mul, ← pow_add]; congr 2
  have hpw : (2 : ℤ) ^ (w * (word + 1 + 1)) = 2 ^ (w * (word + 1)) * 2 ^ w := by rw [← pow_add]; congr 1
  have hpw1 : (2 : ℤ) ^ (w * (word + 1)) = 2 ^ (w * word) * 2 ^ w := by rw [← pow_add]; congr 1
  have hpw0 : ((2 : ℤ) ^ w) ^ word = 2 ^ (w * word) := by rw [← pow_mul]
  have hlen : (st.wnaf.take word).length = word := by rw [List.length_take, h.len]; omega
  -- the digit and the carry into the next one
  obtain ⟨d, u', he1, he2, hd, hu', hsp⟩ : ∃ d u' : ℤ,
      (r.1.toNat : ℤ) + (2 * (if st.uLast > 0 then 1 else 0) - 1) * (if ((r.1.toNat : ℤ) % 2 == 0) = true then 1 else 0) = u' ∧
      st.uLast - (2 * (if st.uLast > 0 then 1 else 0) - 1) * (if ((r.1.toNat : ℤ) % 2 == 0) = true then 1 else 0) * 2 ^ w = d ∧
      (d % 2 = 1 ∧ -2 ^ w < d ∧ d < 2 ^ w) ∧ (u' % 2 = 1 ∧ -2 ^ w < u' ∧ u' < 2 ^ w ∧ (r.1.toNat = 0 → -1 ≤ u' ∧ u' ≤ 1)) ∧
      d + u' * 2 ^ w = st.uLast + r.1.toNat * 2 ^ w := by
    refine ⟨_, _, rfl, rfl, ?_⟩
    generalize (2 : ℤ) ^ w = B at *
    by_cases hev : (r.1.toNat : ℤ) % 2 = 0 <;> by_cases hp : st.uLast > 0 <;> simp only [hev, hp, if_true, if_false, beq_iff_eq] <;>
      refine ⟨⟨?_, ?_, ?_⟩, ⟨?_, ?_, ?_, fun hz => ⟨?_, ?_⟩⟩, ?_⟩ <;> (try ring_nf) <;> omega
  rw [he1, he2]
  obtain ⟨d1, d2, d3⟩ := hd
  obtain ⟨u1, u2, u3, u4⟩ := hu'
  rw [i32_pure (by omega) (by omega), pure_bind, i32_pure (by omega) (by omega), pure_bind,
    i32_pure (by rcases hsign with rfl | rfl <;> omega) (by rcases hsign with rfl | rfl <;> omega), pure_bind,
    setIdx_pure _ (by rw [h.len]; exact hL), pure_bind]
  have hsq : sign * sign = 1 := by rcases hsign with rfl | rfl <;> rfl
  refine runs_pure ⟨by simpa using h.len, hs', u1, u2, u3, ?_, ?_, fun _ => rfl, fun hle _ => u4 (htop hle)⟩
  · dsimp only
    rw [take_succ_set _ _ _ (by rw [h.len]; exact hL), digitSum_append, hlen, hpw0, hpw, hpw1]
    rw [hpw1] at hsum
    linear_combination hsum + d * 2 ^ (w * word) * hsq + 2 ^ (w * word) * hsp
  · dsimp only
    rw [take_succ_set _ _ _ (by rw [h.len]; exact hL)]
    intro x hx
    rcases List.mem_append.1 hx with hx | hx
    · exact h.dig x hx
    · rw [List.mem_singleton] at hx
      rcases hsign with rfl | rfl <;> subst hx
      · rw [mul_one]; exact ⟨d1, d2, d3⟩
      · refine ⟨by omega, by omega, by omega⟩

/-- What `ecmult_wnaf_const` returns: odd digits to base `2 ^ w` representing `v = a + skew` modulo `n`. -/
structure WnafConst (w a : ℕ) (r : List ℤ × ℤ) : Prop where
  len : r.1.length = (256 + w - 1) / w + 1
  skew : r.2 = 1 ∨ r.2 = 2
  sum : digitSum (2 ^ w) r.1 = a + r.2 ∨ digitSum (2 ^ w) r.1 = a + r.2 - n
  bound : 2 * |digitSum (2 ^ w) r.1| ≤ n + 1
  dig : ∀ d ∈ r.1, d % 2 = 1 ∧ -2 ^ w < d ∧ d < 2 ^ w
  top : ∀ d, r.1[(256 + w - 1) / w]? = some d → -1 ≤ d ∧ d ≤ 1

theorem skew_arith {v N : ℕ} {nno bit flip : Bool} (ha : v < N) (hn2 : N % 2 = 1) (hn3 : 100 < N)
    (hbt : bit = true ↔ ((N - 1) / 2 ≤ v ↔ v % 2 = 0)) (hhi : flip = true ↔ (N - 1) / 2 ≤ v) (hnt : nno = true ↔ v ≠ N - 1) :
    v + (if nno then 2 ^ (if bit then 1 else 0) else 0) < N ∧
    ∀ s, s = v + (if nno then 2 ^ (if bit then 1 else 0) else 0) → s ≠ 0 ∧ ∀ r, r = (if flip then N - s else s) →
      r % 2 = 1 ∧ 2 * r ≤ N + 1 ∧
      (((if flip then (-1 : ℤ) else 1) * ((if nno then 1 else 0) * 2 - 1)) * r = v + (if bit then 2 else 1) ∨
       ((if flip then (-1 : ℤ) else 1) * ((if nno then 1 else 0) * 2 - 1)) * r = v + (if bit then 2 else 1) - N) := by
  obtain ⟨M, rfl⟩ : ∃ M, N = 2 * M + 1 := ⟨N / 2, by omega⟩
  rw [show (2 * M + 1 - 1) / 2 = M by omega] at *
  rw [show 2 * M + 1 - 1 = 2 * M by omega] at hnt
  cases nno <;> cases bit <;> cases flip <;>
    simp only [Bool.false_eq_true, false_iff, true_iff, if_true, if_false, pow_zero, pow_one, ne_eq, not_not, not_le] at hbt hhi hnt ⊢ <;>
    (refine ⟨?_, fun s hs => ⟨?_, fun r hr => ⟨?_, ?_, ?_⟩⟩⟩ <;> omega)

/-- The skewed scalar: odd, at most half the order, and congruent up to sign to `a + skew`. -/
theorem wnafConst_skew {a : Scalar} (ha : a.val < n) {β : Type} {f : Scalar → Exec β} {Q : β → Prop} {flip bit nno : Bool}
    (hflip : flip = a.isHigh) (hbit : bit = (flip ^^ !a.isEven)) (hnno : nno = decide (a.val ≠ n - 1))
    (hf : ∀ s : Scalar, s.val % 2 = 1 → 2 * s.val ≤ n + 1 →
      (((if flip then (-1 : ℤ) else 1) * ((if nno then 1 else 0) * 2 - 1)) * s.val = a.val + (if bit then 2 else 1) ∨
       ((if flip then (-1 : ℤ) else 1) * ((if nno then 1 else 0) * 2 - 1)) * s.val = a.val + (if bit then 2 else 1) - n) → Runs (f s) Q) :
    Runs (Scalar.caddBit a (if bit then 1 else 0) nno >>= fun s => Scalar.condNeg s flip >>= f) Q := by
  have hn2 : n % 2 = 1 := by decide +kernel
  have hn3 : 100 < n := by decide +kernel
  have hev := Scalar.isEven_iff a
  have hhi : flip = true ↔ (n - 1) / 2 ≤ a.val := by rw [hflip]; exact Scalar.isHigh_iff a
  have hbt : bit = true ↔ (flip = true ↔ a.val % 2 = 0) := by
    rw [← hev, hbit]; cases flip <;> cases a.isEven <;> decide
  have hnt : nno = true ↔ a.val ≠ n - 1 := by rw [hnno, decide_eq_true_eq]
  rw [hhi] at hbt
  clear hflip hbit hnno hev
  obtain ⟨hadd, hfin⟩ := skew_arith ha hn2 hn3 hbt hhi hnt
  refine Runs.bind (Scalar.caddBit_runs a nno (by split <;> norm_num) hadd) fun s hs => ?_
  obtain ⟨hs0, hfin⟩ := hfin s.val hs
  rw [← hs] at hadd
  have hr : Runs (Scalar.condNeg s flip) (fun r => r.val = if flip then n - s.val else s.val) := by
    cases flip with
    | true =>
      refine (Scalar.condNeg_true_runs hadd).mono fun r hr => ?_
      rw [hr, if_pos rfl, Nat.mod_eq_of_lt (Nat.sub_lt (Nat.pos_of_ne_zero (Nat.ne_of_gt (Nat.zero_lt_of_lt hadd))) (Nat.pos_of_ne_zero hs0))]
    | false => rw [Scalar.condNeg_false]; exact runs_pure rfl
  refine Runs.bind hr fun r hr => ?_
  obtain ⟨h1, h2, h3⟩ := hfin r.val hr
  exact hf r h1 h2 h3

theorem ecmultWnafConst_runs {a : Scalar} {w : ℕ} {wnaf : List ℤ} (ha : a.val < n) (hw : 0 < w) (hw' : w < 16)
    (hl : wnaf.length = (256 + w - 1) / w + 1) :
    Runs (ecmultWnafConst wnaf a w) (fun r => WnafConst w a.val r) := by
  unfold ecmultWnafConst
  simp only [wnafBits]
  have hK : 256 ≤ w * ((256 + w - 1) / w) := by
    have := Nat.div_add_mod (256 + w - 1) w
    have := Nat.mod_lt (256 + w - 1) hw
    omega
  have hK0 : 0 < (256 + w - 1) / w := Nat.div_pos (by omega) hw
  have hgoal : ∀ r, (r.1.length = (256 + w - 1) / w + 1 ∧ (r.2 = 1 ∨ r.2 = 2) ∧
      (digitSum (2 ^ w) r.1 = a.val + r.2 ∨ digitSum (2 ^ w) r.1 = a.val + r.2 - n) ∧ 2 * |digitSum (2 ^ w) r.1| ≤ n + 1 ∧
      (∀ d ∈ r.1, d % 2 = 1 ∧ -2 ^ w < d ∧ d < 2 ^ w) ∧ (∀ d, r.1[(256 + w - 1) / w]? = some d → -1 ≤ d ∧ d ≤ 1)) → WnafConst w a.val r :=
    fun r ⟨h1, h2, h3, h4, h5, h6⟩ => ⟨h1, h2, h3, h4, h5, h6⟩
  refine Runs.mono ?_ hgoal
  clear hgoal
  generalize (256 + w - 1) / w = K at *
  refine Runs.bind (Scalar.neg_runs ha) fun negS hneg => ?_
  have hn3 : 100 < n := by decide +kernel
  have hnno : (!negS.isOne) = decide (a.val ≠ n - 1) := by
    have := Scalar.isOne_iff negS
    rw [hneg] at this
    rw [Bool.eq_iff_iff, Bool.not_eq_true', decide_eq_true_eq, ← not_iff_not, Bool.not_eq_false, this, not_not]
    constructor
    · intro h
      rcases Nat.eq_zero_or_pos a.val with h0 | h0
      · rw [h0, Nat.sub_zero, Nat.mod_self] at h; omega
      · rw [Nat.mod_eq_of_lt (by omega)] at h; omega
    · intro h; rw [h, show n - (n - 1) = 1 by omega, Nat.mod_eq_of_lt (by omega)]
  refine wnafConst_skew ha rfl rfl hnno fun s hodd hle hval => ?_
  generalize hsg : ((if a.isHigh then (-1 : ℤ) else 1) * ((if (!negS.isOne) then 1 else 0) * 2 - 1)) = sign at *
  have hsign : sign = 1 ∨ sign = -1 := by
    rw [← hsg]; split <;> split <;> simp
  generalize hbit : (a.isHigh ^^ !a.isEven) = bit at *
  have hn : n < 2 ^ 256 := by decide +kernel
  have hn' : n + 1 < 2 ^ 256 := by decide +kernel
  refine Runs.bind (Scalar.shrInt_runs s hw hw') fun r ⟨hr1, hr2⟩ => ?_
  rw [rassert_true (by simpa using hw), pure_bind]
  have hB2 : (2 : ℤ) ^ w % 2 = 0 := by
    obtain ⟨k, rfl⟩ : ∃ k, w = k + 1 := ⟨w - 1, by omega⟩
    rw [pow_succ]; omega
  have hB : (2 : ℤ) ^ w ≤ 32768 := by
    calc (2 : ℤ) ^ w ≤ 2 ^ 15 := pow_le_pow_right₀ (by norm_num) (by omega)
      _ = _ := by norm_num
  have hsplit : s.val = r.1.toNat + 2 ^ w * r.2.val := by
    rw [hr1, hr2]; exact (Nat.mod_add_div _ _).symm
  have hinit : WnafConstInv s.val (K + 1) w sign 0 ⟨r.2, r.1.toNat, 0, wnaf⟩ := by
    refine ⟨hl, by rw [hr2]; simp, ?_, ?_, ?_, ?_, by simp, by simp, by simp⟩
    · have : (s.val : ℤ) = r.1.toNat + 2 ^ w * r.2.val := by exact_mod_cast hsplit
      have h3 : ((2 : ℤ) ^ w * r.2.val) % 2 = 0 := by rw [Int.mul_emod, hB2]; simp
      dsimp only; omega
    · have : (0 : ℤ) < 2 ^ w := by positivity
      dsimp only; omega
    · dsimp only; rw [hr1]; exact_mod_cast Nat.mod_lt _ (by positivity)
    · dsimp only
      have : (s.val : ℤ) = r.1.toNat + 2 ^ w * r.2.val := by exact_mod_cast hsplit
      rw [this]; simp [digitSum]; ring
  refine Runs.bind (forN_runs (WnafConstInv s.val (K + 1) w sign) _ _ hinit
    (fun i st hi h => wnafConstStep_runs (by omega) hw hw' hsign (by omega) h)) fun st hst => ?_
  have hu := hst.u hK0
  have hlo := hst.lo; have hhi := hst.hi; have hodd' := hst.odd
  have htop := hst.top (by rw [Nat.mul_add]; omega) hK0
  rw [i32_pure (by rw [hu] at *; rcases hsign with rfl | rfl <;> omega) (by rw [hu] at *; rcases hsign with rfl | rfl <;> omega), pure_bind,
    setIdx_pure _ (by rw [hst.len]; omega), pure_bind]
  have hs0 : st.s.val = 0 := by
    rw [hst.s]; apply Nat.div_eq_of_lt
    have : s.val < 2 ^ 256 := by omega
    exact this.trans_le (Nat.pow_le_pow_right (by norm_num) (by rw [Nat.mul_add]; omega))
  refine runs_dassert ((Scalar.isZero_iff _).2 hs0) (runs_pure ?_)
  have hlen : (st.wnaf.take (K)).length = K := by
    rw [List.length_take, hst.len]; omega
  have hfull : st.wnaf.set (K) (st.u * sign) = st.wnaf.take (K) ++ [st.u * sign] := by
    rw [← take_succ_set _ _ _ (by rw [hst.len]; omega), List.take_of_length_le]
    rw [List.length_set, hst.len]
  have hsq : sign * sign = 1 := by rcases hsign with rfl | rfl <;> rfl
  have hsum : digitSum (2 ^ w) (st.wnaf.set (K) (st.u * sign)) = sign * s.val := by
    rw [hfull, digitSum_append, hlen, ← pow_mul, ← hst.sum, hs0, hu]
    push_cast
    linear_combination (-digitSum (2 ^ w) (st.wnaf.take (K))) * hsq
  refine ⟨?_, ?_, ?_, ?_, ?_, ?_⟩ <;> dsimp only
  · rw [List.length_set, hst.len]
  · cases bit <;> simp
  · rw [hsum]
    cases bit <;> simpa using hval
  · rw [hsum]
    have : |sign * (s.val : ℤ)| = s.val := by
      rcases hsign with rfl | rfl <;> simp
    rw [this]; exact_mod_cast hle
  · rw [hfull]
    intro x hx
    rcases List.mem_append.1 hx with hx | hx
    · exact hst.dig x hx
    · rw [List.mem_singleton] at hx
      rw [hu] at hx
      rcases hsign with rfl | rfl <;> subst hx
      · rw [mul_one]; exact ⟨hodd', hlo, hhi⟩
      · refine ⟨by omega, by omega, by omega⟩
  · intro d hd
    rw [List.getElem?_set_self (by rw [hst.len]; omega)] at hd
    obtain rfl := Option.some.inj hd
    rcases hsign with rfl | rfl <;> omega

end Ecmult

end Verif
