import Verif.Proofs.DerStrict
import Verif.Proofs.DerSafe

/-! When the strict methods of the decoder overflow `usize`, exactly. -/

namespace Verif
open Spec

section
variable {W : ℕ} {pre rest : List UInt8}

theorem SimAt.debug_some {α : Type} {x : Dec α} {f : Pa α} (h : SimAt pre rest x f) : exec x ⟨pre ++ rest, pre.length⟩ .debug ≠ none := by
  rcases h with ⟨_, h⟩ | ⟨a, c, t, _, _, h⟩
  all_goals
    rw [h]
    exact fun h => by cases h

theorem SimR.bind_none_iff {α β : Type} {R : Option α} {x : Dec α} {g : α → Dec β} {f : Pa α} (hx : SimR W R pre rest x f) :
    exec (x >>= g) ⟨pre ++ rest, pre.length⟩ .debug = none ↔ exec x ⟨pre ++ rest, pre.length⟩ .debug = none ∨
      ∃ a c t, rest = c ++ t ∧ f rest = some (a, t) ∧ exec (g a) ⟨(pre ++ c) ++ t, (pre ++ c).length⟩ .debug = none := by
  constructor
  · intro h
    rcases hx with (⟨_, h2⟩ | ⟨a, c, t, hr, h1, h2⟩) | ⟨_, h2, _⟩
    · rw [SimAt.dec_bind_err h2] at h; cases h
    · right
      refine ⟨a, c, t, hr, h1, ?_⟩
      rw [SimAt.dec_bind_ok h2] at h
      rwa [List.append_assoc, ← hr]
    · exact .inl h2
  · rintro (h | ⟨a, c, t, hr, h1, h⟩)
    · exact bind_debug_none h
    · rcases hx with (⟨h1', _⟩ | ⟨a', c', t', hr', h1', h2⟩) | ⟨h1', _⟩
      · rw [h1] at h1'; cases h1'
      · rw [h1] at h1'
        cases h1'
        have : c' = c := List.append_cancel_right (hr'.symm.trans hr)
        subst this
        rw [SimAt.dec_bind_ok h2]
        rwa [List.append_assoc, ← hr] at h
      · rw [h1] at h1'; cases h1'

theorem SimAt.bind_none_iff {α β : Type} {x : Dec α} {g : α → Dec β} {f : Pa α} (hx : SimAt pre rest x f) :
    exec (x >>= g) ⟨pre ++ rest, pre.length⟩ .debug = none ↔
      ∃ a c t, rest = c ++ t ∧ f rest = some (a, t) ∧ exec (g a) ⟨(pre ++ c) ++ t, (pre ++ c).length⟩ .debug = none := by
  rw [SimR.bind_none_iff (W := 0) (R := none) hx.toR, or_iff_right hx.debug_some]

theorem pow_W (hW : W = 32 ∨ W = 64) : 2 ^ W = 256 ^ (W / 8) ∧ 2 ^ W = 2 ^ (W - 8) * 256 ∧ 2 ^ 24 ≤ 2 ^ (W - 8) := by
  rcases hW with rfl | rfl <;> norm_num

theorem loop_bound {A r b k : ℕ} (h : r * 256 + b < A) (h2 : 2 ^ 24 ≤ A) (hk : k ≤ 8) : r * 256 < A * 256 ∧ r * 256 + b + (k + 1) < A * 256 := by
  omega

theorem W8 (hW : W = 32 ∨ W = 64) : W / 8 ≤ 8 := by rcases hW with rfl | rfl <;> norm_num

/-- If the loop overflows, it has read `2 ^ W - 1`. -/
theorem readLenLoop_none (hW : W = 32 ∨ W = 64) : ∀ {k ret : Nat} {pre rest : List UInt8}, Small W (pre.length + rest.length) → k ≤ W / 8 →
    ret < 256 ^ (W / 8 - k) → (ret = 0 ∨ ret + k < rest.length) →
    exec (Decoder.readLenLoop W k ret) ⟨pre ++ rest, pre.length⟩ .debug = none →
    ∃ c t, rest = c ++ t ∧ c.length = k ∧ ret * 256 ^ k + beNat c = 2 ^ W - 1 ∧ 2 ^ (W - 8) ≤ t.length
  | 0, ret, pre, rest, _, _, _, _, h => by cases h
  | k + 1, ret, pre, rest, hs, hk, hret, hr, h => by
    unfold Decoder.readLenLoop at h
    obtain ⟨b, c, t, e, hb, h⟩ := (SimAt.bind_none_iff (sim_read hs.full)).1 h
    have h8 := u8_le b
    have hs' := hs.step e
    have hc : rest = b :: t := by
      cases rest with
      | nil => cases hb
      | cons b' r =>
        cases (Option.some.inj hb : (b', r) = (b, t))
        rfl
    subst hc
    obtain rfl : c = [b] := List.append_cancel_right (e.symm : c ++ t = [b] ++ t)
    clear e
    obtain ⟨hp1, hp2, hp3⟩ := pow_W hW
    have hpow : 256 ^ (W / 8 - k) = 256 ^ (W / 8 - (k + 1)) * 256 := by
      rw [← pow_succ]; congr 1; omega
    have hret' : ret * 256 + b.toNat < 256 ^ (W / 8 - k) := by rw [hpow]; omega
    have hmax : 256 ^ (W / 8 - k) ≤ 2 ^ W := by
      rw [hp1]
      exact Nat.pow_le_pow_right (by omega) (by omega)
    rw [shl8U_or (lt_of_le_of_lt (Nat.le_add_right _ _) (hret'.trans_le hmax))] at h
    have hlen : (b :: t).length = t.length + 1 := rfl
    by_cases hov : ret * 256 + b.toNat + (k + 1) < 2 ^ W
    · rw [exec_lift (addU_pure hov), SimAt.dec_bind_ok exec_len] at h
      split at h
      · cases h
      · rename_i hle
        obtain ⟨c, u, rfl, hc, hv, hu⟩ := readLenLoop_none hW hs' (by omega) hret' (Or.inr (by clear hpow hret hret' hmax hp1 hp2 hp3; omega)) h
        refine ⟨b :: c, u, rfl, by rw [List.length_cons, hc], ?_, hu⟩
        rw [← hv, beNat_cons, hc, pow_succ]; ring
    · have hk0 : k = 0 := by
        by_contra h0
        have h1 : 256 ^ (W / 8 - k) ≤ 256 ^ (W / 8 - 1) := Nat.pow_le_pow_right (by omega) (by omega)
        have h2 : 256 ^ (W / 8 - 1) = 2 ^ (W - 8) := by rcases hW with rfl | rfl <;> norm_num
        have h3 := W8 hW
        omega
      subst hk0
      refine ⟨[b], t, rfl, rfl, ?_, ?_⟩
      · rw [beNat_single]; omega
      · omega

/-- If the loop reads `2 ^ W - 1` and enough bytes are left, it overflows. -/
theorem readLenLoop_wrap (hW : W = 32 ∨ W = 64) {t : List UInt8} (ht : 2 ^ (W - 8) ≤ t.length) : ∀ {k ret : Nat} {pre c : List UInt8},
    Small W (pre.length + (c ++ t).length) → c.length = k + 1 → k < W / 8 → ret * 256 ^ (k + 1) + beNat c = 2 ^ W - 1 →
    exec (Decoder.readLenLoop W (k + 1) ret) ⟨pre ++ (c ++ t), pre.length⟩ .debug = none ∧
    exec (Decoder.readLenLoop W (k + 1) ret) ⟨pre ++ (c ++ t), pre.length⟩ .release =
      some (.ok (2 ^ W - 1, ⟨(pre ++ c) ++ t, (pre ++ c).length⟩)) := by
  intro k
  induction k with
  | zero =>
    intro ret pre c hs hc _ hv
    obtain ⟨b, rfl⟩ := List.length_eq_one_iff.1 hc
    rw [beNat_single, zero_add, pow_one] at hv
    have hpos : 0 < 2 ^ W := by positivity
    have hfull := hs.full
    have hl : (([b] ++ t) : List UInt8).length = t.length + 1 := by simp
    unfold Decoder.readLenLoop
    rw [show pre ++ ([b] ++ t) = pre ++ b :: t from rfl, SimAt.dec_bind_ok (exec_read (by omega)), shl8U_or (by omega), hv]
    refine ⟨bind_debug_none (lift_debug_none (addU_debug (by omega))), ?_⟩
    rw [bind_release_ok (lift_release addU_release)]
    have : (2 ^ W - 1 + (0 + 1)) % 2 ^ W = 0 := by
      rw [show 2 ^ W - 1 + (0 + 1) = 2 ^ W by omega, Nat.mod_self]
    rw [this, SimAt.dec_bind_ok exec_len, if_neg (by omega)]
    rfl
  | succ k ih =>
    intro ret pre c hs hc hk hv
    cases c with
    | nil => cases hc
    | cons b c =>
      have hc' : c.length = k + 1 := by simpa using hc
      obtain ⟨hp1, hp2, hp3⟩ := pow_W hW
      have hfull := hs.full
      have hl : ((b :: c) ++ t).length = c.length + 1 + t.length := by simp; omega
      have hv' : (ret * 256 + b.toNat) * 256 ^ (k + 1) + beNat c = 2 ^ W - 1 := by
        rw [← hv, beNat_cons, hc', pow_succ 256 (k + 1)]; ring
      have hsm : ret * 256 + b.toNat < 2 ^ (W - 8) := by
        by_contra h
        have h1 : 2 ^ (W - 8) * 256 ≤ (ret * 256 + b.toNat) * 256 ^ (k + 1) :=
          Nat.mul_le_mul (by omega) (by rw [pow_succ]; exact Nat.le_mul_of_pos_left _ (by positivity))
        have : 0 < 2 ^ W := by positivity
        omega
      have h3 : k + 1 ≤ 8 := (by omega : k + 1 ≤ W / 8).trans (W8 hW)
      have hs' : Small W ((pre ++ [b]).length + (c ++ t).length) := hs.step rfl
      have g1 : pre.length + 1 < 2 ^ W := by clear hv hv' hp1; omega
      have g2 : ret * 256 < 2 ^ W := by
        rw [hp2]; exact (loop_bound hsm hp3 h3).1
      have g3 : ret * 256 + b.toNat + (k + 1 + 1) < 2 ^ W := by
        rw [hp2]; exact (loop_bound hsm hp3 h3).2
      have g4 : ¬ ret * 256 + b.toNat + (k + 1 + 1) > (c ++ t).length := by
        rw [List.length_append]; clear hv hv' hp1 hp2 hfull; omega
      have hstep : exec (Decoder.readLenLoop W (k + 1 + 1) ret) ⟨pre ++ (b :: c ++ t), pre.length⟩ =
          exec (Decoder.readLenLoop W (k + 1) (ret * 256 + b.toNat)) ⟨(pre ++ [b]) ++ (c ++ t), (pre ++ [b]).length⟩ := by
        rw [Decoder.readLenLoop, List.cons_append, SimAt.dec_bind_ok (exec_read g1), shl8U_or g2,
          exec_lift (addU_pure g3), SimAt.dec_bind_ok exec_len, if_neg g4]
      rw [hstep]
      obtain ⟨h1, h2⟩ := ih hs' hc' (by omega) hv'
      refine ⟨h1, h2.trans ?_⟩
      rw [List.append_assoc pre [b] c]; rfl

theorem derLen_huge (hW : W = 32 ∨ W = 64) {L : List UInt8} (h : DerLen L (2 ^ W - 1)) : ∃ (b : UInt8) (c : List UInt8),
    L = b :: c ∧ b.toNat = 128 + c.length ∧ c.length = W / 8 ∧ beNat c = 2 ^ W - 1 := by
  obtain ⟨hp1, hp2, hp3⟩ := pow_W hW
  rcases h with ⟨b, hb, _, hv⟩ | ⟨b, c, hb, _, rfl, hv, _, hmin⟩
  · omega
  · refine ⟨b, c, rfl, hb, ?_, hv.symm⟩
    have h1 := beNat_lt c
    have h2 : 256 ^ (c.length - 1) < 256 ^ (W / 8) := by omega
    have h3 : c.length - 1 < W / 8 := (Nat.pow_lt_pow_iff_right (by omega)).1 h2
    have h4 : ¬ c.length < W / 8 := fun h => by
      have h5 : 256 ^ c.length ≤ 256 ^ (W / 8 - 1) := Nat.pow_le_pow_right (by omega) (by omega)
      have h6 : 256 ^ (W / 8 - 1) = 2 ^ (W - 8) := by rcases hW with rfl | rfl <;> norm_num
      omega
    omega

/-- `read_len` overflows. -/
theorem readLen_wrap (hs : Small W (pre.length + rest.length)) {L t : List UInt8} (e : rest = L ++ t) (hL : DerLen L (2 ^ W - 1))
    (ht : 2 ^ (W - 8) ≤ t.length) :
    exec (Decoder.readLen W) ⟨pre ++ rest, pre.length⟩ .debug = none ∧
    exec (Decoder.readLen W) ⟨pre ++ rest, pre.length⟩ .release = some (.ok (2 ^ W - 1, ⟨(pre ++ L) ++ t, (pre ++ L).length⟩)) := by
  subst e
  have hW := hs.1
  obtain ⟨hp1, hp2, hp3⟩ := pow_W hW
  obtain ⟨b, c, rfl, hb, hc, hv⟩ := derLen_huge hW hL
  have hfull := hs.full
  have h4 : W / 8 = 4 ∨ W / 8 = 8 := by clear * - hW; rcases hW with rfl | rfl <;> norm_num
  rw [← hc] at h4
  cases c with
  | nil => simp at h4
  | cons a c =>
    have ha : a ≠ 0 := by
      rintro rfl
      have h1 := beNat_lt c
      rw [beNat_cons] at hv
      have h0 : (0 : UInt8).toNat = 0 := rfl
      rw [List.length_cons] at hc
      have h5 : 256 ^ c.length ≤ 256 ^ (W / 8 - 1) := Nat.pow_le_pow_right (by omega) (by omega)
      have h6 : 256 ^ (W / 8 - 1) = 2 ^ (W - 8) := by rcases hW with rfl | rfl <;> norm_num
      rw [h0] at hv
      omega
    have hlow : (b &&& 0x7f).toNat = (a :: c).length := by rw [u8_low]; omega
    have h1 : ¬ (b == 0xff) = true := by
      intro h
      rw [show b = 0xff by simpa using h] at hb
      have : (0xff : UInt8).toNat = 255 := rfl
      omega
    have h2 : ¬ (b &&& 0x80 == 0) = true := by rw [u8_high]; omega
    have h3 : ¬ (b == 0x80) = true := by
      intro h
      rw [show b = 0x80 by simpa using h] at hb
      have : (0x80 : UInt8).toNat = 128 := rfl
      omega
    have hs' : Small W ((pre ++ [b]).length + (a :: c ++ t).length) := hs.step rfl
    have hfull' := hs'.full
    obtain ⟨k, hk⟩ : ∃ k, (a :: c).length = k + 1 := ⟨_, rfl⟩
    obtain ⟨hd, hr⟩ := readLenLoop_wrap hW ht (k := k) (ret := 0) hs' hk (by omega) (by omega)
    have key : exec (Decoder.readLen W) ⟨pre ++ (b :: (a :: c) ++ t), pre.length⟩ =
        exec (Decoder.readLenLoop W (k + 1) 0 >>= fun ret => if ret < 128 then Decoder.fail else pure ret)
          ⟨(pre ++ [b]) ++ (a :: c ++ t), (pre ++ [b]).length⟩ := by
      unfold Decoder.readLen
      rw [List.cons_append, SimAt.dec_bind_ok (exec_read (by simp at hfull; omega)), if_neg h1, if_neg h2, if_neg h3]
      unfold Decoder.readLenLong
      rw [SimAt.dec_bind_ok exec_len, hlow, if_neg (by rw [List.length_append]; omega), List.cons_append,
        SimAt.dec_bind_ok (exec_peek (by omega)), if_neg (by simpa using ha), if_neg (by omega), hk]
    rw [key]
    refine ⟨bind_debug_none hd, ?_⟩
    rw [bind_release_ok hr, if_neg (by omega), List.append_assoc pre [b] (a :: c)]
    rfl

theorem readLen_none_iff (hs : Small W (pre.length + rest.length)) :
    exec (Decoder.readLen W) ⟨pre ++ rest, pre.length⟩ .debug = none ↔ HugeLen W rest := by
  constructor
  · intro h
    have hW := hs.1
    obtain ⟨hp1, hp2, hp3⟩ := pow_W hW
    unfold Decoder.readLen at h
    obtain ⟨b, c, t, e, hb, h⟩ := (SimAt.bind_none_iff (sim_read hs.full)).1 h
    have hs' := hs.step e
    have hc : rest = b :: t := by
      cases rest with
      | nil => cases hb
      | cons b' r =>
        cases (Option.some.inj hb : (b', r) = (b, t))
        rfl
    subst hc
    obtain rfl : c = [b] := List.append_cancel_right (e.symm : c ++ t = [b] ++ t)
    clear e
    split at h
    · cases h
    rename_i hff
    split at h
    · cases h
    rename_i hhi
    rw [u8_high] at hhi
    split at h
    · cases h
    rename_i h80
    unfold Decoder.readLenLong at h
    rw [SimAt.dec_bind_ok exec_len] at h
    split at h
    · cases h
    have hfull := hs'.full
    obtain ⟨a, c', t', e', ha, h⟩ := (SimAt.bind_none_iff (sim_peek (by omega))).1 h
    simp only [Pa.peek, Option.map_eq_some_iff, Prod.mk.injEq] at ha
    obtain ⟨a', ha, rfl, rfl⟩ := ha
    have : c' = [] := by
      have : t.length = c'.length + t.length := by rw [← List.length_append, ← e']
      exact List.length_eq_zero_iff.1 (by omega)
    subst this
    rw [List.append_nil] at h
    split at h
    · cases h
    rename_i ha0
    split at h
    · cases h
    rename_i hle
    have hl := sim_readLenLoop hW hs' (k := (b &&& 0x7f).toNat) (ret := 0) (by omega) (by positivity) (Or.inl rfl)
    rcases hl.bind_none_iff.1 h with h | ⟨v, c, t, _, _, h⟩
    · obtain ⟨c, u, rfl, hc, hv, hu⟩ := readLenLoop_none hW hs' (by omega) (by positivity) (Or.inl rfl) h
      rw [zero_mul, zero_add] at hv
      rw [u8_low] at hc hle
      have h8 := u8_le b
      refine ⟨b :: c, u, rfl, Or.inr ⟨b, c, by omega, ?_, rfl, hv.symm, by omega, ?_⟩, hu⟩
      · have := W8 hW
        omega
      · rw [← hv]
        cases c with
        | nil => rw [beNat_nil] at hv; omega
        | cons x c =>
          obtain rfl : x = a' := by simpa using ha
          exact le_beNat_cons (by simpa using ha0)
    · split at h <;> cases h
  · rintro ⟨L, t, e, hL, ht⟩
    exact (readLen_wrap hs e hL ht).1

theorem readInteger_none_iff (hs : Small W (pre.length + rest.length)) :
    exec (Decoder.readInteger W) ⟨pre ++ rest, pre.length⟩ .debug = none ↔ ∃ l, rest = 2 :: l ∧ HugeLen W l := by
  unfold Decoder.readInteger
  rw [SimAt.bind_none_iff (sim_read hs.full)]
  constructor
  · rintro ⟨b, c, t, e, hb, h⟩
    have hs := hs.step e
    split at h
    · cases h
    rename_i hb2
    obtain rfl : b = 2 := by simpa using hb2
    have hc : rest = 2 :: t := by
      cases rest with
      | nil => cases hb
      | cons b' r =>
        cases (Option.some.inj hb : (b', r) = (2, t))
        rfl
    rcases (sim_readLen hs).bind_none_iff.1 h with h | ⟨k, c', t', e', _, h⟩
    · exact ⟨t, hc, (readLen_none_iff hs).1 h⟩
    · exfalso
      have hs := hs.step e'
      revert h
      refine SimAt.debug_some (f := do
        let rem ← Pa.len
        if k == 0 || decide (k > rem) then Pa.fail
        else do
          let bad ← Pa.badLead 0x00 k
          if bad then Pa.fail
          else do
            let bad ← Pa.badLead 0xff k
            if bad then Pa.fail
            else do
              let b ← Pa.peek 0
              let rlen ← Pa.skipZeros k
              Pa.finishInt ((b &&& 0x80 == 0x80) || decide (rlen > 32)) rlen) ?_
      refine SimAt.bind_len (SimAt.ite (fun _ => SimAt.fail) fun _ => (sim_badLead hs).bind fun _ c t e _ => ?_)
      have hs := hs.step e
      refine SimAt.ite (fun _ => SimAt.fail) fun _ => (sim_badLead hs).bind fun _ c t e _ => ?_
      have hs := hs.step e
      refine SimAt.ite (fun _ => SimAt.fail) fun _ => SimAt.bind_peek (by have := hs.full; omega) fun b _ => ?_
      refine (sim_skipZeros hs).bind fun k c t e _ => ?_
      exact sim_finishInt (hs.step e) (by simp)
  · rintro ⟨l, rfl, h⟩
    have hs' : Small W ((pre ++ [2]).length + l.length) := hs.step rfl
    refine ⟨2, [2], l, rfl, rfl, ?_⟩
    rw [if_neg (by decide)]
    exact bind_debug_none ((readLen_none_iff hs').2 h)

end

end Verif
