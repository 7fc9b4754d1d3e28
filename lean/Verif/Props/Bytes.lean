import Verif.Spec.Api
import Verif.Proofs.Bytes

/-!
# Properties of the byte interfaces of secret keys, messages and signatures
(C01–C06, C10, C11, C45, C48–C50, C53)
-/

namespace Verif.Props
open Verif Spec

/-! ## Secret keys -/

/-- C01. -/
theorem C01_secret_parse (b : Vector UInt8 32) :
    (0 < beNat b.toList ∧ beNat b.toList < n →
      ∃ k, SecretKey.parse b = pure (.ok k) ∧ secretInt k = beNat b.toList) ∧
    (¬ (0 < beNat b.toList ∧ beNat b.toList < n) → SecretKey.parse b = pure (.error .invalidSecretKey)) := by
  obtain ⟨⟨a, o⟩, hr, h1, h2⟩ := Scalar.setB32_runs b
  dsimp only at h1 h2
  unfold SecretKey.parse SecretKey.tryFrom
  rw [hr, pure_bind]
  dsimp only
  constructor
  · rintro ⟨h3, h4⟩
    rw [Nat.mod_eq_of_lt h4] at h2
    have ho : o = false := by rw [h1]; exact decide_eq_false (by omega)
    have hz : a.isZero = false := by
      rw [Bool.eq_false_iff, ne_eq, Scalar.isZero_iff]; omega
    rw [ho, hz]
    exact ⟨⟨a⟩, rfl, h2⟩
  · intro h
    cases ho : o with
    | true => rfl
    | false =>
      have : beNat b.toList < n := by
        rw [ho] at h1
        have := of_decide_eq_false h1.symm; omega
      have h0 : beNat b.toList = 0 := by omega
      have hz : a.isZero = true := by rw [Scalar.isZero_iff, h2, h0]; rfl
      rw [hz]; rfl

/-- The accepted range is not empty and contains the largest key. -/
example : ∃ b : Vector UInt8 32, 0 < beNat b.toList ∧ beNat b.toList < n ∧ beNat b.toList = n - 1 := by
  obtain ⟨b, hb⟩ := exists_b32 (v := n - 1) (by decide +kernel)
  exact ⟨b, by rw [hb]; decide +kernel, by rw [hb]; decide +kernel, hb⟩

/-- C02. -/
theorem C02_secret_roundtrip :
    (∀ (b : Vector UInt8 32) (k : SecretKey), SecretKey.parse b = pure (.ok k) → SecretKey.serialize k = b ∧ ValidSecret k) ∧
    (∀ k : SecretKey, ValidSecret k → SecretKey.parse (SecretKey.serialize k) = pure (.ok k)) := by
  constructor
  · intro b k h
    obtain ⟨h1, h2⟩ := C01_secret_parse b
    by_cases hv : 0 < beNat b.toList ∧ beNat b.toList < n
    · obtain ⟨k', hk, hv'⟩ := h1 hv
      rw [hk] at h
      have : k' = k := by simpa using pure_inj' h
      subst this
      refine ⟨vec_inj ?_, ?_⟩
      · apply Verif.beNat_inj (by simp)
        exact (Scalar.beNat_b32 _).trans hv'
      · unfold ValidSecret; unfold secretInt at hv'; rwa [hv']
    · rw [h2 hv] at h
      exact absurd (pure_inj' h) (by simp)
  · intro k hk
    have e : beNat (SecretKey.serialize k).toList = k.sc.val := Scalar.beNat_b32 _
    obtain ⟨k', h1, h2⟩ := (C01_secret_parse (SecretKey.serialize k)).1 (by rw [e]; exact hk)
    rw [h1]
    have : k'.sc = k.sc := Scalar.val_inj (h2.trans e)
    cases k; cases k'
    simp_all

example : ValidSecret ⟨⟨0xD0364140, 0xBFD25E8C, 0xAF48A03B, 0xBAAEDCE6, 0xFFFFFFFE, 0xFFFFFFFF, 0xFFFFFFFF, 0xFFFFFFFF⟩⟩ := by
  constructor <;> decide +kernel

/-! ## Messages -/

/-- C04. -/
theorem C04_message_parse (b : Vector UInt8 32) :
    ∃ m, Message.parse b = pure m ∧ m.sc.val = beNat b.toList % n ∧
      (Message.serialize m).toList = beBytes 32 (beNat b.toList % n) := by
  obtain ⟨⟨a, o⟩, hr, h1, h2⟩ := Scalar.setB32_runs b
  refine ⟨⟨a⟩, by unfold Message.parse; rw [hr]; rfl, h2, ?_⟩
  show a.b32.toList = _
  rw [Scalar.b32_toList]; exact congrArg _ h2

/-! ## Fixed-size signatures -/

theorem beNat_take {b : Vector UInt8 64} : (b.toList.drop 0).take 32 = b.toList.take 32 := rfl

/-- C05, acceptance. The two halves of the array are the big-endian values of `r` and `s`. -/
theorem C05_parse_standard (b : Vector UInt8 64) :
    let r := beNat (b.toList.take 32)
    let s := beNat (b.toList.drop 32)
    (r < n ∧ s < n → ∃ sig, Signature.parseStandard b = pure (.ok sig) ∧ sig.r.val = r ∧ sig.s.val = s ∧
      Signature.serialize sig = b) ∧
    (¬ (r < n ∧ s < n) → Signature.parseStandard b = pure (.error .invalidSignature)) := by
  intro r s
  obtain ⟨⟨x, ox⟩, hx, hx1, hx2⟩ := Scalar.setB32_runs (arrayRef32 b 0 (by decide))
  obtain ⟨⟨y, oy⟩, hy, hy1, hy2⟩ := Scalar.setB32_runs (arrayRef32 b 32 (by decide))
  have er : beNat (arrayRef32 b 0 (by decide)).toList = r := by rw [arrayRef32_toList]; rfl
  have es : beNat (arrayRef32 b 32 (by decide)).toList = s := by
    rw [arrayRef32_toList, List.take_of_length_le (by simp)]
  rw [er] at hx1 hx2
  rw [es] at hy1 hy2
  dsimp only at hx1 hx2 hy1 hy2
  unfold Signature.parseStandard
  rw [hx, pure_bind, hy, pure_bind]
  dsimp only
  constructor
  · rintro ⟨h1, h2⟩
    rw [Nat.mod_eq_of_lt h1] at hx2
    rw [Nat.mod_eq_of_lt h2] at hy2
    rw [hx1, hy1, decide_eq_false (by omega), decide_eq_false (by omega)]
    refine ⟨⟨x, y⟩, rfl, hx2, hy2, vec_inj ?_⟩
    have e1 : x.b32.toList = b.toList.take 32 :=
      Verif.beNat_inj (by simp) ((Scalar.beNat_b32 x).trans hx2)
    have e2 : y.b32.toList = b.toList.drop 32 :=
      Verif.beNat_inj (by simp) ((Scalar.beNat_b32 y).trans hy2)
    have e3 : (Signature.serialize ⟨x, y⟩).toList = x.b32.toList ++ y.b32.toList := Vector.toList_append
    rw [e3, e1, e2, List.take_append_drop]
  · intro h
    have : (ox || oy) = true := by
      rw [hx1, hy1, Bool.or_eq_true, decide_eq_true_eq, decide_eq_true_eq]; omega
    rw [this]; rfl

example : ∃ b : Vector UInt8 64, beNat (b.toList.take 32) < n ∧ beNat (b.toList.drop 32) < n := by
  refine ⟨Vector.replicate 64 0x55, ?_, ?_⟩ <;> decide +kernel

theorem sig_halves (sig : Signature) : beNat ((Signature.serialize sig).toList.take 32) = sig.r.val ∧
    beNat ((Signature.serialize sig).toList.drop 32) = sig.s.val := by
  unfold Signature.serialize
  rw [Vector.toList_append]
  rw [List.take_left' (by simp), List.drop_left' (by simp), Scalar.beNat_b32, Scalar.beNat_b32]
  exact ⟨rfl, rfl⟩

/-- C05, the other direction of the round trip. -/
theorem C05_serialize_parse (sig : Signature) (h : Canonical sig) :
    Signature.parseStandard (Signature.serialize sig) = pure (.ok sig) := by
  obtain ⟨h1, _⟩ := C05_parse_standard (Signature.serialize sig)
  obtain ⟨e1, e2⟩ := sig_halves sig
  rw [e1, e2] at h1
  obtain ⟨sig', hp, hr, hs, _⟩ := h1 h
  rw [hp]
  cases sig; cases sig'
  simp only at hr hs
  rw [Scalar.val_inj hr, Scalar.val_inj hs]

example : Canonical ⟨⟨1, 2, 3, 4, 5, 6, 7, 8⟩, ⟨0xD0364140, 0xBFD25E8C, 0xAF48A03B, 0xBAAEDCE6, 0xFFFFFFFE, 0xFFFFFFFF, 0xFFFFFFFF, 0xFFFFFFFF⟩⟩ := by
  constructor <;> decide +kernel

/-- C06. -/
theorem C06_parse_overflowing (b : Vector UInt8 64) :
    ∃ sig, Signature.parseOverflowing b = pure sig ∧
      sig.r.val = beNat (b.toList.take 32) % n ∧ sig.s.val = beNat (b.toList.drop 32) % n ∧
      ∀ sig', Signature.parseStandard b = pure (.ok sig') → sig' = sig := by
  obtain ⟨⟨x, ox⟩, hx, hx1, hx2⟩ := Scalar.setB32_runs (arrayRef32 b 0 (by decide))
  obtain ⟨⟨y, oy⟩, hy, hy1, hy2⟩ := Scalar.setB32_runs (arrayRef32 b 32 (by decide))
  have er : beNat (arrayRef32 b 0 (by decide)).toList = beNat (b.toList.take 32) := by rw [arrayRef32_toList]; rfl
  have es : beNat (arrayRef32 b 32 (by decide)).toList = beNat (b.toList.drop 32) := by
    rw [arrayRef32_toList, List.take_of_length_le (by simp)]
  rw [er] at hx2
  rw [es] at hy2
  refine ⟨⟨x, y⟩, by unfold Signature.parseOverflowing; rw [hx, pure_bind, hy, pure_bind], hx2, hy2, ?_⟩
  intro sig' h
  unfold Signature.parseStandard at h
  rw [hx, pure_bind, hy, pure_bind] at h
  dsimp only at h
  split at h
  · exact absurd (pure_inj' h) (by simp)
  · have := pure_inj' h
    simp only [Except.ok.injEq] at this
    exact this.symm

/-! ## Slices -/

/-- C03, secret keys, messages and signatures: the length check and nothing else. -/
theorem C03_slices :
    (∀ p, SecretKey.parseSlice p = pure (.error .invalidInputLength) ↔ p.length ≠ 32) ∧
    (∀ b : Vector UInt8 32, SecretKey.parseSlice b.toList = SecretKey.parse b) ∧
    (∀ p, Message.parseSlice p = pure (.error .invalidInputLength) ↔ p.length ≠ 32) ∧
    (∀ b : Vector UInt8 32, ∃ m, Message.parse b = pure m ∧ Message.parseSlice b.toList = pure (.ok m)) ∧
    (∀ p, Signature.parseStandardSlice p = pure (.error .invalidInputLength) ↔ p.length ≠ 64) ∧
    (∀ b : Vector UInt8 64, Signature.parseStandardSlice b.toList = Signature.parseStandard b) ∧
    (∀ p, Signature.parseOverflowingSlice p = pure (.error .invalidInputLength) ↔ p.length ≠ 64) ∧
    (∀ b : Vector UInt8 64, ∃ s, Signature.parseOverflowing b = pure s ∧ Signature.parseOverflowingSlice b.toList = pure (.ok s)) := by
  have s2 : ∀ b : Vector UInt8 32, SecretKey.parseSlice b.toList = SecretKey.parse b := by
    intro b
    unfold SecretKey.parseSlice
    rw [if_neg (by simp), toArr_toList, pure_bind]
  have s4 : ∀ b : Vector UInt8 32, ∃ m, Message.parse b = pure m ∧ Message.parseSlice b.toList = pure (.ok m) := by
    intro b
    obtain ⟨m, hm, _⟩ := C04_message_parse b
    refine ⟨m, hm, ?_⟩
    unfold Message.parseSlice
    rw [if_neg (by simp), toArr_toList, pure_bind, hm, pure_bind]
  have s6 : ∀ b : Vector UInt8 64, Signature.parseStandardSlice b.toList = Signature.parseStandard b := by
    intro b
    unfold Signature.parseStandardSlice
    rw [if_neg (by simp), toArr_toList, pure_bind]
  have s8 : ∀ b : Vector UInt8 64, ∃ s, Signature.parseOverflowing b = pure s ∧ Signature.parseOverflowingSlice b.toList = pure (.ok s) := by
    intro b
    obtain ⟨s, hs, _⟩ := C06_parse_overflowing b
    refine ⟨s, hs, ?_⟩
    unfold Signature.parseOverflowingSlice
    rw [if_neg (by simp), toArr_toList, pure_bind, hs, pure_bind]
  refine ⟨fun p => ⟨fun h hl => ?_, fun h => ?_⟩, s2, fun p => ⟨fun h hl => ?_, fun h => ?_⟩, s4,
    fun p => ⟨fun h hl => ?_, fun h => ?_⟩, s6, fun p => ⟨fun h hl => ?_, fun h => ?_⟩, s8⟩
  · obtain ⟨b, rfl⟩ := exists_vec hl
    rw [s2] at h
    obtain ⟨h1, h2⟩ := C01_secret_parse b
    by_cases hv : 0 < beNat b.toList ∧ beNat b.toList < n
    · obtain ⟨k, hk, _⟩ := h1 hv
      rw [hk] at h
      exact absurd (pure_inj' h) (by simp)
    · rw [h2 hv] at h
      exact absurd (pure_inj' h) (by simp)
  · unfold SecretKey.parseSlice; rw [if_pos (by simpa using h)]
  · obtain ⟨b, rfl⟩ := exists_vec hl
    obtain ⟨m, _, hm⟩ := s4 b
    rw [hm] at h
    exact absurd (pure_inj' h) (by simp)
  · unfold Message.parseSlice; rw [if_pos (by simpa using h)]
  · obtain ⟨b, rfl⟩ := exists_vec hl
    rw [s6] at h
    obtain ⟨h1, h2⟩ := C05_parse_standard b
    by_cases hv : beNat (b.toList.take 32) < n ∧ beNat (b.toList.drop 32) < n
    · obtain ⟨k, hk, _⟩ := h1 hv
      rw [hk] at h
      exact absurd (pure_inj' h) (by simp)
    · rw [h2 hv] at h
      exact absurd (pure_inj' h) (by simp)
  · unfold Signature.parseStandardSlice; rw [if_pos (by simpa using h)]
  · obtain ⟨b, rfl⟩ := exists_vec hl
    obtain ⟨m, _, hm⟩ := s8 b
    rw [hm] at h
    exact absurd (pure_inj' h) (by simp)
  · unfold Signature.parseOverflowingSlice; rw [if_pos (by simpa using h)]

/-! ## Secret-key arithmetic -/

/-- C10, secret keys: the inverse is a valid key, its product with the key is 1, and inverting
twice gives the key back. -/
theorem C10_secret_inv (k : SecretKey) (h : ValidSecret k) :
    ∃ k', SecretKey.inv k = pure k' ∧ ValidSecret k' ∧ secretInt k' * secretInt k % n = 1 ∧ SecretKey.inv k' = pure k := by
  have hs := sc_of h.2
  have hne : ((k.sc.val : ℕ) : ZMod n) ≠ 0 := by
    rw [ne_eq, ZMod.natCast_eq_zero_iff]
    exact fun hd => absurd (Nat.le_of_dvd h.1 hd) (by have := h.2; omega)
  obtain ⟨v, hv, hv'⟩ := sc_inv hs
  obtain ⟨w, hw, hw'⟩ := sc_inv hv'
  rw [inv_inv] at hw'
  have hwk : w = k.sc := Scalar.val_inj (hw'.trans hs.symm)
  refine ⟨⟨v⟩, by unfold SecretKey.inv; rw [hv]; rfl, ⟨?_, hv'.lt⟩, ?_, ?_⟩
  · rw [Nat.pos_iff_ne_zero]
    intro e
    have := hv'.zero_iff.1 ((Scalar.isZero_iff _).2 e)
    exact hne (inv_eq_zero.1 this)
  · have h1 : ((v.val * k.sc.val : ℕ) : ZMod n) = ((1 : ℕ) : ZMod n) := by
      push_cast; rw [hv'.cast]; exact inv_mul_cancel₀ hne
    show v.val * k.sc.val % n = 1
    rw [(ZMod.natCast_eq_natCast_iff' _ _ _).1 h1]
    decide +kernel
  · unfold SecretKey.inv
    rw [hw, pure_bind, hwk]

/-- C50. -/
theorem C50_clear (k : SecretKey) : SecretKey.isZero (SecretKey.clear k) = true ∧ secretInt (SecretKey.clear k) = 0 ∧
    (SecretKey.serialize (SecretKey.clear k)).toList = List.replicate 32 0 := by
  have e : (SecretKey.clear k).sc.val = 0 := Scalar.zero_val
  refine ⟨(Scalar.isZero_iff _).2 e, e, ?_⟩
  apply Verif.beNat_inj (by simp)
  refine (Scalar.beNat_b32 _).trans (e.trans ?_)
  decide +kernel

/-- C53, secret keys. -/
theorem C53_secret_try_from (a : Scalar) :
    (a.val ≠ 0 → SecretKey.tryFrom a = .ok ⟨a⟩) ∧ (a.val = 0 → SecretKey.tryFrom a = .error .invalidSecretKey) ∧
    (a.val < n → ∀ k, SecretKey.tryFrom a = .ok k → ValidSecret k) ∧
    (∀ k, SecretKey.tryFrom a = .ok k → SecretKey.toScalar k = a) := by
  unfold SecretKey.tryFrom
  refine ⟨fun h => if_neg (by rwa [Scalar.isZero_iff]), fun h => if_pos (by rwa [Scalar.isZero_iff]), fun h k hk => ?_, fun k hk => ?_⟩
  swap
  · split at hk
    · cases hk
    · cases hk; rfl
  split at hk
  · cases hk
  · rename_i h0
    rw [Scalar.isZero_iff] at h0
    cases hk
    exact ⟨Nat.pos_of_ne_zero h0, h⟩

/-! ## Low-S normalization -/

/-- C11, what `normalize_s` does: `s` becomes `n - s` exactly if `s ≥ (n-1)/2`. -/
theorem C11_normalize_s_partial (sig : Signature) (h : sig.s.val < n) :
    ∃ sig', Signature.normalizeS sig = pure sig' ∧ sig'.r = sig.r ∧
      sig'.s.val = (if (n - 1) / 2 ≤ sig.s.val then n - sig.s.val else sig.s.val) ∧
      (sig.s.val ≠ (n - 1) / 2 → sig'.s.val ≤ (n - 1) / 2) ∧
      (sig.s.val ≠ (n - 1) / 2 → sig.s.val ≠ (n + 1) / 2 → Signature.normalizeS sig' = pure sig') := by
  have hn : n % 2 = 1 := by decide +kernel
  have hn1 : 2 < n := by decide +kernel
  unfold Signature.normalizeS
  by_cases hh : (n - 1) / 2 ≤ sig.s.val
  · rw [if_pos ((Scalar.isHigh_iff _).2 hh)]
    obtain ⟨s, hs, hv⟩ := Scalar.neg_runs h
    rw [hs, pure_bind]
    have hv' : s.val = n - sig.s.val := by
      rw [hv]; exact Nat.mod_eq_of_lt (by omega)
    refine ⟨_, rfl, rfl, by rw [if_pos hh]; exact hv', fun h1 => ?_, fun h1 h2 => ?_⟩
    · show s.val ≤ _
      omega
    · rw [if_neg]
      rw [Scalar.isHigh_iff, hv']; omega
  · rw [if_neg (by rwa [Scalar.isHigh_iff])]
    refine ⟨_, rfl, rfl, by rw [if_neg hh], fun _ => by omega, fun _ _ => ?_⟩
    rw [if_neg (by rwa [Scalar.isHigh_iff])]

/-- The scalar `(n-1)/2`. -/
def scalarHalf : Scalar := ⟨0x681B20A0, 0xDFE92F46, 0x57A4501D, 0x5D576E73, 0xFFFFFFFF, 0xFFFFFFFF, 0xFFFFFFFF, 0x7FFFFFFF⟩

theorem scalarHalf_val : scalarHalf.val = (n - 1) / 2 := by decide +kernel

/-- The scalar 1. -/
def scalarOne' : Scalar := ⟨1, 0, 0, 0, 0, 0, 0, 0⟩

/-- C11 is false: the low-S value `(n-1)/2` is turned into the high-S value `(n+1)/2`, and
normalizing again turns it back. -/
theorem C11_normalize_s_fails :
    ∃ sig sig', Canonical sig ∧ sig.s.val = (n - 1) / 2 ∧ Signature.normalizeS sig = pure sig' ∧
      ¬ sig'.s.val ≤ (n - 1) / 2 ∧ Signature.normalizeS sig' = pure sig ∧ sig' ≠ sig := by
  obtain ⟨s, hs, hv⟩ := Scalar.neg_runs (a := scalarHalf) (by decide +kernel)
  obtain ⟨t, ht, hv'⟩ := Scalar.neg_runs (a := s) (by rw [hv]; exact Nat.mod_lt _ (by decide +kernel))
  have e1 : s.val = (n + 1) / 2 := by rw [hv]; decide +kernel
  have e2 : t = scalarHalf := Scalar.val_inj (by rw [hv', e1]; decide +kernel)
  refine ⟨⟨scalarOne', scalarHalf⟩, ⟨scalarOne', s⟩, ⟨by decide +kernel, by decide +kernel⟩, scalarHalf_val, ?_, ?_, ?_, ?_⟩
  · unfold Signature.normalizeS
    rw [if_pos ((Scalar.isHigh_iff _).2 (by decide +kernel)), hs, pure_bind]
  · rw [e1]; decide +kernel
  · unfold Signature.normalizeS
    rw [if_pos ((Scalar.isHigh_iff _).2 (by show _ ≤ s.val; rw [e1]; decide +kernel)), ht, pure_bind, e2]
  · intro e
    have : s = scalarHalf := by simpa using congrArg Signature.s e
    rw [this, scalarHalf_val] at e1
    revert e1; decide +kernel

/-! ## Recovery ids -/

/-- C45. -/
theorem C45_recovery_id (b : UInt8) :
    (b.toNat < 4 → RecoveryId.parse b = .ok ⟨b⟩) ∧
    (¬ b.toNat < 4 → RecoveryId.parse b = .error .invalidRecoveryId) ∧
    (27 ≤ b.toNat ∧ b.toNat < 31 → ∃ id, RecoveryId.parseRpc b = .ok id ∧ (RecoveryId.serialize id).toNat = b.toNat - 27) ∧
    (¬ (27 ≤ b.toNat ∧ b.toNat < 31) → RecoveryId.parseRpc b = .error .invalidRecoveryId) ∧
    (∀ id, RecoveryId.parse b = .ok id → RecoveryId.serialize id = b ∧ RecoveryId.toI32 id = b.toNat) := by
  have key : ∀ b : UInt8,
    (b.toNat < 4 → RecoveryId.parse b = .ok ⟨b⟩) ∧
    (¬ b.toNat < 4 → RecoveryId.parse b = .error .invalidRecoveryId) ∧
    (27 ≤ b.toNat ∧ b.toNat < 31 → RecoveryId.parseRpc b = .ok ⟨b - 27⟩ ∧ (b - 27).toNat = b.toNat - 27) ∧
    (¬ (27 ≤ b.toNat ∧ b.toNat < 31) → RecoveryId.parseRpc b = .error .invalidRecoveryId) := by
    intro b
    have h0 := b.toNat_lt
    rw [← UInt8.ofNat_toNat (x := b)]
    generalize b.toNat = v at *
    interval_cases v <;> decide
  obtain ⟨h1, h2, h3, h4⟩ := key b
  refine ⟨h1, h2, fun h => ⟨_, (h3 h).1, (h3 h).2⟩, h4, fun id h => ?_⟩
  by_cases hb : b.toNat < 4
  · rw [h1 hb] at h
    cases h
    exact ⟨rfl, rfl⟩
  · rw [h2 hb] at h; cases h

/-! ## Random keys -/

/-- C49. With the RNG as an arbitrary state machine: if draw number `i` is the first whose value
is in range then `random` stops right after it (for any fuel `> i`) with that key; if the first
`fuel` draws are all out of range it is still looping. -/
theorem C49_random {σ : Type} (draw : σ → Vector UInt8 32 × σ) (s : σ) (fuel : ℕ) :
    (∀ i < fuel, InRange (blockAt draw s i) → (∀ j < i, ¬ InRange (blockAt draw s j)) →
      ∃ k, SecretKey.random draw fuel s = pure (some (k, stateAt draw s (i + 1))) ∧ ValidSecret k ∧
        SecretKey.serialize k = blockAt draw s i) ∧
    ((∀ i < fuel, ¬ InRange (blockAt draw s i)) → SecretKey.random draw fuel s = pure none) := by
  induction fuel generalizing s with
  | zero => exact ⟨fun i hi => absurd hi (by omega), fun _ => rfl⟩
  | succ fuel ih =>
    obtain ⟨ih1, ih2⟩ := ih (draw s).2
    obtain ⟨h1, h2⟩ := C01_secret_parse (draw s).1
    have hrej : ¬ InRange (blockAt draw s 0) →
        SecretKey.random draw (fuel + 1) s = SecretKey.random draw fuel (draw s).2 := by
      intro h
      rw [SecretKey.random, h2 h, pure_bind]
    constructor
    · intro i hi hin hmin
      cases i with
      | zero =>
        obtain ⟨k, hk, _⟩ := h1 hin
        obtain ⟨e1, e2⟩ := C02_secret_roundtrip.1 _ _ hk
        refine ⟨k, ?_, e2, e1⟩
        rw [SecretKey.random, hk, pure_bind]
        rfl
      | succ i =>
        rw [hrej (hmin 0 (by omega))]
        exact ih1 i (by omega) hin (fun j hj => hmin (j + 1) (by omega))
    · intro h
      rw [hrej (h 0 (by omega))]
      exact ih2 fun i hi => h (i + 1) (by omega)

/-- A stream whose first acceptable draw is the third. -/
example : ∃ (draw : ℕ → Vector UInt8 32 × ℕ), InRange (blockAt draw 0 2) ∧ ∀ j < 2, ¬ InRange (blockAt draw 0 j) := by
  refine ⟨fun i => (if i = 0 then Vector.replicate 32 0xff else if i = 1 then Vector.replicate 32 0 else Vector.replicate 32 7, i + 1), ?_, ?_⟩
  · unfold InRange; decide +kernel
  · intro j hj
    unfold InRange
    interval_cases j <;> decide +kernel

/-! ## Hex formatting -/

theorem hexByte_eq (b : UInt8) : hexOf [b] = Scalar.hexByte b := by
  have h0 := b.toNat_lt
  rw [← UInt8.ofNat_toNat (x := b)]
  generalize b.toNat = v at *
  interval_cases v <;> decide

theorem hexOf_eq (l : List UInt8) : hexOf l = l.flatMap Scalar.hexByte := by
  induction l with
  | nil => rfl
  | cons b l ih =>
    rw [List.flatMap_cons, ← ih, ← hexByte_eq]
    simp [hexOf]

/-- C48, what is printed: the hex digits of the serialized key with its eight 4-byte groups in
reverse order.  Missing from C48: the groups are not in the order of the serialization. -/
theorem C48_lower_hex_partial (k : SecretKey) : ∃ g0 g1 g2 g3 g4 g5 g6 g7 : List UInt8,
    (∀ g ∈ [g0, g1, g2, g3, g4, g5, g6, g7], g.length = 4) ∧
    (SecretKey.serialize k).toList = g7 ++ g6 ++ g5 ++ g4 ++ g3 ++ g2 ++ g1 ++ g0 ∧
    SecretKey.lowerHex k = hexOf (g0 ++ g1 ++ g2 ++ g3 ++ g4 ++ g5 ++ g6 ++ g7) := by
  refine ⟨Scalar.wordBytes k.sc.d0, Scalar.wordBytes k.sc.d1, Scalar.wordBytes k.sc.d2, Scalar.wordBytes k.sc.d3,
    Scalar.wordBytes k.sc.d4, Scalar.wordBytes k.sc.d5, Scalar.wordBytes k.sc.d6, Scalar.wordBytes k.sc.d7, ?_, rfl, ?_⟩
  · simp [Scalar.wordBytes]
  · rw [hexOf_eq]
    unfold SecretKey.lowerHex Scalar.lowerHex
    simp

/-- C48 is false: the key 1 is not printed as the hex of its serialization. -/
theorem C48_lower_hex_fails : ∃ k, ValidSecret k ∧ SecretKey.lowerHex k ≠ hexOf (SecretKey.serialize k).toList := by
  refine ⟨⟨scalarOne'⟩, ⟨by decide +kernel, by decide +kernel⟩, ?_⟩
  decide +kernel

end Verif.Props
