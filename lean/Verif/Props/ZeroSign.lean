import Verif.Props.Recovery
import Verif.Props.ZeroSecret

/-!
# Signing with a zero secret (C110)

`SecretKey::clear` leaves zero, and `sign` accepts it.
-/

namespace Verif.Props
open Verif Spec

theorem keyZ_zero {sk : SecretKey} (h : n ∣ secretInt sk) : keyZ sk = 0 := (ZMod.natCast_eq_zero_iff _ _).2 h

/-- C110. On a zero message `sign` does not return, whatever the generator gives. -/
theorem C110_zero_message (D : Drbg) (fuel : ℕ) (m : Message) (sk : SecretKey) (h : n ∣ secretInt sk) (hm : n ∣ m.sc.val) :
    sign D fuel m sk .release = some none ∧ ∀ π o, sign D fuel m sk π ≠ some (some o) := by
  have hm0 : msgZ m = 0 := (ZMod.natCast_eq_zero_iff _ _).2 hm
  have hno : ∀ i, ¬ GoodBlock D m sk i := by
    rintro i ⟨_, x, y, _, hu⟩
    apply hu
    rw [keyZ_zero h, hm0, mul_zero, zero_add]
  refine ⟨((C29_first_nonce D m sk fuel).2 fun i _ => hno i).1, fun π o ho => ?_⟩
  obtain ⟨i, _, hacc, _⟩ := sign_some (sig := o.1) (id := o.2) ho
  exact hno i hacc

/-- The nonce of such a signature. -/
theorem zero_sign {D : Drbg} {fuel : ℕ} {m : Message} {sk : SecretKey} {π : Profile} {sig : Signature} {id : RecoveryId}
    (hsk : n ∣ secretInt sk) (h : sign D fuel m sk π = some (some (sig, id))) :
    msgZ m ≠ 0 ∧ sigS sig ≠ 0 ∧ IsRecoveryPoint sig.r.val id.id.toNat ((msgZ m / sigS sig).val • G) := by
  obtain ⟨hcan, hid, hs0⟩ := sign_canonical h
  obtain ⟨k, x, y, hk, hP, _, hsig⟩ := sign_isSig h
  rw [keyZ_zero hsk] at hsig
  obtain ⟨R, hR, _, _, _, h0, e⟩ := isRec_of_isSig hsig
  rw [mul_zero, add_zero, ← zs_mul, div_mul_cancel₀ _ hk] at e
  have hm : msgZ m ≠ 0 := by
    intro hm
    obtain ⟨_, _, _, _, hne, _⟩ := hsig
    apply hne
    rw [hm, mul_zero, add_zero, zero_div]
  refine ⟨hm, h0, ?_⟩
  have : R = (msgZ m / sigS sig).val • G := by
    have e' := congrArg (fun P => ((sigS sig)⁻¹).val • P) e
    simp only [← zs_mul] at e'
    rw [inv_mul_cancel₀ h0] at e'
    rw [show msgZ m / sigS sig = (sigS sig)⁻¹ * msgZ m by field_simp, ← e', zs_one]
  rwa [← this]

/-- C110. A signature made with a zero secret gives its nonce away up to sign: it is the message divided by `s`. -/
theorem C110_nonce (D : Drbg) (fuel : ℕ) (m : Message) (sk : SecretKey) (π : Profile) (sig : Signature) (id : RecoveryId)
    (hsk : n ∣ secretInt sk) (h : sign D fuel m sk π = some (some (sig, id))) :
    ∃ i < fuel, InRange (nonceBlock D m sk i) ∧
      ((beNat (nonceBlock D m sk i).toList : ZMod n) = msgZ m / sigS sig ∨
        (beNat (nonceBlock D m sk i).toList : ZMod n) = -(msgZ m / sigS sig)) := by
  obtain ⟨hm, hs, _⟩ := zero_sign hsk h
  obtain ⟨i, hi, hacc, _, x, y, hP, hns⟩ := sign_some h
  have hk := cast_ne_zero_of_inRange hacc.1
  obtain ⟨_, _, hQ, hu⟩ := hacc.2
  obtain ⟨rfl, rfl⟩ := hP.inj hQ
  have hP' := hP
  rw [← zs_cast] at hP'
  obtain ⟨_, _, _, _, _, hsig⟩ := NonceSignature.isSig hP' hk hu hns
  refine ⟨i, hi, hacc.1, ?_⟩
  have h0 : ((sk.sc.val : ℕ) : ZMod n) = 0 := keyZ_zero hsk
  rw [h0, mul_zero, add_zero] at hsig
  have hs' : sigS sig ≠ 0 := hs
  have hk' : ((beNat (nonceBlock D m sk i).toList : ℕ) : ZMod n) ≠ 0 := hk
  rcases hsig with ⟨e, _⟩ | ⟨e, _⟩
  · left
    have e' : sigS sig = msgZ m / (beNat (nonceBlock D m sk i).toList : ZMod n) := by
      show ((sig.s.val : ℕ) : ZMod n) = _
      rw [e, ZMod.natCast_zmod_val]; rfl
    rw [e']; field_simp
  · right
    have e' : sigS sig = -(msgZ m / (beNat (nonceBlock D m sk i).toList : ZMod n)) := by
      show ((sig.s.val : ℕ) : ZMod n) = _
      rw [e, ZMod.natCast_zmod_val]; rfl
    rw [e']; field_simp

/-- C110. Recovery with the id that `sign` returned fails; with the other parity it gives the public key of `-2m/r`, a
secret that anyone can compute, and the signature verifies under it. -/
theorem C110_recover (D : Drbg) (fuel : ℕ) (m : Message) (sk : SecretKey) (π : Profile) (sig : Signature) (id id' : RecoveryId)
    (hsk : n ∣ secretInt sk) (h : sign D fuel m sk π = some (some (sig, id))) (hr : sig.r.val ≠ 0) (hid' : id'.id = id.id ^^^ 1) :
    recover m sig id = pure (.error .invalidSignature) ∧
    ∃ pk, recover m sig id' = pure (.ok pk) ∧ IsKey pk ((-(2 * msgZ m) / sigR sig).val • G) ∧ verify m sig pk = pure true := by
  obtain ⟨hcan, hid, hs0⟩ := sign_canonical h
  obtain ⟨hm, hs, hR⟩ := zero_sign hsk h
  have hr0 : sigR sig ≠ 0 := fun h0 => hr ((cast_eq_zero_of_lt hcan.1).1 h0)
  have e0 : recoveredKey (msgZ m) (sigR sig) (sigS sig) ((msgZ m / sigS sig).val • G) = 0 := by
    unfold recoveredKey
    rw [← zs_mul, show sigS sig / sigR sig * (msgZ m / sigS sig) = msgZ m / sigR sig by field_simp, sub_self]
  refine ⟨(C26_recover m sig id hcan hid).2.1 ?_, ?_⟩
  · rintro ⟨R, _, _, hR', hne⟩
    rw [recoveryPoint_unique hR' hR] at hne
    exact hne e0
  · obtain ⟨h1, h2, h3⟩ := xor_one hid' hid
    have hR' := recoveryPoint_neg h2 h3 hR
    have e1 : recoveredKey (msgZ m) (sigR sig) (sigS sig) (-((msgZ m / sigS sig).val • G)) = (-(2 * msgZ m) / sigR sig).val • G := by
      unfold recoveredKey
      rw [← zs_neg, ← zs_mul, sub_eq_add_neg, ← zs_neg, ← zs_add]
      congr 2
      field_simp; ring
    have hne : (-(2 * msgZ m) / sigR sig).val • G ≠ 0 := by
      rw [ne_eq, zs_eq_zero G_ne_zero]
      have h2 : (2 : ZMod n) ≠ 0 := by
        rw [show (2 : ZMod n) = ((2 : ℕ) : ZMod n) by norm_num, ne_eq, ZMod.natCast_eq_zero_iff]
        decide +kernel
      exact div_ne_zero (neg_ne_zero.2 (mul_ne_zero h2 hm)) hr0
    rw [← e1] at hne
    obtain ⟨hA, _, hC⟩ := C26_recover m sig id' hcan h1
    obtain ⟨k, hk, hkey⟩ := hA _ hr0 hs hR' hne
    rw [e1] at hkey
    exact ⟨k, hk, hkey, (hC k hk).2⟩

/-- C110. If `r ≥ p - n` it verifies under no other key. -/
theorem C110_verify (D : Drbg) (fuel : ℕ) (m : Message) (sk : SecretKey) (π : Profile) (sig : Signature) (id : RecoveryId)
    (hsk : n ∣ secretInt sk) (h : sign D fuel m sk π = some (some (sig, id))) (hr : p - n ≤ sig.r.val) (pk : PublicKey) (hq : ValidKey pk) :
    verify m sig pk = pure true ↔ IsKey pk ((-(2 * msgZ m) / sigR sig).val • G) := by
  obtain ⟨hcan, hid, hs0⟩ := sign_canonical h
  obtain ⟨hm, hs, x, y, hP, hx, hy⟩ := zero_sign hsk h
  have hpn : 0 < p - n := by decide +kernel
  have hr0 : sigR sig ≠ 0 := fun h0 => absurd ((cast_eq_zero_of_lt hcan.1).1 h0) (by omega)
  have hxp := ZMod.val_lt x
  have hxr : x.val = sig.r.val := by
    have hnp : n < p := by decide +kernel
    rcases Nat.eq_zero_or_pos (id.id.toNat / 2) with h | h
    · rw [h, mul_zero, add_zero] at hx; exact hx
    · have : n * 1 ≤ n * (id.id.toNat / 2) := Nat.mul_le_mul_left _ h
      omega
  constructor
  · intro hv
    obtain ⟨Q, hQ⟩ := hq
    obtain ⟨_, _, x', y', hP', hx'⟩ := verify_valid hcan hQ hv
    have hxe : x' = x := by
      apply ZMod.val_injective
      have hx2 := (ZMod.natCast_eq_natCast_iff' _ _ _).1 hx'
      have hlt := ZMod.val_lt x'
      have hrn := hcan.1
      have hpn2 : p < 2 * n := p_lt_two_n
      rw [Nat.mod_eq_of_lt hrn] at hx2
      rcases Nat.lt_or_ge x'.val n with hl | hl
      · rw [Nat.mod_eq_of_lt hl] at hx2; omega
      · rw [Nat.mod_eq_sub_mod hl, Nat.mod_eq_of_lt (by omega)] at hx2; omega
    subst hxe
    have hc : sigS sig / sigR sig ≠ 0 := div_ne_zero hs hr0
    have key : Q = (-(2 * msgZ m) / sigR sig).val • G := by
      have e1 : sigS sig / sigR sig * (sigR sig / sigS sig) = 1 := by field_simp
      rcases hP.same_x hP' with e | e
      · exfalso
        rw [e] at hP'
        have e2 := left_eq_add.1 (hP.unique hP')
        have e3 := congrArg (fun P => (sigS sig / sigR sig).val • P) e2
        simp only [← zs_mul, nsmul_zero, e1, zs_one] at e3
        exact (isKey_iff.1 hQ).2 e3
      · rw [e] at hP'
        have e2 := eq_sub_of_add_eq' (hP.neg.unique hP').symm
        rw [sub_eq_add_neg, ← zs_neg, ← zs_add] at e2
        have e3 := congrArg (fun P => (sigS sig / sigR sig).val • P) e2
        simp only [← zs_mul, e1, zs_one] at e3
        rw [e3]
        congr 2
        field_simp; ring
    rw [← key]; exact hQ
  · intro hk
    refine verify_true hcan hk ⟨hr0, hs, x, -y, ?_, by rw [hxr]⟩
    rw [← zs_mul, ← zs_add, show msgZ m / sigS sig + sigR sig / sigS sig * (-(2 * msgZ m) / sigR sig) = -(msgZ m / sigS sig) by field_simp; ring, zs_neg]
    exact hP.neg

/-- The hypotheses are met: a cleared secret and the message 1 with the nonce 1. -/
example (k : SecretKey) : ∃ D m sig id, n ∣ secretInt (SecretKey.clear k) ∧
    sign D 1 m (SecretKey.clear k) .release = some (some (sig, id)) ∧ p - n ≤ sig.r.val := by
  obtain ⟨b, hb, hin⟩ := exists_block (v := 1) (by omega) (by decide +kernel)
  have hP : IsPt (1 • G) (Gx : Fp) (Gy : Fp) := by rw [one_nsmul]; exact isPt_G
  have hg : GoodBlock (constDrbg b) ⟨scalarOne⟩ (SecretKey.clear k) 0 := by
    refine ⟨hin, Gx, Gy, by rw [constDrbg_block, hb]; exact hP, ?_⟩
    rw [keyZ_zero (dvd_clear k), mul_zero, add_zero]
    show ((scalarOne.val : ℕ) : ZMod n) ≠ 0
    rw [show scalarOne.val = 1 by decide +kernel, Nat.cast_one]
    exact one_ne_zero
  obtain ⟨x, y, sig, id, hQ, hs, hrel, _⟩ := (C29_first_nonce (constDrbg b) ⟨scalarOne⟩ (SecretKey.clear k) 1).1 0 (by omega) hg (by intro j hj; omega)
  rw [constDrbg_block, hb] at hQ
  obtain ⟨rfl, rfl⟩ := hP.inj hQ
  refine ⟨_, _, sig, id, dvd_clear k, hrel, ?_⟩
  rw [hs.1, ZMod.val_natCast]
  decide +kernel

end Verif.Props
