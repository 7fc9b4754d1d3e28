import Verif.Proofs.Sign
import Verif.Props.Keys

/-!
# Properties of signing, verification and recovery (C23–C29, C54, C56)
-/

namespace Verif.Props
open Verif Spec Ecmult Ecdsa

/-- A message whose scalar is canonical, as made by `Message::parse`. -/
def ValidMessage (m : Message) : Prop := m.sc.val < n

/-- The residues of a message, of the components of a signature and of a secret key. -/
abbrev msgZ (m : Message) : ZMod n := m.sc.val
abbrev sigR (sig : Signature) : ZMod n := sig.r.val
abbrev sigS (sig : Signature) : ZMod n := sig.s.val
abbrev keyZ (sk : SecretKey) : ZMod n := secretInt sk

theorem cast_eq_zero_of_lt {v : ℕ} (h : v < n) : ((v : ℕ) : ZMod n) = 0 ↔ v = 0 := by
  rw [ZMod.natCast_eq_zero_iff]
  constructor
  · intro hd; by_contra h0; exact absurd (Nat.le_of_dvd (Nat.pos_of_ne_zero h0) hd) (by omega)
  · rintro rfl; exact dvd_zero _

/-! ## Verification -/

/-- C23. -/
theorem C23_verify (m : Message) (sig : Signature) (pk : PublicKey) (Q : Pt) (hs : Canonical sig)
    (hq : IsKey pk Q) :
    ∃ b, verify m sig pk = pure b ∧ (b = true ↔ EcdsaValid (msgZ m) (sigR sig) (sigS sig) Q) := by
  obtain ⟨ha, hQ⟩ := isKey_iff.1 hq
  obtain ⟨ctx, hctx, hG⟩ := newContext_runs
  obtain ⟨b, hb, h⟩ := verifyRaw_runs hG (sc_of hs.1) (sc_of hs.2) rfl ha hQ
  refine ⟨b, ?_, h⟩
  unfold verify verifyWithContext
  rw [hctx, pure_bind, hb]

theorem verify_true {m : Message} {sig : Signature} {pk : PublicKey} {Q : Pt} (hs : Canonical sig)
    (hq : IsKey pk Q) (h : EcdsaValid (msgZ m) (sigR sig) (sigS sig) Q) : verify m sig pk = pure true := by
  obtain ⟨b, hb, e⟩ := C23_verify m sig pk Q hs hq
  rw [hb, e.2 h]

theorem verify_iff {m : Message} {sig : Signature} {pk : PublicKey} {Q : Pt} (hs : Canonical sig)
    (hq : IsKey pk Q) : verify m sig pk = pure true ↔ EcdsaValid (msgZ m) (sigR sig) (sigS sig) Q := by
  obtain ⟨b, hb, e⟩ := C23_verify m sig pk Q hs hq
  rw [hb, ← e]
  exact ⟨fun h => pure_inj' h, fun h => by rw [h]⟩

/-- C27. -/
theorem C27_malleability (m : Message) (sig : Signature) (pk : PublicKey) (hs : Canonical sig)
    (hq : ValidKey pk) :
    (∀ s' : Scalar, s'.val < n → (sig.s.val + s'.val) % n = 0 →
      verify m { sig with s := s' } pk = verify m sig pk) ∧
    (∃ sig', Signature.normalizeS sig = pure sig' ∧ verify m sig' pk = verify m sig pk) := by
  obtain ⟨Q, hQ⟩ := hq
  have key : ∀ s' : Scalar, s'.val < n → (sig.s.val + s'.val) % n = 0 →
      verify m { sig with s := s' } pk = verify m sig pk := by
    intro s' hs' h0
    obtain ⟨b, hb, e⟩ := C23_verify m sig pk Q hs hQ
    obtain ⟨b', hb', e'⟩ := C23_verify m { sig with s := s' } pk Q ⟨hs.1, hs'⟩ hQ
    rw [hb, hb']
    have hneg : sigS { sig with s := s' } = - sigS sig := by
      rw [eq_neg_iff_add_eq_zero, add_comm]
      show ((sig.s.val : ℕ) : ZMod n) + ((s'.val : ℕ) : ZMod n) = 0
      rw [← Nat.cast_add, ZMod.natCast_eq_zero_iff]
      exact Nat.dvd_of_mod_eq_zero h0
    rw [hneg] at e'
    have : b' = true ↔ b = true := by
      rw [e, e']; exact valid_neg
    rw [Bool.eq_iff_iff.2 this]
  refine ⟨key, ?_⟩
  obtain ⟨sig', hsig', hr, hv, _⟩ := C11_normalize_s_partial sig hs.2
  refine ⟨sig', hsig', ?_⟩
  have hn0 : 0 < n := by decide +kernel
  split at hv
  · have hsn := hs.2
    by_cases hz : sig.s.val = 0
    · rename_i hh
      rw [hz] at hh
      exact absurd hh (by decide +kernel)
    · have := key sig'.s (by omega) (by rw [hv, Nat.add_sub_cancel' hsn.le, Nat.mod_self])
      cases sig'; cases sig
      simp only at hr this ⊢
      rw [hr]; exact this
  · have : sig' = sig := by
      cases sig'; cases sig
      simp only at hr hv
      rw [hr, Scalar.val_inj hv]
    rw [this]

/-! ## Recovery -/

theorem valid_of_recover' {m r s : ZMod n} {id : ℕ} {R : Pt} {rv : ℕ} (hrv : (rv : ZMod n) = r) (hr0 : r ≠ 0) (hs0 : s ≠ 0)
    (h : IsRecoveryPoint rv id R) : EcdsaValid m r s (recoveredKey m r s R) := by
  have := valid_of_recover (m := m.val) (s := s.val) (by rw [hrv]; exact hr0) (by rwa [ZMod.natCast_zmod_val]) h
  rwa [hrv, ZMod.natCast_zmod_val, ZMod.natCast_zmod_val] at this

/-- C26. A key is returned exactly if `r` and `s` are nonzero, the id selects a point `R`, and the
key computed from it is finite; the key is then that point, and the signature verifies under it. -/
theorem C26_recover (m : Message) (sig : Signature) (id : RecoveryId) (hs : Canonical sig)
    (hid : id.id.toNat < 4) :
    (∀ R, sigR sig ≠ 0 → sigS sig ≠ 0 → IsRecoveryPoint sig.r.val id.id.toNat R →
      recoveredKey (msgZ m) (sigR sig) (sigS sig) R ≠ 0 →
      ∃ k, recover m sig id = pure (.ok k) ∧ IsKey k (recoveredKey (msgZ m) (sigR sig) (sigS sig) R)) ∧
    ((¬ ∃ R, sigR sig ≠ 0 ∧ sigS sig ≠ 0 ∧ IsRecoveryPoint sig.r.val id.id.toNat R ∧
      recoveredKey (msgZ m) (sigR sig) (sigS sig) R ≠ 0) → recover m sig id = pure (.error .invalidSignature)) ∧
    (∀ k, recover m sig id = pure (.ok k) → ValidKey k ∧ verify m sig k = pure true) := by
  obtain ⟨ctx, hctx, hG⟩ := newContext_runs
  obtain ⟨o, ho, h⟩ := recoverRaw_runs (id := id.id) hG (sc_of hs.1) (sc_of hs.2) rfl hid
  have hrec : recover m sig id = pure (Except.map PublicKey.mk o) := by
    unfold recover recoverWithContext
    rw [hctx, pure_bind, ho, pure_bind]
    cases o <;> rfl
  rw [hrec]
  rcases h with ⟨rfl, h⟩ | ⟨a, R, rfl, hr0, hs0, hR, hne, ha⟩
  · refine ⟨fun R h1 h2 h3 h4 => absurd ⟨h1, h2, R, h3, h4⟩ h, fun _ => rfl, fun k hk => ?_⟩
    exact absurd (pure_inj' hk) (by simp [Except.map])
  · refine ⟨fun R' h1 h2 h3 h4 => ?_, fun hn => absurd ⟨R, hr0, hs0, hR, hne⟩ hn, fun k hk => ?_⟩
    · have := recoveryPoint_unique h3 hR
      subst this
      exact ⟨⟨a⟩, rfl, isKey_iff.2 ⟨ha, hne⟩⟩
    · have : k = ⟨a⟩ := by simpa [Except.map] using (pure_inj' hk).symm
      subst this
      have hk' : IsKey ⟨a⟩ _ := isKey_iff.2 ⟨ha, hne⟩
      exact ⟨⟨_, hk'⟩, verify_true hs hk' (valid_of_recover' rfl hr0 hs0 hR)⟩

/-- C56. Conversely, a key under which a signature verifies is recovered by one of the four ids. -/
theorem C56_recover_complete (m : Message) (sig : Signature) (pk : PublicKey) (hs : Canonical sig)
    (hq : ValidKey pk) (hv : verify m sig pk = pure true) :
    ∃ id k, RecoveryId.parse id.id = .ok id ∧ recover m sig id = pure (.ok k) ∧ PublicKey.eq k pk = pure true := by
  obtain ⟨Q, hQ⟩ := hq
  obtain ⟨hr0, hs0, x, y, hP, hx⟩ := (verify_iff hs hQ).1 hv
  have hn0 : 0 < n := by decide +kernel
  have hxv : x.val % n = sig.r.val := by
    have := (ZMod.natCast_eq_natCast_iff' _ _ _).1 hx
    rwa [Nat.mod_eq_of_lt hs.1] at this
  have hx2 : x.val / n < 2 := by
    rw [Nat.div_lt_iff_lt_mul hn0]
    have := ZMod.val_lt x
    have := p_lt_two_n
    omega
  have hlt : 2 * (x.val / n) + y.val % 2 < 4 := by have := Nat.mod_lt y.val (show 0 < 2 by omega); omega
  obtain ⟨b, hb⟩ : ∃ b : UInt8, b.toNat = 2 * (x.val / n) + y.val % 2 :=
    ⟨UInt8.ofNat (2 * (x.val / n) + y.val % 2), by rw [UInt8.toNat_ofNat']; omega⟩
  have hrp : IsRecoveryPoint sig.r.val b.toNat ((msgZ m / sigS sig).val • G + (sigR sig / sigS sig).val • Q) := by
    refine ⟨x, y, hP, ?_, ?_⟩
    · rw [hb, ← hxv]
      have h1 : (2 * (x.val / n) + y.val % 2) / 2 = x.val / n := by omega
      rw [h1]; exact (Nat.mod_add_div _ _).symm
    · rw [hb]; omega
  have hkey : recoveredKey (msgZ m) (sigR sig) (sigS sig) ((msgZ m / sigS sig).val • G + (sigR sig / sigS sig).val • Q) = Q := by
    unfold recoveredKey
    rw [nsmul_add, ← zs_mul, ← zs_mul]
    have e1 : sigS sig / sigR sig * (msgZ m / sigS sig) = msgZ m / sigR sig := by field_simp
    have e2 : sigS sig / sigR sig * (sigR sig / sigS sig) = 1 := by field_simp
    rw [e1, e2, zs_one, add_sub_cancel_left]
  have h4 : b.toNat < 4 := by omega
  obtain ⟨k, hk, hk'⟩ := (C26_recover m sig ⟨b⟩ hs h4).1 _ hr0 hs0 hrp (by rw [hkey]; exact (isKey_iff.1 hQ).2)
  rw [hkey] at hk'
  exact ⟨⟨b⟩, k, (C45_recovery_id b).1 h4, hk, key_eq_true hk' hQ⟩

/-! ## Signing -/

/-- Block number `i` of the generator seeded by the key and the message. -/
def nonceBlock (D : Drbg) (m : Message) (sk : SecretKey) (i : ℕ) : Vector UInt8 32 :=
  blockAt D.generate (D.new (SecretKey.serialize sk).toList (Message.serialize m).toList []) i

/-- Block number `i` is in `1 … n-1` and gives a nonzero `s`. -/
def GoodBlock (D : Drbg) (m : Message) (sk : SecretKey) (i : ℕ) : Prop :=
  InRange (nonceBlock D m sk i) ∧ UsableNonce (keyZ sk) (msgZ m) (beNat (nonceBlock D m sk i).toList)

/-- C29. If block `i` is the first good one, a release build returns the signature made from it; a
debug build returns the same unless one of the nonces tried has a point with x coordinate `≥ n`,
when it panics. Without a good block among the first `fuel` the loop does not end within them,
unless a debug build panics. -/
theorem C29_first_nonce (D : Drbg) (m : Message) (sk : SecretKey) (fuel : ℕ) :
    (∀ i < fuel, GoodBlock D m sk i → (∀ j < i, ¬ GoodBlock D m sk j) →
      ∃ x y sig id, IsPt (beNat (nonceBlock D m sk i).toList • G) x y ∧
        NonceSignature (keyZ sk) (msgZ m) (beNat (nonceBlock D m sk i).toList) x y sig.r.val sig.s.val id.id.toNat ∧
        sign D fuel m sk .release = some (some (sig, id)) ∧
        ((∀ j ≤ i, InRange (nonceBlock D m sk j) → NoOverflow (beNat (nonceBlock D m sk j).toList)) →
          sign D fuel m sk .debug = some (some (sig, id))) ∧
        (¬ (∀ j ≤ i, InRange (nonceBlock D m sk j) → NoOverflow (beNat (nonceBlock D m sk j).toList)) →
          sign D fuel m sk .debug = none)) ∧
    ((∀ i < fuel, ¬ GoodBlock D m sk i) → sign D fuel m sk .release = some none ∧
      ((∀ j < fuel, InRange (nonceBlock D m sk j) → NoOverflow (beNat (nonceBlock D m sk j).toList)) →
          sign D fuel m sk .debug = some none) ∧
      (¬ (∀ j < fuel, InRange (nonceBlock D m sk j) → NoOverflow (beNat (nonceBlock D m sk j).toList)) →
          sign D fuel m sk .debug = none)) := by
  constructor
  · intro i hi hg hmin
    have h := sign_found hi hg hmin
    obtain ⟨o, ho, x, y, sig, id, rfl, hP, hs⟩ := h.release
    refine ⟨x, y, sig, id, hP, hs, ho, fun hc => ?_, fun hc => h.debug hc⟩
    obtain ⟨o', ho', _⟩ := h.runs hc
    rw [ho'] at ho ⊢
    exact ho
  · intro hno
    have h := sign_none hno
    obtain ⟨o, ho, rfl⟩ := h.release
    refine ⟨ho, fun hc => ?_, fun hc => h.debug hc⟩
    obtain ⟨o', ho', rfl⟩ := h.runs hc
    rw [ho']
    rfl

/-- A generator that always gives the block `b`. -/
def constDrbg (b : Vector UInt8 32) : Drbg := ⟨Unit, fun _ _ _ => (), fun _ => (b, ())⟩

theorem constDrbg_block (b : Vector UInt8 32) (m : Message) (sk : SecretKey) (i : ℕ) : nonceBlock (constDrbg b) m sk i = b := rfl

/-- The block holding 1. -/
theorem exists_block {v : ℕ} (h0 : 0 < v) (h : v < n) : ∃ b : Vector UInt8 32, beNat b.toList = v ∧ InRange b := by
  obtain ⟨b, hb⟩ := exists_b32 (v := v) (h.trans (by decide +kernel))
  exact ⟨b, hb, by unfold InRange; rw [hb]; exact ⟨h0, h⟩⟩

/-- Two different messages cannot both make a nonce unusable; so the hypotheses of C29 are met. -/
theorem exists_good (k : ℕ) (h0 : 0 < k) (h : k < n) (x y : Fp) (hP : IsPt (k • G) x y) :
    ∃ D m sk, ValidMessage m ∧ ValidSecret sk ∧ GoodBlock D m sk 0 ∧ beNat (nonceBlock D m sk 0).toList = k := by
  obtain ⟨b, hb, hin⟩ := exists_block h0 h
  by_cases hu : (1 : ZMod n) + (x.val : ZMod n) = 0
  · refine ⟨constDrbg b, ⟨Scalar.zero⟩, secretOne, by show Scalar.zero.val < n; decide +kernel, secretOne_valid, ⟨hin, x, y, ?_, ?_⟩, hb⟩
    · rw [constDrbg_block, hb]; exact hP
    · intro hc
      have h1 : keyZ secretOne = 1 := by
        show ((secretInt secretOne : ℕ) : ZMod n) = 1
        rw [show secretInt secretOne = 1 by decide +kernel]; exact Nat.cast_one
      have h2 : msgZ ⟨Scalar.zero⟩ = 0 := by
        show ((Scalar.zero.val : ℕ) : ZMod n) = 0
        rw [Scalar.zero_val]; exact Nat.cast_zero
      rw [h1, h2, zero_add, mul_one] at hc
      rw [hc, add_zero] at hu
      exact one_ne_zero hu
  · refine ⟨constDrbg b, ⟨scalarOne⟩, secretOne, by show scalarOne.val < n; decide +kernel, secretOne_valid, ⟨hin, x, y, ?_, ?_⟩, hb⟩
    · rw [constDrbg_block, hb]; exact hP
    · have h1 : keyZ secretOne = 1 := by
        show ((secretInt secretOne : ℕ) : ZMod n) = 1
        rw [show secretInt secretOne = 1 by decide +kernel]; exact Nat.cast_one
      have h2 : msgZ ⟨scalarOne⟩ = 1 := by
        show ((scalarOne.val : ℕ) : ZMod n) = 1
        rw [show scalarOne.val = 1 by decide +kernel]; exact Nat.cast_one
      rw [h1, h2, mul_one]; exact hu

example : ∃ D m sk, ValidMessage m ∧ ValidSecret sk ∧ GoodBlock D m sk 0 ∧ beNat (nonceBlock D m sk 0).toList = 1 :=
  exists_good 1 (by omega) (by decide +kernel) Gx Gy (by rw [one_nsmul]; exact isPt_G)

/-- What a returned signature is, in either profile. -/
theorem sign_isSig {D : Drbg} {fuel : ℕ} {m : Message} {sk : SecretKey} {π : Profile} {sig : Signature} {id : RecoveryId}
    (h : sign D fuel m sk π = some (some (sig, id))) :
    ∃ k x y, k ≠ 0 ∧ IsPt (k.val • G) x y ∧ NonceSignature (keyZ sk) (msgZ m) k x y sig.r.val sig.s.val id.id.toNat ∧
      IsSignature (keyZ sk) (msgZ m) k sig.r.val sig.s.val id.id.toNat := by
  obtain ⟨i, _, hacc, _, x, y, hP, hs⟩ := sign_some h
  have hk := cast_ne_zero_of_inRange hacc.1
  have hP' := hP
  rw [← zs_cast] at hP'
  refine ⟨_, x, y, hk, hP', hs, NonceSignature.isSig hP' hk ?_ hs⟩
  obtain ⟨_, x', y', hQ, hu⟩ := hacc
  obtain ⟨rfl, rfl⟩ := hP.inj hQ
  exact hu

theorem keyZ_smul (sk : SecretKey) (P : Pt) : (keyZ sk).val • P = secretInt sk • P := zs_cast _ _

/-- Every returned signature is canonical. -/
theorem sign_canonical {D : Drbg} {fuel : ℕ} {m : Message} {sk : SecretKey} {π : Profile} {sig : Signature} {id : RecoveryId}
    (h : sign D fuel m sk π = some (some (sig, id))) :
    Canonical sig ∧ id.id.toNat < 4 ∧ sig.s.val ≠ 0 := by
  obtain ⟨k, x, y, _, _, _, hsig⟩ := sign_isSig h
  obtain ⟨R, _, h1, h2, h3, h4, _⟩ := isRec_of_isSig hsig
  refine ⟨⟨h2, h1⟩, h3, fun h0 => h4 ?_⟩
  rw [h0]; exact Nat.cast_zero

/-- C24. -/
theorem C24_sign_verify (D : Drbg) (fuel : ℕ) (m : Message) (sk : SecretKey) (π : Profile) (sig : Signature) (id : RecoveryId)
    (hsk : ¬ n ∣ secretInt sk) (h : sign D fuel m sk π = some (some (sig, id))) (hr : sig.r.val ≠ 0) :
    ∃ pk, PublicKey.fromSecretKey sk = pure pk ∧ verify m sig pk = pure true := by
  obtain ⟨pk, hpk, hkey, _⟩ := C18_from_secret_key sk hsk
  refine ⟨pk, hpk, ?_⟩
  obtain ⟨hcan, _, _⟩ := sign_canonical h
  obtain ⟨k, x, y, hk, _, _, hsig⟩ := sign_isSig h
  apply verify_true hcan hkey
  have := valid_isSig hsig hk (fun h0 => hr ((cast_eq_zero_of_lt hcan.1).1 h0))
  rwa [keyZ_smul] at this

/-- C25. -/
theorem C25_sign_recover (D : Drbg) (fuel : ℕ) (m : Message) (sk : SecretKey) (π : Profile) (sig : Signature) (id : RecoveryId)
    (hsk : ¬ n ∣ secretInt sk) (h : sign D fuel m sk π = some (some (sig, id))) (hr : sig.r.val ≠ 0) :
    ∃ pk pk' b, PublicKey.fromSecretKey sk = pure pk ∧ recover m sig id = pure (.ok pk') ∧ PublicKey.eq pk' pk = pure true ∧
      PublicKey.serialize pk' = pure b ∧ PublicKey.serialize pk = pure b := by
  obtain ⟨pk, hpk, hkey, _⟩ := C18_from_secret_key sk hsk
  obtain ⟨hcan, hid, hs0⟩ := sign_canonical h
  obtain ⟨k, x, y, hk, _, _, hsig⟩ := sign_isSig h
  have hr0 : sigR sig ≠ 0 := fun h0 => hr ((cast_eq_zero_of_lt hcan.1).1 h0)
  have hs0' : sigS sig ≠ 0 := fun h0 => hs0 ((cast_eq_zero_of_lt hcan.2).1 h0)
  obtain ⟨R, hR, _⟩ := isRec_of_isSig hsig
  have e := recover_isSig hsig hk hr0 hR
  rw [keyZ_smul] at e
  obtain ⟨pk', hpk', hkey'⟩ := (C26_recover m sig id hcan hid).1 R hr0 hs0' hR (by rw [e]; exact (isKey_iff.1 hkey).2)
  rw [e] at hkey'
  obtain ⟨_, sa, sb, _, h1, h2, _, h3⟩ := C22_equality pk' pk _ _ hkey' hkey
  have := h3.2 rfl
  subst this
  exact ⟨pk, pk', sa, hpk, hpk', key_eq_true hkey' hkey, h1, h2⟩

/-- C28, what holds: `s` is low except that it may be `(n+1)/2`, and `r` is nonzero except if the
nonce's point has x coordinate `n`, which no debug build returns. -/
theorem C28_sign_range_partial (D : Drbg) (fuel : ℕ) (m : Message) (sk : SecretKey) (π : Profile) (sig : Signature) (id : RecoveryId)
    (h : sign D fuel m sk π = some (some (sig, id))) :
    sig.r.val < n ∧ 0 < sig.s.val ∧ (sig.s.val ≤ (n - 1) / 2 ∨ sig.s.val = (n + 1) / 2) ∧ id.id.toNat < 4 ∧
      (sig.r.val = 0 → π = .release) := by
  obtain ⟨hcan, hid, hs0⟩ := sign_canonical h
  obtain ⟨k, x, y, hk, hP, ⟨hr, hns⟩, hsig⟩ := sign_isSig h
  refine ⟨hcan.1, Nat.pos_of_ne_zero hs0, ?_, hid, fun h0 => ?_⟩
  · have hn1 : n % 2 = 1 := by decide +kernel
    have hsn := hcan.2
    dsimp only at hns
    split at hns
    · omega
    · rename_i hh; omega
  · cases π with
    | release => rfl
    | debug =>
      exfalso
      obtain ⟨i, hi, hacc, hmin, x', y', hP', hs'⟩ := sign_some h
      have hf := sign_found hi hacc hmin
      by_cases hc : ∀ j ≤ i, InRange (blockAt D.generate (signSeed D m sk) j) → NoOverflow (beNat (blockAt D.generate (signSeed D m sk) j).toList)
      · have hlt := hc i le_rfl hacc.1 x' y' hP'
        have hr' := hs'.1
        rw [h0, Nat.mod_eq_of_lt hlt] at hr'
        exact hP'.x_ne ((ZMod.val_eq_zero x').1 hr'.symm)
      · rw [hf.debug hc] at h
        cases h

/-- The point with x coordinate `n`. -/
theorem exists_x_n : ∃ (k : ℕ) (y : Fp), 0 < k ∧ k < n ∧ IsPt (k • G) (n : Fp) y := by
  have h1 : ((0x98f66641cb0ae1776b463ebdee3d77fe2658f021db48e2c8ac7ab4c92f83621e : ℕ) : Fp) ^ 2 = ((n : ℕ) : Fp) ^ 3 + 7 := by
    have : (((0x98f66641cb0ae1776b463ebdee3d77fe2658f021db48e2c8ac7ab4c92f83621e : ℕ) ^ 2 : ℕ) : Fp) = ((n ^ 3 + 7 : ℕ) : Fp) := by
      rw [ZMod.natCast_eq_natCast_iff']; decide +kernel
    rw [Nat.cast_pow, Nat.cast_add, Nat.cast_pow] at this
    exact this
  obtain ⟨P, hP⟩ := isPt_of_eqn h1
  obtain ⟨k, hk, rfl⟩ := exists_smul_G P
  refine ⟨k, _, ?_, hk, hP⟩
  rw [Nat.pos_iff_ne_zero]
  rintro rfl
  exact hP.ne_zero (zero_nsmul _)

theorem n_fp_val : ((n : ℕ) : Fp).val = n := by
  rw [ZMod.val_natCast]; exact Nat.mod_eq_of_lt n_lt_p

/-- C28 is false: with a nonce whose point has x coordinate `n` a release build returns `r = 0`. -/
theorem C28_sign_zero_r : ∃ D m sk sig id, ValidMessage m ∧ ValidSecret sk ∧
    sign D 1 m sk .release = some (some (sig, id)) ∧ sig.r.val = 0 ∧ sign D 1 m sk .debug = none := by
  obtain ⟨k, y, h0, hk, hP⟩ := exists_x_n
  obtain ⟨D, m, sk, hm, hsk, hg, hb⟩ := exists_good k h0 hk _ _ hP
  obtain ⟨x', y', sig, id, hP', hs, hrel, _, hdeb⟩ := (C29_first_nonce D m sk 1).1 0 (by omega) hg (by intro j hj; omega)
  rw [hb] at hP'
  obtain ⟨rfl, rfl⟩ := hP.inj hP'
  refine ⟨D, m, sk, sig, id, hm, hsk, hrel, ?_, hdeb ?_⟩
  · rw [hs.1, n_fp_val, Nat.mod_self]
  · intro hc
    have := hc 0 le_rfl hg.1 _ _ (by rw [hb]; exact hP)
    rw [n_fp_val] at this
    omega

/-- The scalar with a given value. -/
theorem exists_scalar {v : ℕ} (h : v < n) : ∃ a : Scalar, a.val = v := by
  obtain ⟨b, hb⟩ := exists_b32 (v := v) (h.trans (by decide +kernel))
  obtain ⟨r, _, _, h2⟩ := Scalar.setB32_runs b
  exact ⟨r.1, by rw [h2, hb, Nat.mod_eq_of_lt h]⟩

/-- C28 is false: signing can return `s = (n+1)/2`, in both profiles. -/
theorem C28_sign_high_s : ∃ D m sk sig id, ValidMessage m ∧ ValidSecret sk ∧
    sign D 1 m sk = pure (some (sig, id)) ∧ ¬ sig.s.val ≤ (n - 1) / 2 := by
  obtain ⟨b, hb, hin⟩ := exists_block (v := 1) (by omega) (by decide +kernel)
  have hP : IsPt (1 • G) (Gx : Fp) (Gy : Fp) := by rw [one_nsmul]; exact isPt_G
  have hgx : ((Gx : ℕ) : Fp).val = Gx := by rw [ZMod.val_natCast]; decide +kernel
  obtain ⟨a, ha⟩ := exists_scalar (v := ((n - 1) / 2 + n - Gx) % n) (Nat.mod_lt _ (by decide +kernel))
  have hm : ValidMessage ⟨a⟩ := by show a.val < n; rw [ha]; exact Nat.mod_lt _ (by decide +kernel)
  have h1 : keyZ secretOne = 1 := by
    show ((secretInt secretOne : ℕ) : ZMod n) = 1
    rw [show secretInt secretOne = 1 by decide +kernel]; exact Nat.cast_one
  have hs0 : msgZ ⟨a⟩ + (((Gx : ℕ) : Fp).val : ZMod n) * keyZ secretOne = (((n - 1) / 2 : ℕ) : ZMod n) := by
    rw [h1, mul_one, hgx]
    show ((a.val : ℕ) : ZMod n) + ((Gx : ℕ) : ZMod n) = _
    rw [ha, ← Nat.cast_add, ZMod.natCast_eq_natCast_iff']
    decide +kernel
  have hhalf : ((((n - 1) / 2 : ℕ) : ZMod n)).val = (n - 1) / 2 := by
    rw [ZMod.val_natCast]; decide +kernel
  have hg : GoodBlock (constDrbg b) ⟨a⟩ secretOne 0 := by
    refine ⟨hin, Gx, Gy, by rw [constDrbg_block, hb]; exact hP, ?_⟩
    rw [hs0]
    intro hc
    rw [hc, ZMod.val_zero] at hhalf
    revert hhalf; decide +kernel
  obtain ⟨x', y', sig, id, hP', hs, hrel, hdeb, _⟩ :=
    (C29_first_nonce (constDrbg b) ⟨a⟩ secretOne 1).1 0 (by omega) hg (by intro j hj; omega)
  rw [constDrbg_block, hb] at hP'
  obtain ⟨rfl, rfl⟩ := hP.inj hP'
  refine ⟨constDrbg b, ⟨a⟩, secretOne, sig, id, hm, secretOne_valid, ?_, ?_⟩
  · funext π
    cases π with
    | release => exact hrel
    | debug =>
      refine hdeb fun j hj _ x y hxy => ?_
      rw [constDrbg_block, hb] at hxy
      rw [← (hP.inj hxy).1, hgx]; decide +kernel
  · obtain ⟨hr, hs⟩ := hs
    rw [constDrbg_block, hb, Nat.cast_one] at hs
    dsimp only at hs
    rw [hr, ZMod.natCast_mod, hs0, div_one, hhalf, if_neg (by omega)] at hs
    rw [hs.1]
    decide +kernel

/-- The hypotheses of C23–C28 and C56 are met: a message, a key and a signature that both profiles
return, with nonzero `r`, which verifies and recovers. -/
theorem exists_signed : ∃ D m sk sig id pk, ValidMessage m ∧ ValidSecret sk ∧ sign D 1 m sk = pure (some (sig, id)) ∧
    sig.r.val ≠ 0 ∧ Canonical sig ∧ id.id.toNat < 4 ∧ ValidKey pk ∧ verify m sig pk = pure true ∧ ∃ k, recover m sig id = pure (.ok k) := by
  obtain ⟨D, m, sk, sig, id, hm, hsk, h, _⟩ := C28_sign_high_s
  have hd : sign D 1 m sk .debug = some (some (sig, id)) := by rw [h]; rfl
  have hr : sig.r.val ≠ 0 := fun h0 => by
    have := (C28_sign_range_partial D 1 m sk .debug sig id hd).2.2.2.2 h0
    cases this
  obtain ⟨hc, hid, _⟩ := sign_canonical hd
  obtain ⟨pk, hpk, hv⟩ := C24_sign_verify D 1 m sk .debug sig id hsk.not_dvd hd hr
  obtain ⟨_, pk', _, _, hrec, _⟩ := C25_sign_recover D 1 m sk .debug sig id hsk.not_dvd hd hr
  obtain ⟨pk'', hpk'', hkey, _⟩ := C18_from_secret_key sk hsk.not_dvd
  have : pk = pk'' := pure_inj' (hpk.symm.trans hpk'')
  subst this
  exact ⟨D, m, sk, sig, id, pk, hm, hsk, h, hr, hc, hid, ⟨_, hkey⟩, hv, pk', hrec⟩

/-- C54, what holds of `sign_raw` for all limbs with a nonce that is not a multiple of `n`: if the x
coordinate of its point is below `n` it returns, in both profiles, either an error (exactly if `s` is zero) or a signature with
nonzero `r`; otherwise a debug build panics, and a release build returns `r = 0` only if that
coordinate is `n`. -/
theorem C54_sign_raw_partial (ctx : GenContext) (hctx : newGenContext = pure ctx) (sk m k : Scalar)
    (hk : ¬ n ∣ k.val) :
    ∃ x y o, IsPt (k.val • G) x y ∧ signRaw ctx sk m k .release = some o ∧
      (∀ e, o = .error e ↔ e = .invalidMessage ∧ (m.val : ZMod n) + (x.val : ZMod n) * (sk.val : ZMod n) = 0) ∧
      (∀ r s id, o = .ok (r, s, id) → NonceSignature sk.val m.val k.val x y r.val s.val id.toNat ∧ (r.val = 0 ↔ x.val = n)) ∧
      (x.val < n → signRaw ctx sk m k = pure o) ∧
      (¬ x.val < n → signRaw ctx sk m k .debug = none) := by
  obtain ⟨ctx', hctx', h1, h2, h3⟩ := newGenContext_runs
  have : ctx' = ctx := pure_inj' (hctx'.symm.trans hctx)
  subst this
  have hkz : ((k.val : ℕ) : ZMod n) ≠ 0 := fun h => hk ((ZMod.natCast_eq_zero_iff _ _).1 h)
  have hne : k.val • G ≠ 0 := by
    rw [ne_eq, smul_eq_zero_iff G_ne_zero]; exact hk
  obtain ⟨x, y, hP⟩ := Spec.IsPt.of_ne_zero hne
  have hrun := signRaw_runs h1 h2 h3 (seckey := sk) (message := m) (nonce := k) rfl rfl rfl (x := x) (y := y) (by rw [zs_cast]; exact hP)
  obtain ⟨o, ho, hres⟩ := hrun.release
  refine ⟨x, y, o, hP, ho, fun e => ⟨fun h => ?_, fun h => ?_⟩, fun r s id h => ?_, fun h => ?_, fun h => ?_⟩
  · by_cases hu : (m.val : ZMod n) + (x.val : ZMod n) * (sk.val : ZMod n) = 0
    · rw [signResult_err hkz hres hu] at h
      cases h
      exact ⟨rfl, hu⟩
    · obtain ⟨r, s, id, e, _⟩ := signResult_ok hkz hres hu
      rw [h] at e; cases e
  · rw [h.1]; exact signResult_err hkz hres h.2
  · have hu : (m.val : ZMod n) + (x.val : ZMod n) * (sk.val : ZMod n) ≠ 0 := by
      intro hu
      rw [signResult_err hkz hres hu] at h; cases h
    obtain ⟨r', s', id', e, hs⟩ := signResult_ok hkz hres hu
    rw [h] at e
    simp only [Except.ok.injEq, Prod.mk.injEq] at e
    obtain ⟨rfl, rfl, rfl⟩ := e
    refine ⟨hs, ?_⟩
    rw [hs.1]
    constructor
    · intro h0
      have hlt := ZMod.val_lt x
      have h2n := p_lt_two_n
      have hx0 : x.val ≠ 0 := fun h => hP.x_ne ((ZMod.val_eq_zero x).1 h)
      have hle : n ≤ x.val := Nat.le_of_dvd (Nat.pos_of_ne_zero hx0) (Nat.dvd_of_mod_eq_zero h0)
      rw [Nat.mod_eq_sub_mod hle, Nat.mod_eq_of_lt (by omega)] at h0
      omega
    · intro hx; rw [hx, Nat.mod_self]
  · obtain ⟨o', ho', _⟩ := hrun.runs (decide_eq_true h)
    rw [ho'] at ho ⊢
    have : o' = o := by simpa [pure, ReaderT.pure] using ho
    rw [this]
  · exact hrun.debug (decide_eq_false h)

/-- C54 is false: for some nonce `sign_raw` returns `r = 0` in release and panics in debug. -/
theorem C54_sign_raw_fails : ∃ ctx sk m k r s id, newGenContext = pure ctx ∧ 0 < sk.val ∧ sk.val < n ∧ m.val < n ∧
    0 < k.val ∧ k.val < n ∧ signRaw ctx sk m k .release = some (.ok (r, s, id)) ∧ r.val = 0 ∧ signRaw ctx sk m k .debug = none := by
  obtain ⟨kv, y, h0, hk, hP⟩ := exists_x_n
  obtain ⟨k, rfl⟩ := exists_scalar hk
  obtain ⟨ctx, hctx, _⟩ := newGenContext_runs
  have h1 : scalarOne.val = 1 := by decide +kernel
  have hn1 : 1 < n := by decide +kernel
  obtain ⟨x, y', o, hP', ho, herr, hr, _, hdeb⟩ := C54_sign_raw_partial ctx hctx scalarOne scalarOne k (fun hd => absurd (Nat.le_of_dvd h0 hd) (by omega))
  obtain ⟨rfl, rfl⟩ := hP.inj hP'
  cases o with
  | ok v =>
    obtain ⟨r, s, id⟩ := v
    exact ⟨ctx, scalarOne, scalarOne, k, r, s, id, hctx, by omega, by omega, by omega, h0, hk, ho, (hr r s id rfl).2.2 n_fp_val,
      hdeb (by rw [n_fp_val]; omega)⟩
  | error e =>
    have := ((herr e).1 rfl).2
    rw [n_fp_val, h1, Nat.cast_one, mul_one, ZMod.natCast_self, add_zero] at this
    exact absurd this one_ne_zero

end Verif.Props
