import Verif.Proofs.Raw
import Verif.Props.Ecdsa

/-!
# Values outside the range `0 … n-1` (C66–C68)

The fields of `Scalar`, `Message` and `Signature` are public, so a caller can build them from any 256-bit
value. These theorems say what the library does with such values; none assumes that a value is reduced.
-/

namespace Verif.Props
open Verif Spec Ecmult Ecdsa

/-- The point that verification compares with `r`. -/
abbrev verifyPoint (m : Message) (sig : Signature) (Q : Pt) : Pt :=
  (msgZ m / sigS sig).val • G + (sigR sig / sigS sig).val • Q

theorem xMatches_zero (r : ℕ) : ¬ XMatches 0 r := by
  rintro ⟨x, y, h, _⟩; exact h.ne_zero rfl

/-- C66. -/
theorem C66_verify_any (m : Message) (sig : Signature) (pk : PublicKey) (Q : Pt) (hq : IsKey pk Q) :
    ∃ b, verify m sig pk .release = some b ∧
      (b = true ↔ sig.r.val ≠ 0 ∧ XMatches (verifyPoint m sig Q) sig.r.val) ∧
      (sig.r.val < p ∨ verifyPoint m sig Q = 0 → verify m sig pk = pure b) ∧
      (p ≤ sig.r.val → verifyPoint m sig Q ≠ 0 → verify m sig pk .debug = none) := by
  obtain ⟨ha, hQ⟩ := isKey_iff.1 hq
  obtain ⟨ctx, hctx, hG⟩ := newContext_runs
  have hv : verify m sig pk = verifyRaw ctx sig.r sig.s pk.pt m.sc := by
    unfold verify verifyWithContext
    rw [hctx, pure_bind]
  rw [hv]
  by_cases h0 : sig.r.val = 0 ∨ sig.s.val = 0
  · rw [verifyRaw_zero h0]
    refine ⟨false, rfl, ?_, fun _ => rfl, ?_⟩
    · simp only [Bool.false_eq_true, false_iff]
      rintro ⟨h1, h2⟩
      have hs : sigS sig = 0 := by
        show ((sig.s.val : ℕ) : ZMod n) = 0
        rw [h0.resolve_left h1, Nat.cast_zero]
      rw [verifyPoint, hs, div_zero, div_zero, ZMod.val_zero, zero_nsmul, zero_nsmul, add_zero] at h2
      exact xMatches_zero _ h2
    · intro hp h
      have hp0 : 0 < p := by decide +kernel
      have hs : sigS sig = 0 := by
        show ((sig.s.val : ℕ) : ZMod n) = 0
        rw [h0.resolve_left (by omega), Nat.cast_zero]
      exfalso; apply h
      rw [verifyPoint, hs, div_zero, div_zero, ZMod.val_zero, zero_nsmul, zero_nsmul, add_zero]
  · push Not at h0
    obtain ⟨pr, he, hJ⟩ := verifyRaw_head (m := m.sc) hG ha hQ h0.1 h0.2
    rw [he]
    by_cases hr : sig.r.val < p
    · obtain ⟨b, hb, h⟩ := verifyTail_runs hJ hr
      rw [hb]
      exact ⟨b, rfl, h.trans ⟨fun h => ⟨h0.1, h⟩, fun h => h.2⟩, fun _ => rfl, fun hp => absurd hr (not_lt.2 hp)⟩
    · by_cases hP : verifyPoint m sig Q = 0
      · have e : verifyTail sig.r pr = pure false := by
          unfold verifyTail
          rw [if_pos (hJ.inf_iff.2 hP)]
        rw [e]
        refine ⟨false, rfl, ?_, fun _ => rfl, fun _ h => absurd hP h⟩
        rw [hP]
        simp only [Bool.false_eq_true, false_iff]
        exact fun h => xMatches_zero _ h.2
      · obtain ⟨hd, b, hb, h⟩ := verifyTail_big hJ hP (not_lt.1 hr)
        exact ⟨b, hb, h.trans ⟨fun h => ⟨h0.1, h⟩, fun h => h.2⟩, fun h => (h.elim hr hP).elim, fun _ _ => hd⟩

/-- C66. The message and the component `s` count modulo `n` only. -/
theorem C66_verify_mod (m m' : Message) (sig sig' : Signature) (pk : PublicKey) (hq : ValidKey pk) (hr : sig'.r = sig.r)
    (hs : sig'.s.val % n = sig.s.val % n) (hm : m'.sc.val % n = m.sc.val % n) : verify m' sig' pk = verify m sig pk := by
  obtain ⟨Q, hQ⟩ := hq
  obtain ⟨b, h1, h2, h3, h4⟩ := C66_verify_any m sig pk Q hQ
  obtain ⟨b', h1', h2', h3', h4'⟩ := C66_verify_any m' sig' pk Q hQ
  have hP : verifyPoint m' sig' Q = verifyPoint m sig Q := by
    rw [verifyPoint, verifyPoint, show msgZ m' = msgZ m from (ZMod.natCast_eq_natCast_iff' _ _ _).2 hm,
      show sigS sig' = sigS sig from (ZMod.natCast_eq_natCast_iff' _ _ _).2 hs,
      show sigR sig' = sigR sig by rw [sigR, hr]]
  rw [hr, hP] at h2' h3' h4'
  have hb : b' = b := Bool.eq_iff_iff.2 (h2'.trans h2.symm)
  subst hb
  by_cases hc : sig.r.val < p ∨ verifyPoint m sig Q = 0
  · rw [h3 hc, h3' hc]
  · push Not at hc
    funext π
    cases π with
    | debug => rw [h4 hc.1 hc.2, h4' hc.1 hc.2]
    | release => rw [h1, h1']

/-- A scalar and another with the same residue. -/
def scalarN : Scalar := ⟨0xD0364141, 0xBFD25E8C, 0xAF48A03B, 0xBAAEDCE6, 0xFFFFFFFE, 0xFFFFFFFF, 0xFFFFFFFF, 0xFFFFFFFF⟩
def scalarN1 : Scalar := ⟨0xD0364142, 0xBFD25E8C, 0xAF48A03B, 0xBAAEDCE6, 0xFFFFFFFE, 0xFFFFFFFF, 0xFFFFFFFF, 0xFFFFFFFF⟩
def scalarTop : Scalar := ⟨0xFFFFFFFF, 0xFFFFFFFF, 0xFFFFFFFF, 0xFFFFFFFF, 0xFFFFFFFF, 0xFFFFFFFF, 0xFFFFFFFF, 0xFFFFFFFF⟩

theorem scalarN_val : scalarN.val = n := by decide +kernel
theorem scalarN1_val : scalarN1.val = n + 1 := by decide +kernel
theorem scalarTop_val : scalarTop.val = 2 ^ 256 - 1 := by decide +kernel

theorem exists_x_one : ∃ (k : ℕ) (y : Fp), k < n ∧ IsPt (k • G) (1 : Fp) y := by
  have h1 : ((0x4218f20ae6c646b363db68605822fb14264ca8d2587fdd6fbc750d587e76a7ee : ℕ) : Fp) ^ 2 = ((1 : ℕ) : Fp) ^ 3 + 7 := by
    have : (((0x4218f20ae6c646b363db68605822fb14264ca8d2587fdd6fbc750d587e76a7ee : ℕ) ^ 2 : ℕ) : Fp) = ((1 ^ 3 + 7 : ℕ) : Fp) := by
      rw [ZMod.natCast_eq_natCast_iff']; decide +kernel
    rw [Nat.cast_pow, Nat.cast_add, Nat.cast_pow] at this
    exact this
  obtain ⟨P, hP⟩ := isPt_of_eqn h1
  obtain ⟨k, hk, rfl⟩ := exists_smul_G P
  exact ⟨k, _, hk, by simpa using hP⟩

/-- C66. The component `r` does not count modulo `n`: a signature verifies, and the one with `r + n < p`
in place of `r` does not. -/
theorem C66_verify_r : ∃ m sig sig' pk, ValidMessage m ∧ Canonical sig ∧ ValidKey pk ∧ sig'.s = sig.s ∧
    sig'.r.val = sig.r.val + n ∧ sig'.r.val < p ∧ verify m sig pk = pure true ∧ verify m sig' pk = pure false := by
  obtain ⟨k, y, hk, hP⟩ := exists_x_one
  obtain ⟨pk, hpk⟩ := exists_key G_ne_zero
  have hn0 : 0 < n := by decide +kernel
  have hn1 : 1 < n := by decide +kernel
  obtain ⟨a, ha⟩ := exists_scalar (v := (k + (n - 1)) % n) (Nat.mod_lt _ hn0)
  have h1 : scalarOne.val = 1 := by decide +kernel
  have hx1 : ((1 : Fp)).val = 1 := by
    have := ZMod.val_natCast p 1
    rw [Nat.cast_one] at this
    rw [this]; decide +kernel
  have hs : ∀ r, sigS ⟨r, scalarOne⟩ = 1 := fun r => by
    show ((scalarOne.val : ℕ) : ZMod n) = 1
    rw [h1, Nat.cast_one]
  have hr1 : sigR ⟨scalarOne, scalarOne⟩ = 1 := by
    show ((scalarOne.val : ℕ) : ZMod n) = 1
    rw [h1, Nat.cast_one]
  have hr2 : sigR ⟨scalarN1, scalarOne⟩ = 1 := by
    show ((scalarN1.val : ℕ) : ZMod n) = 1
    rw [scalarN1_val, Nat.cast_add, ZMod.natCast_self, Nat.cast_one, zero_add]
  have hpt : ∀ r, sigR ⟨r, scalarOne⟩ = 1 → verifyPoint ⟨a⟩ ⟨r, scalarOne⟩ G = k • G := by
    intro r hr
    rw [verifyPoint, hs, hr, div_one, div_one, ← add_nsmul]
    refine (smul_eq_iff G_ne_zero).2 ((ZMod.natCast_eq_natCast_iff' _ _ _).2 ?_)
    show (((a.val : ℕ) : ZMod n).val + (1 : ZMod n).val) % n = k % n
    have e1 : (1 : ZMod n).val = 1 := by
      have := ZMod.val_natCast n 1
      rw [Nat.cast_one] at this
      rw [this]; decide +kernel
    rw [e1, ZMod.val_natCast, ha, Nat.mod_mod, Nat.mod_add_mod, show k + (n - 1) + 1 = k + n by omega, Nat.add_mod_right]
  have hlt : scalarN1.val < p := by decide +kernel
  obtain ⟨b, _, h2, h3, _⟩ := C66_verify_any ⟨a⟩ ⟨scalarOne, scalarOne⟩ pk G hpk
  obtain ⟨b', _, h2', h3', _⟩ := C66_verify_any ⟨a⟩ ⟨scalarN1, scalarOne⟩ pk G hpk
  rw [hpt _ hr1] at h2
  rw [hpt _ hr2] at h2'
  refine ⟨⟨a⟩, ⟨scalarOne, scalarOne⟩, ⟨scalarN1, scalarOne⟩, pk, ?_, ⟨?_, ?_⟩, ⟨G, hpk⟩, rfl, ?_, hlt, ?_, ?_⟩
  · show a.val < n
    rw [ha]; exact Nat.mod_lt _ hn0
  · show scalarOne.val < n
    rw [h1]; exact hn1
  · show scalarOne.val < n
    rw [h1]; exact hn1
  · show scalarN1.val = scalarOne.val + n
    rw [scalarN1_val, h1, add_comm]
  · rw [h3 (Or.inl (by show scalarOne.val < p; rw [h1]; exact hn1.trans n_lt_p)), h2.2]
    refine ⟨by show scalarOne.val ≠ 0; rw [h1]; exact one_ne_zero, _, _, hP, Or.inl ?_⟩
    show (1 : Fp).val = scalarOne.val % p
    rw [hx1, h1]; decide +kernel
  · suffices hb : b' = false by rw [h3' (Or.inl hlt), hb]
    rw [← Bool.not_eq_true, h2']
    rintro ⟨_, x, y', hx, h⟩
    obtain ⟨rfl, _⟩ := hP.inj hx
    have h : (1 : Fp).val = scalarN1.val % p ∨ (1 : Fp).val = scalarN1.val + n := h
    rw [hx1, Nat.mod_eq_of_lt hlt, scalarN1_val] at h
    omega

/-- The panic of C66 occurs: `r = 2^256 - 1`, `s = 1`, `m = 1` and the key `G`. -/
example : ∃ m sig pk, verify m sig pk .debug = none := by
  obtain ⟨pk, hpk⟩ := exists_key G_ne_zero
  obtain ⟨b, _, _, _, h⟩ := C66_verify_any ⟨scalarOne⟩ ⟨scalarTop, scalarOne⟩ pk G hpk
  refine ⟨⟨scalarOne⟩, ⟨scalarTop, scalarOne⟩, pk, h ?_ ?_⟩
  · show p ≤ scalarTop.val
    decide +kernel
  · have h1 : scalarOne.val = 1 := by decide +kernel
    have e1 : (((1 : ℕ) : ZMod n)).val = 1 := by rw [ZMod.val_natCast]; decide +kernel
    show (((scalarOne.val : ℕ) : ZMod n) / ((scalarOne.val : ℕ) : ZMod n)).val • G + (((scalarTop.val : ℕ) : ZMod n) / ((scalarOne.val : ℕ) : ZMod n)).val • G ≠ 0
    rw [h1, scalarTop_val, ← add_nsmul, Nat.cast_one, div_one, div_one, ← Nat.cast_one, e1, ZMod.val_natCast, ne_eq, smul_eq_zero_iff G_ne_zero]
    decide +kernel

/-! ## Recovery -/

/-- C67. -/
theorem C67_recover_any (m : Message) (sig : Signature) (id : RecoveryId) (hid : id.id.toNat < 4) :
    (sig.r.val < p →
      (∀ R, sig.r.val ≠ 0 → sig.s.val ≠ 0 → IsRecoveryPoint sig.r.val id.id.toNat R →
        recoveredKey (msgZ m) (sigR sig) (sigS sig) R ≠ 0 →
        ∃ k, recover m sig id = pure (.ok k) ∧ IsKey k (recoveredKey (msgZ m) (sigR sig) (sigS sig) R)) ∧
      ((¬ ∃ R, sig.r.val ≠ 0 ∧ sig.s.val ≠ 0 ∧ IsRecoveryPoint sig.r.val id.id.toNat R ∧
        recoveredKey (msgZ m) (sigR sig) (sigS sig) R ≠ 0) → recover m sig id = pure (.error .invalidSignature))) ∧
    (p ≤ sig.r.val → sig.s.val ≠ 0 → recover m sig id .debug = none) ∧
    (sig.s.val = 0 → recover m sig id = pure (.error .invalidSignature)) := by
  obtain ⟨ctx, hctx, hG⟩ := newContext_runs
  have he : recover m sig id = recoverRaw ctx sig.r sig.s id.id m.sc >>= fun o => pure (Except.map PublicKey.mk o) := by
    unfold recover recoverWithContext
    rw [hctx, pure_bind]
    congr 1; funext o
    cases o <;> rfl
  refine ⟨fun hr => ?_, fun hr hs => ?_, fun hs => ?_⟩
  · obtain ⟨o, ho, h⟩ := recoverRaw_any (id := id.id) (sigr := sig.r) (sigs := sig.s) (m := m.sc) hG rfl rfl rfl hr hid
    rw [he, ho, pure_bind]
    rcases h with ⟨rfl, h⟩ | ⟨a, R, rfl, hr0, hs0, hR, hne, ha⟩
    · exact ⟨fun R h1 h2 h3 h4 => absurd ⟨h1, h2, R, h3, h4⟩ h, fun _ => rfl⟩
    · refine ⟨fun R' h1 h2 h3 h4 => ?_, fun hn => absurd ⟨R, hr0, hs0, hR, hne⟩ hn⟩
      have := recoveryPoint_unique h3 hR
      subst this
      exact ⟨⟨a⟩, rfl, isKey_iff.2 ⟨ha, hne⟩⟩
  · rw [he, exec_bind, recoverRaw_panics hr hs]; rfl
  · rw [he]
    unfold recoverRaw
    rw [dassert_true (show decide (id.id < 4) = true from decide_eq_true hid), pure_bind, if_pos (by rw [Bool.or_eq_true, Scalar.isZero_iff, Scalar.isZero_iff]; exact Or.inr hs), pure_bind]
    rfl

/-- C67. A release build with `r ≥ p` takes `r - p` as the x coordinate; bit 1 of the id is then an error. -/
theorem C67_recover_big (m : Message) (sig : Signature) (id : RecoveryId) (hid : id.id.toNat < 4) (hr : p ≤ sig.r.val) (hs : sig.s.val ≠ 0) :
    (∀ R, id.id.toNat / 2 = 0 → IsRecoveryPoint (sig.r.val - p) id.id.toNat R → recoveredKey (msgZ m) (sigR sig) (sigS sig) R ≠ 0 →
      ∃ k, recover m sig id .release = some (.ok k) ∧ IsKey k (recoveredKey (msgZ m) (sigR sig) (sigS sig) R)) ∧
    ((¬ ∃ R, id.id.toNat / 2 = 0 ∧ IsRecoveryPoint (sig.r.val - p) id.id.toNat R ∧ recoveredKey (msgZ m) (sigR sig) (sigS sig) R ≠ 0) →
      recover m sig id .release = some (.error .invalidSignature)) := by
  obtain ⟨ctx, hctx, hG⟩ := newContext_runs
  have he : recover m sig id = recoverRaw ctx sig.r sig.s id.id m.sc >>= fun o => pure (Except.map PublicKey.mk o) := by
    unfold recover recoverWithContext
    rw [hctx, pure_bind]
    congr 1; funext o
    cases o <;> rfl
  obtain ⟨o, ho, h⟩ := recoverRaw_big (id := id.id) (sigr := sig.r) (sigs := sig.s) (m := m.sc) hG rfl rfl rfl hr hs hid
  rw [he, exec_bind, ho, Option.bind_some]
  rcases h with ⟨rfl, h⟩ | ⟨a, R, rfl, h0, hR, hne, ha⟩
  · exact ⟨fun R h1 h2 h3 => absurd ⟨h1, R, h2, h3⟩ h, fun _ => rfl⟩
  · refine ⟨fun R' h1 h2 h3 => ?_, fun hn => absurd ⟨R, h0, hR, hne⟩ hn⟩
    have := recoveryPoint_unique h2 hR
    subst this
    exact ⟨⟨a⟩, rfl, isKey_iff.2 ⟨ha, hne⟩⟩

/-- The integer `p + 1`. -/
def scalarP1 : Scalar := ⟨0xFFFFFC30, 0xFFFFFFFE, 0xFFFFFFFF, 0xFFFFFFFF, 0xFFFFFFFF, 0xFFFFFFFF, 0xFFFFFFFF, 0xFFFFFFFF⟩

/-- With `r = p + 1` there is a point with x coordinate `r - p`, and ids 2 and 3 are rejected. -/
example : p ≤ scalarP1.val ∧ (∃ id R, id / 2 = 0 ∧ id < 4 ∧ IsRecoveryPoint (scalarP1.val - p) id R) ∧
    ∀ m s, s.val ≠ 0 → recover m ⟨scalarP1, s⟩ ⟨2⟩ .release = some (.error .invalidSignature) := by
  have h1 : scalarP1.val = p + 1 := by decide +kernel
  refine ⟨by omega, ?_, fun m s hs => ?_⟩
  · obtain ⟨k, y, _, hP⟩ := exists_x_one
    refine ⟨y.val % 2, _, by omega, by omega, 1, y, hP, ?_, by omega⟩
    rw [h1, show y.val % 2 / 2 = 0 by omega, mul_zero, add_zero, Nat.add_sub_cancel_left]
    have := ZMod.val_natCast p 1
    rw [Nat.cast_one] at this
    rw [this]; decide +kernel
  · refine (C67_recover_big m ⟨scalarP1, s⟩ ⟨2⟩ (by decide) ?_ hs).2 ?_
    · show p ≤ scalarP1.val
      omega
    · rintro ⟨R, h, _⟩
      exact absurd h (by decide)

/-- C67. With `s = n` a key is recovered under which the signature does not verify. -/
theorem C67_recover_s_n : ∃ m sig id k, ValidMessage m ∧ sig.s.val = n ∧ recover m sig id = pure (.ok k) ∧ ValidKey k ∧
    verify m sig k = pure false := by
  have h1 : scalarOne.val = 1 := by decide +kernel
  have hgx : Gx < n := by decide +kernel
  have hgx0 : Gx ≠ 0 := by decide +kernel
  have hgxv : ((Gx : ℕ) : Fp).val = Gx := by rw [ZMod.val_natCast]; decide +kernel
  have hgyv : ((Gy : ℕ) : Fp).val = Gy := by rw [ZMod.val_natCast]; decide +kernel
  obtain ⟨r, hr⟩ := exists_scalar hgx
  have hs0 : sigS ⟨r, scalarN⟩ = 0 := by
    show ((scalarN.val : ℕ) : ZMod n) = 0
    rw [scalarN_val, ZMod.natCast_self]
  have hR : IsRecoveryPoint r.val 0 G := by
    refine ⟨_, _, isPt_G, ?_, ?_⟩
    · rw [hgxv, hr]; rfl
    · rw [hgyv]; decide +kernel
  have hne : recoveredKey (msgZ ⟨scalarOne⟩) (sigR ⟨r, scalarN⟩) (sigS ⟨r, scalarN⟩) G ≠ 0 := by
    unfold recoveredKey
    rw [hs0, zero_div, ZMod.val_zero, zero_nsmul, zero_sub, ne_eq, neg_eq_zero, smul_eq_zero_iff G_ne_zero]
    intro hd
    have h2 : (msgZ ⟨scalarOne⟩ / sigR ⟨r, scalarN⟩) = 0 := by
      rw [← ZMod.natCast_zmod_val (msgZ ⟨scalarOne⟩ / sigR ⟨r, scalarN⟩)]
      exact (ZMod.natCast_eq_zero_iff _ _).2 hd
    rcases div_eq_zero_iff.1 h2 with h | h
    · have h : ((scalarOne.val : ℕ) : ZMod n) = 0 := h
      rw [h1, cast_eq_zero_of_lt (by decide +kernel)] at h
      exact one_ne_zero h
    · have h : ((r.val : ℕ) : ZMod n) = 0 := h
      rw [hr, cast_eq_zero_of_lt hgx] at h
      exact hgx0 h
  obtain ⟨k, hk, hkey⟩ := ((C67_recover_any ⟨scalarOne⟩ ⟨r, scalarN⟩ ⟨0⟩ (by decide)).1 (by show r.val < p; rw [hr]; exact hgx.trans n_lt_p)).1 G
    (by show r.val ≠ 0; rwa [hr]) (by show scalarN.val ≠ 0; rw [scalarN_val]; decide +kernel) hR hne
  obtain ⟨b, _, h2, h3, _⟩ := C66_verify_any ⟨scalarOne⟩ ⟨r, scalarN⟩ k _ hkey
  have hP : ∀ Q, verifyPoint ⟨scalarOne⟩ ⟨r, scalarN⟩ Q = 0 := by
    intro Q
    rw [verifyPoint, hs0, div_zero, div_zero, ZMod.val_zero, zero_nsmul, zero_nsmul, add_zero]
  rw [hP] at h2 h3
  have hb : b = false := by
    rw [← Bool.not_eq_true, h2]
    exact fun h => xMatches_zero _ h.2
  refine ⟨⟨scalarOne⟩, ⟨r, scalarN⟩, ⟨0⟩, k, ?_, scalarN_val, hk, ⟨_, hkey⟩, ?_⟩
  · show scalarOne.val < n
    rw [h1]; decide +kernel
  · rw [h3 (Or.inr rfl), hb]

/-! ## Scalars and keys -/

/-- C68. Addition never panics, and is right modulo `n` exactly if the sum of the integers is below
`2^256 + n`; the result may be unreduced. -/
theorem C68_add_any (a b : Scalar) :
    ∃ r, Scalar.add a b = pure r ∧
      r.val = (if a.val + b.val < n then a.val + b.val else a.val + b.val - n) % 2 ^ 256 ∧
      (r.val % n = (a.val + b.val) % n ↔ a.val + b.val < 2 ^ 256 + n) := by
  obtain ⟨r, hr, h⟩ := Scalar.add_any a b
  refine ⟨r, hr, h, ?_⟩
  have ha := a.val_lt
  have hb := b.val_lt
  have hnn : n = 2 ^ 256 - 432420386565659656852420866394968145599 := by decide +kernel
  rw [h]
  split
  · rename_i hlt
    rw [Nat.mod_eq_of_lt (show a.val + b.val < 2 ^ 256 by omega)]
    exact ⟨fun _ => by omega, fun _ => rfl⟩
  · rename_i hge
    by_cases hc : a.val + b.val < 2 ^ 256 + n
    · rw [Nat.mod_eq_of_lt (show a.val + b.val - n < 2 ^ 256 by omega)]
      refine ⟨fun _ => hc, fun _ => ?_⟩
      conv_rhs => rw [show a.val + b.val = a.val + b.val - n + n by omega]
      rw [Nat.add_mod_right]
    · refine ⟨fun h => ?_, fun h => absurd h hc⟩
      exfalso
      have e : (a.val + b.val - n) % 2 ^ 256 = a.val + b.val - n - 2 ^ 256 := by
        rw [Nat.mod_eq_sub_mod (show 2 ^ 256 ≤ a.val + b.val - n by omega)]
        exact Nat.mod_eq_of_lt (show a.val + b.val - n - 2 ^ 256 < 2 ^ 256 by omega)
      rw [e] at h
      generalize a.val + b.val = t at *
      rw [hnn] at h hc
      omega

/-- C68. Negation never panics and is right modulo `n` exactly for values up to `n`. -/
theorem C68_neg_any (a : Scalar) :
    ∃ r, Scalar.neg a = pure r ∧ r.val = (if a.val = 0 then 0 else (2 ^ 256 + n - a.val) % 2 ^ 256) ∧
      ((a.val + r.val) % n = 0 ↔ a.val ≤ n) := by
  obtain ⟨r, hr, h⟩ := Scalar.condNeg_true_any a
  refine ⟨r, hr, h, ?_⟩
  have ha := a.val_lt
  have hnn : n = 2 ^ 256 - 432420386565659656852420866394968145599 := by decide +kernel
  rw [h]
  split
  · rename_i h0
    rw [h0]; exact ⟨fun _ => Nat.zero_le _, fun _ => rfl⟩
  · rename_i h0
    by_cases hc : a.val ≤ n
    · have e : (2 ^ 256 + n - a.val) % 2 ^ 256 = n - a.val := by
        rw [Nat.mod_eq_sub_mod (show 2 ^ 256 ≤ 2 ^ 256 + n - a.val by omega),
          show 2 ^ 256 + n - a.val - 2 ^ 256 = n - a.val by omega]
        exact Nat.mod_eq_of_lt (show n - a.val < 2 ^ 256 by omega)
      rw [e, show a.val + (n - a.val) = n by omega, Nat.mod_self]
      exact ⟨fun _ => hc, fun _ => rfl⟩
    · have e : (2 ^ 256 + n - a.val) % 2 ^ 256 = 2 ^ 256 + n - a.val :=
        Nat.mod_eq_of_lt (show 2 ^ 256 + n - a.val < 2 ^ 256 by omega)
      rw [e, show a.val + (2 ^ 256 + n - a.val) = 2 ^ 256 + n by omega, Nat.add_mod_right]
      exact ⟨fun h => absurd h (by decide +kernel), fun h => absurd h hc⟩

/-- C68. `from_secret_key` is right for every limb array; the key is the point at infinity exactly for
the multiples of `n`. -/
theorem C68_from_secret_key_any (sk : SecretKey) :
    ∃ pk, PublicKey.fromSecretKey sk = pure pk ∧ DenotesA pk.pt (secretInt sk • G) ∧
      (pk.pt.infinity = true ↔ n ∣ secretInt sk) := by
  obtain ⟨pk, hpk, ha⟩ := fromSecretKey_runs (k := sk)
  exact ⟨pk, hpk, denotesA_iff.2 ha, ha.inf_iff.trans (smul_eq_zero_iff G_ne_zero)⟩

example : n ∣ secretInt ⟨scalarN⟩ ∧ ¬ n ∣ secretInt ⟨scalarTop⟩ := by
  show n ∣ scalarN.val ∧ ¬ n ∣ scalarTop.val
  decide +kernel

end Verif.Props
