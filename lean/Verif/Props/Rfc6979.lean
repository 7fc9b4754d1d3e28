import Verif.Spec.Rfc6979
import Verif.Spec.Sha256
import Verif.Props.Ecdsa

/-!
# Deterministic signing (C69)

`sign` with HMAC_DRBG as its generator uses the nonces of RFC 6979.
-/

namespace Verif.Props
open Verif Spec

theorem stateAt_succ {σ : Type} (draw : σ → Vector UInt8 32 × σ) (s : σ) (i : ℕ) :
    stateAt draw s (i + 1) = (draw (stateAt draw s i)).2 := by
  induction i generalizing s with
  | zero => rfl
  | succ i ih => exact ih (draw s).2

theorem hmacDrbg_new (hmac : List UInt8 → List UInt8 → Vector UInt8 32) (x h : List UInt8) (hx : x ≠ []) :
    ((hmacDrbg hmac).new x h []).1.toList = (rfc6979Start hmac x h).1 ∧
      ((hmacDrbg hmac).new x h []).2.toList = (rfc6979Start hmac x h).2 := by
  have h0 : ¬ x ++ h ++ [] = [] := by simp [hx]
  simp only [hmacDrbg, hmacUpdate, if_neg h0]
  simp [rfc6979Start]

theorem hmacDrbg_step (hmac : List UInt8 → List UInt8 → Vector UInt8 32) (x h : List UInt8) (hx : x ≠ []) (i : ℕ) :
    (stateAt (hmacDrbg hmac).generate ((hmacDrbg hmac).new x h []) i).1.toList = (rfc6979Step hmac x h i).1 ∧
      (blockAt (hmacDrbg hmac).generate ((hmacDrbg hmac).new x h []) i).toList = (rfc6979Step hmac x h i).2 := by
  obtain ⟨h1, h2⟩ := hmacDrbg_new hmac x h hx
  induction i with
  | zero =>
    refine ⟨h1, ?_⟩
    simp only [blockAt, stateAt, rfc6979Step, ← h1, ← h2]
    rfl
  | succ i ih =>
    obtain ⟨e1, e2⟩ := ih
    unfold blockAt at e2 ⊢
    rw [stateAt_succ]
    generalize stateAt (hmacDrbg hmac).generate ((hmacDrbg hmac).new x h []) i = s at e1 e2 ⊢
    obtain ⟨K, V⟩ : Vector UInt8 32 × Vector UInt8 32 := s
    have e1 : K.toList = (rfc6979Step hmac x h i).1 := e1
    have e2 : (hmac K.toList V.toList).toList = (rfc6979Step hmac x h i).2 := e2
    have k1 : (rfc6979Step hmac x h (i + 1)).1 = (hmac (rfc6979Step hmac x h i).1 ((rfc6979Step hmac x h i).2 ++ [0x00])).toList := rfl
    have k2 : (rfc6979Step hmac x h (i + 1)).2 = (hmac (rfc6979Step hmac x h (i + 1)).1
      (hmac (rfc6979Step hmac x h (i + 1)).1 (rfc6979Step hmac x h i).2).toList).toList := rfl
    rw [k2, k1, ← e1, ← e2]
    exact ⟨rfl, rfl⟩

/-- C69. Block `i` of the generator is candidate `i` of RFC 6979. -/
theorem C69_rfc6979_nonces (hmac : List UInt8 → List UInt8 → Vector UInt8 32) (h : Vector UInt8 32) (sk : SecretKey) (i : ℕ) :
    ∃ m, Message.parse h = pure m ∧
      beNat (nonceBlock (hmacDrbg hmac) m sk i).toList = rfc6979Nonce hmac (secretInt sk) h i := by
  obtain ⟨m, hm, _, hs⟩ := C04_message_parse h
  refine ⟨m, hm, ?_⟩
  unfold nonceBlock rfc6979Nonce
  have hk : (SecretKey.serialize sk).toList = beBytes 32 (secretInt sk) := Scalar.b32_toList sk.sc
  have hx : beBytes 32 (secretInt sk) ≠ [] := fun h0 => by
    have := beBytes_length 32 (secretInt sk)
    rw [h0] at this
    exact absurd this (by decide)
  rw [hk, hs, (hmacDrbg_step hmac _ _ hx i).2]

/-- C69. If candidate `i` is the first that RFC 6979 accepts, signing returns the signature made from it,
in both profiles, unless one of the candidates up to `i` gives a point with x coordinate `≥ n`. -/
theorem C69_rfc6979_sign (hmac : List UInt8 → List UInt8 → Vector UInt8 32) (h : Vector UInt8 32) (sk : SecretKey) (fuel i : ℕ)
    (hi : i < fuel)
    (ha : Rfc6979Accepts (keyZ sk) (beNat h.toList) (rfc6979Nonce hmac (secretInt sk) h i))
    (hf : ∀ j < i, ¬ Rfc6979Accepts (keyZ sk) (beNat h.toList) (rfc6979Nonce hmac (secretInt sk) h j))
    (ho : ∀ j ≤ i, rfc6979Nonce hmac (secretInt sk) h j < n → NoOverflow (rfc6979Nonce hmac (secretInt sk) h j)) :
    ∃ m x y sig id, Message.parse h = pure m ∧ IsPt (rfc6979Nonce hmac (secretInt sk) h i • G) x y ∧
      NonceSignature (keyZ sk) (beNat h.toList) (rfc6979Nonce hmac (secretInt sk) h i) x y sig.r.val sig.s.val id.id.toNat ∧
      sign (hmacDrbg hmac) fuel m sk = pure (some (sig, id)) := by
  obtain ⟨m, hm, hv, _⟩ := C04_message_parse h
  have hmz : msgZ m = ((beNat h.toList : ℕ) : ZMod n) := by
    show ((m.sc.val : ℕ) : ZMod n) = _
    rw [hv, ZMod.natCast_mod]
  have hb : ∀ j, beNat (nonceBlock (hmacDrbg hmac) m sk j).toList = rfc6979Nonce hmac (secretInt sk) h j := fun j => by
    obtain ⟨m', hm', h'⟩ := C69_rfc6979_nonces hmac h sk j
    rw [hm] at hm'
    rw [pure_inj' hm']; exact h'
  have hp0 : p ≠ 0 := by decide +kernel
  have hgood : ∀ j ≤ i, GoodBlock (hmacDrbg hmac) m sk j ↔ Rfc6979Accepts (keyZ sk) (beNat h.toList) (rfc6979Nonce hmac (secretInt sk) h j) := by
    intro j hj
    unfold GoodBlock Rfc6979Accepts InRange UsableNonce
    rw [hb, hmz]
    constructor
    · rintro ⟨⟨h1, h2⟩, x, y, hP, hs⟩
      refine ⟨h1, h2, x, y, hP, fun h0 => ?_, hs⟩
      rw [cast_eq_zero_of_lt (ho j hj h2 x y hP), ZMod.val_eq_zero] at h0
      exact IsPt.x_ne hP h0
    · rintro ⟨h1, h2, x, y, hP, _, hs⟩
      exact ⟨⟨h1, h2⟩, x, y, hP, hs⟩
  obtain ⟨x, y, sig, id, hP, hs, hr, hd, _⟩ := (C29_first_nonce (hmacDrbg hmac) m sk fuel).1 i hi ((hgood i le_rfl).2 ha)
    (fun j hj hg => hf j hj ((hgood j hj.le).1 hg))
  rw [hb, hmz] at hs
  rw [hb] at hP
  refine ⟨m, x, y, sig, id, hm, hP, hs, ?_⟩
  funext π
  cases π with
  | release => exact hr
  | debug => exact hd fun j hj hr => by unfold InRange at hr; rw [hb] at hr ⊢; exact ho j hj hr.2

/-- The hypotheses are met, by a constant `hmac`. -/
example : ∃ hmac h sk, ValidSecret sk ∧ Rfc6979Accepts (keyZ sk) (beNat h.toList) (rfc6979Nonce hmac (secretInt sk) h 0) ∧
    NoOverflow (rfc6979Nonce hmac (secretInt sk) h 0) := by
  obtain ⟨b, hb, _⟩ := exists_block (v := 1) (by omega) (by decide +kernel)
  obtain ⟨h, hh⟩ := exists_b32 (v := 0) (by norm_num)
  have hk : rfc6979Nonce (fun _ _ => b) (secretInt secretOne) h 0 = 1 := hb
  have hP : IsPt (1 • G) (Gx : Fp) (Gy : Fp) := by rw [one_nsmul]; exact isPt_G
  have hgx : ((Gx : ℕ) : Fp).val = Gx := by rw [ZMod.val_natCast]; decide +kernel
  have hgn : Gx < n := by decide +kernel
  have hg0 : ((Gx : ℕ) : ZMod n) ≠ 0 := by rw [ne_eq, cast_eq_zero_of_lt hgn]; decide +kernel
  have h1 : keyZ secretOne = 1 := by
    show ((secretInt secretOne : ℕ) : ZMod n) = 1
    rw [show secretInt secretOne = 1 by decide +kernel]; exact Nat.cast_one
  refine ⟨fun _ _ => b, h, secretOne, secretOne_valid, ?_, ?_⟩
  · rw [hk, hh, h1]
    refine ⟨by omega, by decide +kernel, _, _, hP, ?_, ?_⟩
    · rw [hgx]; exact hg0
    · rw [hgx, Nat.cast_zero, zero_add, mul_one]; exact hg0
  · rw [hk]
    intro x y hx
    rw [← (hP.inj hx).1, hgx]; exact hgn

/-- C69. With HMAC-SHA-256 and a message hashed with SHA-256, the case of the code: `sign` returns the
ECDSA signature with the first nonce that RFC 6979 accepts. -/
theorem C69_sha256_sign (msg : List UInt8) (sk : SecretKey) (fuel i : ℕ) (hi : i < fuel)
    (ha : Rfc6979Accepts (keyZ sk) (beNat (sha256 msg).toList) (rfc6979Nonce hmacSha256 (secretInt sk) (sha256 msg) i))
    (hf : ∀ j < i, ¬ Rfc6979Accepts (keyZ sk) (beNat (sha256 msg).toList) (rfc6979Nonce hmacSha256 (secretInt sk) (sha256 msg) j))
    (ho : ∀ j ≤ i, rfc6979Nonce hmacSha256 (secretInt sk) (sha256 msg) j < n → NoOverflow (rfc6979Nonce hmacSha256 (secretInt sk) (sha256 msg) j)) :
    ∃ m x y sig id, Message.parse (sha256 msg) = pure m ∧ IsPt (rfc6979Nonce hmacSha256 (secretInt sk) (sha256 msg) i • G) x y ∧
      NonceSignature (keyZ sk) (beNat (sha256 msg).toList) (rfc6979Nonce hmacSha256 (secretInt sk) (sha256 msg) i) x y sig.r.val sig.s.val id.id.toNat ∧
      sign (hmacDrbg hmacSha256) fuel m sk = pure (some (sig, id)) :=
  C69_rfc6979_sign hmacSha256 (sha256 msg) sk fuel i hi ha hf ho

/-- FIPS 180-4, example: SHA-256 of "abc". -/
example : beNat (sha256 [0x61, 0x62, 0x63]).toList = 0xba7816bf8f01cfea414140de5dae2223b00361a396177a9cb410ff61f20015ad := by
  decide +kernel

/-- A published nonce: secret key 1, message "Satoshi Nakamoto". -/
example : rfc6979Nonce hmacSha256 (secretInt secretOne)
    (sha256 [0x53, 0x61, 0x74, 0x6f, 0x73, 0x68, 0x69, 0x20, 0x4e, 0x61, 0x6b, 0x61, 0x6d, 0x6f, 0x74, 0x6f]) 0 =
    0x8F8A276C19F4149656B280621E358CCE24F5F52542772691EE69063B74F15D15 := by
  decide +kernel

end Verif.Props
