import Verif.Props.Unique
import Verif.Props.Ecdsa

/-!
# Which key agreements give the same secret (C117)
-/

namespace Verif.Props
open Verif Spec

/-- The digest does not confuse the compressed encodings of two points. -/
def Collisionless (D : Digest) : Prop :=
  ∀ (P P' : Pt) (x y x' y' : Fp), IsPt P x y → IsPt P' x' y' →
    D.finalize (D.update D.init (sec1Compressed x y)) = D.finalize (D.update D.init (sec1Compressed x' y')) →
    sec1Compressed x y = sec1Compressed x' y'

/-- The digest that returns what it was fed. -/
def echo : Digest where
  State := List UInt8
  init := []
  update s a := s ++ a
  finalize s := s
  update_append s a b := List.append_assoc s a b

theorem echo_collisionless : Collisionless echo := fun _ _ _ _ _ _ _ _ h => h

theorem sec1Compressed_inj {P Q : Pt} {x y x' y' : Fp} (h : IsPt P x y) (h' : IsPt Q x' y') (e : sec1Compressed x y = sec1Compressed x' y') :
    P = Q := by
  obtain ⟨k, hk⟩ := exists_key h.ne_zero
  obtain ⟨x₁, y₁, h₁, _, b, _, _, hb, _⟩ := C21_roundtrip k P hk
  obtain ⟨rfl, rfl⟩ := h.inj h₁
  obtain ⟨a, ha, hP⟩ := (C20_parse_compressed b).1 P _ _ h hb
  obtain ⟨a', ha', hQ⟩ := (C20_parse_compressed b).1 Q _ _ h' (hb.trans e)
  rw [ha] at ha'
  obtain rfl : a = a' := by simpa using pure_inj' ha'
  exact isKey_unique hP hQ

/-- C117. Two key agreements give the same secret if the products are the same point and, unless the digest has a collision, only then. -/
theorem C117_same (D : Digest) (pk pk' : PublicKey) (P P' : Pt) (sk sk' : SecretKey) (hP : IsKey pk P) (hP' : IsKey pk' P')
    (hs : ValidSecret sk) (hs' : ValidSecret sk') :
    ∃ a b, SharedSecret.new D pk sk = pure (.ok a) ∧ SharedSecret.new D pk' sk' = pure (.ok b) ∧
      (secretInt sk • P = secretInt sk' • P' → a = b) ∧ (Collisionless D → (a = b ↔ secretInt sk • P = secretInt sk' • P')) := by
  obtain ⟨x, y, h1, e1⟩ := (C33_ecdh D pk P sk hP hs.2).2 hs.1.ne'
  obtain ⟨x', y', h2, e2⟩ := (C33_ecdh D pk' P' sk' hP' hs'.2).2 hs'.1.ne'
  have h : secretInt sk • P = secretInt sk' • P' → x = x' ∧ y = y' := fun e => (e ▸ h1).inj h2
  refine ⟨_, _, e1, e2, fun e => ?_, fun hD => ⟨fun e => ?_, fun e => ?_⟩⟩
  · obtain ⟨rfl, rfl⟩ := h e; rfl
  · exact sec1Compressed_inj h1 h2 (hD _ _ _ _ _ _ h1 h2 (congrArg SharedSecret.bytes e))
  · obtain ⟨rfl, rfl⟩ := h e; rfl

theorem secret_nsmul_inj {P : Pt} (hP : P ≠ 0) {a b : ℕ} (ha : a < n) (hb : b < n) (h : a • P = b • P) : a = b := by
  have := zs_inj (a := (a : ZMod n)) (b := (b : ZMod n)) hP (by rw [zs_cast, zs_cast]; exact h)
  rwa [ZMod.natCast_eq_natCast_iff', Nat.mod_eq_of_lt ha, Nat.mod_eq_of_lt hb] at this

/-- C117. One secret key agrees with two public keys on the same secret exactly if they are equal. -/
theorem C117_public (D : Digest) (hD : Collisionless D) (pk pk' : PublicKey) (sk : SecretKey) (hP : ValidKey pk) (hP' : ValidKey pk')
    (hs : ValidSecret sk) :
    ∃ a b, SharedSecret.new D pk sk = pure (.ok a) ∧ SharedSecret.new D pk' sk = pure (.ok b) ∧ (a = b ↔ PublicKey.eq pk pk' = pure true) := by
  obtain ⟨P, hP⟩ := hP
  obtain ⟨P', hP'⟩ := hP'
  obtain ⟨a, b, e1, e2, _, h⟩ := C117_same D pk pk' P P' sk sk hP hP' hs hs
  obtain ⟨c, _, _, ec, _, _, hc, _⟩ := C22_equality pk pk' P P' hP hP'
  refine ⟨a, b, e1, e2, (h hD).trans ?_⟩
  rw [ec]
  constructor
  · intro e
    have : (secretInt sk : ZMod n) ≠ 0 := fun h => hs.not_dvd ((ZMod.natCast_eq_zero_iff _ _).1 h)
    rw [hc.2 (zs_inj_pt this (by rw [zs_cast, zs_cast]; exact e))]
  · intro e
    rw [hc.1 (pure_inj' e)]

/-- C117. Two secret keys agree with one public key on the same secret exactly if they are equal. -/
theorem C117_secret (D : Digest) (hD : Collisionless D) (pk : PublicKey) (sk sk' : SecretKey) (hP : ValidKey pk)
    (hs : ValidSecret sk) (hs' : ValidSecret sk') :
    ∃ a b, SharedSecret.new D pk sk = pure (.ok a) ∧ SharedSecret.new D pk sk' = pure (.ok b) ∧ (a = b ↔ sk = sk') := by
  obtain ⟨P, hP⟩ := hP
  obtain ⟨a, b, e1, e2, _, h⟩ := C117_same D pk pk P P sk sk' hP hP hs hs'
  refine ⟨a, b, e1, e2, (h hD).trans ⟨fun e => ?_, fun e => by rw [e]⟩⟩
  have := Scalar.val_inj (secret_nsmul_inj (isKey_iff.1 hP).2 hs.2 hs'.2 e)
  cases sk; cases sk'; cases this; rfl

/-- C117. The secret is the digest of the compressed product, which `tweak_mul_assign` computes too. -/
theorem C117_tweak (D : Digest) (pk : PublicKey) (sk : SecretKey) (hP : ValidKey pk) (hs : ValidSecret sk) :
    ∃ pk' c, PublicKey.tweakMulAssign pk sk = pure (pk', .ok ()) ∧ PublicKey.serializeCompressed pk' = pure c ∧
      SharedSecret.new D pk sk = pure (.ok ⟨D.finalize (D.update D.init c.toList)⟩) := by
  obtain ⟨P, hP⟩ := hP
  obtain ⟨pk', e, hk⟩ := (C31_public_tweak_mul pk P sk hP hs.2).2 hs.1.ne'
  obtain ⟨x, y, h1, e1⟩ := (C33_ecdh D pk P sk hP hs.2).2 hs.1.ne'
  obtain ⟨x', y', h2, _, c, _, e2, hc, _⟩ := C21_roundtrip pk' _ hk
  obtain ⟨rfl, rfl⟩ := h1.inj h2
  exact ⟨pk', c, e, e2, by rw [e1, hc]⟩

/-- C117. For a fixed public key every point is hashed for exactly one secret key. -/
theorem C117_every_point (pk k : PublicKey) (hP : ValidKey pk) (hk : ValidKey k) :
    ∃ c, PublicKey.serializeCompressed k = pure c ∧
      ∃! sk, ValidSecret sk ∧ ∀ D : Digest, SharedSecret.new D pk sk = pure (.ok ⟨D.finalize (D.update D.init c.toList)⟩) := by
  obtain ⟨P, hP⟩ := hP
  obtain ⟨Q, hQ⟩ := hk
  obtain ⟨x, y, h, _, c, _, ec, hc, _⟩ := C21_roundtrip k Q hQ
  refine ⟨c, ec, ?_⟩
  have hP0 := (isKey_iff.1 hP).2
  have hQ0 := (isKey_iff.1 hQ).2
  obtain ⟨a, _, ha⟩ := exists_smul_G P
  obtain ⟨b, _, hb⟩ := exists_smul_G Q
  have ha0 : (a : ZMod n) ≠ 0 := fun h0 => hP0 (by rw [ha, ← zs_cast, h0, zs_zero])
  have hb0 : (b : ZMod n) ≠ 0 := fun h0 => hQ0 (by rw [hb, ← zs_cast, h0, zs_zero])
  obtain ⟨s, hs⟩ := exists_scalar (ZMod.val_lt ((b : ZMod n) / (a : ZMod n)))
  have hsv : ValidSecret ⟨s⟩ := by
    refine ⟨?_, ?_⟩
    · show 0 < s.val
      rw [hs]
      exact Nat.pos_of_ne_zero ((ZMod.val_ne_zero _).2 (div_ne_zero hb0 ha0))
    · show s.val < n
      rw [hs]; exact ZMod.val_lt _
  have hprod : secretInt ⟨s⟩ • P = Q := by
    show s.val • P = Q
    rw [hs, ha, ← zs_cast a, ← zs_mul, div_mul_cancel₀ _ ha0, zs_cast, hb]
  refine ⟨⟨s⟩, ⟨hsv, fun D => ?_⟩, ?_⟩
  · obtain ⟨x', y', h', e⟩ := (C33_ecdh D pk P ⟨s⟩ hP hsv.2).2 hsv.1.ne'
    rw [hprod] at h'
    obtain ⟨rfl, rfl⟩ := h.inj h'
    rw [e, hc]
  · rintro t ⟨ht, hD⟩
    obtain ⟨x', y', h', e⟩ := (C33_ecdh echo pk P t hP ht.2).2 ht.1.ne'
    rw [hD echo, hc] at e
    have e' : sec1Compressed x y = sec1Compressed x' y' := by simpa [echo] using pure_inj' e
    have := sec1Compressed_inj h h' e'
    rw [← hprod] at this
    have := Scalar.val_inj (secret_nsmul_inj hP0 hsv.2 ht.2 this)
    cases t; cases this; rfl

example : ValidSecret secretMax ∧ Collisionless echo ∧ ∃ pk, ValidKey pk :=
  ⟨secretMax_valid, echo_collisionless, _, _, (exists_key G_ne_zero).choose_spec⟩

end Verif.Props
