import Verif.Props.Der
import Verif.Props.Ecdsa

/-!
# Absence of panics (C46)
-/

namespace Verif.Props
open Verif Spec Ecmult Ecdsa

/-- The call returns in both build profiles. -/
def NoPanic {α : Type} (x : Exec α) : Prop := ∀ π, x π ≠ none

theorem noPanic_pure {α : Type} {x : Exec α} {a : α} (h : x = pure a) : NoPanic x := by
  intro π e; rw [h] at e; exact absurd e (by simp [pure, ReaderT.pure])

theorem exists_point_of_valid {k : PublicKey} (h : ValidKey k) : ∃ P x y, IsKey k P ∧ IsPt P x y := by
  obtain ⟨P, hP⟩ := h
  obtain ⟨x, y, hxy⟩ := IsPt.of_ne_zero hP.2
  exact ⟨P, x, y, hP, hxy⟩

/-- C46, the operations on secret keys. -/
theorem C46_secret (k t : SecretKey) (hk : ValidSecret k) (ht : secretInt t < n) :
    NoPanic (PublicKey.fromSecretKey k) ∧ NoPanic (SecretKey.tweakAddAssign k t) ∧
    NoPanic (SecretKey.tweakMulAssign k t) ∧ NoPanic (SecretKey.inv k) ∧
    NoPanic SecretKey.default := by
  refine ⟨?_, ?_, ?_, ?_, ?_⟩
  · obtain ⟨pk, h, _⟩ := C18_from_secret_key k hk.not_dvd; exact noPanic_pure h
  · obtain ⟨h, h'⟩ := C30_secret_tweak_add k t hk.2 ht
    by_cases h0 : (secretInt k + secretInt t) % n = 0
    · exact noPanic_pure (h h0)
    · obtain ⟨_, h, _⟩ := h' h0; exact noPanic_pure h
  · obtain ⟨h, h'⟩ := C31_secret_tweak_mul k t hk ht
    by_cases h0 : secretInt t = 0
    · exact noPanic_pure (h h0)
    · obtain ⟨_, h, _⟩ := h' h0; exact noPanic_pure h
  · obtain ⟨k', h, _⟩ := C10_secret_inv k hk; exact noPanic_pure h
  · intro π; cases π <;> decide +kernel

/-- C46, the operations on public keys. -/
theorem C46_public (k k' : PublicKey) (keys : List PublicKey) (t : SecretKey) (D : Digest) (B : Base64) (hr : Bool)
    (hk : ValidKey k) (hk' : ValidKey k') (hkeys : ∀ k ∈ keys, ValidKey k) (ht : secretInt t < n) :
    NoPanic (PublicKey.tweakAddAssign k t) ∧ NoPanic (PublicKey.tweakMulAssign k t) ∧
    NoPanic (PublicKey.combine keys) ∧ NoPanic (PublicKey.eq k k') ∧ NoPanic (PublicKey.serialize k) ∧
    NoPanic (PublicKey.serializeCompressed k) ∧ NoPanic (PublicKey.serdeSerialize B hr k) ∧
    NoPanic (PublicKey.tryFrom k.pt) ∧ NoPanic (SharedSecret.new D k t) := by
  obtain ⟨P, hP⟩ := hk
  obtain ⟨Q, hQ⟩ := hk'
  refine ⟨?_, ?_, ?_, ?_, ?_, ?_, ?_, ?_, ?_⟩
  · obtain ⟨h, h'⟩ := C30_public_tweak_add k P t hP ht
    by_cases h0 : P + secretInt t • G = 0
    · exact noPanic_pure (h h0)
    · obtain ⟨_, h, _⟩ := h' h0; exact noPanic_pure h
  · obtain ⟨h, h'⟩ := C31_public_tweak_mul k P t hP ht
    by_cases h0 : secretInt t = 0
    · exact noPanic_pure (h h0)
    · obtain ⟨_, h, _⟩ := h' h0; exact noPanic_pure h
  · rcases C32_combine_perm keys keys (List.Perm.refl _) hkeys with ⟨h, _⟩ | ⟨_, _, h, _⟩ <;> exact noPanic_pure h
  · obtain ⟨_, _, _, h, _⟩ := C22_equality k k' P Q hP hQ; exact noPanic_pure h
  · obtain ⟨_, _, _, h, _⟩ := C22_equality k k P P hP hP
    obtain ⟨_, _, _, ⟨_, _, h, _⟩, _⟩ := C21_roundtrip k P hP
    exact noPanic_pure h
  · obtain ⟨_, _, _, _, ⟨_, _, h, _⟩⟩ := C21_roundtrip k P hP
    exact noPanic_pure h
  · obtain ⟨_, _, h, _⟩ := C47_serde_roundtrip B hr k ⟨P, hP⟩; exact noPanic_pure h
  · exact noPanic_pure ((C53_public_try_from k.pt hP.1.1 hP.1.2.1).1 P hP.1 hP.2).1
  · obtain ⟨h, h'⟩ := C33_ecdh D k P t hP ht
    by_cases h0 : secretInt t = 0
    · exact noPanic_pure (h h0)
    · obtain ⟨_, _, _, h⟩ := h' h0; exact noPanic_pure h

theorem noPanic_parse (b : Vector UInt8 65) : NoPanic (PublicKey.parse b) := by
  obtain ⟨h, h'⟩ := C19_parse b
  by_cases h0 : ∃ P x y, IsPt P x y ∧ Encodes65 b.toList x y
  · obtain ⟨P, x, y, h1, h2⟩ := h0
    obtain ⟨_, h, _⟩ := h P x y h1 h2; exact noPanic_pure h
  · exact noPanic_pure (h' h0)

theorem noPanic_parseCompressed (b : Vector UInt8 33) : NoPanic (PublicKey.parseCompressed b) := by
  obtain ⟨h, h'⟩ := C20_parse_compressed b
  by_cases h0 : ∃ P x y, IsPt P x y ∧ b.toList = sec1Compressed x y
  · obtain ⟨P, x, y, h1, h2⟩ := h0
    obtain ⟨_, h, _⟩ := h P x y h1 h2; exact noPanic_pure h
  · exact noPanic_pure (h' h0)

theorem exists_vector {n : ℕ} (l : List UInt8) (h : l.length = n) : ∃ b : Vector UInt8 n, b.toList = l :=
  ⟨⟨l.toArray, by simpa using h⟩, by simp⟩

theorem noPanic_parseSlice (l : List UInt8) (f : Option PublicKeyFormat) : NoPanic (PublicKey.parseSlice l f) := by
  obtain ⟨h0, h65, h33, h64⟩ := C03_public_key_slice
  by_cases ha : Admissible l.length f
  · have : l.length = 65 ∨ l.length = 33 ∨ l.length = 64 := by
      unfold Admissible at ha; omega
    rcases this with e | e | e <;> rw [e] at ha <;> obtain ⟨b, rfl⟩ := exists_vector l e
    · rw [h65 b f ha]; exact noPanic_parse b
    · rw [h33 b f ha]; exact noPanic_parseCompressed b
    · obtain ⟨b', _, e'⟩ := h64 b f ha
      rw [e']; exact noPanic_parse b'
  · exact noPanic_pure ((h0 l f).2 ha)

theorem noPanic_map {α β : Type} {x : Exec α} {f : α → β} (h : NoPanic x) : NoPanic (do let a ← x; pure (f a)) := by
  intro π e
  have := h π
  cases hx : x π with
  | none => exact this hx
  | some a =>
    have e' : ((x π).bind fun a => some (f a)) = none := e
    rw [hx] at e'; exact absurd e' (by simp)

/-- C46, the decoders of fixed-size arrays and slices: every input. -/
theorem C46_decode (b32 : Vector UInt8 32) (b33 : Vector UInt8 33) (b64 : Vector UInt8 64) (b65 : Vector UInt8 65)
    (l : List UInt8) (f : Option PublicKeyFormat) (B : Base64) (hr : Bool) (v : SerdeValue) :
    NoPanic (SecretKey.parse b32) ∧ NoPanic (SecretKey.parseSlice l) ∧
    NoPanic (Message.parse b32) ∧ NoPanic (Message.parseSlice l) ∧
    NoPanic (Signature.parseStandard b64) ∧ NoPanic (Signature.parseStandardSlice l) ∧
    NoPanic (Signature.parseOverflowing b64) ∧ NoPanic (Signature.parseOverflowingSlice l) ∧
    NoPanic (PublicKey.parse b65) ∧ NoPanic (PublicKey.parseCompressed b33) ∧ NoPanic (PublicKey.parseSlice l f) ∧
    NoPanic (PublicKey.serdeDeserialize B hr v) := by
  obtain ⟨s1, s2, m1, m2, g1, g2, o1, o2⟩ := C03_slices
  have hsk : ∀ b, NoPanic (SecretKey.parse b) := fun b => by
    obtain ⟨h, h'⟩ := C01_secret_parse b
    by_cases h0 : 0 < beNat b.toList ∧ beNat b.toList < n
    · obtain ⟨_, h, _⟩ := h h0; exact noPanic_pure h
    · exact noPanic_pure (h' h0)
  have hstd : ∀ b, NoPanic (Signature.parseStandard b) := fun b => by
    obtain ⟨h, h'⟩ := C05_parse_standard b
    by_cases h0 : beNat (b.toList.take 32) < n ∧ beNat (b.toList.drop 32) < n
    · obtain ⟨_, h, _⟩ := h h0; exact noPanic_pure h
    · exact noPanic_pure (h' h0)
  refine ⟨hsk _, ?_, ?_, ?_, hstd _, ?_, ?_, ?_, noPanic_parse _, noPanic_parseCompressed _, noPanic_parseSlice _ _, ?_⟩
  · by_cases h : l.length = 32
    · obtain ⟨b, rfl⟩ := exists_vector l h; rw [s2]; exact hsk b
    · exact noPanic_pure ((s1 l).2 h)
  · obtain ⟨_, h, _⟩ := C04_message_parse b32; exact noPanic_pure h
  · by_cases h : l.length = 32
    · obtain ⟨b, rfl⟩ := exists_vector l h
      obtain ⟨_, _, h⟩ := m2 b; exact noPanic_pure h
    · exact noPanic_pure ((m1 l).2 h)
  · by_cases h : l.length = 64
    · obtain ⟨b, rfl⟩ := exists_vector l h; rw [g2]; exact hstd b
    · exact noPanic_pure ((g1 l).2 h)
  · obtain ⟨_, h, _⟩ := C06_parse_overflowing b64; exact noPanic_pure h
  · by_cases h : l.length = 64
    · obtain ⟨b, rfl⟩ := exists_vector l h
      obtain ⟨_, _, h⟩ := o2 b; exact noPanic_pure h
    · exact noPanic_pure ((o1 l).2 h)
  · cases hr <;> cases v <;> unfold PublicKey.serdeDeserialize
    · exact noPanic_pure rfl
    · exact noPanic_map (noPanic_parseSlice _ _)
    · rename_i s
      show NoPanic (PublicKey.visitStr B s)
      unfold PublicKey.visitStr
      split
      · exact noPanic_pure rfl
      · split
        · exact noPanic_pure rfl
        · exact noPanic_map (noPanic_parseSlice _ _)
    · exact noPanic_pure rfl

/-- C46, the operations on signatures. The bound on the DER input is that of C41. -/
theorem C46_signature (m : Message) (sig : Signature) (id : RecoveryId) (pk : PublicKey) (W : ℕ) (b : List UInt8)
    (hs : Canonical sig) (hid : RecoveryId.parse id.id = .ok id) (hpk : ValidKey pk) (hW : W = 32 ∨ W = 64) (hb : b.length < 2 ^ (W - 8)) :
    NoPanic (verify m sig pk) ∧ NoPanic (recover m sig id) ∧ NoPanic (Signature.normalizeS sig) ∧
    NoPanic (Signature.serializeDer sig) ∧ NoPanic (Signature.parseDer W b) ∧ NoPanic (Signature.parseDerLax W b) := by
  obtain ⟨Q, hQ⟩ := hpk
  have hid' : id.id.toNat < 4 := by
    by_contra h
    rw [(C45_recovery_id id.id).2.1 h] at hid; exact absurd hid (by simp)
  refine ⟨?_, ?_, ?_, ?_, ?_, ?_⟩
  · obtain ⟨_, h, _⟩ := C23_verify m sig pk Q hs hQ; exact noPanic_pure h
  · obtain ⟨h, h', _⟩ := C26_recover m sig id hs hid'
    by_cases h0 : ∃ R, sigR sig ≠ 0 ∧ sigS sig ≠ 0 ∧ IsRecoveryPoint sig.r.val id.id.toNat R ∧
      recoveredKey (msgZ m) (sigR sig) (sigS sig) R ≠ 0
    · obtain ⟨R, h1, h2, h3, h4⟩ := h0
      obtain ⟨_, h, _⟩ := h R h1 h2 h3 h4; exact noPanic_pure h
    · exact noPanic_pure (h' h0)
  · obtain ⟨_, h, _⟩ := C11_normalize_s_partial sig hs.2; exact noPanic_pure h
  · obtain ⟨_, h, _⟩ := C42_serialize_der sig; exact noPanic_pure h
  · have hs : IsSlice W b := ⟨hW, hb.trans (by rcases hW with rfl | rfl <;> norm_num)⟩
    exact noPanic_pure ((parseDer_eq hs).resolve_right fun h => absurd h.2.2.2 (not_le.2 hb))
  · have hs : IsSlice W b := ⟨hW, hb.trans (by rcases hW with rfl | rfl <;> norm_num)⟩
    obtain ⟨⟨_, h⟩, _⟩ := C41_no_panic_partial W b hs; exact noPanic_pure h

/-- Non-vacuity of C46: valid objects of every kind exist. -/
example : ∃ (k : SecretKey) (pk : PublicKey) (sig : Signature) (m : Message) (id : RecoveryId),
    ValidSecret k ∧ ValidKey pk ∧ Canonical sig ∧ RecoveryId.parse id.id = .ok id ∧ ([0x30] : List UInt8).length < 2 ^ (32 - 8) := by
  obtain ⟨pk, h⟩ := exists_key G_ne_zero
  refine ⟨secretMax, pk, ⟨scalarMax, scalarOne⟩, ⟨scalarMax⟩, ⟨3⟩, secretMax_valid, ⟨_, h⟩, ?_, by decide, ?_⟩
  · constructor <;> decide +kernel
  · norm_num

end Verif.Props
