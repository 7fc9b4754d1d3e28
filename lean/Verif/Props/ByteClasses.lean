import Verif.Props.Bytes

/-!
# Which byte strings are read as the same message or signature (C120)
-/

namespace Verif.Props
open Verif Spec Ecdsa

private theorem mod_eq_iff {v w : ℕ} (hv : v < 2 ^ 256) (hw : w < n) : v % n = w ↔ v = w ∨ v = w + n := by
  have h2 : 2 ^ 256 < 2 * n := by decide +kernel
  have hn : v < 2 * n := hv.trans h2
  clear hv h2
  constructor
  · intro h
    by_cases hvn : v < n
    · left; rw [← h, Nat.mod_eq_of_lt hvn]
    · right
      rw [Nat.mod_eq_sub_mod (not_lt.1 hvn), Nat.mod_eq_of_lt (by omega)] at h
      omega
  · rintro (rfl | rfl)
    · exact Nat.mod_eq_of_lt hw
    · rw [Nat.add_mod_right, Nat.mod_eq_of_lt hw]

private theorem beNat_lt32 {l : List UInt8} (h : l.length = 32) : beNat l < 2 ^ 256 := by
  have := beNat_lt l
  rw [h] at this
  exact this.trans_eq (by decide +kernel)

private theorem halves (b : Vector UInt8 64) : (b.toList.take 32).length = 32 ∧ (b.toList.drop 32).length = 32 := by simp

/-- C120. A reduced message is read from its own 32 bytes and from those of its value plus `n`, and from nothing else. -/
theorem C120_message (b : Vector UInt8 32) (m : Message) (hm : m.sc.val < n) :
    Message.parse b = pure m ↔ beNat b.toList = m.sc.val ∨ beNat b.toList = m.sc.val + n := by
  obtain ⟨m', h, hv, _⟩ := C04_message_parse b
  rw [h, ← mod_eq_iff (beNat_lt32 (by simp)) hm, ← hv]
  constructor
  · intro h; rw [pure_inj' h]
  · intro h
    obtain ⟨a⟩ := m; obtain ⟨a'⟩ := m'
    have h : a' = a := Scalar.val_inj h
    rw [h]

/-- C120. So a message has a second encoding exactly if its value is below `2^256 - n`. -/
theorem C120_second_digest (m : Message) (hm : m.sc.val < n) :
    (∃ b b' : Vector UInt8 32, b ≠ b' ∧ Message.parse b = pure m ∧ Message.parse b' = pure m) ↔ m.sc.val + n < 2 ^ 256 := by
  constructor
  · rintro ⟨b, b', hne, h, h'⟩
    by_contra hlt
    have one : ∀ c : Vector UInt8 32, Message.parse c = pure m → beNat c.toList = m.sc.val := by
      intro c hc
      rcases (C120_message c m hm).1 hc with q | q
      · exact q
      · exact absurd (q ▸ beNat_lt32 (by simp)) hlt
    exact hne (Vector.toList_inj.1 (beNat_inj (by simp) ((one b h).trans (one b' h').symm)))
  · intro hlt
    obtain ⟨b, hb⟩ := exists_b32 (v := m.sc.val) (lt_of_le_of_lt (Nat.le_add_right _ _) hlt)
    obtain ⟨b', hb'⟩ := exists_b32 hlt
    refine ⟨b, b', ?_, (C120_message b m hm).2 (.inl hb), (C120_message b' m hm).2 (.inr hb')⟩
    rintro rfl
    rw [hb] at hb'
    have : 0 < n := by decide +kernel
    generalize n = N at *
    omega

/-- C120. `parse_overflowing` reads a reduced signature from the bytes of `r` or `r + n` followed by those of `s` or `s + n`,
and from nothing else. -/
theorem C120_overflowing (b : Vector UInt8 64) (sig : Signature) (h : Canonical sig) :
    Signature.parseOverflowing b = pure sig ↔
      (beNat (b.toList.take 32) = sig.r.val ∨ beNat (b.toList.take 32) = sig.r.val + n) ∧
      (beNat (b.toList.drop 32) = sig.s.val ∨ beNat (b.toList.drop 32) = sig.s.val + n) := by
  obtain ⟨sig', e, hr, hs, _⟩ := C06_parse_overflowing b
  rw [e, ← mod_eq_iff (beNat_lt32 (halves b).1) h.1, ← mod_eq_iff (beNat_lt32 (halves b).2) h.2, ← hr, ← hs]
  constructor
  · intro h; rw [pure_inj' h]; exact ⟨rfl, rfl⟩
  · rintro ⟨h1, h2⟩
    obtain ⟨a, c⟩ := sig; obtain ⟨a', c'⟩ := sig'
    have h1 : a' = a := Scalar.val_inj h1
    have h2 : c' = c := Scalar.val_inj h2
    rw [h1, h2]

/-- C120. `parse_standard` reads a signature from one byte string only, the one `serialize` writes. -/
theorem C120_standard (b : Vector UInt8 64) (sig : Signature) (h : Canonical sig) :
    Signature.parseStandard b = pure (.ok sig) ↔ b = Signature.serialize sig := by
  constructor
  · intro e
    obtain ⟨q, q'⟩ := C05_parse_standard b
    by_cases hb : beNat (b.toList.take 32) < n ∧ beNat (b.toList.drop 32) < n
    · obtain ⟨sig', e', _, _, hw⟩ := q hb
      rw [e] at e'
      obtain rfl : sig = sig' := by simpa using pure_inj' e'
      exact hw.symm
    · rw [q' hb] at e
      exact absurd (pure_inj' e) (fun h => (by cases h))
  · rintro rfl; exact C05_serialize_parse sig h

/-- A message and a signature with second encodings, and an `s` without one. -/
example : ∃ (m : Message) (sig : Signature), (m.sc.val < n ∧ m.sc.val + n < 2 ^ 256) ∧ Canonical sig ∧
    sig.r.val + n < 2 ^ 256 ∧ ¬ sig.s.val + n < 2 ^ 256 :=
  ⟨⟨⟨5, 0, 0, 0, 0, 0, 0, 0⟩⟩, ⟨⟨7, 0, 0, 0, 0, 0, 0, 0⟩, ⟨0, 0, 0, 0, 0, 0, 0, 1⟩⟩, ⟨by decide +kernel, by decide +kernel⟩,
    ⟨by decide +kernel, by decide +kernel⟩, by decide +kernel, by decide +kernel⟩

end Verif.Props
