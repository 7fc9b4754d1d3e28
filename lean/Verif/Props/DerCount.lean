import Verif.Props.SignatureCount
import Verif.Props.Pipelines
import Verif.Props.Encodings
import Mathlib.Data.Set.Finite.List

/-!
# How many encoded signatures verify (C126)
-/

namespace Verif.Props
open Verif Spec

/-- The byte strings that `parse_der` reads as a signature that verifies. -/
def DerVerifying (W : ℕ) (m : Message) (pk : PublicKey) : Set (List UInt8) :=
  {b | IsSlice W b ∧ ∃ sig, Signature.parseDer W b = pure (.ok sig) ∧ verify m sig pk = pure true}

/-- The 64-byte strings that `parse_standard` reads as a signature that verifies. -/
def StandardVerifying (m : Message) (pk : PublicKey) : Set (Vector UInt8 64) :=
  {b | ∃ sig, Signature.parseStandard b = pure (.ok sig) ∧ verify m sig pk = pure true}

theorem card_u8 : Nat.card UInt8 = 256 := by
  rw [Nat.card_congr (⟨fun a => a.toFin, fun a => ⟨⟨a⟩⟩, fun _ => rfl, fun _ => rfl⟩ : UInt8 ≃ Fin (2 ^ 8)), Nat.card_fin]
  rfl

instance : Finite UInt8 := Nat.finite_of_card_ne_zero (by rw [card_u8]; decide)

theorem verifying_nonzero {m : Message} {sig : Signature} {pk : PublicKey} (hq : ValidKey pk) (hc : Canonical sig) (h : verify m sig pk = pure true) :
    sig.r.val ≠ 0 ∧ sig.s.val ≠ 0 := by
  obtain ⟨Q, hQ⟩ := hq
  obtain ⟨h1, h2, _⟩ := verify_valid hc hQ h
  exact ⟨fun h0 => h1 (by show ((sig.r.val : ℕ) : ZMod n) = 0; rw [h0, Nat.cast_zero]),
    fun h0 => h2 (by show ((sig.s.val : ℕ) : ZMod n) = 0; rw [h0, Nat.cast_zero])⟩

theorem isSlice_of_le {W : ℕ} (hW : W = 32 ∨ W = 64) {b : List UInt8} (h : b.length < 2 ^ 31) : IsSlice W b := by
  refine ⟨hW, lt_of_lt_of_le h (Nat.pow_le_pow_right (by decide) ?_)⟩
  omega

theorem IsSlice_of_serialize {W : ℕ} (hW : W = 32 ∨ W = 64) {sig : Signature} {b : List UInt8} (h : Signature.serializeDer sig = pure b) :
    IsSlice W b := by
  obtain ⟨b', hb', _, _, hl, -⟩ := C87_der_length sig
  rw [h] at hb'
  obtain rfl := pure_inj' hb'
  exact isSlice_of_le hW (by omega)

/-- C126. For every message and key as many byte strings pass `parse_der` and then `verify` as there are signatures that verify. -/
theorem C126_der (W : ℕ) (hW : W = 32 ∨ W = 64) (m : Message) (pk : PublicKey) (hq : ValidKey pk) :
    (DerVerifying W m pk).ncard = (Verifying m pk).ncard ∧ n - 7 ≤ (DerVerifying W m pk).ncard ∧ (DerVerifying W m pk).ncard ≤ n - 3 := by
  have hex : ∀ sig : Signature, ∃ b, Signature.serializeDer sig = pure b ∧
      (Canonical sig → sig.s.val ≠ 0 → IsSlice W b ∧ Signature.parseDer W b = pure (.ok sig)) := by
    intro sig
    obtain ⟨b, hb, _, _, h⟩ := C102_der_roundtrip W hW sig
    refine ⟨b, hb, fun hc h0 => ?_⟩
    obtain ⟨sig', e1, e2, h1, _⟩ := h h0
    have : sig' = sig := by
      have e1 : sig'.r = sig.r := Scalar.val_inj (by rw [e1]; exact if_pos hc.1)
      have e2 : sig'.s = sig.s := Scalar.val_inj (by rw [e2]; exact if_pos hc.2)
      cases sig; cases sig'; cases e1; cases e2; rfl
    rw [this] at h1
    exact ⟨IsSlice_of_serialize hW hb, h1⟩
  choose f hf hp using hex
  have hi : Set.InjOn f (Verifying m pk) := by
    intro a ha b hb h
    have e1 := (hp a ha.1 (verifying_nonzero hq ha.1 ha.2).2).2
    have e2 := (hp b hb.1 (verifying_nonzero hq hb.1 hb.2).2).2
    rw [h, e2] at e1
    simpa using (pure_inj' e1).symm
  have e : DerVerifying W m pk = f '' Verifying m pk := by
    ext b
    constructor
    · rintro ⟨hb, sig, h, hv⟩
      have hc := (C58_lax_exact W b hb).2.2 sig .release (.inl (by rw [h]; rfl))
      obtain ⟨hr, hs⟩ := verifying_nonzero hq hc hv
      obtain ⟨_, h2⟩ := C40_strict_unique W b hb .release sig (by rw [h]; rfl) hr hs
      rw [hf sig] at h2
      exact ⟨sig, ⟨hc, hv⟩, pure_inj' h2⟩
    · rintro ⟨sig, ⟨hc, hv⟩, rfl⟩
      obtain ⟨h1, h2⟩ := hp sig hc (verifying_nonzero hq hc hv).2
      exact ⟨h1, sig, h2, hv⟩
  have hn : (DerVerifying W m pk).ncard = (Verifying m pk).ncard := by rw [e, hi.ncard_image]
  rw [hn]
  obtain ⟨h1, h2, _⟩ := C116_count m pk hq
  exact ⟨rfl, h1, h2⟩

/-- C126. The same for the 64-byte form. -/
theorem C126_standard (m : Message) (pk : PublicKey) : (StandardVerifying m pk).ncard = (Verifying m pk).ncard := by
  have hi : Set.InjOn Signature.serialize (Verifying m pk) := by
    intro a ha b hb h
    have e1 := C05_serialize_parse a ha.1
    have e2 := C05_serialize_parse b hb.1
    rw [h, e2] at e1
    simpa using (pure_inj' e1).symm
  have e : StandardVerifying m pk = Signature.serialize '' Verifying m pk := by
    ext b
    constructor
    · rintro ⟨sig, h, hv⟩
      obtain ⟨h1, h2⟩ := C05_parse_standard b
      by_cases hb : beNat (b.toList.take 32) < n ∧ beNat (b.toList.drop 32) < n
      · obtain ⟨sig', e, er, es, hs⟩ := h1 hb
        rw [h] at e
        obtain rfl : sig = sig' := by simpa using pure_inj' e
        exact ⟨sig, ⟨⟨by rw [er]; exact hb.1, by rw [es]; exact hb.2⟩, hv⟩, hs⟩
      · rw [h2 hb] at h
        exact absurd (pure_inj' h) (by simp)
    · rintro ⟨sig, ⟨hc, hv⟩, rfl⟩
      exact ⟨sig, C05_serialize_parse sig hc, hv⟩
  rw [e, hi.ncard_image]

/-- C126. Exactly half of the verifying signatures have an `s` of at most `half = (n - 1) / 2`. -/
theorem C126_low (m : Message) (pk : PublicKey) (hq : ValidKey pk) :
    2 * {sig | sig ∈ Verifying m pk ∧ sig.s.val ≤ half}.ncard = (Verifying m pk).ncard := by
  have hn : n = 2 * half + 1 := by decide +kernel
  have hex : ∀ sig : Signature, ∃ sig' : Signature, sig ∈ Verifying m pk →
      sig' ∈ Verifying m pk ∧ sig'.r = sig.r ∧ sig'.s.val + sig.s.val = n := by
    intro sig
    by_cases h : sig ∈ Verifying m pk
    · have h0 := (verifying_nonzero hq h.1 h.2).2
      have hl := h.1.2
      obtain ⟨s, hs⟩ := exists_scalar (v := n - sig.s.val) (by omega)
      have hsl : s.val < n := by omega
      refine ⟨{ sig with s := s }, fun _ => ⟨⟨⟨h.1.1, hsl⟩, ?_⟩, rfl, by show s.val + _ = n; omega⟩⟩
      rw [(C27_malleability m sig pk h.1 hq).1 s hsl (by rw [hs, Nat.add_sub_cancel' hl.le, Nat.mod_self])]
      exact h.2
    · exact ⟨sig, fun h' => absurd h' h⟩
  choose f hf using hex
  have hi : Set.InjOn f {sig | sig ∈ Verifying m pk ∧ sig.s.val ≤ half} := by
    intro a ha b hb h
    obtain ⟨_, a1, a2⟩ := hf a ha.1
    obtain ⟨_, b1, b2⟩ := hf b hb.1
    rw [h] at a1 a2
    have e1 : a.r = b.r := a1.symm.trans b1
    have e2 : a.s = b.s := Scalar.val_inj (by omega)
    cases a; cases b; cases e1; cases e2; rfl
  have hu : Verifying m pk = {sig | sig ∈ Verifying m pk ∧ sig.s.val ≤ half} ∪ f '' {sig | sig ∈ Verifying m pk ∧ sig.s.val ≤ half} := by
    ext sig
    constructor
    · intro h
      by_cases hl : sig.s.val ≤ half
      · exact .inl ⟨h, hl⟩
      · obtain ⟨a1, a2, a3⟩ := hf sig h
        obtain ⟨b1, b2, b3⟩ := hf _ a1
        refine .inr ⟨f sig, ⟨a1, by omega⟩, ?_⟩
        have e1 : (f (f sig)).r = sig.r := b2.trans a2
        have e2 : (f (f sig)).s = sig.s := Scalar.val_inj (by omega)
        generalize f (f sig) = x at e1 e2
        cases sig; cases x; cases e1; cases e2; rfl
    · rintro (h | ⟨x, h, rfl⟩)
      · exact h.1
      · exact (hf x h.1).1
  have hd : Disjoint {sig | sig ∈ Verifying m pk ∧ sig.s.val ≤ half} (f '' {sig | sig ∈ Verifying m pk ∧ sig.s.val ≤ half}) := by
    rw [Set.disjoint_left]
    rintro _ ⟨_, h1⟩ ⟨x, ⟨hx, h2⟩, rfl⟩
    have := (hf x hx).2.2
    omega
  have hfin : (Verifying m pk).Finite := Set.finite_of_ncard_ne_zero (by
    have h1 := (C116_count m pk hq).1
    have h0 : 7 < n := by decide +kernel
    omega)
  have hfl : {sig | sig ∈ Verifying m pk ∧ sig.s.val ≤ half}.Finite := hfin.subset fun _ h => h.1
  conv_rhs => rw [hu]
  rw [Set.ncard_union_eq hd hfl (hfl.image f), hi.ncard_image]
  omega

/-- The byte strings of at most `len` bytes that `parse_der_lax` reads as a signature that verifies. -/
def LaxVerifying (W len : ℕ) (m : Message) (pk : PublicKey) : Set (List UInt8) :=
  {b | b.length ≤ len ∧ ∃ sig, Signature.parseDerLax W b = pure (.ok sig) ∧ verify m sig pk = pure true}

/-- C126. With `parse_der_lax` the number grows with the length allowed: by a factor of 256 at least for each byte. -/
theorem C126_lax (W k : ℕ) (hW : W = 32 ∨ W = 64) (hk : 72 + k < 2 ^ 31) (m : Message) (pk : PublicKey) (hq : ValidKey pk) :
    256 ^ k ≤ (LaxVerifying W (72 + k) m pk).ncard := by
  obtain ⟨sig, hc, hv⟩ : (Verifying m pk).Nonempty := Set.nonempty_of_ncard_ne_zero (by
    have h1 := (C116_count m pk hq).1
    have h0 : 7 < n := by decide +kernel
    omega)
  obtain ⟨b, hb, _, _, h⟩ := C102_der_roundtrip W hW sig
  obtain ⟨sig', e1, e2, _, hl⟩ := h (verifying_nonzero hq hc hv).2
  have : sig' = sig := by
    have e1 : sig'.r = sig.r := Scalar.val_inj (by rw [e1]; exact if_pos hc.1)
    have e2 : sig'.s = sig.s := Scalar.val_inj (by rw [e2]; exact if_pos hc.2)
    cases sig; cases sig'; cases e1; cases e2; rfl
  rw [this] at hl
  have hlen : b.length ≤ 72 := by
    obtain ⟨b', hb', _, _, hl, -⟩ := C87_der_length sig
    rw [hb] at hb'
    obtain rfl := pure_inj' hb'
    exact hl
  have hinj : Function.Injective (fun g : Fin k → UInt8 => b ++ List.ofFn g) := fun g g' h =>
    List.ofFn_injective (List.append_cancel_left h)
  have hsub : Set.range (fun g : Fin k → UInt8 => b ++ List.ofFn g) ⊆ LaxVerifying W (72 + k) m pk := by
    rintro _ ⟨g, rfl⟩
    have hl' : (b ++ List.ofFn g).length ≤ 72 + k := by rw [List.length_append, List.length_ofFn]; omega
    exact ⟨hl', sig, C60_lax_trailing W b _ (isSlice_of_le hW (by omega)) .release sig (by rw [hl]; rfl), hv⟩
  have hfin : (LaxVerifying W (72 + k) m pk).Finite := (List.finite_length_le UInt8 (72 + k)).subset fun b hb => hb.1
  refine le_trans (le_of_eq ?_) (Set.ncard_le_ncard hsub hfin)
  rw [← Set.image_univ, Set.ncard_image_of_injective _ hinj, Set.ncard_univ, Nat.card_fun, card_u8, Nat.card_fin]

/-- A key and a message with a verifying signature. -/
example : ∃ m pk, ValidKey pk ∧ (Verifying m pk).Nonempty := by
  obtain ⟨_, m, _, sig, id, pk, _, _, _, _, hc, hid, hk, _⟩ := exists_signed
  refine ⟨m, pk, hk, Set.nonempty_of_ncard_ne_zero ?_⟩
  have h1 := (C116_count m pk hk).1
  have h0 : 7 < n := by decide +kernel
  omega

end Verif.Props
