import Verif.Props.Exact
import Verif.Props.Recovery

/-!
# Encoded signatures from end to end: one strict low-S encoding (C114), two recoverable signatures (C115)
-/

namespace Verif.Props
open Verif Spec Ecdsa

theorem verify_nonzero {m : Message} {sig : Signature} {pk : PublicKey} (hs : Canonical sig) (hq : ValidKey pk)
    (hv : verify m sig pk = pure true) : sig.r.val ≠ 0 ∧ sig.s.val ≠ 0 := by
  obtain ⟨Q, hQ⟩ := hq
  obtain ⟨b, e, h⟩ := C23_verify m sig pk Q hs hQ
  rw [hv] at e
  obtain ⟨h1, h2, _⟩ := h.1 (pure_inj' e).symm
  refine ⟨fun h => h1 ?_, fun h => h2 ?_⟩
  · show ((sig.r.val : ℕ) : ZMod n) = 0
    rw [h, Nat.cast_zero]
  · show ((sig.s.val : ℕ) : ZMod n) = 0
    rw [h, Nat.cast_zero]

/-- C114. Strict DER and low `s`: for a message, a key and a component `r ≥ p - n` there is one byte string at most. -/
theorem C114_unique (W : ℕ) (b b' : List UInt8) (hb : IsSlice W b) (hb' : IsSlice W b') (π π' : Profile) (sig sig' : Signature)
    (h : Signature.parseDer W b π = some (.ok sig)) (h' : Signature.parseDer W b' π' = some (.ok sig')) (m : Message) (pk : PublicKey)
    (hq : ValidKey pk) (hv : verify m sig pk = pure true) (hv' : verify m sig' pk = pure true) (hr : sig'.r = sig.r)
    (hp : p - n ≤ sig.r.val) (hl : sig.s.val ≤ half) (hl' : sig'.s.val ≤ half) : b' = b := by
  have hc := (C58_lax_exact W b hb).2.2 sig π (.inl h)
  have hc' := (C58_lax_exact W b' hb').2.2 sig' π' (.inl h')
  obtain ⟨hr0, hs0⟩ := verify_nonzero hc hq hv
  obtain ⟨hr0', hs0'⟩ := verify_nonzero hc' hq hv'
  obtain ⟨_, e⟩ := C40_strict_unique W b hb π sig h hr0 hs0
  obtain ⟨_, e'⟩ := C40_strict_unique W b' hb' π' sig' h' hr0' hs0'
  have hv'' : verify m ⟨sig.r, sig'.s⟩ pk = pure true := by rw [← hr]; exact hv'
  have hs : sig'.s = sig.s := by
    rcases (C76_malleability m pk sig.r sig.s sig'.s hq hc.1 hp hc.2 hc'.2 hv).1 hv'' with hs | hs
    · exact hs
    · exfalso
      have := hc.2
      unfold half at hl hl'
      generalize sig.s.val = u at *
      generalize sig'.s.val = u' at *
      generalize n = N at *
      omega
  have : sig' = sig := by
    cases sig; cases sig'; cases hr; cases hs; rfl
  rw [this, e] at e'
  exact (pure_inj' e').symm

/-- C114. Whatever `parse_der_lax` accepts, if `s` is not zero, can be normalized and encoded again: the result is strict, is read back as
the normalized signature, is low (one value of `s` excepted), and verifies for the same messages and keys. -/
theorem C114_canonical_form (W : ℕ) (b : List UInt8) (hb : IsSlice W b) (π : Profile) (sig : Signature)
    (h : Signature.parseDerLax W b π = some (.ok sig)) (h0 : sig.s.val ≠ 0) :
    ∃ sig' b', Signature.normalizeS sig = pure sig' ∧ Signature.serializeDer sig' = pure b' ∧
      Signature.parseDer W b' = pure (.ok sig') ∧ Signature.parseDerLax W b' = pure (.ok sig') ∧
      (sig.s.val ≠ half → sig'.s.val ≤ half) ∧ (∀ m pk, ValidKey pk → verify m sig' pk = verify m sig pk) := by
  have hc := (C58_lax_exact W b hb).2.2 sig π (.inr h)
  obtain ⟨sig', _, e1, _, hc', hr, hs, hl, _, _, hv⟩ := C100_normalize_s sig hc
  have h0' : sig'.s.val ≠ 0 := by
    have := hc.2
    rw [hs]
    generalize sig.s.val = u at *
    generalize n = N at *
    split <;> omega
  obtain ⟨b', e2, e3⟩ := C39_der_roundtrip_partial W hb.1 sig' hc' h0'
  obtain ⟨b'', e2', _, _, e4⟩ := C102_der_roundtrip W hb.1 sig'
  rw [e2] at e2'
  obtain rfl := pure_inj' e2'
  obtain ⟨sig'', _, _, e5, e6⟩ := e4 h0'
  rw [e3] at e5
  obtain rfl : sig' = sig'' := by simpa using pure_inj' e5
  exact ⟨sig', b', e1, e2, e3, e6, hl.2, hv⟩

/-- C114. Two byte strings that `parse_der_lax` accepts, with the same `r ≥ p - n`, that verify for one message and key, have the same
normal form, and so the same strict encoding; the values `(n-1)/2` and `(n+1)/2` of `s` are excepted. -/
theorem C114_one_form (W : ℕ) (b b' : List UInt8) (hb : IsSlice W b) (hb' : IsSlice W b') (π π' : Profile) (sig sig' : Signature)
    (h : Signature.parseDerLax W b π = some (.ok sig)) (h' : Signature.parseDerLax W b' π' = some (.ok sig')) (m : Message) (pk : PublicKey)
    (hq : ValidKey pk) (hv : verify m sig pk = pure true) (hv' : verify m sig' pk = pure true) (hr : sig'.r = sig.r)
    (hp : p - n ≤ sig.r.val) (h1 : sig.s.val ≠ half) (h2 : sig.s.val ≠ half + 1) :
    ∃ c d, Signature.normalizeS sig = pure c ∧ Signature.normalizeS sig' = pure c ∧ Signature.serializeDer c = pure d := by
  have hc := (C58_lax_exact W b hb).2.2 sig π (.inr h)
  have hc' := (C58_lax_exact W b' hb').2.2 sig' π' (.inr h')
  obtain ⟨c, _, e, _⟩ := C100_normalize_s sig hc
  obtain ⟨d, e2, _⟩ := C42_serialize_der c
  refine ⟨c, d, e, ?_, e2⟩
  rw [← e, eq_comm, C100_classes sig sig' hc hc']
  have hv'' : verify m ⟨sig.r, sig'.s⟩ pk = pure true := by rw [← hr]; exact hv'
  rcases (C76_malleability m pk sig.r sig.s sig'.s hq hc.1 hp hc.2 hc'.2 hv).1 hv'' with hs | hs
  · left
    cases sig; cases sig'; cases hr; cases hs; rfl
  · exact .inr ⟨hr.symm, by rw [hs, Nat.add_sub_cancel' hc.2.le], h1, h2⟩

/-- The signature and the id recover the key. -/
def Recovers (m : Message) (sig : Signature) (id : RecoveryId) (pk : PublicKey) : Prop :=
  ∃ k, recover m sig id = pure (.ok k) ∧ PublicKey.eq k pk = pure true

theorem Recovers.verify {m : Message} {sig : Signature} {id : RecoveryId} {pk : PublicKey} (h : Recovers m sig id pk) (hs : Canonical sig)
    (hid : id.id.toNat < 4) (hq : ValidKey pk) : Verif.verify m sig pk = pure true := by
  obtain ⟨k, e, he⟩ := h
  obtain ⟨⟨P, hP⟩, hv⟩ := (C26_recover m sig id hs hid).2.2 k e
  obtain ⟨Q, hQ⟩ := hq
  obtain ⟨c, _, _, ec, _, _, hc, _⟩ := C22_equality k pk P Q hP hQ
  rw [he] at ec
  have := hc.1 (pure_inj' ec).symm
  subst this
  obtain ⟨b, e1, h1⟩ := C23_verify m sig k P hs hP
  obtain ⟨b', e2, h2⟩ := C23_verify m sig pk P hs hQ
  rw [hv] at e1
  rw [e2, h2.2 (h1.1 (pure_inj' e1).symm)]

theorem Recovers.unique {m : Message} {sig : Signature} {id id' : RecoveryId} {pk : PublicKey} (h : Recovers m sig id pk)
    (h' : Recovers m sig id' pk) (hs : Canonical sig) (hid : id.id.toNat < 4) (hid' : id'.id.toNat < 4) (hq : ValidKey pk) : id' = id :=
  (C106_unique_id m sig pk hs hq (h.verify hs hid hq)).unique ⟨hid', h'⟩ ⟨hid, h⟩

theorem Recovers.neg {m : Message} {r s s' : Scalar} {id id' : RecoveryId} {pk : PublicKey} (h : Recovers m ⟨r, s⟩ id pk)
    (hs : Canonical ⟨r, s⟩) (hid : id.id.toNat < 4) (hq : ValidKey pk) (hs' : s'.val = n - s.val) (hid' : id'.id = id.id ^^^ 1) :
    Recovers m ⟨r, s'⟩ id' pk := by
  have h0 := (verify_nonzero hs hq (h.verify hs hid hq)).2
  obtain ⟨k, e, he⟩ := h
  have h1 : s'.val < n := by
    have : s.val < n := hs.2
    have h0 : s.val ≠ 0 := h0
    rw [hs']
    generalize s.val = u at *
    generalize n = N at *
    omega
  have h2 : (s.val + s'.val) % n = 0 := by
    have : s.val < n := hs.2
    rw [hs', Nat.add_sub_cancel' this.le, Nat.mod_self]
  obtain ⟨k', e', he'⟩ := (C106_negated_s m ⟨r, s⟩ s' id id' hs h1 h2 hid hid').1 k e
  refine ⟨k', e', ?_⟩
  obtain ⟨⟨P, hP⟩, _⟩ := (C26_recover m ⟨r, s⟩ id hs hid).2.2 k e
  obtain ⟨⟨P', hP'⟩, _⟩ := (C26_recover m ⟨r, s'⟩ id' ⟨hs.1, h1⟩ (xor_one hid' hid).1).2.2 k' e'
  obtain ⟨Q, hQ⟩ := hq
  obtain ⟨_, _, _, ec, _, _, hc, _⟩ := C22_equality k pk P Q hP hQ
  rw [he] at ec
  have e1 := hc.1 (pure_inj' ec).symm
  obtain ⟨_, _, _, ec, _, _, hc, _⟩ := C22_equality k k' P P' hP hP'
  rw [he'] at ec
  have e2 := hc.1 (pure_inj' ec).symm
  exact key_eq_true hP' (by rw [← e2, e1]; exact hQ)

/-- C115. For a message, a key and a component `r ≥ p - n`, exactly two pairs of `s` and recovery id recover the key. -/
theorem C115_pairs (m : Message) (r s s' : Scalar) (id id' : RecoveryId) (pk : PublicKey) (hr : r.val < n) (hp : p - n ≤ r.val)
    (hs : s.val < n) (hs' : s'.val < n) (hid : id.id.toNat < 4) (hid' : id'.id.toNat < 4) (hq : ValidKey pk)
    (h : Recovers m ⟨r, s⟩ id pk) :
    Recovers m ⟨r, s'⟩ id' pk ↔ s' = s ∧ id' = id ∨ s'.val = n - s.val ∧ id'.id = id.id ^^^ 1 := by
  have hv := h.verify ⟨hr, hs⟩ hid hq
  constructor
  · intro h'
    have hv' := h'.verify ⟨hr, hs'⟩ hid' hq
    rcases (C76_malleability m pk r s s' hq hr hp hs hs' hv).1 hv' with rfl | e
    · exact .inl ⟨rfl, h.unique h' ⟨hr, hs⟩ hid hid' hq⟩
    · have hx : (⟨id.id ^^^ 1⟩ : RecoveryId).id = id.id ^^^ 1 := rfl
      have := (h.neg ⟨hr, hs⟩ hid hq e hx).unique h' ⟨hr, hs'⟩ (xor_one hx hid).1 hid' hq
      exact .inr ⟨e, by rw [this]⟩
  · rintro (⟨rfl, rfl⟩ | ⟨e, hx⟩)
    · exact h
    · exact h.neg ⟨hr, hs⟩ hid hq e hx

/-- C115. If `s` must be low, there is one pair only. -/
theorem C115_low_s (m : Message) (r s s' : Scalar) (id id' : RecoveryId) (pk : PublicKey) (hr : r.val < n) (hp : p - n ≤ r.val)
    (hs : s.val ≤ half) (hs' : s'.val ≤ half) (hid : id.id.toNat < 4) (hid' : id'.id.toNat < 4) (hq : ValidKey pk)
    (h : Recovers m ⟨r, s⟩ id pk) (h' : Recovers m ⟨r, s'⟩ id' pk) : s' = s ∧ id' = id := by
  have hn : half < n := by decide +kernel
  rcases (C115_pairs m r s s' id id' pk hr hp (hs.trans_lt hn) (hs'.trans_lt hn) hid hid' hq h).1 h' with e | ⟨e, _⟩
  · exact e
  · exfalso
    unfold half at hs hs' hn
    generalize s.val = u at *
    generalize s'.val = u' at *
    generalize n = N at *
    omega

/-- C115. Without a condition on `r` there are at most four pairs. -/
theorem C115_at_most_four (m : Message) (r : Scalar) (pk : PublicKey) (hr : r.val < n) (hq : ValidKey pk) (l : List (Scalar × RecoveryId))
    (hl : l.Nodup) (h : ∀ q ∈ l, q.1.val < n ∧ q.2.id.toNat < 4 ∧ Recovers m ⟨r, q.1⟩ q.2 pk) : l.length ≤ 4 := by
  have hm : (l.map Prod.fst).Nodup := by
    refine hl.map_on fun a ha b hb e => ?_
    obtain ⟨a1, a2, a3⟩ := h a ha
    obtain ⟨_, b2, b3⟩ := h b hb
    rw [← e] at b3
    exact Prod.ext e (b3.unique a3 ⟨hr, a1⟩ b2 a2 hq)
  rw [← List.length_map (f := Prod.fst)]
  refine (C76_signatures m pk r hq hr _ hm fun s hs => ?_).1
  obtain ⟨q, hq', rfl⟩ := List.mem_map.1 hs
  obtain ⟨a1, a2, a3⟩ := h q hq'
  exact ⟨a1, a3.verify ⟨hr, a1⟩ a2 hq⟩

/-- The message zero, the key `G` and the signature `(Gx, Gx)` meet the hypotheses of C114 and C115. -/
example (W : ℕ) (hW : W = 32 ∨ W = 64) : ∃ m sig pk b id, ValidKey pk ∧ Canonical sig ∧ p - n ≤ sig.r.val ∧ sig.s.val ≤ half ∧ sig.s.val ≠ 0 ∧
    verify m sig pk = pure true ∧ IsSlice W b ∧ Signature.parseDer W b = pure (.ok sig) ∧ Signature.parseDerLax W b = pure (.ok sig) ∧
    id.id.toNat < 4 ∧ Recovers m sig id pk := by
  have hg : Gx < n := by decide +kernel
  obtain ⟨r, hr⟩ := exists_scalar (v := Gx) hg
  obtain ⟨z, hz⟩ := exists_scalar (v := 0) (by decide +kernel)
  obtain ⟨pk, hpk⟩ := exists_key G_ne_zero
  have hc : Canonical ⟨r, r⟩ := ⟨by show r.val < n; rw [hr]; exact hg, by show r.val < n; rw [hr]; exact hg⟩
  have h0 : (r.val : ZMod n) ≠ 0 := by
    rw [hr, ne_eq, ZMod.natCast_eq_zero_iff]; decide +kernel
  have hv : verify ⟨z⟩ ⟨r, r⟩ pk = pure true := by
    obtain ⟨b, e, h⟩ := C23_verify ⟨z⟩ ⟨r, r⟩ pk G hc hpk
    rw [e, h.2]
    refine ⟨h0, h0, (Gx : ℕ), (Gy : ℕ), ?_, ?_⟩
    · show IsPt ((((z.val : ℕ) : ZMod n) / ((r.val : ℕ) : ZMod n)).val • G + (((r.val : ℕ) : ZMod n) / ((r.val : ℕ) : ZMod n)).val • G) _ _
      have h1 : (1 : ZMod n).val = 1 := by decide +kernel
      rw [hz, Nat.cast_zero, zero_div, ZMod.val_zero, zero_nsmul, zero_add, div_self h0, h1, one_nsmul]
      exact isPt_G
    · show _ = ((r.val : ℕ) : ZMod n)
      rw [hr, ZMod.val_natCast, Nat.mod_eq_of_lt (by decide +kernel)]
  have hs0 : r.val ≠ 0 := by rw [hr]; decide +kernel
  obtain ⟨b, hb, h, hl, _⟩ := C42_serialize_der ⟨r, r⟩
  obtain ⟨b', hb', _, _, e⟩ := C102_der_roundtrip W hW ⟨r, r⟩
  obtain rfl := pure_inj' (hb.symm.trans hb')
  obtain ⟨sig', _, _, e1, e2⟩ := e hs0
  obtain ⟨b'', hb'', e3⟩ := C39_der_roundtrip_partial W hW ⟨r, r⟩ hc hs0
  obtain rfl := pure_inj' (hb.symm.trans hb'')
  obtain rfl : ⟨r, r⟩ = sig' := by simpa using pure_inj' (e3.symm.trans e1)
  obtain ⟨id, ⟨h4, hk⟩, _⟩ := C106_unique_id ⟨z⟩ ⟨r, r⟩ pk hc ⟨_, hpk⟩ hv
  refine ⟨⟨z⟩, ⟨r, r⟩, pk, b, id, ⟨_, hpk⟩, hc, ?_, ?_, hs0, hv, small_of_72 hW hl, e1, e2, h4, hk⟩
  · show p - n ≤ r.val
    rw [hr]; decide +kernel
  · show r.val ≤ half
    rw [hr]; decide +kernel

end Verif.Props
