import Verif.Props.Der
import Verif.Props.Ecdsa
import Verif.Props.Debug

/-!
# Exact behaviour where an expected property fails (C100–C102)
-/

namespace Verif.Props
open Verif Spec

/-! ## Low-S normalization -/

/-- The half of the group order, rounded down. -/
abbrev half : ℕ := (n - 1) / 2

theorem sig_eq_iff {a b : Signature} : a = b ↔ a.r = b.r ∧ a.s.val = b.s.val := by
  constructor
  · rintro rfl
    exact ⟨rfl, rfl⟩
  · rintro ⟨h1, h2⟩
    have h2 := Scalar.val_inj h2
    cases a
    cases b
    cases h1
    cases h2
    rfl

theorem normalizeS_val (sig : Signature) (h : sig.s.val < n) : ∃ sig', Signature.normalizeS sig = pure sig' ∧ sig'.r = sig.r ∧
    sig'.s.val = if half ≤ sig.s.val then n - sig.s.val else sig.s.val := by
  obtain ⟨sig', h1, h2, h3, _⟩ := C11_normalize_s_partial sig h
  exact ⟨sig', h1, h2, h3⟩

/-- C100: the value of `normalize_s`, the inputs it makes low, the ones it leaves, the ones where a second call has no effect, and that
it never changes what `verify` says. -/
theorem C100_normalize_s (sig : Signature) (h : Canonical sig) : ∃ sig' sig'', Signature.normalizeS sig = pure sig' ∧
    Signature.normalizeS sig' = pure sig'' ∧ Canonical sig' ∧ sig'.r = sig.r ∧
    sig'.s.val = (if half ≤ sig.s.val then n - sig.s.val else sig.s.val) ∧
    (sig'.s.val ≤ half ↔ sig.s.val ≠ half) ∧
    (sig' = sig ↔ sig.s.val < half) ∧
    (sig'' = sig' ↔ sig.s.val ≠ half ∧ sig.s.val ≠ half + 1) ∧
    (∀ m pk, ValidKey pk → verify m sig' pk = verify m sig pk) := by
  have hn : n = 2 * half + 1 := by decide +kernel
  have h0 : half ≠ 0 := by decide +kernel
  obtain ⟨sig', h1, h2, h3⟩ := normalizeS_val sig h.2
  have hs := h.2
  have hc : sig'.s.val < n := by rw [h3]; split <;> omega
  obtain ⟨sig'', g1, g2, g3⟩ := normalizeS_val sig' hc
  have ext : ∀ a b : Signature, a.r = b.r → (a = b ↔ a.s.val = b.s.val) := fun a b hr =>
    sig_eq_iff.trans (and_iff_right hr)
  refine ⟨sig', sig'', h1, g1, ⟨by rw [h2]; exact h.1, hc⟩, h2, h3, ?_, ?_, ?_, ?_⟩
  · rw [h3]; split <;> omega
  · rw [ext _ _ h2, h3]; split <;> omega
  · rw [ext _ _ g2, g3, h3]
    generalize half = k at *
    split_ifs <;> omega
  · intro m pk hk
    obtain ⟨sig1, e1, e2⟩ := (C27_malleability m sig pk h hk).2
    have : sig1 = sig' := pure_inj' (e1.symm.trans h1)
    rw [← this]; exact e2

/-- C100: two signatures have the same normal form exactly when they differ in the sign of `s` at most; the pair `(n-1)/2`,
`(n+1)/2` is the exception: these are exchanged. -/
theorem C100_classes (sig sig₂ : Signature) (h : Canonical sig) (h₂ : Canonical sig₂) :
    Signature.normalizeS sig = Signature.normalizeS sig₂ ↔ sig = sig₂ ∨
      (sig.r = sig₂.r ∧ sig.s.val + sig₂.s.val = n ∧ sig.s.val ≠ half ∧ sig.s.val ≠ half + 1) := by
  have hn : n = 2 * half + 1 := by decide +kernel
  have h0 : half ≠ 0 := by decide +kernel
  obtain ⟨a, h1, h2, h3⟩ := normalizeS_val sig h.2
  obtain ⟨b, g1, g2, g3⟩ := normalizeS_val sig₂ h₂.2
  have l1 := h.2
  have l2 := h₂.2
  have e : Signature.normalizeS sig = Signature.normalizeS sig₂ ↔ a = b := by
    rw [h1, g1]
    exact ⟨fun e => pure_inj' e, fun e => by rw [e]⟩
  rw [e, sig_eq_iff, sig_eq_iff, h2, g2, h3, g3, ← and_or_left]
  refine and_congr_right fun _ => ?_
  generalize half = k at *
  split_ifs <;> omega

/-- The exceptional values are canonical. -/
example : ∃ sig, Canonical sig ∧ sig.s.val = half := ⟨⟨scalarOne', scalarHalf⟩, ⟨by decide +kernel, by decide +kernel⟩, scalarHalf_val⟩

/-! ## Hex formatting -/

theorem hexNumber_append (a b : List Char) : hexNumber (a ++ b) = hexNumber a * 16 ^ b.length + hexNumber b := by
  have key : ∀ (b : List Char) (v : ℕ), b.foldl (fun v c => 16 * v + hexDigit c) v = v * 16 ^ b.length + hexNumber b := by
    intro b
    induction b with
    | nil => intro v; show v = v * 1 + 0; omega
    | cons c b ih =>
      intro v
      unfold hexNumber
      rw [List.foldl_cons, List.foldl_cons, ih, ih (16 * 0 + _), List.length_cons]
      ring
  unfold hexNumber
  rw [List.foldl_append, key]
  rfl

theorem hexByte_number (b : UInt8) : hexNumber (Scalar.hexByte b) = b.toNat ∧ (Scalar.hexByte b).length = 2 ∧
    ∀ c ∈ Scalar.hexByte b, c ∈ "0123456789abcdef".toList := by
  have h0 := b.toNat_lt
  rw [← UInt8.ofNat_toNat (x := b)]
  generalize b.toNat = v at *
  interval_cases v <;> decide

theorem hexNumber_hexOf (l : List UInt8) : hexNumber (hexOf l) = beNat l ∧ (hexOf l).length = 2 * l.length ∧
    ∀ c ∈ hexOf l, c ∈ "0123456789abcdef".toList := by
  rw [hexOf_eq]
  induction l with
  | nil => exact ⟨rfl, rfl, by simp⟩
  | cons b l ih =>
    obtain ⟨h1, h2, h3⟩ := hexByte_number b
    obtain ⟨i1, i2, i3⟩ := ih
    rw [List.flatMap_cons, hexNumber_append, h1, i1, i2, List.length_append, h2, i2, List.length_cons]
    refine ⟨?_, by ring, fun c hc => ?_⟩
    · rw [pow_mul, beNat_cons]; norm_num
    · rcases List.mem_append.1 hc with h | h
      exacts [h3 c h, i3 c h]

theorem hexOf_inj {l m : List UInt8} (hl : l.length = m.length) (h : hexOf l = hexOf m) : l = m := by
  have := congrArg hexNumber h
  rw [(hexNumber_hexOf l).1, (hexNumber_hexOf m).1] at this
  exact beNat_inj hl this

/-- The words of a scalar in the opposite order. -/
def revWords (a : Scalar) : Scalar := ⟨a.d7, a.d6, a.d5, a.d4, a.d3, a.d2, a.d1, a.d0⟩

theorem lowerHex_rev (a : Scalar) : a.lowerHex = hexOf (revWords a).b32.toList := by
  rw [hexOf_eq]
  have : [a.d0, a.d1, a.d2, a.d3, a.d4, a.d5, a.d6, a.d7].flatMap Scalar.wordBytes = (revWords a).b32.toList := rfl
  rw [← this]
  rfl

theorem revWords_words (a : Scalar) : (Debug.scalarWords (revWords a)).map (·.toNat) = ((Debug.scalarWords a).map (·.toNat)).reverse := rfl

theorem words_inj {a b : Scalar} (h : (Debug.scalarWords a).map (·.toNat) = (Debug.scalarWords b).map (·.toNat)) : a = b := by
  have h := congrArg (fromLimbs 32) h
  rw [fromLimbs_scalar, fromLimbs_scalar] at h
  exact Scalar.val_inj h

theorem lowerHex_number (a : Scalar) : hexNumber a.lowerHex = (revWords a).val := by
  rw [lowerHex_rev, (hexNumber_hexOf _).1, Scalar.beNat_b32]

theorem revWords_revWords (a : Scalar) : revWords (revWords a) = a := rfl

theorem lowerHex_serialize (a : Scalar) :
    a.lowerHex = hexOf a.b32.toList ↔ ((Debug.scalarWords a).map (·.toNat)).reverse = (Debug.scalarWords a).map (·.toNat) := by
  rw [← revWords_words]
  constructor
  · intro e
    have e := congrArg hexNumber e
    rw [lowerHex_number, (hexNumber_hexOf _).1, Scalar.beNat_b32] at e
    rw [Scalar.val_inj e]
  · intro e
    rw [lowerHex_rev, words_inj e]

theorem scalarWords_lt (a : Scalar) : ∀ x ∈ (Debug.scalarWords a).map (·.toNat), x < 2 ^ 32 := by
  intro x hx
  obtain ⟨y, _, rfl⟩ := List.mem_map.1 hx
  exact y.toNat_lt

theorem lowerHex_chars (a : Scalar) : a.lowerHex.length = 64 ∧ ∀ c ∈ a.lowerHex, c ∈ "0123456789abcdef".toList := by
  obtain ⟨_, h2, h3⟩ := hexNumber_hexOf (revWords a).b32.toList
  rw [← lowerHex_rev] at h2 h3
  exact ⟨by rw [h2, Vector.length_toList], h3⟩

/-- C101: `{:x}` of a secret key is 64 lowercase hex digits.  Read as a number they are the key with its eight 32-bit words in the
opposite order; so the text is the hex of the serialized key exactly for the keys whose words read the same in both directions. -/
theorem C101_lower_hex (k : SecretKey) :
    (SecretKey.lowerHex k).length = 64 ∧ (∀ c ∈ SecretKey.lowerHex k, c ∈ "0123456789abcdef".toList) ∧
    ∃ w : List ℕ, w.length = 8 ∧ (∀ x ∈ w, x < 2 ^ 32) ∧ fromLimbs 32 w = secretInt k ∧
      hexNumber (SecretKey.lowerHex k) = fromLimbs 32 w.reverse ∧
      (SecretKey.lowerHex k = hexOf (SecretKey.serialize k).toList ↔ w.reverse = w) := by
  refine ⟨(lowerHex_chars k.sc).1, (lowerHex_chars k.sc).2, (Debug.scalarWords k.sc).map (fun x : UInt32 => x.toNat), ?_, scalarWords_lt k.sc,
    ?_, ?_, lowerHex_serialize k.sc⟩
  · rw [List.length_map]; rfl
  · unfold secretInt
    exact fromLimbs_scalar k.sc
  · rw [← revWords_words, fromLimbs_scalar]
    exact lowerHex_number k.sc

/-- C101: different keys have different texts. -/
theorem C101_injective (k k' : SecretKey) : SecretKey.lowerHex k = SecretKey.lowerHex k' ↔ k = k' := by
  refine ⟨fun h => ?_, fun h => by rw [h]⟩
  obtain ⟨a⟩ := k
  obtain ⟨b⟩ := k'
  have h : a.lowerHex = b.lowerHex := h
  have e := congrArg hexNumber h
  rw [lowerHex_number, lowerHex_number] at e
  rw [← revWords_revWords a, Scalar.val_inj e, revWords_revWords]

/-- The text of the key 1 starts with the word 1; a key whose words are all 1 has the text of its bytes. -/
example : SecretKey.lowerHex ⟨⟨1, 0, 0, 0, 0, 0, 0, 0⟩⟩ = "0000000100000000000000000000000000000000000000000000000000000000".toList ∧
    SecretKey.lowerHex ⟨⟨1, 1, 1, 1, 1, 1, 1, 1⟩⟩ = hexOf (SecretKey.serialize ⟨⟨1, 1, 1, 1, 1, 1, 1, 1⟩⟩).toList := by
  constructor <;> decide +kernel

/-! ## DER -/

theorem berLen_short {b : UInt8} (hb : b.toNat < 128) {L x y : List UInt8} {v : ℕ} (h : BerLen L v) (e : b :: x = L ++ y) :
    L = [b] ∧ v = b.toNat ∧ x = y := by
  rcases h with ⟨b', _, rfl, rfl⟩ | ⟨b', c, h1, rfl, rfl⟩
  · rw [List.singleton_append, List.cons.injEq] at e
    obtain ⟨rfl, rfl⟩ := e
    exact ⟨rfl, rfl, rfl⟩
  · rw [List.cons_append, List.cons.injEq] at e
    rw [← e.1] at h1
    omega

/-- A lax read of a DER integer below `2 ^ 256` takes this integer. -/
theorem laxRead_der {M v w : ℕ} {i t u : List UInt8} (hi : DerInteger v i) (hv : v < 2 ^ 256) (h : LaxRead M (i ++ t) w u) :
    w = component v ∧ u = t ∧ (v = 0 → t ≠ []) := by
  obtain ⟨b, c, rfl, hb, hc, hd⟩ := derInteger_length hi hv
  obtain ⟨L, c', t', e, hL, _, h⟩ := h
  rw [List.cons_append, List.cons.injEq, List.cons_append] at e
  obtain ⟨rfl, hl, e⟩ := berLen_short (by omega) hL e.2
  obtain ⟨rfl, rfl⟩ := List.append_inj e (by omega)
  rw [hd.2.1] at h
  rcases h with ⟨_, h1, h2, h3⟩ | ⟨h1, _⟩
  · exact ⟨h1, h2, h3⟩
  · omega

/-- C102: what `parse_der` and `parse_der_lax` return on the output of `serialize_der`, for all words of the components: a component
that is not below `n` comes back as zero, and a signature with `s = 0` does not come back. -/
theorem C102_der_roundtrip (W : ℕ) (hW : W = 32 ∨ W = 64) (sig : Signature) : ∃ b, Signature.serializeDer sig = pure b ∧
    (sig.s.val = 0 → Signature.parseDer W b = pure (.error .invalidSignature)) ∧
    (sig.s.val = 0 → Signature.parseDerLax W b = pure (.error .invalidSignature)) ∧
    (sig.s.val ≠ 0 → ∃ sig', sig'.r.val = component sig.r.val ∧ sig'.s.val = component sig.s.val ∧
      Signature.parseDer W b = pure (.ok sig') ∧ Signature.parseDerLax W b = pure (.ok sig')) := by
  obtain ⟨b, hb, h, hl, _⟩ := C42_serialize_der sig
  have hsl := small_of_72 hW hl
  refine ⟨b, hb, fun h0 => ?_, fun h0 => ?_, fun h0 => ?_⟩
  · obtain ⟨b', hb', h'⟩ := C39_der_roundtrip_fails W hW sig h0
    have : b = b' := pure_inj' (hb.symm.trans hb')
    rw [this]; exact h'
  · refine (C58_lax_exact W b hsl).2.1 ?_
    rintro ⟨sig', π, hp⟩
    obtain ⟨hd, x, y, z, ⟨L, v, hL, rfl⟩, e, h1, h2⟩ := (parseDerLax_ok_iff hsl).1 hp
    obtain ⟨i, j, hi, hj, L', hL', rfl⟩ := h
    have li := derInteger_short hi sig.r.val_lt
    have lj := derInteger_short hj sig.s.val_lt
    obtain ⟨b', hb', rfl⟩ := derLen_short hL' (by rw [List.length_append]; omega)
    simp only [List.cons_append, List.nil_append, List.cons.injEq, true_and] at e
    obtain ⟨_, _, rfl⟩ := berLen_short (by rw [hb', List.length_append]; omega) hL e
    obtain ⟨_, hy, _⟩ := laxRead_der hi sig.r.val_lt h1
    rw [hy, ← List.append_nil j] at h2
    exact (laxRead_der hj sig.s.val_lt h2).2.2 h0 rfl
  · have hc : ∀ v, component v < n := fun v => by
      unfold component
      split
      · assumption
      · decide +kernel
    obtain ⟨r, hr⟩ := exists_scalar (hc sig.r.val)
    obtain ⟨s, hs⟩ := exists_scalar (hc sig.s.val)
    have h1 : Signature.parseDer W b = pure (.ok ⟨r, s⟩) :=
      parseDer_ok_pure hsl (Or.inl ⟨_, _, h, sig.r.val_lt, Nat.pos_of_ne_zero h0, sig.s.val_lt, hr, hs⟩)
    exact ⟨⟨r, s⟩, hr, hs, h1, C43_lax_superset W b hsl .debug _ (by rw [h1]; rfl)⟩

/-- Signatures of both kinds: words at and above `n`, and `s = 0`. -/
example : ∃ a b : Signature, (n ≤ a.r.val ∧ a.s.val ≠ 0) ∧ b.s.val = 0 :=
  ⟨⟨⟨0xffffffff, 0xffffffff, 0xffffffff, 0xffffffff, 0xffffffff, 0xffffffff, 0xffffffff, 0xffffffff⟩, ⟨1, 0, 0, 0, 0, 0, 0, 0⟩⟩,
    ⟨⟨1, 0, 0, 0, 0, 0, 0, 0⟩, ⟨0, 0, 0, 0, 0, 0, 0, 0⟩⟩, by decide +kernel⟩

end Verif.Props
