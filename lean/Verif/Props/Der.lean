import Verif.Proofs.DerWrite
import Verif.Proofs.DerSafe
import Verif.Props.Bytes

/-!
# Properties of the DER encodings (C39–C44, C57, C58)

`W` is the width of `usize` in bits.
-/

namespace Verif.Props
open Verif Spec

/-- The width is that of a supported target and the input is a slice: no Rust slice has more than
`isize::MAX` bytes. -/
abbrev IsSlice (W : ℕ) (b : List UInt8) : Prop := (W = 32 ∨ W = 64) ∧ b.length < 2 ^ (W - 1)

/-- What a parser returns. -/
def outcome (o : Option (Signature × List UInt8)) : Res Signature :=
  match o with
  | some p => .ok p.1
  | none => .error .invalidSignature

theorem runDec_eq {x : Dec Signature} {f : Pa Signature} {b : List UInt8} (h : SimAt [] b x f) :
    Signature.runDec x b = pure (outcome (f b)) := by
  funext π
  rw [runDec_exec]
  rcases h with ⟨h1, h2⟩ | ⟨a, c, t, _, h1, h2⟩
  · have h2 : exec x ⟨b, 0⟩ = _ := h2
    rw [h2, h1]; rfl
  · have h2 : exec x ⟨b, 0⟩ = _ := h2
    rw [h2, h1]; rfl

/-- Strict parsing follows the parser on lists in both profiles, or the parser fails, the release
build fails, and the debug build panics on an input of `2^(W-8)` bytes or more. -/
theorem parseDer_eq {W : ℕ} {b : List UInt8} (h : IsSlice W b) :
    Signature.parseDer W b = pure (outcome (Pa.parseDer b)) ∨
    (Pa.parseDer b = none ∧ Signature.parseDer W b .debug = none ∧
      Signature.parseDer W b .release = some (.error .invalidSignature) ∧ 2 ^ (W - 8) ≤ b.length) := by
  rcases sim_parseDer (pre := []) (rest := b) ⟨h.1, by simpa using h.2⟩ with h1 | ⟨h1, h2, h3, h4, _⟩
  · exact Or.inl (runDec_eq h1)
  · refine Or.inr ⟨h1, runDec_debug_none h2, ?_, by simpa using h3⟩
    have h4 : exec (Signature.parseDerD W) ⟨b, 0⟩ .release = _ := h4 rfl
    rw [Signature.parseDer, runDec_exec, h4]; rfl

theorem parseDerLax_eq {W : ℕ} {b : List UInt8} (h : IsSlice W b) : Signature.parseDerLax W b = pure (outcome (Pa.parseDerLax W b)) :=
  runDec_eq (sim_parseDerLax ⟨h.1, by simpa using h.2⟩)

theorem outcome_ok {o : Option (Signature × List UInt8)} {sig : Signature} : outcome o = .ok sig ↔ ∃ t, o = some (sig, t) := by
  cases o with
  | none => simp [outcome]
  | some p => obtain ⟨a, t⟩ := p; simp [outcome]

theorem outcome_error {o : Option (Signature × List UInt8)} : outcome o = .error .invalidSignature ↔ o = none := by
  cases o with
  | none => simp [outcome]
  | some p => simp [outcome]

theorem parseDer_ok_iff {W : ℕ} {b : List UInt8} (h : IsSlice W b) {sig : Signature} {π : Profile} :
    Signature.parseDer W b π = some (.ok sig) ↔ StrictAccept b sig.r.val sig.s.val := by
  have hof : StrictAccept b sig.r.val sig.s.val → Pa.parseDer b = some (sig, []) := parseDer_of
  rcases parseDer_eq h with e | ⟨h1, h2, h3, _⟩
  · rw [e]
    constructor
    · intro e
      obtain ⟨t, ht⟩ := outcome_ok.1 (Option.some.inj e)
      exact parseDer_some ht
    · intro hs
      rw [outcome_ok.2 ⟨[], hof hs⟩]; rfl
  · constructor
    · intro e
      cases π
      · rw [h2] at e; cases e
      · rw [h3] at e; cases e
    · intro hs
      rw [hof hs] at h1; cases h1

theorem parseDer_ok_pure {W : ℕ} {b : List UInt8} (h : IsSlice W b) {sig : Signature} (hs : StrictAccept b sig.r.val sig.s.val) :
    Signature.parseDer W b = pure (.ok sig) := funext fun _ => (parseDer_ok_iff h).2 hs

theorem parseDerLax_ok_iff {W : ℕ} {b : List UInt8} (h : IsSlice W b) {sig : Signature} {π : Profile} :
    Signature.parseDerLax W b π = some (.ok sig) ↔
      ∃ hd x y z, LaxHeader hd ∧ b = hd ++ x ∧ LaxRead (2 ^ (W - 8)) x sig.r.val y ∧ LaxRead (2 ^ (W - 8)) y sig.s.val z := by
  rw [parseDerLax_eq h]
  constructor
  · intro e
    obtain ⟨t, ht⟩ := outcome_ok.1 (Option.some.inj e)
    obtain ⟨hd, x, y, h1⟩ := (parseDerLax_iff h.1).1 ht
    exact ⟨hd, x, y, t, h1⟩
  · rintro ⟨hd, x, y, z, h1⟩
    rw [outcome_ok.2 ⟨z, (parseDerLax_iff h.1).2 ⟨hd, x, y, h1⟩⟩]; rfl

theorem parseDerLax_ok_pure {W : ℕ} {b : List UInt8} (h : IsSlice W b) {sig : Signature} {π : Profile}
    (hs : Signature.parseDerLax W b π = some (.ok sig)) : Signature.parseDerLax W b = pure (.ok sig) :=
  funext fun _ => (parseDerLax_ok_iff h).2 ((parseDerLax_ok_iff h).1 hs)

/-! ## Serialization -/

/-- C42. The only DER encoding of the two integers, in at most 72 bytes. -/
theorem C42_serialize_der (sig : Signature) :
    ∃ b, Signature.serializeDer sig = pure b ∧ DerSignature sig.r.val sig.s.val b ∧ b.length ≤ 72 ∧
      ∀ b', DerSignature sig.r.val sig.s.val b' → b' = b := by
  obtain ⟨b, hb, h, hl⟩ := Signature.serializeDer_runs sig
  exact ⟨b, hb, h, hl, fun b' h' => derSignature_unique h' h⟩

theorem small_of_72 {W : ℕ} (hW : W = 32 ∨ W = 64) {b : List UInt8} (h : b.length ≤ 72) : IsSlice W b := by
  refine ⟨hW, lt_of_le_of_lt h ?_⟩
  rcases hW with rfl | rfl <;> norm_num

theorem component_of_lt {v : ℕ} (h : v < n) : component v = v := if_pos h

theorem n_lt_b256 : n < 2 ^ 256 := by decide +kernel

/-- C39, what holds: the round trip for `s ≠ 0`. Missing: `s = 0`, for which it fails. -/
theorem C39_der_roundtrip_partial (W : ℕ) (hW : W = 32 ∨ W = 64) (sig : Signature) (hs : Canonical sig) (h0 : sig.s.val ≠ 0) :
    ∃ b, Signature.serializeDer sig = pure b ∧ Signature.parseDer W b = pure (.ok sig) := by
  obtain ⟨b, hb, h, hl, _⟩ := C42_serialize_der sig
  refine ⟨b, hb, parseDer_ok_pure (small_of_72 hW hl) (Or.inl ?_)⟩
  exact ⟨_, _, h, hs.1.trans n_lt_b256, Nat.pos_of_ne_zero h0, hs.2.trans n_lt_b256, (component_of_lt hs.1).symm, (component_of_lt hs.2).symm⟩

theorem not_derInteger_zero {c : List UInt8} {v : ℕ} (h : DerNat c 0) (h' : DerNat c v) : v = 0 := h'.2.1.symm.trans h.2.1

/-- Two sequences of two integers with the same bytes hold the same integers. -/
theorem derTlv_inj {tag : UInt8} {c d x y : List UInt8} {i j : List UInt8} (hi : DerTlv tag c i) (hj : DerTlv tag d j)
    (h : i ++ x = j ++ y) : c = d ∧ x = y := by
  obtain ⟨L, hL, rfl⟩ := hi
  obtain ⟨M, hM, rfl⟩ := hj
  rw [List.cons_append, List.cons_append, List.cons.injEq, List.append_assoc, List.append_assoc] at h
  obtain ⟨_, h⟩ := h
  have hLM : L = M := by
    rcases hL with ⟨b, hb, rfl, e⟩ | ⟨b, u, hb, _, rfl, _⟩ <;> rcases hM with ⟨b', hb', rfl, e'⟩ | ⟨b', u', hb', _, rfl, _⟩
    · rw [List.singleton_append, List.singleton_append, List.cons.injEq] at h
      rw [h.1]
    · rw [List.singleton_append, List.cons_append, List.cons.injEq] at h
      rw [h.1] at hb; omega
    · rw [List.singleton_append, List.cons_append, List.cons.injEq] at h
      rw [← h.1] at hb'; omega
    · rw [List.cons_append, List.cons_append, List.cons.injEq] at h
      obtain ⟨rfl, h⟩ := h
      rw [(List.append_inj h (by omega)).1]
  subst hLM
  have h := List.append_cancel_left h
  have hlen : c.length = d.length := by
    rcases hL with ⟨b, hb, rfl, e⟩ | ⟨b, u, hb, _, rfl, e, h1, _⟩ <;> rcases hM with ⟨b', hb', e1, e'⟩ | ⟨b', u', hb', _, e1, e', _⟩
    · rw [List.cons.injEq] at e1
      rw [e, e', e1.1]
    · rw [List.cons.injEq] at e1
      rw [e1.1] at hb; omega
    · rw [List.cons.injEq] at e1
      rw [e1.1] at hb; omega
    · rw [List.cons.injEq] at e1
      rw [e, e', e1.2]
  exact List.append_inj h hlen

theorem derSignature_inj {r s u v : ℕ} {b : List UInt8} (h : DerSignature r s b) (h' : DerSignature u v b) : r = u ∧ s = v := by
  obtain ⟨i, j, ⟨c, hc, hi⟩, ⟨d, hd, hj⟩, hb⟩ := h
  obtain ⟨i', j', ⟨c', hc', hi'⟩, ⟨d', hd', hj'⟩, hb'⟩ := h'
  obtain ⟨e, _⟩ := derTlv_inj (x := []) (y := []) hb hb' rfl
  obtain ⟨rfl, e⟩ := derTlv_inj hi hi' e
  obtain ⟨rfl, _⟩ := derTlv_inj (x := []) (y := []) hj hj' (by rw [e])
  exact ⟨hc.2.1.symm.trans hc'.2.1, hd.2.1.symm.trans hd'.2.1⟩

/-- C39 is false: the DER encoding of every signature with `s = 0` is refused. -/
theorem C39_der_roundtrip_fails (W : ℕ) (hW : W = 32 ∨ W = 64) (sig : Signature) (h0 : sig.s.val = 0) :
    ∃ b, Signature.serializeDer sig = pure b ∧ Signature.parseDer W b = pure (.error .invalidSignature) := by
  obtain ⟨b, hb, h, hl, _⟩ := C42_serialize_der sig
  refine ⟨b, hb, ?_⟩
  have hsm := small_of_72 hW hl
  have hsmall : b.length < 2 ^ (W - 8) := by rcases hW with rfl | rfl <;> norm_num <;> omega
  rw [(parseDer_eq hsm).resolve_right fun h => absurd h.2.2.2 (not_le.2 hsmall)]
  congr 1
  rw [outcome_error]
  by_contra hne
  obtain ⟨p, hp⟩ := Option.ne_none_iff_exists'.1 hne
  obtain ⟨sig', t⟩ := p
  rcases parseDer_some hp with ⟨u, v, h', _, hv, _⟩ | ⟨L, k, j, v, hL, hk, hkj, ⟨d, hd, hj⟩, hv0, hv, hb', _⟩
  · have := (derSignature_inj h h').2
    omega
  · obtain ⟨i, j', ⟨c, hc, hi⟩, ⟨d', hd', hj'⟩, hb⟩ := h
    obtain ⟨e, _⟩ := derTlv_inj (x := []) (y := []) hb hb' rfl
    obtain ⟨b', rfl, _⟩ : ∃ b' : UInt8, L = [b'] ∧ b'.toNat = k := by
      obtain ⟨_, c2, e2, _, hl2, _⟩ := derInteger_length ⟨d, hd, hj⟩ hv
      have : j.length ≤ 35 := by rw [e2]; simp; omega
      obtain ⟨b', h1, h2⟩ := derLen_short hL (by omega)
      exact ⟨b', h2, h1⟩
    obtain ⟨w, c1, rfl, hw, hc1, hcc⟩ := derInteger_length ⟨c, hc, hi⟩ (sig.r.val_lt)
    rw [List.cons_append, List.cons_append, List.cons.injEq, List.singleton_append, List.cons.injEq] at e
    obtain ⟨_, rfl, e⟩ := e
    have hj0 : j' = [2, 1, 0] := by
      refine derInteger_unique (v := 0) (by rw [h0] at hd'; exact ⟨d', hd', hj'⟩) ⟨[0], derNat_single.2 ⟨rfl, by decide⟩, [1], ?_, rfl⟩
      exact Or.inl ⟨1, by decide, rfl, rfl⟩
    subst hj0
    have hk33 : c1.length = 33 := by omega
    obtain ⟨_, c2, rfl, hb2, hl2, _⟩ := derInteger_length ⟨d, hd, hj⟩ hv
    -- the second reading starts at the contents of the first integer, which begin with 2
    have hc1' : ∃ x y c3, c1 = x :: y :: c3 ∧ c3.length = 31 := by
      match c1, hk33 with
      | x :: y :: c3, h => exact ⟨x, y, c3, rfl, by simpa using h⟩
    obtain ⟨x, y, c3, rfl, hc3⟩ := hc1'
    rw [List.cons_append, List.cons.injEq] at e
    have hx : x = 2 := e.1
    rw [hx] at hcc
    have hmin := hcc.2.1
    have : 2 ^ 256 ≤ beNat (2 :: y :: c3) := by
      have h1 := le_beNat_cons (b := 2) (l := y :: c3) (by decide)
      rw [List.length_cons, hc3] at h1
      exact le_trans (by norm_num) h1
    have := sig.r.val_lt
    omega

def someScalar : Scalar := ⟨1, 2, 3, 4, 5, 6, 7, 8⟩

theorem exists_nonzero : ∃ sig, Canonical sig ∧ sig.r.val ≠ 0 ∧ sig.s.val ≠ 0 :=
  ⟨⟨someScalar, someScalar⟩, by unfold Canonical; decide +kernel⟩
example : ∃ sig, Canonical sig ∧ sig.s.val = 0 := ⟨⟨someScalar, Scalar.zero⟩, by unfold Canonical; decide +kernel⟩

/-! ## Strict parsing -/

/-- C40. -/
theorem C40_strict_unique (W : ℕ) (b : List UInt8) (hb : IsSlice W b) (π : Profile) (sig : Signature)
    (h : Signature.parseDer W b π = some (.ok sig)) (hr : sig.r.val ≠ 0) (hs : sig.s.val ≠ 0) :
    Canonical sig ∧ Signature.serializeDer sig = pure b := by
  obtain ⟨b', hb', h', _, huniq⟩ := C42_serialize_der sig
  have comp : ∀ {v w : ℕ}, w = component v → w ≠ 0 → v = w ∧ w < n := by
    intro v w h1 h2
    unfold component at h1
    split at h1
    · exact ⟨h1.symm, by omega⟩
    · exact absurd h1 h2
  rcases (parseDer_ok_iff hb).1 h with ⟨u, v, h1, _, _, _, h2, h3⟩ | ⟨_, _, _, _, _, _, _, _, _, _, _, h0, _⟩
  · obtain ⟨rfl, hrn⟩ := comp h2 hr
    obtain ⟨rfl, hsn⟩ := comp h3 hs
    refine ⟨⟨hrn, hsn⟩, ?_⟩
    rw [hb', huniq b h1]
  · exact absurd h0 hr

/-- C41, what holds: lax parsing returns on every slice in both profiles; strict parsing returns in
release builds, and in debug builds on every input of fewer than `2^(W-8)` bytes and on every input
that release builds accept. Missing: debug builds on longer inputs, where it fails for `W = 32`. -/
theorem C41_no_panic_partial (W : ℕ) (b : List UInt8) (hb : IsSlice W b) :
    (∃ o, Signature.parseDerLax W b = pure o) ∧
    (∃ o, Signature.parseDer W b .release = some o ∧
      (Signature.parseDer W b .debug = some o ∨
        Signature.parseDer W b .debug = none ∧ o = .error .invalidSignature ∧ 2 ^ (W - 8) ≤ b.length)) := by
  refine ⟨⟨_, parseDerLax_eq hb⟩, ?_⟩
  rcases parseDer_eq hb with h | ⟨_, h1, h2, h3⟩
  · rw [h]; exact ⟨_, rfl, Or.inl rfl⟩
  · exact ⟨_, h2, Or.inr ⟨h1, rfl, h3⟩⟩

/-- C41 on 64-bit targets, for the inputs it names: both parsers return in both profiles. -/
theorem C41_no_panic_64 (b : List UInt8) (hb : b.length < 2 ^ 55) :
    ∃ o o', Signature.parseDer 64 b = pure o ∧ Signature.parseDerLax 64 b = pure o' := by
  have hs : IsSlice 64 b := ⟨Or.inr rfl, hb.trans (by norm_num)⟩
  rcases parseDer_eq hs with h | ⟨_, _, _, h3⟩
  · exact ⟨_, _, h, parseDerLax_eq hs⟩
  · exact absurd h3 (not_le.2 (hb.trans (by norm_num)))

/-- C41 is false for debug builds on 32-bit targets: an input of about `2^24` bytes overflows `usize`. -/
theorem C41_overflow_32 (z : List UInt8) (hz : 2 ^ 24 ≤ z.length) :
    Signature.parseDer 32 ([0x30, 0x84, 0xff, 0xff, 0xff, 0xff] ++ z) .debug = none := parseDer_overflow hz

example : ∃ z : List UInt8, 2 ^ 24 ≤ z.length := ⟨List.replicate (2 ^ 24) 0, by rw [List.length_replicate]⟩

theorem berLen_of_derLen {L : List UInt8} {v : ℕ} (h : DerLen L v) : BerLen L v := by
  rcases h with h | ⟨b, c, h1, _, h2, h3, _⟩
  · exact Or.inl h
  · exact Or.inr ⟨b, c, h1, h2, h3⟩

theorem derInteger_short {v : ℕ} {j : List UInt8} (h : DerInteger v j) (hv : v < 2 ^ 256) : j.length ≤ 35 := by
  obtain ⟨_, _, rfl, _, h2, _⟩ := derInteger_length h hv
  simp only [List.length_cons]; omega

/-- C43, for every accepted input, also with zero components. -/
theorem C43_lax_superset (W : ℕ) (b : List UInt8) (hb : IsSlice W b) (π : Profile) (sig : Signature)
    (h : Signature.parseDer W b π = some (.ok sig)) : Signature.parseDerLax W b = pure (.ok sig) := by
  refine parseDerLax_ok_pure hb (π := π) ?_
  rw [parseDerLax_ok_iff hb]
  have big : ∀ {m : ℕ}, m ≤ 35 → m < 2 ^ (W - 8) := by
    intro m hm
    rcases hb.1 with rfl | rfl <;> norm_num <;> omega
  have last : ∀ {v : ℕ} {j : List UInt8}, DerInteger v j → 0 < v → v < 2 ^ 256 → LaxRead (2 ^ (W - 8)) j (component v) [] := by
    rintro v j hj h0 hv
    have hshort := derInteger_short hj hv
    obtain ⟨d, hd, M, hM, rfl⟩ := hj
    refine ⟨M, d, [], by rw [List.append_nil], berLen_of_derLen hM, ?_, Or.inl ⟨?_, ?_, rfl, fun h => ?_⟩⟩
    · refine big ?_
      simp only [List.length_cons, List.length_append] at hshort; omega
    · rw [hd.2.1]; exact hv
    · rw [hd.2.1]
    · rw [hd.2.1] at h; omega
  rcases (parseDer_ok_iff hb).1 h with ⟨u, v, ⟨i, j, ⟨c, hc, M, hM, rfl⟩, hj, L, hL, rfl⟩, hu, hv0, hv, hr, hs⟩ |
    ⟨M, k, j, v, hM, hk, hkj, hj, hv0, hv, ⟨L, hL, rfl⟩, hr, hs⟩
  · refine ⟨0x30 :: L, _, j, [], ⟨L, _, berLen_of_derLen hL, rfl⟩, rfl, ?_, by rw [hs]; exact last hj hv0 hv⟩
    refine ⟨M, c, j, by simp, berLen_of_derLen hM, big ((derNat_length hc hu).trans (by norm_num)), Or.inl ⟨?_, ?_, rfl, fun _ => ?_⟩⟩
    · rw [hc.2.1]; exact hu
    · rw [hc.2.1, hr]
    · obtain ⟨_, _, e, _⟩ := derInteger_length hj hv
      rw [e]; simp
  · refine ⟨0x30 :: L, _, j, [], ⟨L, _, berLen_of_derLen hL, rfl⟩, rfl, ?_, by rw [hs]; exact last hj hv0 hv⟩
    have hlen : (j.take k).length = k := by rw [List.length_take]; omega
    obtain ⟨b2, c2, e, _⟩ := derInteger_length hj hv
    have htake : j.take k = 2 :: (b2 :: c2).take (k - 1) := by
      rw [e]
      obtain ⟨k', rfl⟩ : ∃ k', k = k' + 1 := ⟨k - 1, by omega⟩
      rfl
    refine ⟨M, j.take k, j.drop k, by rw [List.take_append_drop], by rw [hlen]; exact berLen_of_derLen hM,
      big (by rw [hlen]; exact hkj.trans (derInteger_short hj hv)), Or.inr ⟨?_, hr, ?_⟩⟩
    · rw [htake]
      refine le_trans ?_ (le_beNat_cons (by decide))
      rw [htake, List.length_cons] at hlen
      rw [show 256 = 2 ^ 8 from rfl, ← pow_mul]
      exact Nat.pow_le_pow_right (by omega) (by omega)
    · have : (j.take k).dropWhile (· == 0) = j.take k := by
        rw [htake, List.dropWhile_cons, if_neg (by decide)]
      rw [this, List.take_append_drop]

/-- C59. Strict parsing accepts, in either profile, the DER sequences of two integers with
`u < 2^256` and `0 < v < 2^256` (giving zero for integers `≥ n`), and besides the sequences whose
content is an INTEGER header with length `33 ≤ k` followed by one complete INTEGER of at least `k`
bytes, for which `r = 0`. Everything else is refused with `InvalidSignature`, except that a debug
build can panic on inputs of `2^(W-8)` bytes or more. -/
theorem C59_strict_exact (W : ℕ) (b : List UInt8) (hb : IsSlice W b) :
    (∀ sig π, Signature.parseDer W b π = some (.ok sig) ↔
      ((∃ u v, DerSignature u v b ∧ u < 2 ^ 256 ∧ 0 < v ∧ v < 2 ^ 256 ∧ sig.r.val = component u ∧ sig.s.val = component v) ∨
       (∃ L k j v, DerLen L k ∧ 33 ≤ k ∧ k ≤ j.length ∧ DerInteger v j ∧ 0 < v ∧ v < 2 ^ 256 ∧
         DerTlv 0x30 (0x02 :: (L ++ j)) b ∧ sig.r.val = 0 ∧ sig.s.val = component v))) ∧
    ((¬ ∃ sig, Signature.parseDer W b .release = some (.ok sig)) →
      Signature.parseDer W b .release = some (.error .invalidSignature) ∧
      (Signature.parseDer W b .debug = some (.error .invalidSignature) ∨
        Signature.parseDer W b .debug = none ∧ 2 ^ (W - 8) ≤ b.length)) := by
  refine ⟨fun sig π => parseDer_ok_iff hb, fun h => ?_⟩
  rcases parseDer_eq hb with e | ⟨_, h1, h2, h3⟩
  · rw [e] at h ⊢
    cases hp : Pa.parseDer b with
    | none => exact ⟨rfl, Or.inl rfl⟩
    | some p => exact absurd ⟨p.1, by rw [hp]; rfl⟩ h
  · exact ⟨h2, Or.inr ⟨h1, h3⟩⟩

/-- C44, what holds: an accepted input that gives a nonzero `r` is a sequence of exactly two
INTEGERs; out-of-range integers give zero components. Missing: inputs giving `r = 0`, for which it
fails; C59 has the exact set. -/
theorem C44_strict_partial (W : ℕ) (b : List UInt8) (hb : IsSlice W b) (π : Profile) (sig : Signature)
    (h : Signature.parseDer W b π = some (.ok sig)) (hr : sig.r.val ≠ 0) :
    ∃ u v, DerSignature u v b ∧ sig.r.val = component u ∧ sig.s.val = component v := by
  rcases ((C59_strict_exact W b hb).1 sig π).1 h with ⟨u, v, h1, _, _, _, h2, h3⟩ | ⟨_, _, _, _, _, _, _, _, _, _, _, h0, _⟩
  · exact ⟨u, v, h1, h2, h3⟩
  · exact absurd h0 hr

/-- An input with one INTEGER only that strict parsing accepts. -/
def nestedInput : List UInt8 := [0x30, 0x23, 0x02, 0x21, 0x02, 0x1f] ++ List.replicate 31 1

/-- C44 is false: an accepted input whose sequence does not contain two INTEGERs. -/
theorem C44_strict_fails (W : ℕ) (hW : W = 32 ∨ W = 64) :
    (∃ sig, Signature.parseDer W nestedInput = pure (.ok sig)) ∧
    ¬ ∃ c d i j, DerTlv 0x02 c i ∧ DerTlv 0x02 d j ∧ DerTlv 0x30 (i ++ j) nestedInput := by
  have e31 : nestedInput = 0x30 :: ([0x23] ++ (0x02 :: ([0x21] ++ (0x02 :: ([0x1f] ++ List.replicate 31 1))))) := rfl
  have hout : DerTlv 0x30 (0x02 :: ([0x21] ++ (0x02 :: ([0x1f] ++ List.replicate 31 1)))) nestedInput :=
    ⟨[0x23], Or.inl ⟨0x23, by decide, rfl, rfl⟩, e31⟩
  constructor
  · have hv : beNat (List.replicate 31 1) < 256 ^ 31 := beNat_lt (List.replicate 31 1)
    have hv0 : 0 < beNat (List.replicate 31 1) := lt_of_lt_of_le (by positivity) (le_beNat_cons (b := 1) (l := List.replicate 30 1) (by decide))
    have hv256 : beNat (List.replicate 31 1) < 2 ^ 256 := hv.trans (by norm_num)
    have hn : beNat (List.replicate 31 1) < n := by decide +kernel
    obtain ⟨s, hs⟩ := exists_scalar hn
    refine ⟨⟨Scalar.zero, s⟩, parseDer_ok_pure (small_of_72 hW (by decide)) (Or.inr ?_)⟩
    refine ⟨[0x21], 33, 0x02 :: ([0x1f] ++ List.replicate 31 1), beNat (List.replicate 31 1), Or.inl ⟨0x21, by decide, rfl, rfl⟩, le_rfl, by decide,
      ⟨List.replicate 31 1, derNat_cons.2 ⟨rfl, by decide, by decide⟩, [0x1f], Or.inl ⟨0x1f, by decide, rfl, rfl⟩, rfl⟩, hv0, hv256, hout, Scalar.zero_val, ?_⟩
    rw [hs, component_of_lt hn]
  · rintro ⟨c, d, i, j, hi, hj, hb⟩
    obtain ⟨e, _⟩ := derTlv_inj (x := []) (y := []) hb hout rfl
    have h1 : DerTlv 0x02 (0x02 :: ([0x1f] ++ List.replicate 31 1)) (0x02 :: ([0x21] ++ (0x02 :: ([0x1f] ++ List.replicate 31 1)))) :=
      ⟨[0x21], Or.inl ⟨0x21, by decide, rfl, rfl⟩, rfl⟩
    obtain ⟨_, hj0⟩ := derTlv_inj (y := []) hi h1 (by rw [e, List.append_nil])
    obtain ⟨M, _, rfl⟩ := hj
    cases hj0

/-! ## Both parsers -/

/-- C57. -/
theorem C57_platform_independent (b : List UInt8) (h : b.length < 2 ^ 24) :
    Signature.parseDer 32 b = Signature.parseDer 64 b ∧ Signature.parseDerLax 32 b = Signature.parseDerLax 64 b := by
  have h32 : IsSlice 32 b := ⟨Or.inl rfl, h.trans (by norm_num)⟩
  have h64 : IsSlice 64 b := ⟨Or.inr rfl, h.trans (by norm_num)⟩
  constructor
  · rcases parseDer_eq h32 with e | ⟨_, _, _, h'⟩
    · rcases parseDer_eq h64 with e' | ⟨_, _, _, h'⟩
      · rw [e, e']
      · exact absurd h' (not_le.2 (h.trans (by norm_num)))
    · exact absurd h' (not_le.2 h)
  · have bound : ∀ {l : List UInt8} {v : ℕ} {u : List UInt8}, l.length < 2 ^ 24 →
        (LaxRead (2 ^ (32 - 8)) l v u ↔ LaxRead (2 ^ (64 - 8)) l v u) := by
      intro l v u hl
      constructor <;> rintro ⟨L, c, t, rfl, hL, hc, h3⟩ <;> refine ⟨L, c, t, rfl, hL, ?_, h3⟩
      · exact hc.trans (by norm_num)
      · refine lt_of_le_of_lt ?_ hl
        simp only [List.length_cons, List.length_append]; omega
    have key : ∀ sig : Signature, (∃ hd x y z, LaxHeader hd ∧ b = hd ++ x ∧ LaxRead (2 ^ (32 - 8)) x sig.r.val y ∧ LaxRead (2 ^ (32 - 8)) y sig.s.val z) ↔
        (∃ hd x y z, LaxHeader hd ∧ b = hd ++ x ∧ LaxRead (2 ^ (64 - 8)) x sig.r.val y ∧ LaxRead (2 ^ (64 - 8)) y sig.s.val z) := by
      intro sig
      have hx : ∀ {hd x : List UInt8}, b = hd ++ x → x.length < 2 ^ 24 := fun e => lt_of_le_of_lt (by rw [e]; simp) h
      have hy : ∀ {M : ℕ} {x y : List UInt8} {v : ℕ}, LaxRead M x v y → y.length ≤ x.length := by
        rintro M x y v ⟨L, c, t, rfl, _, _, ⟨_, _, rfl, _⟩ | ⟨_, _, rfl⟩⟩
        · simp only [List.length_cons, List.length_append]; omega
        · have := (List.dropWhile_suffix (l := c) (· == 0)).length_le
          simp only [List.length_cons, List.length_append]; omega
      constructor <;> rintro ⟨hd, x, y, z, h1, h2, h3, h4⟩
      · exact ⟨hd, x, y, z, h1, h2, (bound (hx h2)).1 h3, (bound ((hy h3).trans_lt (hx h2))).1 h4⟩
      · exact ⟨hd, x, y, z, h1, h2, (bound (hx h2)).2 h3, (bound ((hy h3).trans_lt (hx h2))).2 h4⟩
    have e32 := parseDerLax_eq h32
    have e64 := parseDerLax_eq h64
    rw [e32, e64]
    congr 1
    cases h1 : Pa.parseDerLax 32 b with
    | some p =>
      have := (parseDerLax_ok_iff h64 (π := .debug)).2 ((key p.1).1 ((parseDerLax_ok_iff h32 (π := .debug)).1 (by rw [e32, h1]; rfl)))
      rw [e64] at this
      exact (Option.some.inj this).symm
    | none =>
      cases h2 : Pa.parseDerLax 64 b with
      | none => rfl
      | some p =>
        have := (parseDerLax_ok_iff h32 (π := .debug)).2 ((key p.1).2 ((parseDerLax_ok_iff h64 (π := .debug)).1 (by rw [e64, h2]; rfl)))
        rw [e32, h1] at this
        cases this

/-- In release builds strict parsing agrees on every slice that a 32-bit target can hold. -/
theorem C57_strict_release (b : List UInt8) (h : b.length < 2 ^ 31) :
    Signature.parseDer 32 b .release = Signature.parseDer 64 b .release := by
  have key : ∀ {W}, IsSlice W b → Signature.parseDer W b .release = some (outcome (Pa.parseDer b)) := by
    intro W hW
    rcases parseDer_eq hW with e | ⟨h1, _, h2, _⟩
    · rw [e]; rfl
    · rw [h2, h1]; rfl
  rw [key ⟨Or.inl rfl, h⟩, key ⟨Or.inr rfl, h.trans (by norm_num)⟩]

/-- Lax parsing of longer inputs depends on the platform: an integer of `2^24` content bytes is read on
64-bit targets and refused on 32-bit ones. -/
theorem C57_lax_differs (c : List UInt8) (hc : c.length = 2 ^ 24) (hv : beNat c = 1) :
    (∃ sig, sig.r.val = 1 ∧ sig.s.val = 1 ∧
      Signature.parseDerLax 64 ([0x30, 0x00] ++ ([0x02, 0x84, 0x01, 0x00, 0x00, 0x00] ++ c) ++ [0x02, 0x01, 0x01]) = pure (.ok sig)) ∧
    Signature.parseDerLax 32 ([0x30, 0x00] ++ ([0x02, 0x84, 0x01, 0x00, 0x00, 0x00] ++ c) ++ [0x02, 0x01, 0x01]) = pure (.error .invalidSignature) := by
  have hlen : IsSlice 64 ([0x30, 0x00] ++ ([0x02, 0x84, 0x01, 0x00, 0x00, 0x00] ++ c) ++ [0x02, 0x01, 0x01]) := by
    refine ⟨Or.inr rfl, ?_⟩
    simp only [List.length_append, List.length_cons, List.length_nil, hc]; norm_num
  have hlen32 : IsSlice 32 ([0x30, 0x00] ++ ([0x02, 0x84, 0x01, 0x00, 0x00, 0x00] ++ c) ++ [0x02, 0x01, 0x01]) := by
    refine ⟨Or.inl rfl, ?_⟩
    simp only [List.length_append, List.length_cons, List.length_nil, hc]; norm_num
  have hber : BerLen [0x84, 0x01, 0x00, 0x00, 0x00] c.length :=
    Or.inr ⟨0x84, [0x01, 0x00, 0x00, 0x00], rfl, rfl, by rw [hc]; rfl⟩
  have hone : component 1 = 1 := component_of_lt (by decide +kernel)
  obtain ⟨one, h1⟩ := exists_scalar (show 1 < n by decide +kernel)
  constructor
  · refine ⟨⟨one, one⟩, h1, h1, parseDerLax_ok_pure hlen (π := .debug) ((parseDerLax_ok_iff hlen).2 ?_)⟩
    refine ⟨[0x30, 0x00], 0x02 :: ([0x84, 0x01, 0x00, 0x00, 0x00] ++ (c ++ [0x02, 0x01, 0x01])), [0x02, 0x01, 0x01], [],
      ⟨[0], 0, Or.inl ⟨0, by decide, rfl, rfl⟩, rfl⟩, by simp, ?_, ?_⟩
    · exact ⟨_, c, [0x02, 0x01, 0x01], rfl, hber, by rw [hc]; norm_num, Or.inl ⟨by rw [hv]; norm_num, by rw [hv, hone]; exact h1, rfl, fun _ => by simp⟩⟩
    · exact ⟨[1], [1], [], rfl, Or.inl ⟨1, by decide, rfl, rfl⟩, by norm_num, Or.inl ⟨by decide, by
        rw [show beNat [1] = 1 from rfl, hone]; exact h1, rfl, fun h => by cases h⟩⟩
  · rw [parseDerLax_eq hlen32]
    rfl

example : ∃ c : List UInt8, c.length = 2 ^ 24 ∧ beNat c = 1 := by
  refine ⟨List.replicate (2 ^ 24 - 1) 0 ++ [1], by rw [List.length_append, List.length_replicate]; rfl, ?_⟩
  have : ∀ m, beNat (List.replicate m (0 : UInt8)) = 0 := by
    intro m
    induction m with
    | zero => rfl
    | succ m ih => rw [List.replicate_succ, beNat_cons, ih]; simp
  rw [beNat_append, this]; rfl

/-- C58. -/
theorem C58_lax_exact (W : ℕ) (b : List UInt8) (hb : IsSlice W b) :
    (∀ sig π, Signature.parseDerLax W b π = some (.ok sig) ↔
      ∃ hd x y z, LaxHeader hd ∧ b = hd ++ x ∧ LaxRead (2 ^ (W - 8)) x sig.r.val y ∧ LaxRead (2 ^ (W - 8)) y sig.s.val z) ∧
    ((¬ ∃ sig π, Signature.parseDerLax W b π = some (.ok sig)) → Signature.parseDerLax W b = pure (.error .invalidSignature)) ∧
    (∀ sig π, Signature.parseDer W b π = some (.ok sig) ∨ Signature.parseDerLax W b π = some (.ok sig) → Canonical sig) := by
  have hcomp : ∀ v, component v < n := by
    intro v
    unfold component
    split
    · assumption
    · decide +kernel
  have hlax : ∀ sig π, Signature.parseDerLax W b π = some (.ok sig) → Canonical sig := by
    intro sig π h
    obtain ⟨_, _, _, _, _, _, ⟨_, _, _, _, _, _, h1⟩, ⟨_, _, _, _, _, _, h2⟩⟩ := (parseDerLax_ok_iff hb).1 h
    have hn : 0 < n := by decide +kernel
    constructor
    · rcases h1 with ⟨_, h, _⟩ | ⟨_, h, _⟩ <;> rw [h]
      · exact hcomp _
      · exact hn
    · rcases h2 with ⟨_, h, _⟩ | ⟨_, h, _⟩ <;> rw [h]
      · exact hcomp _
      · exact hn
  refine ⟨fun sig π => parseDerLax_ok_iff hb, fun h => ?_, fun sig π h => ?_⟩
  · rw [parseDerLax_eq hb] at h ⊢
    cases hp : Pa.parseDerLax W b with
    | none => rfl
    | some p => exact absurd ⟨p.1, .debug, by rw [hp]; rfl⟩ h
  · rcases h with h | h
    · exact hlax sig π (by rw [C43_lax_superset W b hb π sig h]; rfl)
    · exact hlax sig π h

theorem laxRead_append {M : ℕ} {l : List UInt8} {v : ℕ} {u : List UInt8} (h : LaxRead M l v u) (t : List UInt8) : LaxRead M (l ++ t) v (u ++ t) := by
  obtain ⟨L, c, w, rfl, hL, hc, h | h⟩ := h
  · obtain ⟨h1, h2, rfl, h4⟩ := h
    refine ⟨L, c, u ++ t, by simp, hL, hc, Or.inl ⟨h1, h2, rfl, fun h0 => ?_⟩⟩
    have := h4 h0
    intro e
    exact this (List.append_eq_nil_iff.1 e).1
  · obtain ⟨h1, h2, rfl⟩ := h
    exact ⟨L, c, w ++ t, by simp, hL, hc, Or.inr ⟨h1, h2, by simp⟩⟩

/-- C60. -/
theorem C60_lax_trailing (W : ℕ) (b t : List UInt8) (hb : IsSlice W (b ++ t)) (π : Profile) (sig : Signature)
    (h : Signature.parseDerLax W b π = some (.ok sig)) : Signature.parseDerLax W (b ++ t) = pure (.ok sig) := by
  have hb' : IsSlice W b := ⟨hb.1, lt_of_le_of_lt (by simp) hb.2⟩
  obtain ⟨hd, x, y, z, h1, rfl, h2, h3⟩ := (parseDerLax_ok_iff hb').1 h
  exact parseDerLax_ok_pure hb (π := π) <| (parseDerLax_ok_iff hb).2 ⟨hd, x ++ t, y ++ t, z ++ t, h1, by simp, laxRead_append h2 t, laxRead_append h3 t⟩

/-- The hypotheses are met: a DER encoding that both parsers accept. -/
example : ∃ b sig, IsSlice 64 b ∧ sig.r.val ≠ 0 ∧ sig.s.val ≠ 0 ∧ Signature.parseDer 64 b = pure (.ok sig) ∧
    Signature.parseDerLax 64 b = pure (.ok sig) := by
  obtain ⟨sig, hc, hr, h0⟩ := exists_nonzero
  obtain ⟨b, hb, h⟩ := C39_der_roundtrip_partial 64 (Or.inr rfl) sig hc h0
  obtain ⟨b', hb', _, hl, _⟩ := C42_serialize_der sig
  have : b = b' := pure_inj' (hb.symm.trans hb')
  subst this
  have hs := small_of_72 (W := 64) (Or.inr rfl) hl
  exact ⟨b, sig, hs, hr, h0, h, C43_lax_superset 64 b hs .debug _ (by rw [h]; rfl)⟩

end Verif.Props
