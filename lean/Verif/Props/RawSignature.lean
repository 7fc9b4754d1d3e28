import Verif.Props.Raw
import Verif.Props.Unique
import Verif.Props.Exact

/-!
# Signatures whose components are not reduced (C112)

`Signature { r, s }` has public fields of type `Scalar`, whose limbs are public too, and `verify` accepts such values of `s`
(C66). `normalize_s` does not.
-/

namespace Verif.Props
open Verif Spec Ecmult Ecdsa

/-- C112: from `n` on `normalize_s` negates modulo `2^256` instead of modulo `n`. The result is not reduced, and normalizing
again gives the signature back; `n` itself becomes zero. -/
theorem C112_normalize_s (sig : Signature) (h : n ≤ sig.s.val) : ∃ sig', Signature.normalizeS sig = pure sig' ∧ sig'.r = sig.r ∧
    (sig.s.val = n → sig'.s.val = 0 ∧ Signature.normalizeS sig' = pure sig') ∧
    (n < sig.s.val → sig'.s.val = 2 ^ 256 + n - sig.s.val ∧ n < sig'.s.val ∧ Signature.normalizeS sig' = pure sig) := by
  have hn1 : 2 < n := by decide +kernel
  have hlt := sig.s.val_lt
  have hnn : n < 2 ^ 256 := by decide +kernel
  have key : ∀ g : Signature, n ≤ g.s.val → ∃ t, Signature.normalizeS g = pure { g with s := t } ∧ t.val = (2 ^ 256 + n - g.s.val) % 2 ^ 256 := by
    intro g hg
    obtain ⟨t, ht, hv, _⟩ := C68_neg_any g.s
    rw [if_neg (by omega)] at hv
    refine ⟨t, ?_, hv⟩
    unfold Signature.normalizeS
    rw [if_pos ((Scalar.isHigh_iff _).2 (by omega)), ht, pure_bind]
  obtain ⟨t, ht, hv⟩ := key sig h
  refine ⟨_, ht, rfl, fun e => ?_, fun e => ?_⟩
  · have hv0 : t.val = 0 := by rw [hv, e, Nat.add_sub_cancel, Nat.mod_self]
    refine ⟨hv0, ?_⟩
    unfold Signature.normalizeS
    rw [if_neg (by rw [Scalar.isHigh_iff]; show ¬ _ ≤ t.val; omega)]
  · have hv1 : t.val = 2 ^ 256 + n - sig.s.val := by rw [hv]; exact Nat.mod_eq_of_lt (by omega)
    have hgt : n < t.val := by omega
    refine ⟨hv1, hgt, ?_⟩
    obtain ⟨u, hu, hw⟩ := key { sig with s := t } hgt.le
    have : u = sig.s := Scalar.val_inj (by rw [hw]; show (2 ^ 256 + n - t.val) % 2 ^ 256 = _; rw [hv1, Nat.mod_eq_of_lt (by omega)]; omega)
    rw [hu, this]

theorem sum_ne {s t : ℕ} (hs : n < s) (hs2 : s < 2 ^ 256) (ht : t = 2 ^ 256 + n - s) :
    (s : ZMod n) ≠ 0 ∧ (t : ZMod n) ≠ 0 ∧ (s : ZMod n) ≠ t ∧ (s : ZMod n) ≠ -t := by
  have hnn : n = 2 ^ 256 - 432420386565659656852420866394968145599 := by decide +kernel
  have hodd : n = 2 * ((n - 1) / 2) + 1 := by decide +kernel
  have h2 : n < 2 ^ 256 := by decide +kernel
  have h3 : 2 ^ 256 < 2 * n := by decide +kernel
  have nz : ∀ v, n < v → v < 2 ^ 256 → (v : ZMod n) ≠ 0 := by
    intro v h1 h2 h0
    obtain ⟨c, hc⟩ := (ZMod.natCast_eq_zero_iff _ _).1 h0
    have : c = 1 := by
      have a : c < 2 := by by_contra hc2; have := Nat.mul_le_mul_left n (show 2 ≤ c by omega); omega
      have b : c ≠ 0 := by rintro rfl; omega
      omega
    subst this; omega
  refine ⟨nz s hs hs2, nz t (by omega) (by omega), fun e => ?_, fun e => ?_⟩
  · rw [ZMod.natCast_eq_natCast_iff', Nat.mod_eq_sub_mod hs.le, Nat.mod_eq_sub_mod (show n ≤ t by omega),
      Nat.mod_eq_of_lt (by omega), Nat.mod_eq_of_lt (by omega)] at e
    have h4 : (2 ^ 256 + n) % 2 = 1 := by decide +kernel
    omega
  · rw [eq_neg_iff_add_eq_zero, ← Nat.cast_add, show s + t = 2 ^ 256 + n by omega] at e
    exact absurd ((ZMod.natCast_eq_zero_iff _ _).1 e) (by decide +kernel)

theorem pt_of_same_x {P Q : Pt} {x y y' : Fp} (h : IsPt P x y) (h' : IsPt Q x y') : Q = P ∨ Q = -P := by
  rcases h.same_x h' with rfl | rfl
  · exact Or.inl (h'.unique h)
  · exact Or.inr (h'.unique h.neg)

/-- C112: normalizing a signature with `s > n` that verifies gives one that does not, if `r` is in `p - n … p - 1`. -/
theorem C112_normalize_breaks (m : Message) (sig sig' : Signature) (pk : PublicKey) (hq : ValidKey pk) (hs : n < sig.s.val)
    (hr : p - n ≤ sig.r.val) (hr' : sig.r.val < p) (hv : verify m sig pk = pure true) (hn : Signature.normalizeS sig = pure sig') :
    verify m sig' pk = pure false := by
  obtain ⟨Q, hQ⟩ := hq
  obtain ⟨g, hg, er, _, h⟩ := C112_normalize_s sig hs.le
  have : g = sig' := pure_inj' (hg.symm.trans hn)
  subst this
  obtain ⟨ev, _, _⟩ := h hs
  obtain ⟨a0, b0, c0, d0⟩ := sum_ne hs sig.s.val_lt ev
  obtain ⟨b, _, h2, h3, _⟩ := C66_verify_any m sig pk Q hQ
  obtain ⟨b', _, h2', h3', _⟩ := C66_verify_any m g pk Q hQ
  have eb : b = true := pure_inj' ((h3 (Or.inl hr')).symm.trans hv)
  obtain ⟨_, x, y, hP, hx⟩ := h2.1 eb
  rw [h3' (Or.inl (by rw [er]; exact hr'))]
  suffices hb : ¬ b' = true by rw [Bool.eq_false_iff.2 hb]
  intro hb'
  obtain ⟨_, x', y', hP', hx'⟩ := h2'.1 hb'
  rw [er] at hx'
  have hxp := ZMod.val_lt x
  have hxp' := ZMod.val_lt x'
  have hnp : n < p := by decide +kernel
  rw [Nat.mod_eq_of_lt hr'] at hx hx'
  have exx : x' = x := ZMod.val_injective p (by omega)
  subst exx
  have hrel : verifyPoint m g Q = (sigS sig / sigS g).val • verifyPoint m sig Q := by
    have hc : ∀ z : ZMod n, z / sigS g = sigS sig / sigS g * (z / sigS sig) := by
      intro z
      have a1 : sigS sig ≠ 0 := a0
      have b1 : sigS g ≠ 0 := b0
      field_simp
    unfold verifyPoint
    rw [nsmul_add, ← zs_mul, ← zs_mul, ← hc, ← hc, show sigR g = sigR sig by rw [sigR, er]]
  have hne := hP.ne_zero
  rcases pt_of_same_x hP hP' with e | e
  · rw [hrel] at e
    have := zs_inj hne (e.trans (zs_one _).symm)
    rw [div_eq_one_iff_eq b0] at this
    exact c0 this
  · rw [hrel] at e
    have := zs_inj hne (e.trans (by rw [zs_neg, zs_one] : -(verifyPoint m sig Q) = (-1 : ZMod n).val • verifyPoint m sig Q))
    rw [div_eq_iff b0, neg_one_mul] at this
    exact d0 this

/-- The hypotheses are met: `s = n + 1` in place of `s = 1`, with `r` the abscissa of the generator, which is the key. -/
example : ∃ m sig pk, ValidMessage m ∧ ValidKey pk ∧ n < sig.s.val ∧ p - n ≤ sig.r.val ∧ sig.r.val < p ∧ verify m sig pk = pure true := by
  have hgx : Gx < n := by decide +kernel
  have hgx0 : Gx ≠ 0 := by decide +kernel
  have hgx1 : 1 < Gx := by decide +kernel
  have hgp : p - n ≤ Gx ∧ Gx < p := by decide +kernel
  have hgxv : ((Gx : ℕ) : Fp).val = Gx := by rw [ZMod.val_natCast]; decide +kernel
  have hs1 : scalarN1.val = n + 1 := by decide +kernel
  obtain ⟨r, hr⟩ := exists_scalar hgx
  obtain ⟨a, ha⟩ := exists_scalar (v := n + 1 - Gx) (by omega)
  obtain ⟨pk, hpk⟩ := exists_key G_ne_zero
  have hS : sigS ⟨r, scalarN1⟩ = 1 := by
    show ((scalarN1.val : ℕ) : ZMod n) = 1
    rw [hs1, Nat.cast_add, ZMod.natCast_self, zero_add, Nat.cast_one]
  have hP : verifyPoint ⟨a⟩ ⟨r, scalarN1⟩ G = G := by
    unfold verifyPoint
    rw [hS, div_one, div_one, ← zs_add]
    have : msgZ ⟨a⟩ + sigR ⟨r, scalarN1⟩ = 1 := by
      show ((a.val : ℕ) : ZMod n) + ((r.val : ℕ) : ZMod n) = 1
      rw [ha, hr, ← Nat.cast_add, Nat.sub_add_cancel (by omega), Nat.cast_add, ZMod.natCast_self, zero_add, Nat.cast_one]
    rw [this, zs_one]
  obtain ⟨b, _, h2, h3, _⟩ := C66_verify_any ⟨a⟩ ⟨r, scalarN1⟩ pk G hpk
  have hb : b = true := by
    rw [h2, hP]
    exact ⟨by rw [hr]; exact hgx0, _, _, isPt_G, Or.inl (by rw [hgxv, hr, Nat.mod_eq_of_lt hgp.2])⟩
  refine ⟨⟨a⟩, ⟨r, scalarN1⟩, pk, ?_, ⟨G, hpk⟩, ?_, ?_, ?_, ?_⟩
  · show a.val < n
    omega
  · show n < scalarN1.val
    omega
  · show _ ≤ r.val
    rw [hr]; exact hgp.1
  · show r.val < p
    rw [hr]; exact hgp.2
  · rw [h3 (Or.inl (by rw [hr]; exact hgp.2)), hb]

/-- C112: the standard form of such a signature is refused, and the overflowing parser reduces it. -/
theorem C112_encodings (sig : Signature) (h : ¬ Canonical sig) :
    Signature.parseStandard (Signature.serialize sig) = pure (.error .invalidSignature) ∧
    ∃ sig', Signature.parseOverflowing (Signature.serialize sig) = pure sig' ∧ sig'.r.val = sig.r.val % n ∧ sig'.s.val = sig.s.val % n ∧
      sig' ≠ sig := by
  obtain ⟨e1, e2⟩ := sig_halves sig
  have h1 := (C05_parse_standard (Signature.serialize sig)).2
  rw [e1, e2] at h1
  obtain ⟨g, hg, hr, hs, _⟩ := C06_parse_overflowing (Signature.serialize sig)
  rw [e1] at hr
  rw [e2] at hs
  refine ⟨h1 h, g, hg, hr, hs, ?_⟩
  rintro rfl
  have hn : 0 < n := by decide +kernel
  exact h ⟨by rw [hr]; exact Nat.mod_lt _ hn, by rw [hs]; exact Nat.mod_lt _ hn⟩

end Verif.Props
