import Verif.Props.SignatureCount

/-!
# Nonces and signatures: opposite nonces, and which signatures can be made (C118)
-/

namespace Verif.Props
open Verif Spec Ecdsa

theorem raw_result {ctx : Ecmult.GenContext} (hctx : Ecmult.newGenContext = pure ctx) (sk m k : Scalar) {x y : Fp}
    (hP : IsPt (k.val • G) x y) :
    ∃ o, (∀ π, signRaw ctx sk m k π = if π = .debug ∧ n ≤ x.val then none else some o) ∧
      (∀ e, o = .error e ↔ e = .invalidMessage ∧ (m.val : ZMod n) + (x.val : ZMod n) * (sk.val : ZMod n) = 0) ∧
      (∀ r s id, o = .ok (r, s, id) → NonceSignature sk.val m.val k.val x y r.val s.val id.toNat) := by
  have hk : ¬ n ∣ k.val := fun h => hP.ne_zero ((smul_eq_zero_iff G_ne_zero).2 h)
  obtain ⟨x', y', o, hP', hrel, herr, hsig, hlt, hge⟩ := C54_sign_raw_partial ctx hctx sk m k hk
  obtain ⟨rfl, rfl⟩ := hP.inj hP'
  refine ⟨o, fun π => ?_, herr, fun r s id h => (hsig r s id h).1⟩
  cases π with
  | release => rw [if_neg (fun h => by cases h.1)]; exact hrel
  | debug =>
    by_cases hx : x.val < n
    · rw [if_neg (fun h => absurd h.2 (by omega)), hlt hx]; rfl
    · rw [if_pos ⟨rfl, by omega⟩, hge hx]

theorem neg_parity {y : Fp} (h : y ≠ 0) : (-y).val % 2 = (y.val + 1) % 2 := by
  have h0 : y.val ≠ 0 := (ZMod.val_ne_zero y).2 h
  have := ZMod.val_lt y
  have : NeZero y := ⟨h⟩
  rw [ZMod.val_neg_of_ne_zero]
  have hp : p % 2 = 1 := by decide +kernel
  omega

theorem neg_val {a : ZMod n} (h : a ≠ 0) : (-a).val = n - a.val := by
  have : NeZero a := ⟨h⟩
  exact ZMod.val_neg_of_ne_zero a

/-- C118. The nonces `k` and `n - k` give the same result, except that the values `(n-1)/2` and `(n+1)/2` of `s` are exchanged. -/
theorem C118_opposite (ctx : Ecmult.GenContext) (hctx : Ecmult.newGenContext = pure ctx) (sk m k k' : Scalar) (h0 : 0 < k.val) (h0' : 0 < k'.val)
    (hk : k.val + k'.val = n) (π : Profile) :
    (signRaw ctx sk m k π = none → signRaw ctx sk m k' π = none) ∧
    (∀ e, signRaw ctx sk m k π = some (.error e) → signRaw ctx sk m k' π = some (.error e)) ∧
    (∀ r s id, signRaw ctx sk m k π = some (.ok (r, s, id)) →
      (s.val ≠ half → s.val ≠ half + 1 → signRaw ctx sk m k' π = some (.ok (r, s, id))) ∧
      (s.val = half ∨ s.val = half + 1 →
        ∃ s' id', signRaw ctx sk m k' π = some (.ok (r, s', id')) ∧ s'.val = n - s.val ∧ id'.toNat = id.toNat ^^^ 1)) := by
  obtain ⟨x, y, hP⟩ := nonce_point h0 (by omega : k.val < n)
  have hk' : k'.val • G = -(k.val • G) := by
    rw [eq_neg_iff_add_eq_zero, ← add_nsmul, add_comm, hk]
    exact n_smul G
  have hP' : IsPt (k'.val • G) x (-y) := by rw [hk']; exact hP.neg
  have hc : (k'.val : ZMod n) = -(k.val : ZMod n) := by
    rw [eq_neg_iff_add_eq_zero, ← Nat.cast_add, add_comm, hk, ZMod.natCast_self]
  have hy : y ≠ 0 := hP.y_ne
  obtain ⟨o, e, herr, hsig⟩ := raw_result hctx sk m k hP
  obtain ⟨o', e', herr', hsig'⟩ := raw_result hctx sk m k' hP'
  rw [e, e']
  by_cases hd : π = .debug ∧ n ≤ x.val
  · simp [hd]
  rw [if_neg hd, if_neg hd]
  refine ⟨fun h => (by cases h), fun er h => ?_, fun r s id h => ?_⟩
  · rw [(herr' er).2 ((herr er).1 (Option.some.inj h))]
  have ho := Option.some.inj h
  have hz : (m.val : ZMod n) + (x.val : ZMod n) * (sk.val : ZMod n) ≠ 0 := fun hz => by
    have := (herr .invalidMessage).2 ⟨rfl, hz⟩
    rw [ho] at this
    cases this
  cases o' with
  | error er => exact absurd ((herr' er).1 rfl).2 hz
  | ok v =>
    obtain ⟨r', s', id'⟩ := v
    obtain ⟨a1, a2⟩ := hsig r s id ho
    obtain ⟨b1, b2⟩ := hsig' r' s' id' rfl
    obtain rfl : r = r' := Scalar.val_inj (a1.trans b1.symm)
    have hk0 : (k.val : ZMod n) ≠ 0 := by
      rw [ne_eq, ZMod.natCast_eq_zero_iff]
      exact fun hd => absurd (Nat.le_of_dvd h0 hd) (by omega)
    have hx : ((r.val : ℕ) : ZMod n) = ((x.val : ℕ) : ZMod n) := by
      rw [a1, ZMod.natCast_mod]
    have hs0 : ((m.val : ZMod n) + (r.val : ZMod n) * (sk.val : ZMod n)) / (k.val : ZMod n) ≠ 0 :=
      div_ne_zero (by rw [hx]; exact hz) hk0
    rw [hc, div_neg] at b2
    dsimp only at a2 b2
    rw [neg_val hs0] at b2
    have hv0 := (ZMod.val_ne_zero _).2 hs0
    have hvn := ZMod.val_lt (((m.val : ZMod n) + (r.val : ZMod n) * (sk.val : ZMod n)) / (k.val : ZMod n))
    generalize (((m.val : ZMod n) + (r.val : ZMod n) * (sk.val : ZMod n)) / (k.val : ZMod n)).val = v at a2 b2 hv0 hvn
    rw [neg_parity hy] at b2
    have hp2 : ((-y).val + 1) % 2 = y.val % 2 := by
      have := neg_parity hy; omega
    rw [hp2] at b2
    have hh : (n - 1) / 2 = half := rfl
    have hn : n = 2 * half + 1 := by decide +kernel
    rw [hh] at a2 b2
    generalize half = t at *
    have hxn : 2 * (x.val / n) + y.val % 2 = (2 * (x.val / n) + (y.val + 1) % 2) ^^^ 1 := by
      have h2 : ∀ a b : ℕ, b < 2 → (2 * a + b) ^^^ 1 = 2 * a + (1 - b) := by
        intro a b hb
        apply Nat.eq_of_testBit_eq
        intro i
        cases i with
        | zero => rcases (by omega : b = 0 ∨ b = 1) with rfl | rfl <;> simp [Nat.testBit_zero]
        | succ i =>
          rw [Nat.testBit_xor, Nat.testBit_succ, Nat.testBit_succ, Nat.testBit_succ]
          rw [show (2 * a + b) / 2 = a by omega, show (2 * a + (1 - b)) / 2 = a by omega]
          simp
      rw [h2 _ _ (Nat.mod_lt _ (by decide))]
      omega
    have hxn' : 2 * (x.val / n) + (y.val + 1) % 2 = (2 * (x.val / n) + y.val % 2) ^^^ 1 := by
      rw [hxn, Nat.xor_assoc, Nat.xor_self, Nat.xor_zero]
    refine ⟨fun h1 h2 => ?_, fun h12 => ⟨s', id', rfl, ?_, ?_⟩⟩
    · have : s' = s ∧ id' = id := by
        constructor
        · apply Scalar.val_inj
          split at a2 <;> split at b2 <;> omega
        · apply UInt8.toNat_inj.1
          split at a2 <;> split at b2 <;> omega
      rw [this.1, this.2]
    · split at a2 <;> split at b2 <;> omega
    · split at a2 <;> split at b2
      · omega
      · omega
      · omega
      · rw [a2.2, b2.2]; exact hxn

/-- What a nonce has to be for `sign_raw` to return the components `r` and `s` of a verifying signature, in a release build. -/
theorem makes_iff {ctx : Ecmult.GenContext} (hctx : Ecmult.newGenContext = pure ctx) {sk : SecretKey} {m : Message} {sig : Signature}
    (hc : Canonical sig) (hv : EcdsaValid (msgZ m) (sigR sig) (sigS sig) ((keyZ sk).val • G)) {k : Scalar} (h0 : 0 < k.val) (hk : k.val < n) :
    (∃ id, signRaw ctx sk.sc m.sc k .release = some (.ok (sig.r, sig.s, id))) ↔
      ((k.val : ZMod n) = (msgZ m + sigR sig * keyZ sk) / sigS sig ∧ sig.s.val < half) ∨
      ((k.val : ZMod n) = -((msgZ m + sigR sig * keyZ sk) / sigS sig) ∧ sig.s.val ≤ half + 1) := by
  obtain ⟨hr0, hs0, hR⟩ := valid_iff_nonce.1 hv
  have hn : n = 2 * half + 1 := by decide +kernel
  have hh : (n - 1) / 2 = half := rfl
  obtain ⟨x, y, hP⟩ := nonce_point h0 hk
  have hP' : IsPt ((k.val : ZMod n).val • G) x y := by rw [zs_cast]; exact hP
  have hk0 : (k.val : ZMod n) ≠ 0 := by
    rw [ne_eq, ZMod.natCast_eq_zero_iff]
    exact fun hd => absurd (Nat.le_of_dvd h0 hd) (by omega)
  have hκ : msgZ m + sigR sig * keyZ sk ≠ 0 := fun h => hr0 (by rw [← hR, h, zero_div, rOf_zero])
  obtain ⟨o, e, herr, hsig⟩ := raw_result hctx sk.sc m.sc k hP
  rw [e, if_neg (fun h => by cases h.1)]
  have hsv : sigS sig = ((sig.s.val : ℕ) : ZMod n) := rfl
  have hrv : sigR sig = ((sig.r.val : ℕ) : ZMod n) := rfl
  have hsval : (sigS sig).val = sig.s.val := ZMod.val_natCast_of_lt hc.2
  have hsne : sig.s.val ≠ 0 := by rw [← hsval]; exact (ZMod.val_ne_zero _).2 hs0
  have hcs := hc.2
  -- the value of `s₀` for a nonce with this `r`
  constructor
  · rintro ⟨id, ho⟩
    obtain ⟨a1, a2⟩ := hsig _ _ id (Option.some.inj ho)
    dsimp only at a2
    rw [hh] at a2
    have hw : ((m.sc.val : ℕ) : ZMod n) + ((sig.r.val : ℕ) : ZMod n) * ((sk.sc.val : ℕ) : ZMod n) = msgZ m + sigR sig * keyZ sk := rfl
    rw [hw] at a2
    have hvl := ZMod.val_lt ((msgZ m + sigR sig * keyZ sk) / (k.val : ZMod n))
    split at a2
    · rename_i hlt
      refine .inl ⟨?_, by rw [a2.1]; exact hlt⟩
      have : sigS sig = (msgZ m + sigR sig * keyZ sk) / (k.val : ZMod n) := by
        rw [hsv, a2.1, ZMod.natCast_zmod_val]
      rw [this]
      field_simp
    · rename_i hge
      refine .inr ⟨?_, by omega⟩
      have : sigS sig = -((msgZ m + sigR sig * keyZ sk) / (k.val : ZMod n)) := by
        rw [hsv, a2.1, Nat.cast_sub hvl.le, ZMod.natCast_self, ZMod.natCast_zmod_val, zero_sub]
      rw [this]
      field_simp
  · intro h
    have hrk : ((x.val : ℕ) : ZMod n) = sigR sig := by
      rw [← rOf_eq hP']
      rcases h with ⟨h, _⟩ | ⟨h, _⟩
      · rw [h, hR]
      · rw [h, rOf_neg, hR]
    cases o with
    | error er =>
      have := ((herr er).1 rfl).2
      rw [hrk] at this
      exact absurd this hκ
    | ok v =>
      obtain ⟨r, s, id⟩ := v
      obtain ⟨a1, a2⟩ := hsig r s id rfl
      have hr : r = sig.r := by
        apply sigR_inj (by rw [a1]; exact Nat.mod_lt _ (by omega)) hc.1
        rw [a1, ZMod.natCast_mod, hrk]
      subst hr
      dsimp only at a2
      rw [hh] at a2
      have hw : ((m.sc.val : ℕ) : ZMod n) + ((sig.r.val : ℕ) : ZMod n) * ((sk.sc.val : ℕ) : ZMod n) = msgZ m + sigR sig * keyZ sk := rfl
      rw [hw] at a2
      have hs : s = sig.s := by
        apply Scalar.val_inj
        rcases h with ⟨h, hl⟩ | ⟨h, hl⟩
        · have : (msgZ m + sigR sig * keyZ sk) / (k.val : ZMod n) = sigS sig := by
            rw [h]; field_simp
          rw [this, hsval, if_pos hl] at a2
          exact a2.1
        · have : (msgZ m + sigR sig * keyZ sk) / (k.val : ZMod n) = -sigS sig := by
            rw [h]; field_simp
          rw [this, neg_val hs0, hsval, if_neg (by omega)] at a2
          omega
      exact ⟨id, by rw [hs]⟩

/-- C118. A verifying signature with `s < (n-1)/2` is returned by `sign_raw` for exactly two of the nonces `1 … n-1`, which are opposite;
one with `s` equal to `(n-1)/2` or `(n+1)/2` for exactly one; one with a larger `s` for none. -/
theorem C118_complete (ctx : Ecmult.GenContext) (hctx : Ecmult.newGenContext = pure ctx) (m : Message) (sk : SecretKey) (pk : PublicKey)
    (sig : Signature) (hsk : ValidSecret sk) (hpk : PublicKey.fromSecretKey sk = pure pk) (hc : Canonical sig) (hv : verify m sig pk = pure true) :
    (sig.s.val < half → ∃ k k' : Scalar, 0 < k.val ∧ 0 < k'.val ∧ k.val + k'.val = n ∧ ∀ a : Scalar, 0 < a.val → a.val < n →
      ((∃ id, signRaw ctx sk.sc m.sc a .release = some (.ok (sig.r, sig.s, id))) ↔ a = k ∨ a = k')) ∧
    (sig.s.val = half ∨ sig.s.val = half + 1 → ∃ k : Scalar, 0 < k.val ∧ k.val < n ∧ ∀ a : Scalar, 0 < a.val → a.val < n →
      ((∃ id, signRaw ctx sk.sc m.sc a .release = some (.ok (sig.r, sig.s, id))) ↔ a = k)) ∧
    (half + 1 < sig.s.val → ∀ a : Scalar, 0 < a.val → a.val < n →
      ¬ ∃ id, signRaw ctx sk.sc m.sc a .release = some (.ok (sig.r, sig.s, id))) := by
  obtain ⟨pk', hpk', hkey, _⟩ := C18_from_secret_key sk hsk.not_dvd
  obtain rfl : pk = pk' := pure_inj' (hpk.symm.trans hpk')
  rw [← keyZ_smul] at hkey
  have hval := verify_valid hc hkey hv
  obtain ⟨hr0, hs0, hR⟩ := valid_iff_nonce.1 hval
  have hκ : (msgZ m + sigR sig * keyZ sk) / sigS sig ≠ 0 := fun h => hr0 (by rw [← hR, h, rOf_zero])
  have key : ∀ a : Scalar, 0 < a.val → a.val < n → _ := fun a h1 h2 => makes_iff hctx hc hval (k := a) h1 h2
  generalize (msgZ m + sigR sig * keyZ sk) / sigS sig = κ at *
  have hn : n = 2 * half + 1 := by decide +kernel
  have hpos : ∀ c : ZMod n, c ≠ 0 → 0 < c.val := fun c h => Nat.pos_of_ne_zero ((ZMod.val_ne_zero _).2 h)
  have hcast : ∀ (a b : Scalar) (c : ZMod n), a.val < n → b.val = c.val → ((a.val : ZMod n) = c ↔ a = b) := by
    intro a b c ha hb
    constructor
    · intro h
      apply Scalar.val_inj
      rw [hb, ← h, ZMod.val_natCast_of_lt ha]
    · rintro rfl
      rw [hb, ZMod.natCast_zmod_val]
  obtain ⟨k, hk⟩ := exists_scalar (ZMod.val_lt κ)
  obtain ⟨k', hk'⟩ := exists_scalar (ZMod.val_lt (-κ))
  have hkl : k.val < n := by rw [hk]; exact ZMod.val_lt _
  have hkl' : k'.val < n := by rw [hk']; exact ZMod.val_lt _
  refine ⟨fun hl => ⟨k, k', by rw [hk]; exact hpos _ hκ, by rw [hk']; exact hpos _ (neg_ne_zero.2 hκ), ?_, fun a h1 h2 => ?_⟩,
    fun hl => ⟨k', by rw [hk']; exact hpos _ (neg_ne_zero.2 hκ), hkl', fun a h1 h2 => ?_⟩, fun hl a h1 h2 h => ?_⟩
  · rw [hk, hk', neg_val hκ, Nat.add_sub_cancel' (ZMod.val_lt κ).le]
  · rw [key a h1 h2, hcast a k κ h2 hk, hcast a k' (-κ) h2 hk', and_iff_left hl, and_iff_left (by omega)]
  · rw [key a h1 h2, hcast a k' (-κ) h2 hk', and_iff_left (by omega : sig.s.val ≤ half + 1), or_iff_right (fun h => by omega)]
  · rcases (key a h1 h2).1 h with h | h <;> omega

/-- Opposite nonces exist. -/
example : ∃ k k' : Scalar, 0 < k.val ∧ 0 < k'.val ∧ k.val + k'.val = n := by
  obtain ⟨k, hk⟩ := exists_scalar (v := 1) (by decide +kernel)
  obtain ⟨k', hk'⟩ := exists_scalar (v := n - 1) (by decide +kernel)
  have : 1 < n := by decide +kernel
  exact ⟨k, k', by omega, by omega, by omega⟩

/-- The signature `(Gx, Gx)` of the message zero under the secret key one meets the hypotheses of `C118_complete`. -/
example : ∃ m sk pk sig, ValidSecret sk ∧ PublicKey.fromSecretKey sk = pure pk ∧ Canonical sig ∧ verify m sig pk = pure true ∧
    sig.s.val < half := by
  have hg : Gx < n := by decide +kernel
  obtain ⟨r, hr⟩ := exists_scalar (v := Gx) hg
  obtain ⟨z, hz⟩ := exists_scalar (v := 0) (by decide +kernel)
  obtain ⟨pk, hpk, hkey, _⟩ := C18_from_secret_key secretOne secretOne_valid.not_dvd
  rw [← keyZ_smul] at hkey
  have hc : Canonical ⟨r, r⟩ := ⟨by show r.val < n; rw [hr]; exact hg, by show r.val < n; rw [hr]; exact hg⟩
  have h0 : (r.val : ZMod n) ≠ 0 := by
    rw [hr, ne_eq, ZMod.natCast_eq_zero_iff]; decide +kernel
  have hd : keyZ secretOne = 1 := by
    show ((secretInt secretOne : ℕ) : ZMod n) = 1
    rw [show secretInt secretOne = 1 by decide +kernel]; exact Nat.cast_one
  refine ⟨⟨z⟩, secretOne, pk, ⟨r, r⟩, secretOne_valid, hpk, hc, verify_true hc hkey (valid_iff_nonce.2 ⟨h0, h0, ?_⟩), ?_⟩
  · have e : (msgZ ⟨z⟩ + sigR ⟨r, r⟩ * keyZ secretOne) / sigS ⟨r, r⟩ = 1 := by
      show (((z.val : ℕ) : ZMod n) + ((r.val : ℕ) : ZMod n) * keyZ secretOne) / ((r.val : ℕ) : ZMod n) = 1
      rw [hd, hz, Nat.cast_zero, zero_add, mul_one, div_self h0]
    rw [e, rOf_eq (x := (Gx : ℕ)) (y := (Gy : ℕ)) (by rw [zs_one]; exact isPt_G)]
    show _ = ((r.val : ℕ) : ZMod n)
    rw [hr, ZMod.val_natCast, Nat.mod_eq_of_lt (by decide +kernel)]
  · show r.val < half
    rw [hr]; decide +kernel

end Verif.Props
