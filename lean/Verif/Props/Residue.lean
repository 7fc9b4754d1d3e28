import Verif.Proofs.Residue
import Verif.Proofs.ResidueConst
import Verif.Props.Unique

/-!
# What the local variables hold at return (C97, C105)
-/

namespace Verif.Props
open Verif Spec Ecmult Ecdsa

/-- C97: with their locals, the functions compute the values of the model. -/
theorem C97_values (ctx : GenContext) (k m t : Scalar) (D : Drbg) (fuel : ℕ) (msg : Message) (key : SecretKey) :
    (do let o ← ecmultGenR ctx t; pure o.1) = ecmultGen ctx t ∧
    (do let o ← signRawR ctx k m t; pure o.1) = signRaw ctx k m t ∧
    (do let o ← signR D fuel msg key; pure o.1) = sign D fuel msg key :=
  ⟨ecmultGenR_value _ _, signRawR_value _ _ _ _, signR_value _ _ _ _⟩

theorem scalar_zero_val : Scalar.zero.val = 0 := by decide +kernel

theorem scalar_clear_val (a : Scalar) : a.clear.val = 0 := scalar_zero_val

theorem felem_clear_val (a : FElem) : a.clear.val = 0 := by
  have : (FElem.clear FElem.zero).val = 0 := by decide +kernel
  exact this

/-- C97: `ecmult_gen` wipes the blinded nonce and the added point.  It does not wipe the table entry `adds`, which
tells the top four bits of the blinded nonce, for a constant blinding `b`, and nothing else. -/
theorem C97_ecmult_gen (ctx : GenContext) (hctx : newGenContext = pure ctx) : ∃ b < n, ∀ k k' : Scalar, k.val < n → k'.val < n →
    ∃ o o', ecmultGenR ctx k = pure o ∧ ecmultGenR ctx k' = pure o' ∧
      o.2.gnb.val = 0 ∧ o.2.bits = 0 ∧ o.2.add.x.val = 0 ∧ o.2.add.y.val = 0 ∧
      (o.2 = o'.2 ↔ (k.val + b) % n / 2 ^ 252 = (k'.val + b) % n / 2 ^ 252) := by
  obtain ⟨hc, hb, hi⟩ := newGenContext_runs.eq hctx
  refine ⟨genBlind.val, genBlind_lt, fun k k' hk hk' => ?_⟩
  obtain ⟨h, h1, o, ho, a1, a2, a3, a4⟩ := ecmultGenR_runs hc hb hi hk
  obtain ⟨_, h1', o', ho', b1, b2, b3, b4⟩ := ecmultGenR_runs hc hb hi hk'
  refine ⟨o, o', ho, ho', by rw [a2]; rfl, a4, by rw [a3]; rfl, by rw [a3]; rfl, ?_⟩
  rw [show (2 : ℕ) ^ 252 = 16 ^ 63 by norm_num]
  obtain ⟨J, l1, l2, l3, l4⟩ := o
  obtain ⟨J', l1', l2', l3', l4'⟩ := o'
  dsimp only at *
  subst a2 a3 a4 b2 b3 b4
  constructor
  · intro e
    injection e with e
    rw [a1, b1] at e
    exact genTable_inj hc h h1 h1' e
  · intro e
    rw [a1, b1]
    simp only [e]

/-- The hypotheses of `C97_ecmult_gen` are met, and the nonces 1 and `2^255` leave different locals. -/
example : ∃ ctx k k' o o', newGenContext = pure ctx ∧ k.val < n ∧ k'.val < n ∧ ecmultGenR ctx k = pure o ∧ ecmultGenR ctx k' = pure o' ∧
    o.2 ≠ o'.2 := by
  obtain ⟨ctx, hctx, hc, hb, hi⟩ := newGenContext_runs
  obtain ⟨k, hk⟩ := exists_scalar (v := 1) (by decide +kernel)
  obtain ⟨k', hk'⟩ := exists_scalar (v := 2 ^ 255) (by decide +kernel)
  have h1 : k.val < n := by rw [hk]; decide +kernel
  have h2 : k'.val < n := by rw [hk']; decide +kernel
  obtain ⟨h, a, o, ho, a1, _⟩ := ecmultGenR_runs hc hb hi h1
  obtain ⟨_, a', o', ho', b1, _⟩ := ecmultGenR_runs hc hb hi h2
  refine ⟨ctx, k, k', o, o', hctx, h1, h2, ho, ho', fun e => ?_⟩
  rw [e, b1] at a1
  have := genTable_inj hc h a' a a1
  rw [hk, hk'] at this
  revert this; decide +kernel

/-- What `sign_raw` leaves behind after `Ok((r, s, id))`. -/
noncomputable def leftBySignRaw (o : Scalar × Scalar × UInt8) : SignRawLocals :=
  let zero : FElem := ⟨⟨0, 0, 0, 0, 0, 0, 0, 0, 0, 0⟩, 0, true⟩
  { rp := ⟨zero, zero, zero, false⟩
    r := ⟨zero, zero, false⟩
    b := Classical.epsilon fun b => beNat b.toList = o.1.val + if 2 ≤ o.2.2.toNat then n else 0
    sigr := o.1
    overflow := decide (2 ≤ o.2.2.toNat)
    recid := o.2.2
    n := ⟨0, 0, 0, 0, 0, 0, 0, 0⟩
    sigs := o.2.1 }

theorem signRawR_inv {ctx : GenContext} {k m t : Scalar} {π : Profile} {o : Res (Scalar × Scalar × UInt8) × SignRawLocals × GenLocals}
    (h : signRawR ctx k m t π = some o) : ∃ (b : Vector UInt8 32) (sr : Scalar × Bool) (odd : Bool) (s : Scalar) (rp : Jacobian) (r : Affine) (n' : Scalar),
      Scalar.setB32 b π = some sr ∧ signTailR ⟨rp.clear, r.clear, b, sr.1, sr.2, (if sr.2 then 2 else 0) ||| (if odd then 1 else 0), n'.clear, s⟩ π =
        some (o.1, o.2.1) := by
  unfold signRawR at h
  obtain ⟨g, _, h⟩ := bind_some h
  obtain ⟨r, _, h⟩ := bind_some h
  obtain ⟨x, _, h⟩ := bind_some h
  obtain ⟨y, _, h⟩ := bind_some h
  obtain ⟨b, _, h⟩ := bind_some h
  obtain ⟨sr, hsr, h⟩ := bind_some h
  obtain ⟨_, _, h⟩ := bind_some h
  obtain ⟨_, _, h⟩ := bind_some h
  obtain ⟨odd, _, h⟩ := bind_some h
  obtain ⟨n1, _, h⟩ := bind_some h
  obtain ⟨n2, _, h⟩ := bind_some h
  obtain ⟨s1, _, h⟩ := bind_some h
  obtain ⟨s, _, h⟩ := bind_some h
  obtain ⟨q, hq, h⟩ := bind_some h
  obtain rfl := pure_some h
  exact ⟨b, sr, odd, s, g.1, { r with x := x, y := y }, n2, hsr, hq⟩

theorem signTailR_inv {l : SignRawLocals} {π : Profile} {o : Res (Scalar × Scalar × UInt8) × SignRawLocals} (h : signTailR l π = some o) :
    (o = (.error .invalidMessage, l) ∧ l.sigs.isZero = true) ∨
    ∃ s id, (id = l.recid ∨ id = l.recid ^^^ 1) ∧ o = (.ok (l.sigr, s, id), { l with sigs := s, recid := id }) := by
  unfold signTailR at h
  split at h
  · exact .inl ⟨(pure_some h).symm, by assumption⟩
  split at h
  · obtain ⟨s', _, h⟩ := bind_some h
    exact .inr ⟨s', _, .inr rfl, (pure_some h).symm⟩
  · exact .inr ⟨l.sigs, l.recid, .inl rfl, (pure_some h).symm⟩

/-- C97: after `Ok`, the named locals of `sign_raw` are a function of its result: they hold nothing more about key
and nonce.  After an error, the intermediate values are wiped too. -/
theorem C97_sign_raw (ctx : GenContext) (k m t : Scalar) (π : Profile) (l : SignRawLocals) (g : GenLocals) :
    (∀ o, signRawR ctx k m t π = some (.ok o, l, g) → l = leftBySignRaw o) ∧
    (∀ e, signRawR ctx k m t π = some (.error e, l, g) → l.n.val = 0 ∧ l.sigs.val = 0 ∧ l.rp.x.val = 0 ∧ l.rp.y.val = 0 ∧ l.rp.z.val = 0 ∧
      l.r.x.val = 0 ∧ l.r.y.val = 0) := by
  constructor
  · intro o h
    obtain ⟨b, sr, odd, s, rp, r, n', hsr, ht⟩ := signRawR_inv h
    obtain ⟨hov, hv⟩ := (Scalar.setB32_runs b).some hsr
    have hb : beNat b.toList = sr.1.val + if sr.2 then n else 0 := by
      have hlt : beNat b.toList < 2 ^ 256 := by
        have := beNat_lt b.toList
        simpa using this
      have h2 : 2 ^ 256 < 2 * n := by decide +kernel
      rw [hv, hov]
      by_cases hc : n ≤ beNat b.toList
      · rw [decide_eq_true hc, if_pos rfl, Nat.mod_eq_sub_mod hc, Nat.mod_eq_of_lt (by omega)]; omega
      · rw [decide_eq_false hc, if_neg (by simp), Nat.mod_eq_of_lt (by omega)]; rfl
    have key : ∀ (id : UInt8) (s' : Scalar), (decide (2 ≤ id.toNat)) = sr.2 →
        (⟨rp.clear, r.clear, b, sr.1, sr.2, id, n'.clear, s'⟩ : SignRawLocals) = leftBySignRaw (sr.1, s', id) := by
      intro id s' hid
      have he : ∃ b : Vector UInt8 32, beNat b.toList = sr.1.val + if 2 ≤ id.toNat then n else 0 := ⟨b, by
        rw [hb, ← hid]; simp⟩
      have hs := Classical.epsilon_spec he
      have : b = Classical.epsilon fun b : Vector UInt8 32 => beNat b.toList = sr.1.val + if 2 ≤ id.toNat then n else 0 := by
        apply Vector.toList_inj.1
        refine Verif.beNat_inj (by simp) ?_
        rw [hs, hb, ← hid]; simp
      simp only [leftBySignRaw, hid]
      rw [← this]
      rfl
    have hid : ∀ a c : Bool, (decide (2 ≤ ((if a then 2 else 0) ||| (if c then 1 else 0) : UInt8).toNat)) = a ∧
        (decide (2 ≤ (((if a then 2 else 0) ||| (if c then 1 else 0) : UInt8) ^^^ 1).toNat)) = a := by decide
    rcases signTailR_inv ht with ⟨e, _⟩ | ⟨s', id, hid', e⟩
    · cases e
    · cases e
      refine key _ _ ?_
      rcases hid' with rfl | rfl
      · exact (hid _ _).1
      · exact (hid _ _).2
  · intro e h
    obtain ⟨b, sr, odd, s, rp, r, n', hsr, ht⟩ := signRawR_inv h
    rcases signTailR_inv ht with ⟨e, hz⟩ | ⟨s', id, _, e⟩
    · cases e
      exact ⟨scalar_clear_val n', (Scalar.isZero_iff _).1 hz, felem_clear_val rp.x, felem_clear_val rp.y, felem_clear_val rp.z,
        felem_clear_val r.x, felem_clear_val r.y⟩
    · cases e

/-- Both cases of `C97_sign_raw` occur: with key 1 and nonce 1, message 1 gives `Ok`; the message `n - r` gives the error. -/
example : ∃ ctx m m' o l g e l' g', signRawR ctx scalarOne m scalarOne .debug = some (.ok o, l, g) ∧
    signRawR ctx scalarOne m' scalarOne .debug = some (.error e, l', g') := by
  obtain ⟨ctx, hctx, _⟩ := Ecmult.newGenContext_runs
  have h1 : scalarOne.val = 1 := by decide +kernel
  have hgx : ((Gx : ℕ) : Fp).val = Gx := by rw [ZMod.val_natCast]; decide +kernel
  have hlt : Gx < n := by decide +kernel
  have lift : ∀ m r, signRaw ctx scalarOne m scalarOne .debug = some r → ∃ l g, signRawR ctx scalarOne m scalarOne .debug = some (r, l, g) := by
    intro m r h
    rw [← signRawR_value] at h
    obtain ⟨o, ho, h⟩ := bind_some h
    obtain rfl := pure_some h
    exact ⟨_, _, ho⟩
  obtain ⟨m, hm⟩ := exists_scalar (v := 1) (by decide +kernel)
  obtain ⟨m', hm'⟩ := exists_scalar (v := n - Gx) (by decide +kernel)
  have key : ∀ m : Scalar, ∃ o, signRaw ctx scalarOne m scalarOne .debug = some o ∧ ((∃ e, o = .error e) ↔ n ∣ m.val + Gx) := by
    intro m
    obtain ⟨x, y, o, hpt, _, herr, hsig, hp, _⟩ := C54_sign_raw_partial ctx hctx scalarOne m scalarOne (by rw [h1]; decide +kernel)
    rw [h1, one_nsmul] at hpt
    obtain ⟨rfl, rfl⟩ := isPt_G.inj hpt
    rw [hgx] at herr hp
    rw [h1, Nat.cast_one, mul_one, ← Nat.cast_add, ZMod.natCast_eq_zero_iff] at herr
    exact ⟨o, by rw [hp hlt]; rfl, fun ⟨e, he⟩ => ((herr e).1 he).2, fun h => ⟨.invalidMessage, (herr _).2 ⟨rfl, h⟩⟩⟩
  obtain ⟨o, ho, a⟩ := key m
  obtain ⟨o', ho', a'⟩ := key m'
  obtain ⟨e, rfl⟩ := a'.2 (by rw [hm']; decide +kernel)
  have hn : ¬ ∃ e, o = .error e := by rw [a, hm]; decide +kernel
  obtain ⟨l, g, hl⟩ := lift _ _ ho
  obtain ⟨l', g', hl'⟩ := lift _ _ ho'
  cases o with
  | ok v => exact ⟨ctx, m, m', v, l, g, e, l', g', hl, hl'⟩
  | error e => exact absurd ⟨e, rfl⟩ hn

theorem signLoopR_inv {D : Drbg} {ctx : GenContext} {k m : Scalar} {π : Profile} {v : Scalar × Scalar × UInt8} : ∀ {fuel : ℕ} {l l' : SignLocals D},
    signLoopR D ctx k m fuel l π = some (some v, l') → l'.seckeyB32 = l.seckeyB32 ∧ l'.messageB32 = l.messageB32 ∧
      ¬ n ∣ l'.nonce.val ∧ l'.nonce.val = beNat l'.generated.toList ∧ signRaw ctx k m l'.nonce π = some (.ok v)
  | 0, l, l', h => by cases pure_some h
  | fuel + 1, l, l', h => by
    unfold signLoopR at h
    obtain ⟨t, ht, h⟩ := bind_some h
    obtain ⟨hov, hv⟩ := (Scalar.setB32_runs _).some ht
    dsimp only at h
    split at h
    · rename_i hc
      simp only [Bool.and_eq_true, Bool.not_eq_true'] at hc
      obtain ⟨o, ho, h⟩ := bind_some h
      obtain ⟨o1, o2⟩ := o
      cases o1 with
      | ok w =>
        cases pure_some h
        rw [hc.1] at hov
        have hlt := of_decide_eq_false hov.symm
        rw [Nat.mod_eq_of_lt (by omega)] at hv
        have hz : ¬ t.1.isZero = true := by rw [hc.2]; simp
        rw [Scalar.isZero_iff] at hz
        refine ⟨rfl, rfl, fun hd => absurd (Nat.le_of_dvd (by dsimp only; omega) hd) (by dsimp only; omega), hv, ?_⟩
        rw [← signRawR_value]
        show ((signRawR ctx k m t.1) >>= fun o => pure o.1) π = _
        exact Option.bind_eq_some_iff.2 ⟨_, ho, rfl⟩
      | error e =>
        have ih := signLoopR_inv (fuel := fuel) (l' := l') h
        exact ih
    · have ih := signLoopR_inv (fuel := fuel) (l' := l') h
      exact ih

/-- C97: `sign` overwrites the nonce, but not the bytes of the secret key, nor the block of the generator it took the
nonce from; with the message and the signature, that block alone gives the secret key. -/
theorem C97_sign : ∃ f : Vector UInt8 32 → Message → Signature → RecoveryId → ZMod n,
    ∀ (D : Drbg) (fuel : ℕ) (m : Message) (k : SecretKey) (π : Profile) (sig : Signature) (id : RecoveryId) (l : SignLocals D),
    signR D fuel m k π = some (some (sig, id), l) →
      l.nonce.val = 0 ∧ beNat l.seckeyB32.toList = secretInt k ∧ beNat l.messageB32.toList = m.sc.val ∧
      (sig.r.val ≠ 0 → (secretInt k : ZMod n) = f l.generated m sig id) := by
  classical
  refine ⟨fun b m sig id => if ∃ x y, IsPt (beNat b.toList • G) x y ∧ id.id.toNat % 2 = y.val % 2
    then (sig.s.val * beNat b.toList - m.sc.val) / sig.r.val else (-(sig.s.val * beNat b.toList) - m.sc.val) / sig.r.val, ?_⟩
  intro D fuel m k π sig id l h
  unfold signR at h
  obtain ⟨ctx, hctx, h⟩ := bind_some h
  obtain ⟨⟨o, l'⟩, ho, h⟩ := bind_some h
  have hctx' : newGenContext = pure ctx := by
    obtain ⟨c, hc, _⟩ := newGenContext_runs
    rw [hc] at hctx ⊢
    rw [pure_some hctx]
  cases o with
  | none => cases pure_some h
  | some v =>
    obtain ⟨r, s, i⟩ := v
    cases pure_some h
    obtain ⟨h1, h2, h3, h4, h5⟩ := signLoopR_inv ho
    refine ⟨scalar_zero_val, ?_, ?_, fun hr => ?_⟩
    · dsimp only; rw [h1]; exact Scalar.beNat_b32 _
    · dsimp only; rw [h2]; exact Scalar.beNat_b32 _
    dsimp only at *
    obtain ⟨x, y, hpt⟩ := IsPt.of_ne_zero (P := l'.nonce.val • G) (fun h => h3 ((smul_eq_zero_iff G_ne_zero).1 h))
    obtain ⟨e1, e2⟩ := sign_raw_equation hctx' h3 hpt h5
    have hr0 : (r.val : ZMod n) ≠ 0 := by
      rw [ne_eq, ZMod.natCast_eq_zero_iff]
      exact fun h => absurd (Nat.le_of_dvd (by omega) h) (by
        have : x.val % n < n := Nat.mod_lt _ (by decide +kernel)
        omega)
    rw [← h4]
    rcases e2 with ⟨a, e⟩ | ⟨a, e⟩
    · rw [if_pos ⟨x, y, hpt, a⟩, eq_div_iff hr0, e]; unfold secretInt; ring
    · rw [if_neg, eq_div_iff hr0, e]
      · unfold secretInt; ring
      · rintro ⟨x', y', hpt', a'⟩
        obtain ⟨rfl, rfl⟩ := hpt.inj hpt'
        exact a a'

/-- The hypotheses of `C97_sign` are met, with a nonzero `r`. -/
example : ∃ D m k sig id l, signR D 1 m k .release = some (some (sig, id), l) ∧ sig.r.val ≠ 0 := by
  have hP : IsPt (1 • G) (Gx : Fp) (Gy : Fp) := by rw [one_nsmul]; exact isPt_G
  obtain ⟨D, m, sk, _, _, hg, hb⟩ := exists_good 1 (by omega) (by decide +kernel) Gx Gy hP
  obtain ⟨x', y', sig, id, hP', hs, hrel, _⟩ := (C29_first_nonce D m sk 1).1 0 (by omega) hg (by intro j hj; omega)
  rw [hb] at hP'
  obtain ⟨rfl, rfl⟩ := hP.inj hP'
  rw [← signR_value] at hrel
  obtain ⟨o, ho, h⟩ := bind_some hrel
  obtain ⟨o1, l⟩ := o
  have e := pure_some h
  dsimp only at e
  subst e
  refine ⟨D, m, sk, sig, id, l, ho, ?_⟩
  rw [hs.1, show ((Gx : ℕ) : Fp).val = Gx by rw [ZMod.val_natCast]; decide +kernel]
  decide +kernel

/-! ## ECDH -/

/-- C105: with their locals, `ecmult_const` and `ecdh_raw` compute the values of the model. -/
theorem C105_values (D : Digest) (a : Affine) (s : Scalar) :
    (do let o ← ecmultConstR a s; pure o.1) = ecmultConst a s ∧ (do let o ← ecdhRawR D a s; pure (o.map (·.1))) = ecdhRaw D a s :=
  ⟨ecmultConstR_value a s, ecdhRawR_value D a s⟩

/-- C105: `ecdh_raw` wipes nothing.  When it returns, its locals hold the secret key and the shared point, from which the shared secret
is hashed; those of `ecmult_const` hold the secret key, and again as 65 digits and the skew, and the point that corrects for the skew. -/
theorem C105_ecdh (D : Digest) (pk : PublicKey) (P : Pt) (sk : SecretKey) (hpk : IsKey pk P) (hsk : ValidSecret sk) :
    ∃ out l c, ecdhRawR D pk.pt sk.sc = pure (some (out, l, c)) ∧
      l.s = sk.sc ∧ DenotesA l.pt (secretInt sk • P) ∧ DenotesJ l.res (secretInt sk • P) ∧
      out = D.finalize (D.update D.init (l.y :: l.x.toList)) ∧
      c.sc = sk.sc ∧ (secretInt sk : ZMod n) = digitSum 16 c.wnaf1 - c.skew1 ∧
      DenotesA c.correction (-(c.skew1 • P)) := by
  obtain ⟨ha, hP⟩ := isKey_iff.1 hpk
  obtain ⟨o, ho, out, l, c, rfl, h1, h2⟩ := ecdhRawR_runs (D := D) ha hP hsk.2 hsk.1.ne'
  refine ⟨out, l, c, ho, h1.s, denotesA_iff.2 h1.pt, denotesJ_iff.2 h1.res, h1.out, h2.sc, ?_, denotesA_iff.2 h2.corr⟩
  rw [h2.sum]
  unfold secretInt
  ring

/-- C105: the digits and the skew left by `ecmult_const` tell the secret key. -/
theorem C105_digits (D : Digest) (pk : PublicKey) (P : Pt) (sk sk' : SecretKey) (hpk : IsKey pk P) (h : ValidSecret sk) (h' : ValidSecret sk')
    {out l c out' l' c'} (ho : ecdhRawR D pk.pt sk.sc = pure (some (out, l, c))) (ho' : ecdhRawR D pk.pt sk'.sc = pure (some (out', l', c'))) :
    c.wnaf1 = c'.wnaf1 ∧ c.skew1 = c'.skew1 ↔ sk = sk' := by
  obtain ⟨o1, o2, o3, e, _, _, _, _, _, h1, _⟩ := C105_ecdh D pk P sk hpk h
  obtain ⟨p1, p2, p3, e', _, _, _, _, _, h1', _⟩ := C105_ecdh D pk P sk' hpk h'
  have e := Option.some.inj (pure_inj' (ho.symm.trans e))
  have e' := Option.some.inj (pure_inj' (ho'.symm.trans e'))
  have e3 : c = o3 := congrArg (fun x => x.2.2) e
  have e3' : c' = p3 := congrArg (fun x => x.2.2) e'
  subst e3 e3'
  constructor
  · rintro ⟨a1, a2⟩
    rw [a1, a2, ← h1'] at h1
    have := congrArg ZMod.val h1
    unfold secretInt at this
    rw [ZMod.val_natCast_of_lt h.2, ZMod.val_natCast_of_lt h'.2] at this
    obtain ⟨a⟩ := sk
    obtain ⟨b⟩ := sk'
    exact congrArg SecretKey.mk (Scalar.val_inj this)
  · rintro rfl
    have e := Option.some.inj (pure_inj' (ho.symm.trans ho'))
    have e3 : c = c' := congrArg (fun x => x.2.2) e
    rw [e3]
    exact ⟨rfl, rfl⟩

/-- A key and two secrets. -/
example : ∃ pk sk sk', IsKey pk G ∧ ValidSecret sk ∧ ValidSecret sk' ∧ sk ≠ sk' := by
  refine ⟨⟨Affine.g⟩, ⟨⟨1, 0, 0, 0, 0, 0, 0, 0⟩⟩, ⟨⟨2, 0, 0, 0, 0, 0, 0, 0⟩⟩, isKey_iff.2 ⟨Affine.g_aff, G_ne_zero⟩, ?_, ?_, ?_⟩
  · exact ⟨by decide +kernel, by decide +kernel⟩
  · exact ⟨by decide +kernel, by decide +kernel⟩
  · intro h
    have := congrArg secretInt h
    revert this
    decide +kernel

end Verif.Props
