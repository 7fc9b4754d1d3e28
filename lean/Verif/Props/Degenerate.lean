import Verif.Proofs.DegenerateConst
import Verif.Props.Raw

/-!
# Public keys that are not curve points (C79, C81)

`from_secret_key` of a cleared secret gives the point at infinity.  `ecmult` excludes it by a debug assertion
only, and verification does not check for it; neither does the computation of a shared secret.
-/

namespace Verif.Props
open Verif Spec Ecmult Ecdsa

/-- The pair (0, 0), finite; it is not on the curve. -/
def Origin (a : Affine) : Prop :=
  Coord a.x ∧ Coord a.y ∧ a.infinity = false ∧ (a.x.val : Fp) = 0 ∧ (a.y.val : Fp) = 0

theorem Origin.nil {a : Affine} (h : Origin a) : NilA a :=
  ⟨⟨h.1.1, h.1.2, h.2.2.2.1⟩, ⟨h.2.1.1, h.2.1.2, h.2.2.2.2⟩, h.2.2.1⟩

theorem Origin.of {a : Affine} (h : NilA a) : Origin a :=
  ⟨⟨h.x.1, h.x.2.1⟩, ⟨h.y.1, h.y.2.1⟩, h.inf, h.x.2.2, h.y.2.2⟩

theorem Origin.off_curve {a : Affine} (h : Origin a) (P : Pt) : ¬ DenotesA a P := by
  rintro ⟨_, _, ⟨hi, _⟩ | ⟨_, hP⟩⟩
  · rw [h.2.2.1] at hi; exact Bool.noConfusion hi
  · rw [h.2.2.2.1, h.2.2.2.2] at hP
    have := hP.eqn
    revert this
    decide +kernel

/-- The verdict of release builds for such keys: any canonical signature passes. -/
abbrev passes (m : Message) (sig : Signature) : Prop :=
  ¬ n ∣ sig.s.val ∧ ¬ (n ∣ sig.r.val ∧ n ∣ m.sc.val)

theorem passes_canonical {m : Message} {sig : Signature} (h : Canonical sig) (hr : sig.r.val ≠ 0) (hs : sig.s.val ≠ 0) : passes m sig :=
  ⟨Nat.not_dvd_of_pos_of_lt (Nat.pos_of_ne_zero hs) h.2, fun h' => Nat.not_dvd_of_pos_of_lt (Nat.pos_of_ne_zero hr) h.1 h'.1⟩

/-- C79. Under the point at infinity a debug build panics, and a release build accepts. -/
theorem C79_verify_infinite (m : Message) (sig : Signature) (pk : PublicKey) (hk : DenotesA pk.pt 0) (hr : sig.r.val ≠ 0) (hs : sig.s.val ≠ 0) :
    verify m sig pk .debug = none ∧ verify m sig pk .release = some (decide (passes m sig)) := by
  have ha := denotesA_iff.1 hk
  obtain ⟨ctx, hctx, hG⟩ := newContext_runs
  have hv : verify m sig pk = verifyRaw ctx sig.r sig.s pk.pt m.sc := by
    unfold verify verifyWithContext
    rw [hctx, pure_bind]
  have hi := ha.inf_iff.2 rfl
  obtain ⟨h1, h2, _⟩ := nil_verifyRaw (m := m.sc) hG ha.x ha.y (Or.inl hi) hr hs
  rw [hv]
  exact ⟨h1 hi, h2⟩

/-- C79. The key of a secret that is zero modulo `n`, such as a cleared one, accepts every canonical signature
with nonzero components in a release build. -/
theorem C79_zero_secret (sk : SecretKey) (h0 : n ∣ secretInt sk) :
    ∃ pk, PublicKey.fromSecretKey sk = pure pk ∧ ∀ (m : Message) (sig : Signature), Canonical sig → sig.r.val ≠ 0 → sig.s.val ≠ 0 →
      verify m sig pk .release = some true ∧ verify m sig pk .debug = none := by
  obtain ⟨pk, hpk, hd, hi⟩ := C68_from_secret_key_any sk
  refine ⟨pk, hpk, fun m sig hc hr hs => ?_⟩
  obtain ⟨h1, h2⟩ := C79_verify_infinite m sig pk (by rw [(smul_eq_zero_iff G_ne_zero).2 h0] at hd; exact hd) hr hs
  exact ⟨by rw [h2, decide_eq_true (passes_canonical hc hr hs)], h1⟩

/-- C79. The pair (0, 0) accepts as well, in both builds. -/
theorem C79_verify_origin (m : Message) (sig : Signature) (pk : PublicKey) (hk : Origin pk.pt) (hr : sig.r.val ≠ 0) (hs : sig.s.val ≠ 0) :
    verify m sig pk .release = some (decide (passes m sig)) ∧
    (sig.r.val < p → verify m sig pk = pure (decide (passes m sig))) := by
  obtain ⟨ctx, hctx, hG⟩ := newContext_runs
  have hv : verify m sig pk = verifyRaw ctx sig.r sig.s pk.pt m.sc := by
    unfold verify verifyWithContext
    rw [hctx, pure_bind]
  obtain ⟨_, h2, h3⟩ := nil_verifyRaw (m := m.sc) hG (coord_iff.1 hk.1) (coord_iff.1 hk.2.1) (Or.inr hk.nil) hr hs
  rw [hv]
  exact ⟨h2, h3 hk.2.2.1⟩

/-- C79, the core crate: `ECMultContext::verify_raw` accepts `Affine::default()` as a key. -/
theorem C79_verify_raw_default (ctx : List AffineStorage) (hctx : newContext = pure ctx) (r s m : Scalar) (hr : r.val < n) (hs : s.val < n)
    (hr0 : r.val ≠ 0) (hs0 : s.val ≠ 0) : verifyRaw ctx r s Affine.default m = pure true := by
  obtain ⟨ctx', e, hG⟩ := newContext_runs
  obtain rfl : ctx' = ctx := by rw [hctx] at e; exact pure_inj' e.symm
  have hn : NilA Affine.default := ⟨FElem.zero_fe.mono (by norm_num), FElem.zero_fe.mono (by norm_num), rfl⟩
  obtain ⟨_, _, h3⟩ := nil_verifyRaw (m := m) hG (hn.x.ok le_rfl) (hn.y.ok le_rfl) (Or.inr hn) hr0 hs0
  rw [h3 rfl (hr.trans n_lt_p), decide_eq_true]
  exact ⟨Nat.not_dvd_of_pos_of_lt (Nat.pos_of_ne_zero hs0) hs, fun h' => Nat.not_dvd_of_pos_of_lt (Nat.pos_of_ne_zero hr0) hr h'.1⟩

theorem nil_setGej {r : Jacobian} (h : Nil r) : Runs (Affine.setGej r) NilA := by
  unfold Affine.setGej
  refine Runs.bind (FElem.fe_inv h.z (by norm_num)) fun z hz => ?_
  refine Runs.bind (FElem.fe_sqr hz (by norm_num)) fun z2 h2 => ?_
  refine Runs.bind (FElem.fe_mul hz h2.1 (by norm_num) (by norm_num)) fun z3 h3 => ?_
  refine Runs.bind (FElem.fe_mul h.x h2.1 (by norm_num) (by norm_num)) fun x hx => ?_
  refine Runs.bind (FElem.fe_mul h.y h3.1 (by norm_num) (by norm_num)) fun y hy => ?_
  refine Runs.bind fe_one fun _ _ => runs_pure ?_
  exact ⟨hx.1.cast (by norm_num) (by ring), hy.1.cast (by norm_num) (by ring), h.inf⟩

theorem bad_of {pk : PublicKey} (hk : DenotesA pk.pt 0) : ∃ q, Jacobian.setGe pk.pt = pure q ∧ Bad q ∧ q.infinity = true := by
  have ha := denotesA_iff.1 hk
  have hi := ha.inf_iff.2 rfl
  obtain ⟨z, e4, hz⟩ := fe_one
  refine ⟨⟨pk.pt.x, pk.pt.y, z, pk.pt.infinity⟩, by unfold Jacobian.setGe; rw [e4]; rfl, ⟨ha.x, ha.y, hz.ok (by norm_num), Or.inl hi⟩, hi⟩

/-- C79. Tweaking the point at infinity succeeds in a release build and leaves the pair (0, 0). -/
theorem C79_tweak_infinite (pk : PublicKey) (hk : DenotesA pk.pt 0) (t : SecretKey) (ht : ValidSecret t) :
    PublicKey.tweakAddAssign pk t .debug = none ∧ PublicKey.tweakMulAssign pk t .debug = none ∧
    (∃ pk', PublicKey.tweakAddAssign pk t .release = some (pk', .ok ()) ∧ Origin pk'.pt) ∧
    (∃ pk', PublicKey.tweakMulAssign pk t .release = some (pk', .ok ()) ∧ Origin pk'.pt) := by
  obtain ⟨ctx, hctx, hG⟩ := newContext_runs
  obtain ⟨q, hq, hbad, hi⟩ := bad_of hk
  have ht0 : t.sc.val ≠ 0 := Nat.ne_of_gt ht.1
  have h1 : (Scalar.fromInt 1).val = 1 := by decide
  have h0 : (Scalar.fromInt 0).val = 0 := by decide
  obtain ⟨r, er, _, hr⟩ := nil_ecmult (na := Scalar.fromInt 1) (ng := t.sc) hG hbad (by rw [h1]; decide +kernel) ht.2
  obtain ⟨r', er', _, hr'⟩ := nil_ecmult (na := t.sc) (ng := Scalar.fromInt 0) hG hbad ht.2 (by rw [h0]; decide +kernel)
  have hn := (hr (by rw [h1]; simp)).1
  have hn' := (hr' (fun h => ht0 h.1)).1
  obtain ⟨a, ea, ha⟩ := nil_setGej hn
  obtain ⟨a', ea', ha'⟩ := nil_setGej hn'
  have hadd : PublicKey.tweakAddAssign pk t = (dassert false >>= fun _ => pure (⟨a⟩, .ok ())) := by
    unfold PublicKey.tweakAddAssign PublicKey.tweakAddAssignWithContext
    rw [hctx, pure_bind, hq, pure_bind, er, bind_assoc, pure_bind, hn.inf, if_neg (by decide), ea, pure_bind, hi]; rfl
  have hmul : PublicKey.tweakMulAssign pk t = (dassert false >>= fun _ => pure (⟨a'⟩, .ok ())) := by
    unfold PublicKey.tweakMulAssign PublicKey.tweakMulAssignWithContext
    rw [hctx, pure_bind, if_neg (by rw [Scalar.isZero_iff]; exact ht0), hq, pure_bind, er', bind_assoc, pure_bind, ea', pure_bind, hi]; rfl
  rw [hadd, hmul]
  exact ⟨rfl, rfl, ⟨⟨a⟩, rfl, Origin.of ha⟩, ⟨⟨a'⟩, rfl, Origin.of ha'⟩⟩

theorem dvd_clear (k : SecretKey) : n ∣ secretInt (SecretKey.clear k) := by
  have : secretInt (SecretKey.clear k) = 0 := by
    show (⟨0, 0, 0, 0, 0, 0, 0, 0⟩ : Scalar).val = 0
    decide
  rw [this]; exact dvd_zero _

/-- The hypotheses are met: the cleared secret, the default affine value, the signature (1, 1). -/
example (k : SecretKey) : n ∣ secretInt (SecretKey.clear k) ∧ Origin Affine.default ∧ ¬ ∃ P, DenotesA Affine.default P := by
  have hn : NilA Affine.default := ⟨FElem.zero_fe.mono (by norm_num), FElem.zero_fe.mono (by norm_num), rfl⟩
  exact ⟨dvd_clear k, Origin.of hn, fun ⟨P, h⟩ => (Origin.of hn).off_curve P h⟩

/-- The key of a cleared secret accepts the signature (1, 1) on every message. -/
example (k : SecretKey) (m : Message) : ∃ pk, PublicKey.fromSecretKey (SecretKey.clear k) = pure pk ∧
    verify m ⟨Scalar.fromInt 1, Scalar.fromInt 1⟩ pk .release = some true := by
  obtain ⟨pk, h, hv⟩ := C79_zero_secret (SecretKey.clear k) (dvd_clear k)
  exact ⟨pk, h, (hv m ⟨Scalar.fromInt 1, Scalar.fromInt 1⟩ ⟨by decide +kernel, by decide +kernel⟩ (by decide) (by decide)).1⟩

/-- What `ecdh_raw` hashes for such keys: the encoding of an even point with x-coordinate zero. -/
def constantSecret (D : Digest) : SharedSecret := ⟨D.finalize (D.update D.init (0x02 :: List.replicate 32 0))⟩

theorem beBytes_zero : beBytes 32 0 = List.replicate 32 0 := by decide +kernel

/-- C81. Under the point at infinity or the pair (0, 0) a release build returns the same secret for every scalar; a
debug build panics. -/
theorem C81_shared (D : Digest) (pk : PublicKey) (hk : DenotesA pk.pt 0 ∨ Origin pk.pt) (sk : SecretKey) (hsk : ValidSecret sk) :
    SharedSecret.new D pk sk .release = some (.ok (constantSecret D)) ∧ SharedSecret.new D pk sk .debug = none := by
  have h : pk.pt.x.Ok 8 ∧ pk.pt.y.Ok 8 ∧ (pk.pt.infinity = true ∨ NilA pk.pt) := by
    rcases hk with hk | hk
    · have ha := denotesA_iff.1 hk
      exact ⟨ha.x, ha.y, Or.inl (ha.inf_iff.2 rfl)⟩
    · exact ⟨hk.nil.x.ok le_rfl, hk.nil.y.ok le_rfl, Or.inr hk.nil⟩
  obtain ⟨h1, h2⟩ := nil_ecdhRaw D h.1 h.2.1 h.2.2 hsk.2 (Nat.ne_of_gt hsk.1)
  unfold SharedSecret.new
  rw [exec_bind, exec_bind, h1, h2, beBytes_zero]
  exact ⟨rfl, rfl⟩

/-- C81. The key of a secret that is zero modulo `n` gives this secret to every partner. -/
theorem C81_zero_secret (D : Digest) (z : SecretKey) (h0 : n ∣ secretInt z) :
    ∃ pk, PublicKey.fromSecretKey z = pure pk ∧ ∀ sk : SecretKey, ValidSecret sk →
      SharedSecret.new D pk sk .release = some (.ok (constantSecret D)) ∧ SharedSecret.new D pk sk .debug = none := by
  obtain ⟨pk, hpk, hd, _⟩ := C68_from_secret_key_any z
  rw [(smul_eq_zero_iff G_ne_zero).2 h0] at hd
  exact ⟨pk, hpk, fun sk hsk => C81_shared D pk (Or.inl hd) sk hsk⟩

/-- C81. No curve point gives this input to the hash: the constant is not the secret of any valid key. -/
theorem C81_not_a_point (P : Pt) (x y : Fp) (h : IsPt P x y) : sec1Compressed x y ≠ 0x02 :: List.replicate 32 0 := by
  intro e
  have e2 := (List.cons.inj e).2
  rw [← beBytes_zero] at e2
  have hx : x.val = 0 := by
    have := congrArg beNat e2
    rwa [beNat_beBytes, beNat_beBytes, Nat.mod_eq_of_lt ((ZMod.val_lt x).trans (by decide +kernel)), Nat.zero_mod] at this
  have : x = 0 := (ZMod.val_eq_zero x).1 hx
  exact h.x_ne this

/-- C81, the core crate: `ecdh_raw` of `Affine::default()`. -/
theorem C81_ecdh_raw_default (D : Digest) (s : Scalar) (h0 : s.val ≠ 0) (hn : s.val < n) :
    ecdhRaw D Affine.default s .release = some (some (constantSecret D).bytes) ∧ ecdhRaw D Affine.default s .debug = none := by
  have hn' : NilA Affine.default := ⟨FElem.zero_fe.mono (by norm_num), FElem.zero_fe.mono (by norm_num), rfl⟩
  have := nil_ecdhRaw D (hn'.x.ok le_rfl) (hn'.y.ok le_rfl) (Or.inr hn') hn h0
  rwa [beBytes_zero] at this

/-- The hypotheses are met: a cleared secret, and the secret 1 of the partner. -/
example (D : Digest) (k : SecretKey) : ∃ pk, PublicKey.fromSecretKey (SecretKey.clear k) = pure pk ∧
    SharedSecret.new D pk ⟨Scalar.fromInt 1⟩ .release = some (.ok (constantSecret D)) := by
  obtain ⟨pk, h, hv⟩ := C81_zero_secret D (SecretKey.clear k) (dvd_clear k)
  exact ⟨pk, h, (hv ⟨Scalar.fromInt 1⟩ ⟨by decide +kernel, by decide +kernel⟩).1⟩

end Verif.Props
