import Verif.Proofs.LeakEcdh
import Verif.Proofs.LeakSign
import Verif.Props.Ecdsa

/-!
# What an observer of branches and addresses learns

Statements about the model of `Verif/Model/Leak.lean`: `(f x).run = pure (v, t)` says that the traced
function returns `v` in both builds and that the observations are `t`.
-/

namespace Verif.Props

open Spec
open FElem hiding n

/-- The traced functions compute what the functions of the model compute, on all inputs and in both builds. -/
theorem C90_values (a : Affine) (j : Jacobian) (s m k : Scalar) (ctx : Ecmult.GenContext) (D : Digest) (R : Drbg) (fuel : ℕ) (pk : PublicKey)
    (sk : SecretKey) (msg : Message) :
    (Jacobian.addGeL j a).value = Jacobian.addGe j a ∧
    (Ecmult.ecmultConstL a s).value = Ecmult.ecmultConst a s ∧
    (Ecmult.ecmultGenL ctx s).value = Ecmult.ecmultGen ctx s ∧
    (Ecdsa.signRawL ctx s m k).value = Ecdsa.signRaw ctx s m k ∧
    (Ecdsa.ecdhRawL D a s).value = Ecdsa.ecdhRaw D a s ∧
    (PublicKey.fromSecretKeyL sk).value = PublicKey.fromSecretKey sk ∧
    (SharedSecret.newL D pk sk).value = SharedSecret.new D pk sk ∧
    (signL R fuel msg sk).value = sign R fuel msg sk :=
  ⟨Jacobian.addGeL_value _ _, Ecmult.ecmultConstL_value _ _, Ecmult.ecmultGenL_value _ _, Ecdsa.signRawL_value _ _ _ _,
    Ecdsa.ecdhRawL_value _ _ _, PublicKey.fromSecretKeyL_value _, SharedSecret.newL_value _ _ _, signL_value _ _ _ _⟩

/-- The scalars for which the last addition of `ecmult_const` takes the other branch. -/
def constScalars : List ℕ :=
  [0, 0x5938a5667f479e3eb5b3c7faefdb374a965297126e45d34a01cd319499eec659,
    0xa6c75a9980b861c14a4c38051024c8b4245c45d44102ccf1be052cf836477ae2,
    0xac9c52b33fa3cf1f5ad9e3fd77ed9ba4a880b9fc8ec739c2e0cfc810b51283cd]

/-- C90: the observations of `ecmult_const` on a point are the same for all scalars below `n` but the four of `constScalars`. -/
theorem C90_ecmult_const (a : Affine) (P : Pt) (ha : DenotesA a P) (hP : P ≠ 0) :
    ∃ t t', t ≠ t' ∧ ∀ s : Scalar, s.val < n → ∃ r, Ecmult.ecmultConst a s = pure r ∧
      (Ecmult.ecmultConstL a s).run = pure (r, if s.val ∈ constScalars then t' else t) := by
  have ha' := (isKey_iff (k := ⟨a⟩)).1 ⟨ha, hP⟩
  refine ⟨Ecmult.constTrace a false, Ecmult.constTrace a true, ?_, fun s hs => ?_⟩
  · unfold Ecmult.constTrace
    simp
  · obtain ⟨r, hr, _⟩ := Ecmult.ecmultConstL_runs ha'.1 hP hs
    have hv : (Ecmult.ecmultConstL a s).value = pure r := by
      show ((Ecmult.ecmultConstL a s).run >>= fun a => pure a.1) = _
      rw [hr, pure_bind]
    refine ⟨r, by rw [← Ecmult.ecmultConstL_value, hv], ?_⟩
    rw [hr]
    by_cases h : s.val ∈ constScalars
    · rw [if_pos h]; rw [show decide (s.val ∈ constExceptions) = true from decide_eq_true h]
    · rw [if_neg h]; rw [show decide (s.val ∈ constExceptions) = false from decide_eq_false h]

/-- C90: for a public key, the observations of `SharedSecret::new` are the same for all secret keys but three. -/
theorem C90_ecdh (pk : PublicKey) (P : Pt) (hpk : IsKey pk P) :
    ∃ t t', t ≠ t' ∧ ∀ (D : Digest) (sk : SecretKey), ValidSecret sk → ∃ v, SharedSecret.new D pk sk = pure (.ok v) ∧
      (SharedSecret.newL D pk sk).run = pure (.ok v, if secretInt sk ∈ constScalars then t' else t) := by
  obtain ⟨ha, hP⟩ := isKey_iff.1 hpk
  refine ⟨ecdhTrace pk.pt false, ecdhTrace pk.pt true, ?_, fun D sk hsk => ?_⟩
  · unfold ecdhTrace Ecmult.constTrace
    simp
  · obtain ⟨r, hr, v, rfl⟩ := SharedSecret.newL_runs D ha hP hsk.2 hsk.1.ne'
    have hv : (SharedSecret.newL D pk sk).value = pure (.ok v) := by
      show ((SharedSecret.newL D pk sk).run >>= fun a => pure a.1) = _
      rw [hr, pure_bind]
    refine ⟨v, by rw [← SharedSecret.newL_value, hv], ?_⟩
    rw [hr]
    by_cases h : secretInt sk ∈ constScalars
    · rw [if_pos h]; rw [show decide (sk.sc.val ∈ constExceptions) = true from decide_eq_true h]
    · rw [if_neg h]; rw [show decide (sk.sc.val ∈ constExceptions) = false from decide_eq_false h]

/-- Both kinds of secret key exist. -/
example : ∃ a b : SecretKey, ValidSecret a ∧ ValidSecret b ∧ secretInt a ∉ constScalars ∧ secretInt b ∈ constScalars := by
  refine ⟨⟨Scalar.fromInt 1⟩, ⟨⟨0x99eec659, 0x1cd3194, 0x6e45d34a, 0x96529712, 0xefdb374a, 0xb5b3c7fa, 0x7f479e3e, 0x5938a566⟩⟩, ?_⟩
  unfold ValidSecret secretInt
  decide +kernel

/-! ## Key derivation and signing

`sign` and `from_secret_key` multiply the generator by a secret.  The additions in that multiplication are
`add_ge`, whose one branch depends on whether the accumulator and the table entry have opposite
y-coordinates.  The theorems bound the number of secrets for which that ever happens. -/

/-- Fewer than one scalar in 13107. -/
def Few (B : Finset ℕ) : Prop := 13107 * B.card < n

theorem few_irregular : Few Ecmult.irregular := by
  have h := Ecmult.irregular_card
  have e : 13107 * (5 * 16 ^ 60) < n := by decide +kernel
  unfold Few
  generalize (5 * 16 ^ 60 : ℕ) = q at *
  omega

theorem run_of_value {α : Type} {x : Leak α} {a : α} {t : List Event} {P : α → Prop} (h : TraceOn x P t) (e : x.value = pure a) : x.run = pure (a, t) := by
  funext π
  exact h.of_value (by rw [e]; rfl)

/-- C91: outside a set of few scalars, the observations of `ecmult_gen` and `from_secret_key` do not depend on the secret. -/
theorem C91_fixed_base : ∃ (B : Finset ℕ) (t : List Event), Few B ∧
    (∀ (ctx : Ecmult.GenContext) (s : Scalar), Ecmult.newGenContext = pure ctx → s.val < n → s.val ∉ B →
      ∃ r, Ecmult.ecmultGen ctx s = pure r ∧ (Ecmult.ecmultGenL ctx s).run = pure (r, t)) ∧
    (∀ sk : SecretKey, ValidSecret sk → secretInt sk ∉ B →
      ∃ k, PublicKey.fromSecretKey sk = pure k ∧ (PublicKey.fromSecretKeyL sk).run = pure (k, t)) := by
  refine ⟨Ecmult.irregular, Ecmult.genTrace, few_irregular, fun ctx s hctx hs hB => ?_, fun sk hsk hB => ?_⟩
  · obtain ⟨ctx', hctx', h1, h2, h3⟩ := Ecmult.newGenContext_runs
    have : ctx' = ctx := pure_inj' (hctx'.symm.trans hctx)
    subst this
    have h := Ecmult.ecmultGenL_runs h1 h2 h3 hs hB
    obtain ⟨r, hr, _⟩ := h.value
    refine ⟨r, by rw [← Ecmult.ecmultGenL_value, hr], run_of_value (traceOn_of h) hr⟩
  · have h := PublicKey.fromSecretKeyL_runs hsk.2 hB
    obtain ⟨r, hr, _⟩ := h.value
    exact ⟨r, by rw [← PublicKey.fromSecretKeyL_value, hr], run_of_value (traceOn_of h) hr⟩

/-- There are scalars outside a set of few. -/
theorem Few.exists_notMem {B : Finset ℕ} (h : Few B) : ∃ v, 0 < v ∧ v < n ∧ v ∉ B := by
  have hc : B.card < (Finset.Ioo 0 n).card := by
    rw [Nat.card_Ioo]
    have h2 : 2 < n := by decide +kernel
    unfold Few at h
    omega
  obtain ⟨v, hv, hB⟩ := Finset.exists_mem_notMem_of_card_lt_card hc
  rw [Finset.mem_Ioo] at hv
  exact ⟨v, hv.1, hv.2, hB⟩

/-- There are secrets outside a set of few. -/
example (B : Finset ℕ) (h : Few B) : ∃ sk, ValidSecret sk ∧ secretInt sk ∉ B := by
  obtain ⟨v, h0, hv, hB⟩ := h.exists_notMem
  obtain ⟨a, ha⟩ := exists_scalar hv
  refine ⟨⟨a⟩, ?_, ?_⟩
  · show 0 < a.val ∧ a.val < n
    rw [ha]; exact ⟨h0, hv⟩
  · show a.val ∉ B
    rw [ha]; exact hB

/-- C92: outside a set of few nonces, the observations of `sign_raw` depend only on whether `s` is zero, low or high. -/
theorem C92_sign_raw : ∃ (B : Finset ℕ) (f : Verdict → List Event), Few B ∧
    ∀ (ctx : Ecmult.GenContext) (sk m k : Scalar) (v : Verdict) (π : Profile) (o : Res (Scalar × Scalar × UInt8)),
      Ecmult.newGenContext = pure ctx → 0 < k.val → k.val < n → k.val ∉ B → HasVerdict sk.val m.val k.val v →
      Ecdsa.signRaw ctx sk m k π = some o → (Ecdsa.signRawL ctx sk m k).run π = some (o, f v) := by
  refine ⟨Ecmult.irregular, fun v => Ecmult.genTrace ++ tailTrace v, few_irregular, fun ctx sk m k v π o hctx h0 hk hB hv ho => ?_⟩
  obtain ⟨ctx', hctx', h1, h2, h3⟩ := Ecmult.newGenContext_runs
  have : ctx' = ctx := pure_inj' (hctx'.symm.trans hctx)
  subst this
  rcases hasVerdict_of hv with ⟨_, h⟩ | ⟨_, h⟩ | ⟨_, _, _, _, x, y, hP, hw⟩
  · omega
  · omega
  · have := signRawL_trace h1 h2 h3 (seckey := sk) (message := m) rfl rfl hk hB hP
    rw [← hw] at this
    exact this.of_value (by rw [Ecdsa.signRawL_value]; exact ho)

/-- C92: the observations of `sign` depend only on the verdicts on the candidate nonces up to the first usable one, as long
as none of these is in a set of few. -/
theorem C92_sign : ∃ (B : Finset ℕ) (t : List Event) (f : Verdict → List Event), Few B ∧
    ∀ (D : Drbg) (fuel : ℕ) (m : Message) (sk : SecretKey) (v : ℕ → Verdict) (π : Profile) (o : Option (Signature × RecoveryId)),
      (∀ i < fuel, (∀ j < i, (v j).final = false) →
        HasVerdict (keyZ sk) (msgZ m) (beNat (nonceBlock D m sk i).toList) (v i) ∧ beNat (nonceBlock D m sk i).toList ∉ B) →
      sign D fuel m sk π = some o → (signL D fuel m sk).run π = some (o, t ++ (verdicts v fuel).flatMap f) := by
  refine ⟨Ecmult.irregular, [.extern 32, .extern 32], turnTrace, few_irregular, fun D fuel m sk v π o h ho => ?_⟩
  exact (signL_trace (fun i hi hj => (h i hi hj).1) (fun i hi hj => (h i hi hj).2)).of_value (by rw [signL_value]; exact ho)

/-- C92: two runs of `sign` whose first candidate is usable, of the same kind, and not in the set of few, look the same. -/
theorem C92_sign_same : ∃ B : Finset ℕ, Few B ∧
    ∀ (D D' : Drbg) (fuel : ℕ) (m m' : Message) (sk sk' : SecretKey) (v : Verdict) (π : Profile),
      v.final = true → 0 < fuel →
      HasVerdict (keyZ sk) (msgZ m) (beNat (nonceBlock D m sk 0).toList) v → beNat (nonceBlock D m sk 0).toList ∉ B →
      HasVerdict (keyZ sk') (msgZ m') (beNat (nonceBlock D' m' sk' 0).toList) v → beNat (nonceBlock D' m' sk' 0).toList ∉ B →
      ∀ o o', sign D fuel m sk π = some o → sign D' fuel m' sk' π = some o' →
        ∃ t, (signL D fuel m sk).run π = some (o, t) ∧ (signL D' fuel m' sk').run π = some (o', t) := by
  obtain ⟨B, t, f, hB, h⟩ := C92_sign
  refine ⟨B, hB, fun D D' fuel m m' sk sk' v π hv hfuel h1 h2 h3 h4 o o' ho ho' => ⟨t ++ (verdicts (fun _ => v) fuel).flatMap f, ?_, ?_⟩⟩
  · refine h D fuel m sk (fun _ => v) π o (fun i hi hj => ?_) ho
    rcases i with _ | i
    · exact ⟨h1, h2⟩
    · have := hj 0 (by omega); rw [hv] at this; cases this
  · refine h D' fuel m' sk' (fun _ => v) π o' (fun i hi hj => ?_) ho'
    rcases i with _ | i
    · exact ⟨h3, h4⟩
    · have := hj 0 (by omega); rw [hv] at this; cases this

/-- Every candidate has a verdict. -/
theorem C92_verdict (d m : ZMod n) (k : ℕ) : ∃ v, HasVerdict d m k v := by
  by_cases hk : n ≤ k
  · exact ⟨_, .large hk⟩
  by_cases h0 : k = 0
  · exact ⟨_, .zero h0⟩
  obtain ⟨x, y, hP⟩ := Spec.IsPt.of_ne_zero (P := k • G) (by
    rw [ne_eq, smul_eq_zero_iff G_ne_zero]; exact fun hd => absurd (Nat.le_of_dvd (by omega) hd) hk)
  by_cases hs : (m + (x.val : ZMod n) * d) / k = 0
  · exact ⟨_, .refused (by omega) (by omega) hP hs⟩
  by_cases hh : ((m + (x.val : ZMod n) * d) / k).val < (n - 1) / 2
  · exact ⟨_, .low (by omega) (by omega) hP hs hh⟩
  · exact ⟨_, .high (by omega) (by omega) hP (by omega)⟩

/-- The hypotheses of C92 can be met: a generator, a message and a key whose first candidate is usable and not in a set of few. -/
example (B : Finset ℕ) (h : Few B) : ∃ (D : Drbg) (m : Message) (sk : SecretKey) (v : Verdict), ValidMessage m ∧ ValidSecret sk ∧ v.final = true ∧
    HasVerdict (keyZ sk) (msgZ m) (beNat (nonceBlock D m sk 0).toList) v ∧ beNat (nonceBlock D m sk 0).toList ∉ B := by
  obtain ⟨k, h0, hk, hB⟩ := h.exists_notMem
  obtain ⟨x, y, hP⟩ := Spec.IsPt.of_ne_zero (P := k • G) (by
    rw [ne_eq, smul_eq_zero_iff G_ne_zero]; exact fun hd => absurd (Nat.le_of_dvd h0 hd) (by omega))
  obtain ⟨D, m, sk, hm, hsk, hg, hb⟩ := exists_good k h0 hk _ _ hP
  obtain ⟨v, hv⟩ := C92_verdict (keyZ sk) (msgZ m) (beNat (nonceBlock D m sk 0).toList)
  refine ⟨D, m, sk, v, hm, hsk, ?_, hv, by rw [hb]; exact hB⟩
  obtain ⟨x', y', hP', hu⟩ := hg.2
  have hkz := cast_ne_zero_of_inRange hg.1
  rcases hv with h | h | ⟨_, _, hP2, h⟩ | h | h
  · rw [hb] at h; omega
  · rw [hb] at h; omega
  · obtain ⟨rfl, rfl⟩ := hP'.inj hP2
    exact absurd h (div_ne_zero hu hkz)
  · rfl
  · rfl

end Verif.Props
