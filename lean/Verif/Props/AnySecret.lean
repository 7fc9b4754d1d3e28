import Verif.Proofs.WrapSecret
import Verif.Props.Raw
import Verif.Props.Laws

/-!
# Tweaks and key agreement with secrets that are not reduced (C111)

`SecretKey::try_from(Scalar)` accepts every nonzero limb array (C53), and the limbs of `Scalar` are public. So a
`SecretKey` can hold a value in `n … 2^256 - 1`. These theorems say what the tweaks and ECDH do with such a key.
-/

namespace Verif.Props
open Verif Spec Ecmult Ecdsa

/-- C111: the secrets in question can be had from the public API. -/
theorem C111_secret_from_scalar (a : Scalar) (h : n ≤ a.val) :
    SecretKey.tryFrom a = .ok ⟨a⟩ ∧ secretInt ⟨a⟩ = a.val := by
  have hn : 0 < n := by decide +kernel
  exact ⟨(C53_secret_try_from a).1 (by omega), rfl⟩

/-- C111: adding any tweak to a public key. A release build is right for every tweak; a debug build panics
exactly above `n`. -/
theorem C111_public_tweak_add (k : PublicKey) (P : Pt) (t : SecretKey) (hk : IsKey k P) :
    (P + secretInt t • G = 0 → PublicKey.tweakAddAssign k t .release = some (k, .error .tweakOutOfRange)) ∧
    (P + secretInt t • G ≠ 0 → ∃ k', PublicKey.tweakAddAssign k t .release = some (k', .ok ()) ∧ IsKey k' (P + secretInt t • G)) ∧
    (secretInt t ≤ n → PublicKey.tweakAddAssign k t .debug = PublicKey.tweakAddAssign k t .release) ∧
    (n < secretInt t → PublicKey.tweakAddAssign k t .debug = none) := by
  obtain ⟨ha, hP⟩ := isKey_iff.1 hk
  have h := tweakAdd_any (t := t) ha hP
  obtain ⟨r, hr, hc⟩ := h.release
  refine ⟨fun h0 => ?_, fun h0 => ?_, fun hle => ?_, fun hlt => h.debug (not_le.2 hlt)⟩
  · rcases hc with ⟨_, rfl⟩ | ⟨h1, _⟩
    · exact hr
    · exact absurd h0 h1
  · rcases hc with ⟨h1, _⟩ | ⟨_, q, rfl, hq⟩
    · exact absurd h1 h0
    · exact ⟨q, hr, isKey_iff.2 ⟨hq, h0⟩⟩
  · obtain ⟨a, e, _⟩ := h.runs hle
    rw [e]; rfl

/-- C111: multiplying a public key by any nonzero tweak. The zero check compares with zero and not modulo `n`, so
the tweak `n` succeeds and leaves the point at infinity in the key. -/
theorem C111_public_tweak_mul (k : PublicKey) (P : Pt) (t : SecretKey) (hk : IsKey k P) (ht : secretInt t ≠ 0) :
    (∃ k', PublicKey.tweakMulAssign k t .release = some (k', .ok ()) ∧ DenotesA k'.pt (secretInt t • P) ∧
      (k'.pt.infinity = true ↔ secretInt t = n)) ∧
    (secretInt t ≤ n → PublicKey.tweakMulAssign k t .debug = PublicKey.tweakMulAssign k t .release) ∧
    (n < secretInt t → PublicKey.tweakMulAssign k t .debug = none) := by
  obtain ⟨ha, hP⟩ := isKey_iff.1 hk
  have h := tweakMul_any (t := t) ha hP ht
  obtain ⟨r, hr, q, rfl, hq⟩ := h.release
  refine ⟨⟨q, hr, denotesA_iff.2 hq, ?_⟩, fun hle => ?_, fun hlt => h.debug (not_le.2 hlt)⟩
  · refine hq.inf_iff.trans ((smul_eq_zero_iff hP).trans ⟨fun hd => ?_, fun e => ?_⟩)
    · obtain ⟨c, hc⟩ := hd
      have hlt : secretInt t < 2 ^ 256 := t.sc.val_lt
      have h2 : 2 ^ 256 < n * 2 := by decide +kernel
      have hc2 : c < 2 := by
        by_contra hge
        have := Nat.mul_le_mul_left n (show 2 ≤ c by omega)
        have e : secretInt t = n * c := hc
        omega
      have hc0 : c ≠ 0 := by rintro rfl; exact ht (by rw [show secretInt t = n * 0 from hc, Nat.mul_zero])
      have : c = 1 := by omega
      subst this
      exact hc.trans (Nat.mul_one n)
    · exact Dvd.intro 1 ((Nat.mul_one n).trans e.symm)
  · obtain ⟨a, e, _⟩ := h.runs hle
    rw [e]; rfl

/-- C111: the same for secret keys: the product is reduced, and zero is stored with `Ok` if it is a multiple of `n`. -/
theorem C111_secret_tweak_mul (k t : SecretKey) (ht : secretInt t ≠ 0) :
    ∃ k', SecretKey.tweakMulAssign k t = pure (k', .ok ()) ∧ secretInt k' = secretInt k * secretInt t % n := by
  obtain ⟨v, hv, h⟩ := Scalar.mul_runs k.sc t.sc
  refine ⟨⟨v⟩, ?_, h⟩
  unfold SecretKey.tweakMulAssign
  rw [if_neg (fun h => ht ((Scalar.isZero_iff _).1 h)), hv, pure_bind]

/-- C111: adding secrets that are not reduced; the sum is right modulo `n` exactly below `2^256 + n`, and the error
is returned exactly if the stored value would be zero. -/
theorem C111_secret_tweak_add (k t : SecretKey) :
    ∃ v, v = (if secretInt k + secretInt t < n then secretInt k + secretInt t else secretInt k + secretInt t - n) % 2 ^ 256 ∧
      (v % n = (secretInt k + secretInt t) % n ↔ secretInt k + secretInt t < 2 ^ 256 + n) ∧
      (v = 0 → SecretKey.tweakAddAssign k t = pure (k, .error .tweakOutOfRange)) ∧
      (v ≠ 0 → ∃ k', SecretKey.tweakAddAssign k t = pure (k', .ok ()) ∧ secretInt k' = v) := by
  obtain ⟨r, hr, h1, h2⟩ := C68_add_any k.sc t.sc
  refine ⟨r.val, h1, h2, fun h0 => ?_, fun h0 => ?_⟩
  · unfold SecretKey.tweakAddAssign
    rw [hr, pure_bind, if_pos ((Scalar.isZero_iff _).2 h0)]
  · refine ⟨⟨r⟩, ?_, rfl⟩
    unfold SecretKey.tweakAddAssign
    rw [hr, pure_bind, if_neg (fun h => h0 ((Scalar.isZero_iff _).1 h))]

/-- C111: multiplying a key pair by `n` succeeds on both sides, and destroys it: the secret becomes zero and the
public key the point at infinity. -/
theorem C111_tweak_mul_order (sk t : SecretKey) (pk : PublicKey) (P : Pt) (hpk : IsKey pk P) (ht : secretInt t = n) :
    (∃ sk', SecretKey.tweakMulAssign sk t = pure (sk', .ok ()) ∧ secretInt sk' = 0) ∧
    (∃ pk', PublicKey.tweakMulAssign pk t = pure (pk', .ok ()) ∧ pk'.pt.infinity = true) := by
  have hn : n ≠ 0 := by decide +kernel
  have h0 : secretInt t ≠ 0 := by rw [ht]; exact hn
  constructor
  · obtain ⟨k', e, h⟩ := C111_secret_tweak_mul sk t h0
    exact ⟨k', e, by rw [h, ht, Nat.mul_mod_left]⟩
  · obtain ⟨ha, hP⟩ := isKey_iff.1 hpk
    obtain ⟨_, e, q, rfl, hq⟩ := (tweakMul_any (t := t) ha hP h0).runs (le_of_eq ht)
    refine ⟨q, e, hq.inf_iff.2 ?_⟩
    rw [show t.sc.val = n from ht, n_smul]

/-- C111: key agreement with a secret `a` in `n … 2^256 - 3`. A debug build panics. A release build multiplies by
`a - 2^256` in place of `a`. -/
theorem C111_ecdh (D : Digest) (pk : PublicKey) (P : Pt) (sk : SecretKey) (hpk : IsKey pk P) (h1 : n ≤ secretInt sk)
    (h2 : secretInt sk + 2 < 2 ^ 256) :
    (∃ x y, IsPt (-((2 ^ 256 - secretInt sk) • P)) x y ∧
      SharedSecret.new D pk sk .release = some (.ok ⟨D.finalize (D.update D.init (sec1Compressed x y))⟩)) ∧
    SharedSecret.new D pk sk .debug = none := by
  obtain ⟨ha, hP⟩ := isKey_iff.1 hpk
  have h := ecdhRaw_top (D := D) (s := sk.sc) ha hP h1 h2
  constructor
  · obtain ⟨o, ho, x, y, hxy, rfl⟩ := h.release
    refine ⟨x, y, hxy, ?_⟩
    unfold SharedSecret.new
    rw [exec_bind, ho, Option.bind_some]
    rfl
  · unfold SharedSecret.new
    rw [exec_bind, h.debug not_false, Option.bind_none]

/-- The secrets `2^256 - 2` and `2^256 - 1`. -/
def secretTop2 : SecretKey := ⟨0xFFFFFFFE, 0xFFFFFFFF, 0xFFFFFFFF, 0xFFFFFFFF, 0xFFFFFFFF, 0xFFFFFFFF, 0xFFFFFFFF, 0xFFFFFFFF⟩
def secretTop1 : SecretKey := ⟨scalarTop⟩

theorem ecdh_wrap (D : Digest) (pk : PublicKey) (P : Pt) (sk : SecretKey) (hpk : IsKey pk P) {skew : ℤ} {c : ℕ} (hs : skew = 1 ∨ skew = 2)
    (hc : 31 - skew = c) (hc0 : 0 < c) (hcn : c < n) (h0 : sk.sc.val ≠ 0)
    (hw : ecmultWnafConst (List.replicate (1 + wnafSize) 0) sk.sc (windowA - 1) .release = some (wrapDigits, skew))
    (hd : ecmultWnafConst (List.replicate (1 + wnafSize) 0) sk.sc (windowA - 1) .debug = none) :
    (∃ x y, IsPt (c • P) x y ∧
      SharedSecret.new D pk sk .release = some (.ok ⟨D.finalize (D.update D.init (sec1Compressed x y))⟩)) ∧
    SharedSecret.new D pk sk .debug = none := by
  obtain ⟨ha, hP⟩ := isKey_iff.1 hpk
  have hz : ¬ sk.sc.isZero = true := fun h => h0 ((Scalar.isZero_iff _).1 h)
  constructor
  · obtain ⟨o, ho, x, y, hxy, rfl⟩ := ecdhRaw_of_rel (D := D) (ecmultConst_wrap ha hP hs hw)
      (by rw [hc, natCast_zsmul, ne_eq, smul_eq_zero_iff hP]; exact Nat.not_dvd_of_pos_of_lt hc0 hcn) h0
    refine ⟨x, y, by rwa [hc, natCast_zsmul] at hxy, ?_⟩
    unfold SharedSecret.new
    rw [exec_bind, ho, Option.bind_some]
    rfl
  · unfold SharedSecret.new ecdhRaw
    rw [if_neg hz, exec_bind, exec_bind]
    unfold ecmultConst
    rw [exec_bind, hd, Option.bind_none, Option.bind_none, Option.bind_none]

/-- C111: the two largest secrets. Adding the skew wraps to zero, the lowest digit has no entry in the table, and a
release build multiplies every point by 29 and by 30. -/
theorem C111_ecdh_top (D : Digest) (pk : PublicKey) (P : Pt) (sk : SecretKey) (hpk : IsKey pk P) :
    (secretInt sk = 2 ^ 256 - 2 → (∃ x y, IsPt (29 • P) x y ∧
      SharedSecret.new D pk sk .release = some (.ok ⟨D.finalize (D.update D.init (sec1Compressed x y))⟩)) ∧
      SharedSecret.new D pk sk .debug = none) ∧
    (secretInt sk = 2 ^ 256 - 1 → (∃ x y, IsPt (30 • P) x y ∧
      SharedSecret.new D pk sk .release = some (.ok ⟨D.finalize (D.update D.init (sec1Compressed x y))⟩)) ∧
      SharedSecret.new D pk sk .debug = none) := by
  constructor
  · intro h
    have e : sk = secretTop2 := secret_inj (h.trans (by decide +kernel))
    subst e
    exact ecdh_wrap D pk P _ hpk (skew := 2) (Or.inr rfl) (by norm_num) (by norm_num) (by decide +kernel) (by decide +kernel)
      (by decide +kernel) (by decide +kernel)
  · intro h
    have e : sk = secretTop1 := secret_inj (h.trans (by decide +kernel))
    subst e
    exact ecdh_wrap D pk P _ hpk (skew := 1) (Or.inl rfl) (by norm_num) (by norm_num) (by decide +kernel) (by decide +kernel)
      (by decide +kernel) (by decide +kernel)

/-- The multiple of the peer's key that a release build hashes for a secret at or above `n`. -/
theorem ecdh_above (D : Digest) (pk : PublicKey) (P : Pt) (sk : SecretKey) (hpk : IsKey pk P) (h1 : n ≤ secretInt sk) :
    (∃ c : ℤ, ¬ (n : ℤ) ∣ c - secretInt sk ∧ ∃ x y, IsPt (c • P) x y ∧
      SharedSecret.new D pk sk .release = some (.ok ⟨D.finalize (D.update D.init (sec1Compressed x y))⟩)) ∧
    SharedSecret.new D pk sk .debug = none := by
  have hlt : secretInt sk < 2 ^ 256 := sk.sc.val_lt
  by_cases h2 : secretInt sk + 2 < 2 ^ 256
  · obtain ⟨⟨x, y, hxy, e⟩, hd⟩ := C111_ecdh D pk P sk hpk h1 h2
    have e1 : ((2 ^ 256 - secretInt sk : ℕ) : ℤ) = 2 ^ 256 - secretInt sk := by
      rw [Nat.cast_sub hlt.le, Nat.cast_pow, Nat.cast_ofNat]
    refine ⟨⟨-((2 ^ 256 - secretInt sk : ℕ) : ℤ), ?_, x, y, by rwa [neg_zsmul, natCast_zsmul], e⟩, hd⟩
    rw [e1, show -((2 : ℤ) ^ 256 - secretInt sk) - secretInt sk = -(2 ^ 256) by ring, dvd_neg]
    have : ¬ n ∣ 2 ^ 256 := by decide +kernel
    exact_mod_cast this
  · rcases (by omega : secretInt sk = 2 ^ 256 - 2 ∨ secretInt sk = 2 ^ 256 - 1) with h | h
    · obtain ⟨⟨x, y, hxy, e⟩, hd⟩ := (C111_ecdh_top D pk P sk hpk).1 h
      exact ⟨⟨29, by rw [h]; decide +kernel, x, y, by exact_mod_cast hxy, e⟩, hd⟩
    · obtain ⟨⟨x, y, hxy, e⟩, hd⟩ := (C111_ecdh_top D pk P sk hpk).2 h
      exact ⟨⟨30, by rw [h]; decide +kernel, x, y, by exact_mod_cast hxy, e⟩, hd⟩

/-- C111: a debug build panics on every secret at or above `n`. -/
theorem C111_ecdh_debug (D : Digest) (pk : PublicKey) (P : Pt) (sk : SecretKey) (hpk : IsKey pk P) (h1 : n ≤ secretInt sk) :
    SharedSecret.new D pk sk .debug = none := (ecdh_above D pk P sk hpk h1).2

/-- C111: the holder of any secret above `n` and the holder of `b` never agree in a release build: they hash encodings of
different points. -/
theorem C111_ecdh_disagrees (D : Digest) (a b : SecretKey) (h1 : n < secretInt a) (hb : ValidSecret b) :
    ∃ pa pb l l', PublicKey.fromSecretKey a = pure pa ∧ PublicKey.fromSecretKey b = pure pb ∧ l ≠ l' ∧
      SharedSecret.new D pb a .release = some (.ok ⟨D.finalize (D.update D.init l)⟩) ∧
      SharedSecret.new D pa b = pure (.ok ⟨D.finalize (D.update D.init l')⟩) := by
  have hn2 : 2 ^ 256 < n * 2 := by decide +kernel
  have hlt : secretInt a < 2 ^ 256 := a.sc.val_lt
  have hnd : ¬ n ∣ secretInt a := by
    rintro ⟨c, hc⟩
    have : c ≠ 1 := by rintro rfl; rw [Nat.mul_one] at hc; omega
    have : c ≠ 0 := by rintro rfl; rw [Nat.mul_zero] at hc; omega
    have := Nat.mul_le_mul_left n (show 2 ≤ c by omega)
    omega
  obtain ⟨pa, hpa, ka, _⟩ := C18_from_secret_key a hnd
  obtain ⟨pb, hpb, kb, _⟩ := C18_from_secret_key b hb.not_dvd
  obtain ⟨⟨c, hc, x, y, hx, e1⟩, _⟩ := ecdh_above D pb _ a kb h1.le
  obtain ⟨x', y', hx', e2⟩ := (C33_ecdh D pa _ b ka hb.2).2 hb.1.ne'
  refine ⟨pa, pb, _, _, hpa, hpb, fun e => ?_, e1, e2⟩
  have hE := sec1_unique hx hx' e
  rw [show secretInt b • secretInt a • G = secretInt a • secretInt b • G from nsmul_left_comm _ _ _] at hE
  have hbG : secretInt b • G ≠ 0 := by rw [ne_eq, smul_eq_zero_iff G_ne_zero]; exact hb.not_dvd
  have h0 : (c - secretInt a) • (secretInt b • G) = 0 := by
    rw [sub_zsmul, natCast_zsmul, hE, add_neg_cancel]
  apply hc
  rw [← Int.natAbs_dvd_natAbs, Int.natAbs_natCast, ← smul_eq_zero_iff hbG, ← natCast_zsmul, Int.natCast_natAbs]
  rcases abs_choice (c - (secretInt a : ℤ)) with h | h <;> rw [h]
  · exact h0
  · rw [neg_zsmul, h0, neg_zero]

/-- Secrets that meet the hypotheses: `n`, `n + 1` and the two largest. -/
example : secretInt ⟨scalarN⟩ = n ∧ secretInt secretTop2 = 2 ^ 256 - 2 ∧ secretInt secretTop1 = 2 ^ 256 - 1 ∧ n < secretInt ⟨scalarN1⟩ ∧ secretInt ⟨scalarN1⟩ + 2 < 2 ^ 256 ∧ n ≤ scalarTop.val ∧
    ValidSecret secretOne ∧ ∃ k, IsKey k G := by
  refine ⟨scalarN_val, by decide +kernel, by decide +kernel, ?_, ?_, by decide +kernel, secretOne_valid, exists_key G_ne_zero⟩
  · show n < scalarN1.val
    rw [scalarN1_val]; exact Nat.lt_succ_self n
  · show scalarN1.val + 2 < 2 ^ 256
    decide +kernel

end Verif.Props
