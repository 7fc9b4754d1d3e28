import Verif.Props.Keys
import Verif.Props.Ecdsa

/-!
# Laws of keys, tweaks, combination and shared secrets (C72–C75)

Each law relates several calls. Results on secret keys are equal limb by limb; public keys are compared with
the library's own equality.
-/

namespace Verif.Props
open Verif Spec Ecdsa

theorem secret_inj {a b : SecretKey} (h : secretInt a = secretInt b) : a = b := by
  cases a; cases b
  simp only [secretInt] at h
  rw [Scalar.val_inj h]

/-- C72. Derivation is injective on valid secret keys, and so are the encodings of the derived keys. -/
theorem C72_derivation_injective (a b : SecretKey) (ha : ValidSecret a) (hb : ValidSecret b) :
    ∃ pa pb e sa sb ca cb, PublicKey.fromSecretKey a = pure pa ∧ PublicKey.fromSecretKey b = pure pb ∧
      PublicKey.eq pa pb = pure e ∧ (e = true ↔ a = b) ∧
      PublicKey.serialize pa = pure sa ∧ PublicKey.serialize pb = pure sb ∧ (sa = sb ↔ a = b) ∧
      PublicKey.serializeCompressed pa = pure ca ∧ PublicKey.serializeCompressed pb = pure cb ∧ (ca = cb ↔ a = b) := by
  obtain ⟨pa, hpa, ka, _⟩ := C18_from_secret_key a ha.not_dvd
  obtain ⟨pb, hpb, kb, _⟩ := C18_from_secret_key b hb.not_dvd
  obtain ⟨e, sa, sb, he, hsa, hsb, e1, e2⟩ := C22_equality pa pb _ _ ka kb
  have key : secretInt a • G = secretInt b • G ↔ a = b := by
    constructor
    · intro h
      rw [smul_eq_iff G_ne_zero, ZMod.natCast_eq_natCast_iff', Nat.mod_eq_of_lt (show secretInt a < n from ha.2),
        Nat.mod_eq_of_lt (show secretInt b < n from hb.2)] at h
      exact secret_inj h
    · rintro rfl; rfl
  obtain ⟨xa, ya, pta, _, ca, ka', hca, bca, hka', kka', _⟩ := C21_roundtrip pa _ ka
  obtain ⟨xb, yb, ptb, _, cb, kb', hcb, bcb, hkb', kkb', _⟩ := C21_roundtrip pb _ kb
  refine ⟨pa, pb, e, sa, sb, ca, cb, hpa, hpb, he, e1.trans key, hsa, hsb, e2.trans key, hca, hcb, ?_⟩
  rw [← key]
  constructor
  · rintro rfl
    rw [hka'] at hkb'
    have := pure_inj' hkb'
    cases this
    exact isKey_unique kka' kkb'
  · intro h
    rw [h] at pta
    obtain ⟨rfl, rfl⟩ := pta.inj ptb
    apply Vector.toList_inj.1
    rw [bca, bcb]

example : ValidSecret secretOne ∧ ValidSecret secretMax ∧ secretOne ≠ secretMax :=
  ⟨secretOne_valid, secretMax_valid, by decide +kernel⟩

/-! ## Tweaks -/

theorem mod_eq_secret {r : SecretKey} (hr : secretInt r < n) {a : ℕ} : a % n = secretInt r ↔ (a : ZMod n) = (secretInt r : ZMod n) := by
  rw [ZMod.natCast_eq_natCast_iff', Nat.mod_eq_of_lt hr]

theorem secret_add_ok {k t k₁ : SecretKey} {π : Profile} (hk : secretInt k < n) (ht : secretInt t < n)
    (h : SecretKey.tweakAddAssign k t π = some (k₁, .ok ())) :
    ValidSecret k₁ ∧ secretInt k₁ = (secretInt k + secretInt t) % n := by
  obtain ⟨a1, a2⟩ := C30_secret_tweak_add k t hk ht
  by_cases h0 : (secretInt k + secretInt t) % n = 0
  · rw [a1 h0] at h; cases h
  · obtain ⟨k', e, v, i⟩ := a2 h0
    rw [e] at h
    cases h
    exact ⟨v, i⟩

theorem secret_add_of {k t r : SecretKey} (hk : secretInt k < n) (ht : secretInt t < n) (hr : ValidSecret r)
    (h : (secretInt k : ZMod n) + (secretInt t : ZMod n) = (secretInt r : ZMod n)) : SecretKey.tweakAddAssign k t = pure (r, .ok ()) := by
  rw [← Nat.cast_add, ← mod_eq_secret hr.2] at h
  obtain ⟨_, a2⟩ := C30_secret_tweak_add k t hk ht
  obtain ⟨k', e, _, i⟩ := a2 (by rw [h]; exact hr.1.ne')
  rw [e, secret_inj (i.trans h)]

theorem secret_mul_ok {k t k₁ : SecretKey} {π : Profile} (hk : ValidSecret k) (ht : secretInt t < n)
    (h : SecretKey.tweakMulAssign k t π = some (k₁, .ok ())) :
    ValidSecret k₁ ∧ secretInt k₁ = secretInt k * secretInt t % n := by
  obtain ⟨a1, a2⟩ := C31_secret_tweak_mul k t hk ht
  by_cases h0 : secretInt t = 0
  · rw [a1 h0] at h; cases h
  · obtain ⟨k', e, v, i⟩ := a2 h0
    rw [e] at h
    cases h
    exact ⟨v, i⟩

theorem secret_mul_of {k t r : SecretKey} (hk : ValidSecret k) (ht : ValidSecret t) (hr : secretInt r < n)
    (h : (secretInt k : ZMod n) * (secretInt t : ZMod n) = (secretInt r : ZMod n)) : SecretKey.tweakMulAssign k t = pure (r, .ok ()) := by
  rw [← Nat.cast_mul, ← mod_eq_secret hr] at h
  obtain ⟨_, a2⟩ := C31_secret_tweak_mul k t hk ht.2
  obtain ⟨k', e, _, i⟩ := a2 ht.1.ne'
  rw [e, secret_inj (i.trans h)]

theorem key_add_ok {k k₁ : PublicKey} {P : Pt} {t : SecretKey} {π : Profile} (hk : IsKey k P) (ht : secretInt t < n)
    (h : PublicKey.tweakAddAssign k t π = some (k₁, .ok ())) : IsKey k₁ (P + secretInt t • G) := by
  obtain ⟨a1, a2⟩ := C30_public_tweak_add k P t hk ht
  by_cases h0 : P + secretInt t • G = 0
  · rw [a1 h0] at h; cases h
  · obtain ⟨k', e, v⟩ := a2 h0
    rw [e] at h
    cases h
    exact v

theorem key_mul_ok {k k₁ : PublicKey} {P : Pt} {t : SecretKey} {π : Profile} (hk : IsKey k P) (ht : secretInt t < n)
    (h : PublicKey.tweakMulAssign k t π = some (k₁, .ok ())) : IsKey k₁ (secretInt t • P) := by
  obtain ⟨a1, a2⟩ := C31_public_tweak_mul k P t hk ht
  by_cases h0 : secretInt t = 0
  · rw [a1 h0] at h; cases h
  · obtain ⟨k', e, v⟩ := a2 h0
    rw [e] at h
    cases h
    exact v

theorem smul_opp {a b : ℕ} (h : (a + b) % n = 0) (P : Pt) : a • P + b • P = 0 := by
  rw [← add_nsmul, ← smul_mod, h, zero_nsmul]

/-- C73: an additive tweak by `t` is undone by the one by `-t`, on secret and on public keys. -/
theorem C73_add_undo (t t' : SecretKey) (π : Profile) (ht : secretInt t < n) (ht' : secretInt t' < n)
    (h : (secretInt t + secretInt t') % n = 0) :
    (∀ k k₁, ValidSecret k → SecretKey.tweakAddAssign k t π = some (k₁, .ok ()) →
      SecretKey.tweakAddAssign k₁ t' = pure (k, .ok ())) ∧
    (∀ k k₁, ValidKey k → PublicKey.tweakAddAssign k t π = some (k₁, .ok ()) →
      ∃ k₂, PublicKey.tweakAddAssign k₁ t' = pure (k₂, .ok ()) ∧ PublicKey.eq k₂ k = pure true) := by
  constructor
  · intro k k₁ hk h₁
    obtain ⟨v, i⟩ := secret_add_ok hk.2 ht h₁
    refine secret_add_of v.2 ht' hk ?_
    have h' : ((secretInt t : ZMod n)) + (secretInt t' : ZMod n) = 0 := by
      rw [← Nat.cast_add, ZMod.natCast_eq_zero_iff]; exact Nat.dvd_of_mod_eq_zero h
    rw [i, ZMod.natCast_mod, Nat.cast_add, add_assoc, h', add_zero]
  · rintro k k₁ ⟨P, hP⟩ h₁
    have h₂ := key_add_ok hP ht h₁
    have e : P + secretInt t • G + secretInt t' • G = P := by rw [add_assoc, smul_opp h, add_zero]
    obtain ⟨k₂, h₃, h₄⟩ := (C30_public_tweak_add k₁ _ t' h₂ ht').2 (by rw [e]; exact hP.2)
    rw [e] at h₄
    exact ⟨k₂, h₃, key_eq_true h₄ hP⟩

/-- C73: a multiplicative tweak by `t` is undone by the one by `t.inv()`, on secret and on public keys. -/
theorem C73_mul_undo (t : SecretKey) (ht : ValidSecret t) :
    ∃ t', SecretKey.inv t = pure t' ∧
    (∀ k, ValidSecret k → ∃ k₁, SecretKey.tweakMulAssign k t = pure (k₁, .ok ()) ∧
      SecretKey.tweakMulAssign k₁ t' = pure (k, .ok ())) ∧
    (∀ k, ValidKey k → ∃ k₁ k₂, PublicKey.tweakMulAssign k t = pure (k₁, .ok ()) ∧
      PublicKey.tweakMulAssign k₁ t' = pure (k₂, .ok ()) ∧ PublicKey.eq k₂ k = pure true) := by
  obtain ⟨t', e, v, i, _⟩ := C10_secret_inv t ht
  have iz : (secretInt t : ZMod n) * (secretInt t' : ZMod n) = 1 := by
    rw [mul_comm, ← Nat.cast_mul, ← ZMod.natCast_mod, i, Nat.cast_one]
  refine ⟨t', e, fun k hk => ?_, ?_⟩
  · obtain ⟨k₁, h₁, v₁, i₁⟩ := (C31_secret_tweak_mul k t hk ht.2).2 ht.1.ne'
    refine ⟨k₁, h₁, secret_mul_of v₁ v hk.2 ?_⟩
    rw [i₁, ZMod.natCast_mod, Nat.cast_mul, mul_assoc, iz, mul_one]
  · rintro k ⟨P, hP⟩
    obtain ⟨k₁, h₁, i₁⟩ := (C31_public_tweak_mul k P t hP ht.2).2 ht.1.ne'
    obtain ⟨k₂, h₂, i₂⟩ := (C31_public_tweak_mul k₁ _ t' i₁ v.2).2 v.1.ne'
    have : secretInt t' • secretInt t • P = P := by
      rw [← mul_nsmul, ← smul_mod, mul_comm, i, one_nsmul]
    rw [this] at i₂
    exact ⟨k₁, k₂, h₁, h₂, key_eq_true i₂ hP⟩

/-- C73: the order of two tweaks of the same kind does not matter, and `(k + t) u = k u + t u`; on secret keys. -/
theorem C73_secret_order (k t u : SecretKey) (hk : ValidSecret k) (ht : ValidSecret t) (hu : ValidSecret u) :
    (∀ a b c, SecretKey.tweakAddAssign k t = pure (a, .ok ()) → SecretKey.tweakAddAssign k u = pure (b, .ok ()) →
      SecretKey.tweakAddAssign a u = pure (c, .ok ()) → SecretKey.tweakAddAssign b t = pure (c, .ok ())) ∧
    (∃ a b c, SecretKey.tweakMulAssign k t = pure (a, .ok ()) ∧ SecretKey.tweakMulAssign k u = pure (b, .ok ()) ∧
      SecretKey.tweakMulAssign a u = pure (c, .ok ()) ∧ SecretKey.tweakMulAssign b t = pure (c, .ok ())) ∧
    (∀ a, SecretKey.tweakAddAssign k t = pure (a, .ok ()) →
      ∃ c ku tu, SecretKey.tweakMulAssign a u = pure (c, .ok ()) ∧ SecretKey.tweakMulAssign k u = pure (ku, .ok ()) ∧
        SecretKey.tweakMulAssign t u = pure (tu, .ok ()) ∧ SecretKey.tweakAddAssign ku tu = pure (c, .ok ())) := by
  refine ⟨fun a b c ha hb hc => ?_, ?_, fun a ha => ?_⟩
  · obtain ⟨va, ia⟩ := secret_add_ok hk.2 ht.2 (congrFun ha .debug)
    obtain ⟨vb, ib⟩ := secret_add_ok hk.2 hu.2 (congrFun hb .debug)
    obtain ⟨vc, ic⟩ := secret_add_ok va.2 hu.2 (congrFun hc .debug)
    refine secret_add_of vb.2 ht.2 vc ?_
    rw [ib, ic, ia]
    simp only [ZMod.natCast_mod, Nat.cast_add]
    ring
  · obtain ⟨a, ha, va, ia⟩ := (C31_secret_tweak_mul k t hk ht.2).2 ht.1.ne'
    obtain ⟨b, hb, vb, ib⟩ := (C31_secret_tweak_mul k u hk hu.2).2 hu.1.ne'
    obtain ⟨c, hc, vc, ic⟩ := (C31_secret_tweak_mul a u va hu.2).2 hu.1.ne'
    refine ⟨a, b, c, ha, hb, hc, secret_mul_of vb ht vc.2 ?_⟩
    rw [ib, ic, ia]
    simp only [ZMod.natCast_mod, Nat.cast_mul]
    ring
  · obtain ⟨va, ia⟩ := secret_add_ok hk.2 ht.2 (congrFun ha .debug)
    obtain ⟨c, hc, vc, ic⟩ := (C31_secret_tweak_mul a u va hu.2).2 hu.1.ne'
    obtain ⟨ku, hku, vku, iku⟩ := (C31_secret_tweak_mul k u hk hu.2).2 hu.1.ne'
    obtain ⟨tu, htu, vtu, itu⟩ := (C31_secret_tweak_mul t u ht hu.2).2 hu.1.ne'
    refine ⟨c, ku, tu, hc, hku, htu, secret_add_of vku.2 vtu.2 vc ?_⟩
    rw [iku, itu, ic, ia]
    simp only [ZMod.natCast_mod, Nat.cast_mul, Nat.cast_add]
    ring

/-- C73: the same on public keys. -/
theorem C73_public_order (k : PublicKey) (t u : SecretKey) (hk : ValidKey k) (ht : ValidSecret t) (hu : ValidSecret u) :
    (∀ a b c, PublicKey.tweakAddAssign k t = pure (a, .ok ()) → PublicKey.tweakAddAssign k u = pure (b, .ok ()) →
      PublicKey.tweakAddAssign a u = pure (c, .ok ()) →
      ∃ d, PublicKey.tweakAddAssign b t = pure (d, .ok ()) ∧ PublicKey.eq c d = pure true) ∧
    (∃ a b c d, PublicKey.tweakMulAssign k t = pure (a, .ok ()) ∧ PublicKey.tweakMulAssign k u = pure (b, .ok ()) ∧
      PublicKey.tweakMulAssign a u = pure (c, .ok ()) ∧ PublicKey.tweakMulAssign b t = pure (d, .ok ()) ∧
      PublicKey.eq c d = pure true) ∧
    (∀ a, PublicKey.tweakAddAssign k t = pure (a, .ok ()) →
      ∃ c d ku tu, PublicKey.tweakMulAssign a u = pure (c, .ok ()) ∧ PublicKey.tweakMulAssign k u = pure (ku, .ok ()) ∧
        SecretKey.tweakMulAssign t u = pure (tu, .ok ()) ∧ PublicKey.tweakAddAssign ku tu = pure (d, .ok ()) ∧
        PublicKey.eq c d = pure true) := by
  obtain ⟨P, hP⟩ := hk
  refine ⟨fun a b c ha hb hc => ?_, ?_, fun a ha => ?_⟩
  · have ka := key_add_ok hP ht.2 (congrFun ha .debug)
    have kb := key_add_ok hP hu.2 (congrFun hb .debug)
    have kc := key_add_ok ka hu.2 (congrFun hc .debug)
    have e : P + secretInt u • G + secretInt t • G = P + secretInt t • G + secretInt u • G := by abel
    obtain ⟨d, hd, kd⟩ := (C30_public_tweak_add b _ t kb ht.2).2 (by rw [e]; exact kc.2)
    rw [e] at kd
    exact ⟨d, hd, key_eq_true kc kd⟩
  · obtain ⟨a, ha, ka⟩ := (C31_public_tweak_mul k P t hP ht.2).2 ht.1.ne'
    obtain ⟨b, hb, kb⟩ := (C31_public_tweak_mul k P u hP hu.2).2 hu.1.ne'
    obtain ⟨c, hc, kc⟩ := (C31_public_tweak_mul a _ u ka hu.2).2 hu.1.ne'
    obtain ⟨d, hd, kd⟩ := (C31_public_tweak_mul b _ t kb ht.2).2 ht.1.ne'
    rw [← mul_nsmul, mul_comm, mul_nsmul] at kd
    exact ⟨a, b, c, d, ha, hb, hc, hd, key_eq_true kc kd⟩
  · have ka := key_add_ok hP ht.2 (congrFun ha .debug)
    obtain ⟨c, hc, kc⟩ := (C31_public_tweak_mul a _ u ka hu.2).2 hu.1.ne'
    obtain ⟨ku, hku, kku⟩ := (C31_public_tweak_mul k P u hP hu.2).2 hu.1.ne'
    obtain ⟨tu, htu, vtu, itu⟩ := (C31_secret_tweak_mul t u ht hu.2).2 hu.1.ne'
    have e : secretInt u • P + secretInt tu • G = secretInt u • (P + secretInt t • G) := by
      rw [itu, smul_mod, mul_nsmul, nsmul_add]
    obtain ⟨d, hd, kd⟩ := (C30_public_tweak_add ku _ tu kku vtu.2).2 (by rw [e]; exact kc.2)
    rw [e] at kd
    exact ⟨c, d, ku, tu, hc, hku, htu, hd, key_eq_true kc kd⟩

/-- The hypotheses of C73 hold for `t = 1`, `-t = n - 1`, and tweaks by 1 succeed on the key 1. -/
example : (secretInt secretOne + secretInt secretMax) % n = 0 ∧ ValidSecret secretOne ∧ ValidSecret secretMax ∧
    (∃ k, SecretKey.tweakAddAssign secretOne secretOne = pure (k, .ok ())) ∧
    ∃ k k', ValidKey k ∧ PublicKey.tweakAddAssign k secretOne = pure (k', .ok ()) := by
  refine ⟨by decide +kernel, secretOne_valid, secretMax_valid, ?_, ?_⟩
  · obtain ⟨k, h, _⟩ := (C30_secret_tweak_add secretOne secretOne (by decide +kernel) (by decide +kernel)).2 (by decide +kernel)
    exact ⟨k, h⟩
  · obtain ⟨k, hk⟩ := exists_key G_ne_zero
    obtain ⟨k', h, _⟩ := (C30_public_tweak_add k G secretOne hk (by decide +kernel)).2 (by
      rw [show secretInt secretOne = 1 by decide +kernel, one_nsmul]; exact dbl_ne_zero G_ne_zero)
    exact ⟨k, k', ⟨G, hk⟩, h⟩

/-! ## Combination -/

/-- C74: `combine` of derived keys is the key of the sum of the secrets. -/
theorem C74_combine_secrets (sks : List SecretKey) (pks : List PublicKey) (hv : ∀ k ∈ sks, ValidSecret k)
    (h : List.Forall₂ (fun sk pk => PublicKey.fromSecretKey sk = pure pk) sks pks) (r : SecretKey) (hr : secretInt r < n)
    (hs : (sks.map secretInt).sum % n = secretInt r) :
    (secretInt r = 0 → PublicKey.combine pks = pure (.error .invalidPublicKey)) ∧
    (secretInt r ≠ 0 → ∃ k pk, PublicKey.combine pks = pure (.ok k) ∧ PublicKey.fromSecretKey r = pure pk ∧
      PublicKey.eq k pk = pure true) := by
  have hf : List.Forall₂ IsKey pks (sks.map fun k => secretInt k • G) := by
    clear hs
    induction h with
    | nil => exact .nil
    | cons hx _ ih =>
      refine .cons ?_ (ih fun k hk => hv k (List.mem_cons_of_mem _ hk))
      obtain ⟨pk, e, hk, _⟩ := C18_from_secret_key _ (hv _ List.mem_cons_self).not_dvd
      rw [hx] at e
      rwa [pure_inj' e]
  have hsum : (sks.map fun k => secretInt k • G).sum = secretInt r • G := by
    rw [← hs, smul_mod]
    clear hs h hf hv
    induction sks with
    | nil => rw [List.map_nil, List.map_nil, List.sum_nil, List.sum_nil, zero_nsmul]
    | cons k ks ih => rw [List.map_cons, List.map_cons, List.sum_cons, List.sum_cons, ih, add_nsmul]
  obtain ⟨c1, c2⟩ := C32_combine pks _ hf
  rw [hsum] at c1 c2
  refine ⟨fun h0 => c1 (by rw [h0, zero_nsmul]), fun h0 => ?_⟩
  have hvr : ValidSecret r := ⟨Nat.pos_of_ne_zero h0, hr⟩
  obtain ⟨pk, e, hk, _⟩ := C18_from_secret_key r hvr.not_dvd
  obtain ⟨k, e', hk'⟩ := c2 hk.2
  exact ⟨k, pk, e', e, key_eq_true hk' hk⟩

theorem exists_pts {keys : List PublicKey} (hv : ∀ k ∈ keys, ValidKey k) : ∃ pts, List.Forall₂ IsKey keys pts := by
  induction keys with
  | nil => exact ⟨[], .nil⟩
  | cons k ks ih =>
    obtain ⟨P, hP⟩ := hv k (by simp)
    obtain ⟨pts, h⟩ := ih fun k hk => hv k (by simp [hk])
    exact ⟨P :: pts, .cons hP h⟩

theorem combine_ok {keys : List PublicKey} {pts : List Pt} {k : PublicKey} (h : List.Forall₂ IsKey keys pts)
    (e : PublicKey.combine keys = pure (.ok k)) : IsKey k pts.sum := by
  obtain ⟨c1, c2⟩ := C32_combine keys pts h
  by_cases h0 : pts.sum = 0
  · rw [c1 h0] at e; cases pure_inj' e
  · obtain ⟨k', e', hk⟩ := c2 h0
    rw [e] at e'
    cases pure_inj' e'
    exact hk

/-- C74: combining in groups is combining at once; a group whose sum is infinite counts as nothing; one key is itself. -/
theorem C74_combine_groups (as bs : List PublicKey) (ha : ∀ k ∈ as, ValidKey k) (hb : ∀ k ∈ bs, ValidKey k) :
    (∀ a b, PublicKey.combine as = pure (.ok a) → PublicKey.combine bs = pure (.ok b) →
      (PublicKey.combine (as ++ bs) = pure (.error .invalidPublicKey) ∧ PublicKey.combine [a, b] = pure (.error .invalidPublicKey)) ∨
      ∃ k k', PublicKey.combine (as ++ bs) = pure (.ok k) ∧ PublicKey.combine [a, b] = pure (.ok k') ∧ PublicKey.eq k k' = pure true) ∧
    (∀ a, PublicKey.combine as = pure (.ok a) → PublicKey.combine bs = pure (.error .invalidPublicKey) →
      ∃ k, PublicKey.combine (as ++ bs) = pure (.ok k) ∧ PublicKey.eq k a = pure true) ∧
    (∀ a, ValidKey a → ∃ k, PublicKey.combine [a] = pure (.ok k) ∧ PublicKey.eq k a = pure true) := by
  obtain ⟨ps, hps⟩ := exists_pts ha
  obtain ⟨qs, hqs⟩ := exists_pts hb
  obtain ⟨c1, c2⟩ := C32_combine (as ++ bs) (ps ++ qs) (List.rel_append hps hqs)
  rw [List.sum_append] at c1 c2
  refine ⟨fun a b ea eb => ?_, fun a ea eb => ?_, ?_⟩
  · have ka := combine_ok hps ea
    have kb := combine_ok hqs eb
    obtain ⟨d1, d2⟩ := C32_combine [a, b] [ps.sum, qs.sum] (.cons ka (.cons kb .nil))
    have e2 : [ps.sum, qs.sum].sum = ps.sum + qs.sum := by rw [List.sum_cons, List.sum_singleton]
    rw [e2] at d1 d2
    by_cases h0 : ps.sum + qs.sum = 0
    · exact Or.inl ⟨c1 h0, d1 h0⟩
    · obtain ⟨k, e, hk⟩ := c2 h0
      obtain ⟨k', e', hk'⟩ := d2 h0
      exact Or.inr ⟨k, k', e, e', key_eq_true hk hk'⟩
  · have ka := combine_ok hps ea
    have hq : qs.sum = 0 := by
      by_contra h0
      obtain ⟨k, e, _⟩ := (C32_combine bs qs hqs).2 h0
      rw [e] at eb
      cases pure_inj' eb
    rw [hq, add_zero] at c2
    obtain ⟨k, e, hk⟩ := c2 ka.2
    exact ⟨k, e, key_eq_true hk ka⟩
  · rintro a ⟨P, hP⟩
    obtain ⟨k, e, hk⟩ := (C32_combine [a] [P] (.cons hP .nil)).2 (by simpa using hP.2)
    rw [show [P].sum = P by simp] at hk
    exact ⟨k, e, key_eq_true hk hP⟩

/-- C74: for two keys, `combine` is the tweak of one by the secret of the other. -/
theorem C74_combine_tweak (a : PublicKey) (t : SecretKey) (ha : ValidKey a) (ht : ValidSecret t) :
    ∃ b, PublicKey.fromSecretKey t = pure b ∧
      ((PublicKey.combine [a, b] = pure (.error .invalidPublicKey) ∧ PublicKey.tweakAddAssign a t = pure (a, .error .tweakOutOfRange)) ∨
       ∃ k k', PublicKey.combine [a, b] = pure (.ok k) ∧ PublicKey.tweakAddAssign a t = pure (k', .ok ()) ∧ PublicKey.eq k k' = pure true) := by
  obtain ⟨P, hP⟩ := ha
  obtain ⟨b, e, hb, _⟩ := C18_from_secret_key t ht.not_dvd
  obtain ⟨c1, c2⟩ := C32_combine [a, b] [P, secretInt t • G] (.cons hP (.cons hb .nil))
  obtain ⟨d1, d2⟩ := C30_public_tweak_add a P t hP ht.2
  have e2 : [P, secretInt t • G].sum = P + secretInt t • G := by rw [List.sum_cons, List.sum_singleton]
  rw [e2] at c1 c2
  refine ⟨b, e, ?_⟩
  by_cases h0 : P + secretInt t • G = 0
  · exact Or.inl ⟨c1 h0, d1 h0⟩
  · obtain ⟨k, e, hk⟩ := c2 h0
    obtain ⟨k', e', hk'⟩ := d2 h0
    exact Or.inr ⟨k, k', e, e', key_eq_true hk hk'⟩

/-- Hypotheses of C74: the keys of 1 and 1 combine; the keys of 1 and `n - 1` do not. -/
example : ∃ a b, PublicKey.fromSecretKey secretOne = pure a ∧ PublicKey.fromSecretKey secretMax = pure b ∧
    (∃ k, PublicKey.combine [a, a] = pure (.ok k)) ∧ PublicKey.combine [a, b] = pure (.error .invalidPublicKey) := by
  obtain ⟨a, ea, ha, _⟩ := C18_from_secret_key secretOne secretOne_valid.not_dvd
  obtain ⟨b, eb, hb, _⟩ := C18_from_secret_key secretMax secretMax_valid.not_dvd
  refine ⟨a, b, ea, eb, ?_, ?_⟩
  · obtain ⟨k, e, _⟩ := (C32_combine [a, a] _ (.cons ha (.cons ha .nil))).2 (by
      rw [show secretInt secretOne = 1 by decide +kernel, one_nsmul]; simpa using dbl_ne_zero G_ne_zero)
    exact ⟨k, e⟩
  · refine (C32_combine [a, b] _ (.cons ha (.cons hb .nil))).1 ?_
    rw [List.sum_cons, List.sum_singleton]
    exact smul_opp (by decide +kernel) G

/-! ## Shared secrets -/

/-- C75: the secret shared through `P` tweaked by `t` is that of `P` with the key tweaked by `t`; so the order in which three
parties apply their keys does not matter. -/
theorem C75_ecdh_tweak (D : Digest) (k : PublicKey) (t u : SecretKey) (hk : ValidKey k) (ht : ValidSecret t) (hu : ValidSecret u) :
    ∃ kt ku tu s, PublicKey.tweakMulAssign k t = pure (kt, .ok ()) ∧ PublicKey.tweakMulAssign k u = pure (ku, .ok ()) ∧
      SecretKey.tweakMulAssign t u = pure (tu, .ok ()) ∧
      SharedSecret.new D kt u = pure (.ok s) ∧ SharedSecret.new D ku t = pure (.ok s) ∧ SharedSecret.new D k tu = pure (.ok s) := by
  obtain ⟨P, hP⟩ := hk
  obtain ⟨kt, hkt, kkt⟩ := (C31_public_tweak_mul k P t hP ht.2).2 ht.1.ne'
  obtain ⟨ku, hku, kku⟩ := (C31_public_tweak_mul k P u hP hu.2).2 hu.1.ne'
  obtain ⟨tu, htu, vtu, itu⟩ := (C31_secret_tweak_mul t u ht hu.2).2 hu.1.ne'
  obtain ⟨x, y, h1, e1⟩ := (C33_ecdh D kt _ u kkt hu.2).2 hu.1.ne'
  obtain ⟨x', y', h2, e2⟩ := (C33_ecdh D ku _ t kku ht.2).2 ht.1.ne'
  obtain ⟨x'', y'', h3, e3⟩ := (C33_ecdh D k _ tu hP vtu.2).2 vtu.1.ne'
  rw [← mul_nsmul, mul_comm, mul_nsmul] at h2
  rw [itu, smul_mod, mul_nsmul] at h3
  obtain ⟨rfl, rfl⟩ := h1.inj h2
  obtain ⟨rfl, rfl⟩ := h1.inj h3
  exact ⟨kt, ku, tu, _, hkt, hku, htu, e1, e2, e3⟩

/-- C75: the digest input determines the point: with an injective digest, equal shared secrets mean equal points. -/
theorem C75_ecdh_injective (D : Digest) (hD : ∀ l l', D.finalize (D.update D.init l) = D.finalize (D.update D.init l') → l = l')
    (k k' : PublicKey) (t t' : SecretKey) (P P' : Pt) (hk : IsKey k P) (hk' : IsKey k' P') (ht : ValidSecret t) (ht' : ValidSecret t')
    (s : SharedSecret) (h : SharedSecret.new D k t = pure (.ok s)) :
    SharedSecret.new D k' t' = pure (.ok s) ↔ secretInt t • P = secretInt t' • P' := by
  obtain ⟨x, y, h1, e1⟩ := (C33_ecdh D k _ t hk ht.2).2 ht.1.ne'
  obtain ⟨x', y', h2, e2⟩ := (C33_ecdh D k' _ t' hk' ht'.2).2 ht'.1.ne'
  rw [h] at e1
  cases pure_inj' e1
  rw [e2]
  constructor
  · intro e
    have e := pure_inj' e
    simp only [Except.ok.injEq, SharedSecret.mk.injEq] at e
    exact sec1_unique h1 h2 (hD _ _ e).symm
  · intro e
    rw [e] at h1
    obtain ⟨rfl, rfl⟩ := h1.inj h2
    rfl

/-- Hypotheses of C75: valid keys, and a digest (the identity) that is injective. -/
example : (∃ k, ValidKey k ∧ ValidSecret secretOne ∧ ValidSecret secretMax) ∧
    ∃ D : Digest, ∀ l l', D.finalize (D.update D.init l) = D.finalize (D.update D.init l') → l = l' :=
  ⟨⟨_, ⟨_, (exists_key G_ne_zero).choose_spec⟩, secretOne_valid, secretMax_valid⟩,
    ⟨List UInt8, [], fun s l => s ++ l, id, fun s a b => by simp⟩, fun l l' h => by simpa using h⟩

end Verif.Props
