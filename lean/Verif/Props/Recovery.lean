import Verif.Props.Unique

/-!
# Recovery ids (C106) and signatures under tweaked keys (C107)
-/

namespace Verif.Props
open Verif Spec Ecdsa

/-- What a successful recovery says. -/
theorem recover_ok {m : Message} {sig : Signature} {id : RecoveryId} {k : PublicKey} (hs : Canonical sig) (hid : id.id.toNat < 4)
    (h : recover m sig id = pure (.ok k)) : ∃ R, sigR sig ≠ 0 ∧ sigS sig ≠ 0 ∧ IsRecoveryPoint sig.r.val id.id.toNat R ∧
      IsKey k (recoveredKey (msgZ m) (sigR sig) (sigS sig) R) := by
  obtain ⟨h1, h2, _⟩ := C26_recover m sig id hs hid
  by_cases hR : ∃ R, sigR sig ≠ 0 ∧ sigS sig ≠ 0 ∧ IsRecoveryPoint sig.r.val id.id.toNat R ∧
      recoveredKey (msgZ m) (sigR sig) (sigS sig) R ≠ 0
  · obtain ⟨R, a, b, c, d⟩ := hR
    obtain ⟨k', hk', hK⟩ := h1 R a b c d
    rw [h] at hk'
    obtain rfl : k = k' := by simpa using pure_inj' hk'
    exact ⟨R, a, b, c, hK⟩
  · rw [h2 hR] at h
    exact absurd (pure_inj' h) (by simp)

/-- The point selected by the other parity is the opposite point. -/
theorem recoveryPoint_neg {r i j : ℕ} {R : Pt} (hj : j / 2 = i / 2) (hp : j % 2 ≠ i % 2) (h : IsRecoveryPoint r i R) :
    IsRecoveryPoint r j (-R) := by
  obtain ⟨x, y, hP, hx, hy⟩ := h
  refine ⟨x, -y, hP.neg, by rw [hj]; exact hx, ?_⟩
  have hy0 : y ≠ 0 := hP.y_ne
  have : NeZero y := ⟨hy0⟩
  rw [ZMod.val_neg_of_ne_zero]
  have h1 := ZMod.val_lt y
  have h2 : p % 2 = 1 := by decide +kernel
  omega

/-- Different ids select different points. -/
theorem recoveryPoint_inj {r i j : ℕ} {R : Pt} (h : IsRecoveryPoint r i R) (h' : IsRecoveryPoint r j R) : i = j := by
  obtain ⟨x, y, hP, hx, hy⟩ := h
  obtain ⟨x', y', hP', hx', hy'⟩ := h'
  obtain ⟨rfl, rfl⟩ := hP.inj hP'
  have e : n * (i / 2) = n * (j / 2) := by omega
  have e := Nat.eq_of_mul_eq_mul_left (by decide +kernel : 0 < n) e
  omega

theorem recoveredKey_neg (m r s : ZMod n) (R : Pt) : recoveredKey m r (-s) (-R) = recoveredKey m r s R := by
  unfold recoveredKey
  rw [neg_div, zs_neg, neg_nsmul, neg_neg]

theorem xor_one {i j : UInt8} (h : j = i ^^^ 1) (hi : i.toNat < 4) : j.toNat < 4 ∧ j.toNat / 2 = i.toNat / 2 ∧ j.toNat % 2 ≠ i.toNat % 2 := by
  have : ∀ v < 4, ∀ i : UInt8, i.toNat = v → (i ^^^ 1).toNat < 4 ∧ (i ^^^ 1).toNat / 2 = i.toNat / 2 ∧ (i ^^^ 1).toNat % 2 ≠ i.toNat % 2 := by
    intro v hv i hi
    obtain rfl : i = UInt8.ofNat v := by rw [← hi, UInt8.ofNat_toNat]
    interval_cases v <;> decide
  subst h
  exact this _ hi i rfl

/-- C106. Negating `s` and flipping bit 0 of the recovery id changes nothing: the same key is recovered, or none. -/
theorem C106_negated_s (m : Message) (sig : Signature) (s' : Scalar) (id id' : RecoveryId) (hs : Canonical sig) (hs' : s'.val < n)
    (h0 : (sig.s.val + s'.val) % n = 0) (hid : id.id.toNat < 4) (hid' : id'.id = id.id ^^^ 1) :
    (∀ k, recover m sig id = pure (.ok k) → ∃ k', recover m { sig with s := s' } id' = pure (.ok k') ∧ PublicKey.eq k k' = pure true) ∧
    (∀ e, recover m sig id = pure (.error e) → recover m { sig with s := s' } id' = pure (.error e)) := by
  obtain ⟨h4, hd, hm⟩ := xor_one hid' hid
  have hneg : sigS { sig with s := s' } = -sigS sig := by
    rw [eq_neg_iff_add_eq_zero, add_comm]
    show ((sig.s.val : ℕ) : ZMod n) + ((s'.val : ℕ) : ZMod n) = 0
    rw [← Nat.cast_add, ZMod.natCast_eq_zero_iff]; exact Nat.dvd_of_mod_eq_zero h0
  have hc : Canonical { sig with s := s' } := ⟨hs.1, hs'⟩
  obtain ⟨g1, g2, _⟩ := C26_recover m { sig with s := s' } id' hc h4
  rw [hneg] at g1 g2
  have hr : sigR { sig with s := s' } = sigR sig := rfl
  rw [hr] at g1 g2
  refine ⟨fun k hk => ?_, fun e he => ?_⟩
  · obtain ⟨R, a, b, c, hK⟩ := recover_ok hs hid hk
    obtain ⟨k', hk', hK'⟩ := g1 (-R) a (neg_ne_zero.2 b) (recoveryPoint_neg hd hm c) (by rw [recoveredKey_neg]; exact (isKey_iff.1 hK).2)
    rw [recoveredKey_neg] at hK'
    exact ⟨k', hk', key_eq_true hK hK'⟩
  · obtain ⟨f1, f2, _⟩ := C26_recover m sig id hs hid
    have hn : ¬ ∃ R, sigR sig ≠ 0 ∧ sigS sig ≠ 0 ∧ IsRecoveryPoint sig.r.val id.id.toNat R ∧
        recoveredKey (msgZ m) (sigR sig) (sigS sig) R ≠ 0 := by
      rintro ⟨R, a, b, c, d⟩
      obtain ⟨k, hk, _⟩ := f1 R a b c d
      rw [he] at hk
      exact absurd (pure_inj' hk) (by simp)
    have he' : e = .invalidSignature := by
      have := f2 hn
      rw [he] at this
      simpa using pure_inj' this
    rw [he']
    refine g2 ?_
    rintro ⟨R, a, b, c, d⟩
    refine hn ⟨-R, a, neg_ne_zero.1 b, recoveryPoint_neg hd.symm hm.symm c, ?_⟩
    have := recoveredKey_neg (msgZ m) (sigR sig) (sigS sig) (-R)
    rw [neg_neg] at this
    rw [← this]; exact d

/-- C106. Different recovery ids recover different keys. -/
theorem C106_ids_differ (m : Message) (sig : Signature) (i j : RecoveryId) (k k' : PublicKey) (hs : Canonical sig) (hi : i.id.toNat < 4)
    (hj : j.id.toNat < 4) (hij : i ≠ j) (hk : recover m sig i = pure (.ok k)) (hk' : recover m sig j = pure (.ok k')) :
    PublicKey.eq k k' = pure false := by
  obtain ⟨R, a, b, c, hK⟩ := recover_ok hs hi hk
  obtain ⟨R', _, _, c', hK'⟩ := recover_ok hs hj hk'
  obtain ⟨e, _, _, he, _, _, hiff, _⟩ := C22_equality k k' _ _ hK hK'
  rw [he]
  cases e with
  | false => rfl
  | true =>
    exfalso
    have h := hiff.1 rfl
    unfold recoveredKey at h
    have h := zs_inj_pt (div_ne_zero b a) (sub_left_inj.1 h)
    subst h
    have := recoveryPoint_inj c c'
    apply hij
    obtain ⟨i⟩ := i
    obtain ⟨j⟩ := j
    exact congrArg RecoveryId.mk (UInt8.toNat_inj.1 this)

/-- C106. A key under which a signature verifies is recovered by exactly one recovery id. -/
theorem C106_unique_id (m : Message) (sig : Signature) (pk : PublicKey) (hs : Canonical sig) (hq : ValidKey pk)
    (hv : verify m sig pk = pure true) :
    ∃! id : RecoveryId, id.id.toNat < 4 ∧ ∃ k, recover m sig id = pure (.ok k) ∧ PublicKey.eq k pk = pure true := by
  obtain ⟨id, k, h1, h2, h3⟩ := C56_recover_complete m sig pk hs hq hv
  have h4 : id.id.toNat < 4 := by
    by_contra hc
    rw [(C45_recovery_id id.id).2.1 hc] at h1
    cases h1
  obtain ⟨Q, hQ⟩ := hq
  refine ⟨id, ⟨h4, k, h2, h3⟩, ?_⟩
  rintro id' ⟨h4', k', h2', h3'⟩
  by_contra hne
  have hf := C106_ids_differ m sig id' id k' k hs h4' h4 hne h2' h2
  obtain ⟨_, _, _, _, hK⟩ := recover_ok hs h4 h2
  obtain ⟨_, _, _, _, hK'⟩ := recover_ok hs h4' h2'
  obtain ⟨e, _, _, he, _, _, hiff, _⟩ := C22_equality k pk _ _ hK hQ
  obtain ⟨e', _, _, he', _, _, hiff', _⟩ := C22_equality k' pk _ _ hK' hQ
  rw [h3] at he
  rw [h3'] at he'
  have q := hiff.1 (pure_inj' he).symm
  have q' := hiff'.1 (pure_inj' he').symm
  rw [key_eq_true hK' (by rw [q', ← q]; exact hK)] at hf
  exact absurd (pure_inj' hf) (by simp)

/-- C106. A signature that verifies under one key verifies under a second one, which `recover` returns for the flipped id, except
when the key is `-2m/r` times the generator. -/
theorem C106_second_key (m : Message) (sig : Signature) (pk : PublicKey) (hs : Canonical sig) (hq : ValidKey pk)
    (hv : verify m sig pk = pure true) :
    ∃ id id' : RecoveryId, id.id.toNat < 4 ∧ id'.id = id.id ^^^ 1 ∧ (∃ k, recover m sig id = pure (.ok k) ∧ PublicKey.eq k pk = pure true) ∧
      ((∃ k', recover m sig id' = pure (.ok k') ∧ PublicKey.eq k' pk = pure false ∧ verify m sig k' = pure true) ∨
       (recover m sig id' = pure (.error .invalidSignature) ∧ IsKey pk ((-(2 * msgZ m) / sigR sig).val • G))) := by
  obtain ⟨id, ⟨h4, k, hk, hkq⟩, _⟩ := C106_unique_id m sig pk hs hq hv
  obtain ⟨Q, hQ⟩ := hq
  obtain ⟨h4', hd, hm⟩ := xor_one (j := id.id ^^^ 1) rfl h4
  refine ⟨id, ⟨id.id ^^^ 1⟩, h4, rfl, ⟨k, hk, hkq⟩, ?_⟩
  obtain ⟨R, a, b, c, hK⟩ := recover_ok hs h4 hk
  obtain ⟨e, _, _, he, _, _, hiff, _⟩ := C22_equality k pk _ _ hK hQ
  rw [hkq] at he
  have q := hiff.1 (pure_inj' he).symm
  obtain ⟨g1, g2, g3⟩ := C26_recover m sig ⟨id.id ^^^ 1⟩ hs h4'
  have c' := recoveryPoint_neg hd hm c
  by_cases h0 : recoveredKey (msgZ m) (sigR sig) (sigS sig) (-R) = 0
  · refine .inr ⟨g2 ?_, ?_⟩
    · rintro ⟨R', _, _, c'', d⟩
      rw [recoveryPoint_unique c'' c'] at d
      exact d h0
    · rw [← q] at hQ
      have hz : recoveredKey (msgZ m) (sigR sig) (sigS sig) R = (-(2 * msgZ m) / sigR sig).val • G := by
        unfold recoveredKey at h0 ⊢
        rw [neg_nsmul, sub_eq_zero] at h0
        rw [neg_eq_iff_eq_neg.1 h0, neg_div, zs_neg, two_mul, add_div, zs_add]
        abel
      rw [← hz]; exact hQ
  · obtain ⟨k', hk', hK'⟩ := g1 (-R) a b c' h0
    refine .inl ⟨k', hk', ?_, (g3 k' hk').2⟩
    have hne : (⟨id.id ^^^ 1⟩ : RecoveryId) ≠ id := by
      intro h
      have := congrArg (fun i : RecoveryId => i.id.toNat) h
      exact hm (by rw [show (id.id ^^^ 1).toNat = id.id.toNat from this])
    have hf := C106_ids_differ m sig _ id k' k hs h4' h4 hne hk' hk
    obtain ⟨e1, _, _, he1, _, _, hiff1, _⟩ := C22_equality k' k _ _ hK' hK
    obtain ⟨e2, _, _, he2, _, _, hiff2, _⟩ := C22_equality k' pk _ _ hK' hQ
    rw [he1] at hf
    obtain rfl := pure_inj' hf
    rw [he2]
    cases e2 with
    | false => rfl
    | true => exact absurd (hiff1.2 (by rw [q]; exact hiff2.1 rfl)) (by simp)

/-- C106. If a signature and a recovery id recover any key for any message, then they recover every public key, each for exactly one
message below `n`. -/
theorem C106_every_key (sig : Signature) (id : RecoveryId) (hs : Canonical sig) (hid : id.id.toNat < 4) (m₀ : Message) (k₀ : PublicKey)
    (h : recover m₀ sig id = pure (.ok k₀)) (pk : PublicKey) (hq : ValidKey pk) :
    ∃! m : Message, ValidMessage m ∧ ∃ k, recover m sig id = pure (.ok k) ∧ PublicKey.eq k pk = pure true := by
  obtain ⟨R, a, b, c, _⟩ := recover_ok hs hid h
  obtain ⟨Q, hQ⟩ := hq
  have hQ0 := (isKey_iff.1 hQ).2
  obtain ⟨d, _, hd⟩ := exists_smul_G ((sigS sig / sigR sig).val • R - Q)
  obtain ⟨v, hv⟩ := exists_scalar (v := (sigR sig * (d : ZMod n)).val) (ZMod.val_lt _)
  have hmz : msgZ ⟨v⟩ = sigR sig * (d : ZMod n) := by
    show ((v.val : ℕ) : ZMod n) = _
    rw [hv, ZMod.natCast_val, ZMod.cast_id]
  have hkey : recoveredKey (msgZ ⟨v⟩) (sigR sig) (sigS sig) R = Q := by
    unfold recoveredKey
    rw [hmz, mul_div_cancel_left₀ _ a, zs_cast, ← hd, sub_sub_cancel]
  obtain ⟨k, hk, hK⟩ := (C26_recover ⟨v⟩ sig id hs hid).1 R a b c (by rw [hkey]; exact hQ0)
  rw [hkey] at hK
  refine ⟨⟨v⟩, ⟨by show v.val < n; rw [hv]; exact ZMod.val_lt _, k, hk, key_eq_true hK hQ⟩, ?_⟩
  rintro m' ⟨hm', k', hk', he'⟩
  obtain ⟨R', _, _, c', hK'⟩ := recover_ok hs hid hk'
  obtain rfl := recoveryPoint_unique c c'
  obtain ⟨e, _, _, he, _, _, hiff, _⟩ := C22_equality k' pk _ _ hK' hQ
  rw [he'] at he
  have q := hiff.1 (pure_inj' he).symm
  rw [← hkey] at q
  unfold recoveredKey at q
  have q := zs_inj G_ne_zero (sub_right_inj.1 q)
  have q : msgZ m' = msgZ ⟨v⟩ := by
    have := congrArg (· * sigR sig) q
    simpa only [div_mul_cancel₀ _ a] using this
  obtain ⟨v'⟩ := m'
  exact congrArg Message.mk (sigR_inj hm' (by rw [hv]; exact ZMod.val_lt _) q)

/-! ## Signatures under tweaked keys -/

theorem verify_congr {m m' : Message} {sig sig' : Signature} {pk pk' : PublicKey} {Q Q' : Pt} (hs : Canonical sig) (hs' : Canonical sig')
    (hQ : IsKey pk Q) (hQ' : IsKey pk' Q')
    (h : EcdsaValid (msgZ m) (sigR sig) (sigS sig) Q ↔ EcdsaValid (msgZ m') (sigR sig') (sigS sig') Q') :
    verify m sig pk = verify m' sig' pk' := by
  obtain ⟨b, hb, e⟩ := C23_verify m sig pk Q hs hQ
  obtain ⟨b', hb', e'⟩ := C23_verify m' sig' pk' Q' hs' hQ'
  rw [hb, hb', Bool.eq_iff_iff.2 (e.trans (h.trans e'.symm))]

/-- C107. A signature of `m` under the key tweaked by adding `t` is a signature of `m + r t` under the key itself. -/
theorem C107_add (m m' : Message) (sig : Signature) (pk pk' : PublicKey) (t : SecretKey) (hs : Canonical sig) (hq : ValidKey pk)
    (ht : secretInt t < n) (h : PublicKey.tweakAddAssign pk t = pure (pk', .ok ()))
    (hm : m'.sc.val % n = (m.sc.val + sig.r.val * secretInt t) % n) : verify m sig pk' = verify m' sig pk := by
  obtain ⟨P, hP⟩ := hq
  obtain ⟨g1, g2⟩ := C30_public_tweak_add pk P t hP ht
  by_cases h0 : P + secretInt t • G = 0
  · rw [g1 h0] at h
    exact absurd (congrArg Prod.snd (pure_inj' h)) (by simp)
  obtain ⟨k, hk, hK⟩ := g2 h0
  rw [h] at hk
  obtain rfl : pk' = k := congrArg Prod.fst (pure_inj' hk)
  have hz : msgZ m' = msgZ m + sigR sig * (secretInt t : ZMod n) := by
    have := (ZMod.natCast_eq_natCast_iff' _ _ _).2 hm
    rw [Nat.cast_add, Nat.cast_mul] at this
    exact this
  refine verify_congr hs hs hK hP ?_
  unfold EcdsaValid
  have e : (msgZ m' / sigS sig).val • G + (sigR sig / sigS sig).val • P =
      (msgZ m / sigS sig).val • G + (sigR sig / sigS sig).val • (P + secretInt t • G) := by
    rw [hz, add_div, zs_add, nsmul_add, ← zs_cast (secretInt t) G, ← zs_mul, mul_div_right_comm]
    abel
  rw [e]

/-- C107. A signature `(r, s)` of `m` under the key tweaked by multiplying with `t` is, with `s/t` for `s`, a signature of `m/t` under
the key itself. -/
theorem C107_mul (m m' : Message) (sig sig' : Signature) (pk pk' : PublicKey) (t : SecretKey) (hs : Canonical sig) (hs' : Canonical sig')
    (hq : ValidKey pk) (ht : secretInt t < n) (h : PublicKey.tweakMulAssign pk t = pure (pk', .ok ()))
    (hm : m'.sc.val * secretInt t % n = m.sc.val % n) (hr : sig'.r = sig.r) (hs0 : sig'.s.val * secretInt t % n = sig.s.val) :
    verify m sig pk' = verify m' sig' pk := by
  obtain ⟨P, hP⟩ := hq
  obtain ⟨g1, g2⟩ := C31_public_tweak_mul pk P t hP ht
  by_cases h0 : secretInt t = 0
  · rw [g1 h0] at h
    exact absurd (congrArg Prod.snd (pure_inj' h)) (by simp)
  obtain ⟨k, hk, hK⟩ := g2 h0
  rw [h] at hk
  obtain rfl : pk' = k := congrArg Prod.fst (pure_inj' hk)
  have ht0 : ((secretInt t : ℕ) : ZMod n) ≠ 0 := by
    rw [ne_eq, ZMod.natCast_eq_zero_iff]
    exact Nat.not_dvd_of_pos_of_lt (Nat.pos_of_ne_zero h0) ht
  have hz : msgZ m = msgZ m' * (secretInt t : ZMod n) := by
    have := (ZMod.natCast_eq_natCast_iff' _ _ _).2 hm
    rw [Nat.cast_mul] at this
    exact this.symm
  have hsz : sigS sig = sigS sig' * (secretInt t : ZMod n) := by
    have : ((sig'.s.val * secretInt t : ℕ) : ZMod n) = ((sig.s.val : ℕ) : ZMod n) := by rw [← hs0, ZMod.natCast_mod]
    rw [Nat.cast_mul] at this
    exact this.symm
  have hrz : sigR sig' = sigR sig := by unfold sigR; rw [hr]
  refine verify_congr hs hs' hK hP ?_
  unfold EcdsaValid
  rw [hrz, hz, hsz, mul_div_mul_right _ _ ht0, ← zs_cast (secretInt t) P, ← zs_mul,
    show sigR sig / (sigS sig' * (secretInt t : ZMod n)) * (secretInt t : ZMod n) = sigR sig / sigS sig' by
      rw [div_mul_eq_mul_div, mul_div_mul_right _ _ ht0]]
  have : sigS sig' * (secretInt t : ZMod n) ≠ 0 ↔ sigS sig' ≠ 0 := by
    rw [ne_eq, mul_eq_zero, not_or]; exact ⟨fun h => h.1, fun h => ⟨h, ht0⟩⟩
  rw [this]

/-- C107. If `recover` returns a key for `m`, then for `m - r t` it returns that key tweaked by adding `t`, or none if the tweak fails. -/
theorem C107_recover (m m' : Message) (sig : Signature) (id : RecoveryId) (pk : PublicKey) (t : SecretKey) (hs : Canonical sig)
    (hid : id.id.toNat < 4) (ht : secretInt t < n) (h : recover m sig id = pure (.ok pk))
    (hm : (m'.sc.val + sig.r.val * secretInt t) % n = m.sc.val % n) :
    (∀ pk', PublicKey.tweakAddAssign pk t = pure (pk', .ok ()) → ∃ k, recover m' sig id = pure (.ok k) ∧ PublicKey.eq k pk' = pure true) ∧
    (PublicKey.tweakAddAssign pk t = pure (pk, .error .tweakOutOfRange) → recover m' sig id = pure (.error .invalidSignature)) := by
  obtain ⟨R, a, b, c, hK⟩ := recover_ok hs hid h
  obtain ⟨g1, g2⟩ := C30_public_tweak_add pk _ t hK ht
  obtain ⟨f1, f2, _⟩ := C26_recover m' sig id hs hid
  have hz : msgZ m = msgZ m' + sigR sig * (secretInt t : ZMod n) := by
    have := (ZMod.natCast_eq_natCast_iff' _ _ _).2 hm
    rw [Nat.cast_add, Nat.cast_mul] at this
    exact this.symm
  have hkey : recoveredKey (msgZ m') (sigR sig) (sigS sig) R = recoveredKey (msgZ m) (sigR sig) (sigS sig) R + secretInt t • G := by
    unfold recoveredKey
    rw [hz, add_div, zs_add, mul_div_cancel_left₀ _ a, zs_cast]
    abel
  rw [← hkey] at g1 g2
  refine ⟨fun pk' hpk => ?_, fun he => f2 ?_⟩
  · by_cases h0 : recoveredKey (msgZ m') (sigR sig) (sigS sig) R = 0
    · rw [g1 h0] at hpk
      exact absurd (congrArg Prod.snd (pure_inj' hpk)) (by simp)
    obtain ⟨k', hk', hK'⟩ := g2 h0
    rw [hpk] at hk'
    obtain rfl : pk' = k' := congrArg Prod.fst (pure_inj' hk')
    obtain ⟨k, hk, hk2⟩ := f1 R a b c h0
    exact ⟨k, hk, key_eq_true hk2 hK'⟩
  · rintro ⟨R', _, _, c', d⟩
    obtain rfl := recoveryPoint_unique c c'
    obtain ⟨k', hk', _⟩ := g2 d
    rw [he] at hk'
    exact absurd (congrArg Prod.snd (pure_inj' hk')) (by simp)

/-- The hypotheses are met: by the signature of C76 with `r = 2`, under the key of the secret 1. -/
example : ∃ (m : Message) (pk : PublicKey) (sig : Signature) (id : RecoveryId) (k pk' pk'' : PublicKey), ValidMessage m ∧ ValidKey pk ∧ Canonical sig ∧
    verify m sig pk = pure true ∧ id.id.toNat < 4 ∧ recover m sig id = pure (.ok k) ∧
    PublicKey.tweakAddAssign pk secretOne = pure (pk', .ok ()) ∧ PublicKey.tweakMulAssign pk secretOne = pure (pk'', .ok ()) := by
  obtain ⟨m, pk, r, l, hpk, hm, hr, _, hl, h⟩ := C76_four
  have hn : 2 < n := by decide +kernel
  obtain ⟨s, l', rfl⟩ : ∃ s l', l = s :: l' := by
    cases l with
    | nil => simp at hl
    | cons s l' => exact ⟨s, l', rfl⟩
  obtain ⟨hs, hv⟩ := h s List.mem_cons_self
  obtain ⟨pk', hpk', hkey, _⟩ := C18_from_secret_key secretOne secretOne_valid.not_dvd
  obtain rfl : pk' = pk := pure_inj' (hpk'.symm.trans hpk)
  have h1 : secretInt secretOne = 1 := by decide +kernel
  have hn1 : secretInt secretOne < n := by rw [h1]; decide +kernel
  rw [h1, one_nsmul] at hkey
  have hc : Canonical ⟨r, s⟩ := ⟨by show r.val < n; omega, hs⟩
  obtain ⟨id, ⟨h4, k, hk, _⟩, _⟩ := C106_unique_id m ⟨r, s⟩ pk' hc ⟨_, hkey⟩ hv
  obtain ⟨ka, hka, _⟩ := (C30_public_tweak_add pk' G secretOne hkey hn1).2 (by
    rw [h1, one_nsmul, ← two_nsmul, ne_eq, smul_eq_zero_iff G_ne_zero]; decide +kernel)
  obtain ⟨kb, hkb, _⟩ := (C31_public_tweak_mul pk' G secretOne hkey hn1).2 (by rw [h1]; decide)
  exact ⟨m, pk', ⟨r, s⟩, id, k, ka, kb, by show m.sc.val < n; omega, ⟨_, hkey⟩, hc, hv, h4, hk, hka, hkb⟩

end Verif.Props
