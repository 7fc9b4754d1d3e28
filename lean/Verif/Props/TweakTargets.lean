import Verif.Props.SignatureCount

/-!
# One tweak takes a key to another (C122)
-/

namespace Verif.Props
open Verif Spec Ecdsa

theorem key_eq_pt {a b : PublicKey} {P Q : Pt} (ha : IsKey a P) (hb : IsKey b Q) :
    (PublicKey.eq a b = pure true ↔ P = Q) ∧ (PublicKey.eq a b = pure false ↔ P ≠ Q) := by
  obtain ⟨e, _, _, he, _, _, h, _⟩ := C22_equality a b P Q ha hb
  rw [he]
  constructor
  · exact ⟨fun q => h.1 (pure_inj' q), fun q => by rw [h.2 q]⟩
  · constructor
    · intro q e'
      have := pure_inj' q
      rw [h.2 e'] at this
      cases this
    · intro q
      cases e with
      | true => exact absurd (h.1 rfl) q
      | false => rfl

/-- The secret key with a given nonzero residue. -/
theorem exists_unique_secret {z : ZMod n} (h : z ≠ 0) : ∃ t, ValidSecret t ∧ ((secretInt t : ℕ) : ZMod n) = z ∧
    ∀ t', ValidSecret t' → ((secretInt t' : ℕ) : ZMod n) = z → t' = t := by
  obtain ⟨a, ha⟩ := exists_scalar (ZMod.val_lt z)
  have hz : (((a.val : ℕ)) : ZMod n) = z := by rw [ha, ZMod.natCast_zmod_val]
  refine ⟨⟨a⟩, ⟨?_, ?_⟩, hz, ?_⟩
  · show 0 < a.val
    rw [ha]; exact Nat.pos_of_ne_zero ((ZMod.val_ne_zero z).2 h)
  · show a.val < n
    rw [ha]; exact ZMod.val_lt z
  · rintro ⟨b⟩ hb h'
    have hlt : a.val < n := by rw [ha]; exact ZMod.val_lt z
    have e : b = a := sigR_inj hb.2 hlt (h'.trans hz.symm)
    rw [e]

theorem secret_ne_zero {t : SecretKey} (h : ValidSecret t) : ((secretInt t : ℕ) : ZMod n) ≠ 0 := by
  rw [ne_eq, ZMod.natCast_eq_zero_iff]
  exact fun hd => absurd (Nat.le_of_dvd h.1 hd) (not_le.2 h.2)

theorem exists_dlog {a : PublicKey} {P : Pt} (h : IsKey a P) : ∃ z : ZMod n, z ≠ 0 ∧ P = z.val • G := by
  obtain ⟨k, _, rfl⟩ := exists_smul_G P
  refine ⟨k, fun h0 => (isKey_iff.1 h).2 (by rw [← zs_cast, h0, zs_zero]), (zs_cast k G).symm⟩

/-- C122. Of two different public keys, exactly one tweak added to the first gives the second; no tweak takes a key to itself. -/
theorem C122_public_add (a b : PublicKey) (ha : ValidKey a) (hb : ValidKey b) :
    (PublicKey.eq a b = pure false →
      ∃! t, ValidSecret t ∧ ∃ c, PublicKey.tweakAddAssign a t = pure (c, .ok ()) ∧ PublicKey.eq c b = pure true) ∧
    (PublicKey.eq a b = pure true →
      ∀ t c, ValidSecret t → PublicKey.tweakAddAssign a t = pure (c, .ok ()) → PublicKey.eq c b = pure false) := by
  obtain ⟨P, hP⟩ := ha
  obtain ⟨Q, hQ⟩ := hb
  obtain ⟨u, hu, rfl⟩ := exists_dlog hP
  obtain ⟨v, hv, rfl⟩ := exists_dlog hQ
  have sum : ∀ t : SecretKey, u.val • G + secretInt t • G = (u + ((secretInt t : ℕ) : ZMod n)).val • G := fun t => by
    rw [zs_add, zs_cast]
  have step : ∀ t c, ValidSecret t → PublicKey.tweakAddAssign a t = pure (c, .ok ()) → IsKey c ((u + ((secretInt t : ℕ) : ZMod n)).val • G) := by
    intro t c ht h
    obtain ⟨h1, h2⟩ := C30_public_tweak_add a _ t hP ht.2
    by_cases h0 : u.val • G + secretInt t • G = 0
    · rw [h1 h0] at h
      exact absurd (pure_inj' h) (fun h => (by cases h))
    · obtain ⟨k', h', hk⟩ := h2 h0
      rw [h'] at h
      have h := pure_inj' h
      obtain rfl : k' = c := congrArg Prod.fst h
      rw [← sum]; exact hk
  constructor
  · intro hne
    have hne : u ≠ v := fun e => ((key_eq_pt hP hQ).2.1 hne) (by rw [e])
    obtain ⟨t, ht, hz, huniq⟩ := exists_unique_secret (z := v - u) (sub_ne_zero.2 hne.symm)
    have e : u + ((secretInt t : ℕ) : ZMod n) = v := by rw [hz]; ring
    refine ⟨t, ⟨ht, ?_⟩, ?_⟩
    · have h0 : u.val • G + secretInt t • G ≠ 0 := by rw [sum, e]; exact (isKey_iff.1 hQ).2
      obtain ⟨c, h, hc⟩ := (C30_public_tweak_add a _ t hP ht.2).2 h0
      refine ⟨c, h, (key_eq_pt hc hQ).1.2 ?_⟩
      rw [sum, e]
    · rintro t' ⟨ht', c, h, he⟩
      have := zs_inj G_ne_zero ((key_eq_pt (step t' c ht' h) hQ).1.1 he)
      exact huniq t' ht' (by rw [← this]; ring)
  · intro he t c ht h
    have he := zs_inj G_ne_zero ((key_eq_pt hP hQ).1.1 he)
    refine (key_eq_pt (step t c ht h) hQ).2.2 fun q => secret_ne_zero ht ?_
    have q := zs_inj G_ne_zero q
    rw [he] at q
    exact add_eq_left.1 q

/-- C122. Of two public keys, exactly one tweak multiplied with the first gives the second. -/
theorem C122_public_mul (a b : PublicKey) (ha : ValidKey a) (hb : ValidKey b) :
    ∃! t, ValidSecret t ∧ ∃ c, PublicKey.tweakMulAssign a t = pure (c, .ok ()) ∧ PublicKey.eq c b = pure true := by
  obtain ⟨P, hP⟩ := ha
  obtain ⟨Q, hQ⟩ := hb
  obtain ⟨u, hu, rfl⟩ := exists_dlog hP
  obtain ⟨v, hv, rfl⟩ := exists_dlog hQ
  have prod : ∀ t : SecretKey, secretInt t • u.val • G = (((secretInt t : ℕ) : ZMod n) * u).val • G := fun t => by
    rw [zs_mul, zs_cast]
  obtain ⟨t, ht, hz, huniq⟩ := exists_unique_secret (z := v / u) (div_ne_zero hv hu)
  refine ⟨t, ⟨ht, ?_⟩, ?_⟩
  · obtain ⟨c, h, hc⟩ := (C31_public_tweak_mul a _ t hP ht.2).2 (Nat.ne_of_gt ht.1)
    refine ⟨c, h, (key_eq_pt hc hQ).1.2 ?_⟩
    rw [prod, hz, div_mul_cancel₀ _ hu]
  · rintro t' ⟨ht', c, h, he⟩
    obtain ⟨c', h', hc⟩ := (C31_public_tweak_mul a _ t' hP ht'.2).2 (Nat.ne_of_gt ht'.1)
    rw [h'] at h
    obtain rfl : c' = c := congrArg Prod.fst (pure_inj' h)
    have := (key_eq_pt hc hQ).1.1 he
    rw [prod] at this
    have := zs_inj G_ne_zero this
    exact huniq t' ht' (by rw [← this]; field_simp)

/-- C122. The same for secret keys. -/
theorem C122_secret (a b : SecretKey) (ha : ValidSecret a) (hb : ValidSecret b) :
    (a ≠ b → ∃! t, ValidSecret t ∧ SecretKey.tweakAddAssign a t = pure (b, .ok ())) ∧
    (∀ t, ValidSecret t → SecretKey.tweakAddAssign a t ≠ pure (a, .ok ())) ∧
    (∃! t, ValidSecret t ∧ SecretKey.tweakMulAssign a t = pure (b, .ok ())) := by
  have inj : ∀ {x y : SecretKey}, ValidSecret x → ValidSecret y → ((secretInt x : ℕ) : ZMod n) = ((secretInt y : ℕ) : ZMod n) → x = y := by
    rintro ⟨x⟩ ⟨y⟩ hx hy h
    have e : x = y := sigR_inj hx.2 hy.2 h
    rw [e]
  have hadd : ∀ t c, ValidSecret t → ValidSecret c → (SecretKey.tweakAddAssign a t = pure (c, .ok ()) ↔
      ((secretInt a : ℕ) : ZMod n) + ((secretInt t : ℕ) : ZMod n) = ((secretInt c : ℕ) : ZMod n)) := by
    intro t c ht hc
    obtain ⟨h1, h2⟩ := C30_secret_tweak_add a t ha.2 ht.2
    by_cases h0 : (secretInt a + secretInt t) % n = 0
    · rw [h1 h0]
      constructor
      · intro h
        exact absurd (pure_inj' h) (fun h => (by cases h))
      · intro h
        rw [← Nat.cast_add, (ZMod.natCast_eq_zero_iff _ _).2 (Nat.dvd_of_mod_eq_zero h0)] at h
        exact absurd h.symm (secret_ne_zero hc)
    · obtain ⟨k, hk, hv, e⟩ := h2 h0
      rw [hk]
      have e' : ((secretInt k : ℕ) : ZMod n) = ((secretInt a : ℕ) : ZMod n) + ((secretInt t : ℕ) : ZMod n) := by
        rw [e, ZMod.natCast_mod, Nat.cast_add]
      rw [← e']
      constructor
      · intro h
        have e : k = c := congrArg Prod.fst (pure_inj' h)
        rw [e]
      · intro h
        rw [inj hv hc h]
  have hmul : ∀ t c, ValidSecret t → ValidSecret c → (SecretKey.tweakMulAssign a t = pure (c, .ok ()) ↔
      ((secretInt a : ℕ) : ZMod n) * ((secretInt t : ℕ) : ZMod n) = ((secretInt c : ℕ) : ZMod n)) := by
    intro t c ht hc
    obtain ⟨k, hk, hv, e⟩ := (C31_secret_tweak_mul a t ha ht.2).2 (Nat.ne_of_gt ht.1)
    rw [hk]
    have e' : ((secretInt k : ℕ) : ZMod n) = ((secretInt a : ℕ) : ZMod n) * ((secretInt t : ℕ) : ZMod n) := by
      rw [e, ZMod.natCast_mod, Nat.cast_mul]
    rw [← e']
    constructor
    · intro h
      have e : k = c := congrArg Prod.fst (pure_inj' h)
      rw [e]
    · intro h
      rw [inj hv hc h]
  have ha0 := secret_ne_zero ha
  refine ⟨fun hne => ?_, fun t ht h => ?_, ?_⟩
  · obtain ⟨t, ht, hz, huniq⟩ := exists_unique_secret (z := ((secretInt b : ℕ) : ZMod n) - ((secretInt a : ℕ) : ZMod n))
      (sub_ne_zero.2 fun h => hne (inj ha hb h.symm))
    refine ⟨t, ⟨ht, (hadd t b ht hb).2 (by rw [hz]; ring)⟩, ?_⟩
    rintro t' ⟨ht', h⟩
    exact huniq t' ht' (by rw [← (hadd t' b ht' hb).1 h]; ring)
  · exact secret_ne_zero ht (add_eq_left.1 ((hadd t a ht ha).1 h))
  · obtain ⟨t, ht, hz, huniq⟩ := exists_unique_secret (z := ((secretInt b : ℕ) : ZMod n) / ((secretInt a : ℕ) : ZMod n))
      (div_ne_zero (secret_ne_zero hb) ha0)
    refine ⟨t, ⟨ht, (hmul t b ht hb).2 (by rw [hz, mul_div_cancel₀ _ ha0])⟩, ?_⟩
    rintro t' ⟨ht', h⟩
    exact huniq t' ht' (by rw [← (hmul t' b ht' hb).1 h]; field_simp)

/-- Two different valid keys. -/
example : ∃ a b : PublicKey, ValidKey a ∧ ValidKey b ∧ PublicKey.eq a b = pure false := by
  have h2 : (2 : ZMod n).val • G ≠ 0 := (zs_eq_zero G_ne_zero).not.2 (by decide +kernel)
  obtain ⟨a, ha⟩ := exists_key G_ne_zero
  obtain ⟨b, hb⟩ := exists_key h2
  refine ⟨a, b, ⟨_, ha⟩, ⟨_, hb⟩, (key_eq_pt ha hb).2.2 fun h => ?_⟩
  rw [← zs_one G] at h
  exact absurd (zs_inj G_ne_zero h) (by decide +kernel)

end Verif.Props
