import Verif.Props.Pipelines

/-!
# For a fixed message, `r` and recovery id, `s` and the recovered key determine each other (C119)
-/

namespace Verif.Props
open Verif Spec Ecdsa

theorem exists_multiple {R : Pt} (hR : R ≠ 0) (T : Pt) : ∃ e : ZMod n, e.val • R = T := by
  obtain ⟨a, _, ha⟩ := exists_smul_G R
  obtain ⟨b, _, hb⟩ := exists_smul_G T
  have ha0 : (a : ZMod n) ≠ 0 := fun h0 => hR (by rw [ha, ← zs_cast, h0, zs_zero])
  refine ⟨(b : ZMod n) / (a : ZMod n), ?_⟩
  rw [ha, ← zs_cast a, ← zs_mul, div_mul_cancel₀ _ ha0, zs_cast, hb]

/-- C119. Two values of `s` recover the same key only if they are equal. -/
theorem C119_injective (m : Message) (r s s' : Scalar) (id : RecoveryId) (k k' : PublicKey) (hr : r.val < n) (hs : s.val < n) (hs' : s'.val < n)
    (hid : id.id.toNat < 4) (h : recover m ⟨r, s⟩ id = pure (.ok k)) (h' : recover m ⟨r, s'⟩ id = pure (.ok k')) :
    PublicKey.eq k k' = pure true ↔ s = s' := by
  obtain ⟨R, a, b, c, hK⟩ := recover_ok (sig := ⟨r, s⟩) ⟨hr, hs⟩ hid h
  obtain ⟨R', a', b', c', hK'⟩ := recover_ok (sig := ⟨r, s'⟩) ⟨hr, hs'⟩ hid h'
  obtain rfl := recoveryPoint_unique c c'
  obtain ⟨e, _, _, he, _, _, hiff, _⟩ := C22_equality k k' _ _ hK hK'
  rw [he]
  constructor
  · intro h
    have q := hiff.1 (pure_inj' h)
    unfold recoveredKey at q
    have hR : R ≠ 0 := by obtain ⟨_, _, hP, _⟩ := c; exact hP.ne_zero
    have q := zs_inj hR (sub_left_inj.1 q)
    have a : ((r.val : ℕ) : ZMod n) ≠ 0 := a
    have q : ((s.val : ℕ) : ZMod n) / ((r.val : ℕ) : ZMod n) = ((s'.val : ℕ) : ZMod n) / ((r.val : ℕ) : ZMod n) := q
    exact sigR_inj hs hs' ((div_left_inj' a).1 q)
  · rintro rfl
    rw [h] at h'
    obtain rfl : k = k' := by simpa using pure_inj' h'
    rw [hiff.2 rfl]

/-- C119. If some message and `s` recover a key with `r` and the id, then for every message every key but `-(m/r) G` is recovered by
exactly one `s`, and that key by none. -/
theorem C119_every_key (r s₀ : Scalar) (id : RecoveryId) (m₀ : Message) (k₀ : PublicKey) (hr : r.val < n) (hs₀ : s₀.val < n)
    (hid : id.id.toNat < 4) (h : recover m₀ ⟨r, s₀⟩ id = pure (.ok k₀)) (m : Message) (pk : PublicKey) (hq : ValidKey pk) :
    (¬ IsKey pk ((-(msgZ m / (r.val : ZMod n))).val • G) → ∃! s : Scalar, s.val < n ∧ Recovers m ⟨r, s⟩ id pk) ∧
    (IsKey pk ((-(msgZ m / (r.val : ZMod n))).val • G) → ¬ ∃ s : Scalar, s.val < n ∧ Recovers m ⟨r, s⟩ id pk) := by
  obtain ⟨R, a, _, c, _⟩ := recover_ok (sig := ⟨r, s₀⟩) ⟨hr, hs₀⟩ hid h
  have a : ((r.val : ℕ) : ZMod n) ≠ 0 := a
  have hR : R ≠ 0 := by obtain ⟨_, _, hP, _⟩ := c; exact hP.ne_zero
  obtain ⟨Q, hQ⟩ := hq
  have hQ0 := (isKey_iff.1 hQ).2
  -- what a successful recovery of `pk` says of `s`
  have fwd : ∀ s : Scalar, s.val < n → Recovers m ⟨r, s⟩ id pk →
      ((s.val : ℕ) : ZMod n) ≠ 0 ∧ recoveredKey (msgZ m) (r.val : ZMod n) (s.val : ZMod n) R = Q := by
    rintro s hs ⟨k, hk, he⟩
    obtain ⟨R', _, b, c', hK⟩ := recover_ok (sig := ⟨r, s⟩) ⟨hr, hs⟩ hid hk
    obtain rfl := recoveryPoint_unique c c'
    obtain ⟨_, _, _, he', _, _, hiff, _⟩ := C22_equality k pk _ _ hK hQ
    rw [he] at he'
    exact ⟨b, hiff.1 (pure_inj' he').symm⟩
  constructor
  · intro hne
    obtain ⟨e, he⟩ := exists_multiple hR (Q + (msgZ m / (r.val : ZMod n)).val • G)
    have he0 : e ≠ 0 := by
      rintro rfl
      rw [zs_zero] at he
      refine hne ?_
      rw [zs_neg, ← eq_neg_of_add_eq_zero_left he.symm]
      exact hQ
    obtain ⟨s, hs⟩ := exists_scalar (ZMod.val_lt ((r.val : ZMod n) * e))
    have hsz : ((s.val : ℕ) : ZMod n) = (r.val : ZMod n) * e := by rw [hs, ZMod.natCast_zmod_val]
    have hsn : s.val < n := by rw [hs]; exact ZMod.val_lt _
    have hkey : recoveredKey (msgZ m) (r.val : ZMod n) (s.val : ZMod n) R = Q := by
      unfold recoveredKey
      rw [hsz, mul_div_cancel_left₀ _ a, he, add_sub_cancel_right]
    have hs0 : ((s.val : ℕ) : ZMod n) ≠ 0 := by rw [hsz]; exact mul_ne_zero a he0
    obtain ⟨k, hk, hK⟩ := (C26_recover m ⟨r, s⟩ id ⟨hr, hsn⟩ hid).1 R a hs0 c (by
      show recoveredKey (msgZ m) (r.val : ZMod n) (s.val : ZMod n) R ≠ 0
      rw [hkey]; exact hQ0)
    have hK : IsKey k Q := by rw [← hkey]; exact hK
    refine ⟨s, ⟨hsn, k, hk, key_eq_true hK hQ⟩, ?_⟩
    rintro s' ⟨hs', h'⟩
    obtain ⟨_, q⟩ := fwd s' hs' h'
    rw [← hkey] at q
    unfold recoveredKey at q
    exact sigR_inj hs' hsn ((div_left_inj' a).1 (zs_inj hR (sub_left_inj.1 q)))
  · rintro hkey ⟨s, hs, h'⟩
    obtain ⟨hs0, q⟩ := fwd s hs h'
    have := isKey_unique hkey hQ
    rw [← this] at q
    unfold recoveredKey at q
    rw [zs_neg, sub_eq_neg_self, zs_eq_zero hR] at q
    exact (div_ne_zero hs0 a) q

/-- A signature, an id and a key to start from. -/
example : ∃ m sig id k, Canonical sig ∧ id.id.toNat < 4 ∧ recover m sig id = pure (.ok k) ∧ ∃ pk, ValidKey pk := by
  obtain ⟨_, m, _, sig, id, pk, _, _, _, _, hc, hid, hk, _, k, hrec⟩ := exists_signed
  exact ⟨m, sig, id, k, hc, hid, hrec, pk, hk⟩

end Verif.Props
