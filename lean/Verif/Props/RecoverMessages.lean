import Verif.Props.RecoverKeys
import Verif.Props.MessageCount

/-!
# How many signatures and messages `recover` succeeds for (C124)
-/

namespace Verif.Props
open Verif Spec Ecdsa

theorem exists_unique_message {r : ZMod n} (hr : r ≠ 0) (s : ZMod n) (R T : Pt) :
    ∃! m : Message, ValidMessage m ∧ recoveredKey (msgZ m) r s R = T := by
  obtain ⟨a, _, ha⟩ := exists_smul_G ((s / r).val • R - T)
  obtain ⟨m, hm, hz⟩ := exists_residue_msg (r * (a : ZMod n))
  have h : recoveredKey (msgZ m) r s R = T := by
    unfold recoveredKey
    rw [hz, mul_div_cancel_left₀ _ hr, zs_cast, ← ha, sub_sub_cancel]
  refine ⟨m, ⟨hm, h⟩, ?_⟩
  rintro m' ⟨hm', h'⟩
  rw [← h] at h'
  unfold recoveredKey at h'
  exact msg_injOn hm' hm ((div_left_inj' hr).1 (zs_inj G_ne_zero (sub_right_inj.1 h')))

/-- C124. Two messages recover the same key only if they are equal. -/
theorem C124_injective (m m' : Message) (sig : Signature) (id : RecoveryId) (k k' : PublicKey) (hm : ValidMessage m) (hm' : ValidMessage m')
    (hs : Canonical sig) (hid : id.id.toNat < 4) (h : recover m sig id = pure (.ok k)) (h' : recover m' sig id = pure (.ok k')) :
    PublicKey.eq k k' = pure true ↔ m = m' := by
  obtain ⟨R, a, b, c, hK⟩ := recover_ok hs hid h
  obtain ⟨R', a', b', c', hK'⟩ := recover_ok hs hid h'
  obtain rfl := recoveryPoint_unique c c'
  obtain ⟨e, _, _, he, _, _, hiff, _⟩ := C22_equality k k' _ _ hK hK'
  rw [he]
  constructor
  · intro h
    exact (exists_unique_message a (sigS sig) R _).unique ⟨hm, hiff.1 (pure_inj' h)⟩ ⟨hm', rfl⟩
  · rintro rfl
    rw [hiff.2 rfl]

/-- C124. If a signature and id recover a key for one message, then there is exactly one message for which `recover` fails; it
reports `InvalidSignature`. -/
theorem C124_one_failure (m₀ : Message) (sig : Signature) (id : RecoveryId) (k₀ : PublicKey) (hs : Canonical sig) (hid : id.id.toNat < 4)
    (h : recover m₀ sig id = pure (.ok k₀)) :
    ∃ m : Message, ValidMessage m ∧ recover m sig id = pure (.error .invalidSignature) ∧
      ∀ m', ValidMessage m' → m' ≠ m → ∃ k, recover m' sig id = pure (.ok k) := by
  obtain ⟨R, a, b, c, _⟩ := recover_ok hs hid h
  obtain ⟨m, ⟨hm, hk⟩, hu⟩ := exists_unique_message a (sigS sig) R 0
  refine ⟨m, hm, (C26_recover m sig id hs hid).2.1 ?_, fun m' hm' hne => ?_⟩
  · rintro ⟨R', _, _, c', hne⟩
    obtain rfl := recoveryPoint_unique c c'
    exact hne hk
  · obtain ⟨k, hrec, _⟩ := (C26_recover m' sig id hs hid).1 R a b c (fun h0 => hne (hu m' ⟨hm', h0⟩))
    exact ⟨k, hrec⟩

/-- C124. The message for which `recover` fails, from the discrete logarithm of the recovery point. -/
theorem C124_failing_message (sig : Signature) (id : RecoveryId) (k : ZMod n) (hs : Canonical sig) (hid : id.id.toNat < 4)
    (hr0 : sigR sig ≠ 0) (hs0 : sigS sig ≠ 0) (hR : IsRecoveryPoint sig.r.val id.id.toNat (k.val • G)) (m : Message) :
    recover m sig id = pure (.error .invalidSignature) ↔ msgZ m = sigS sig * k := by
  have e : recoveredKey (msgZ m) (sigR sig) (sigS sig) (k.val • G) = 0 ↔ msgZ m = sigS sig * k := by
    unfold recoveredKey
    rw [sub_eq_zero, ← zs_mul]
    constructor
    · intro h
      have h := zs_inj G_ne_zero h
      field_simp at h
      exact h.symm
    · intro h
      rw [h]
      congr 2
      ring
  rw [← e]
  constructor
  · intro h
    by_contra h0
    obtain ⟨k, hk, _⟩ := (C26_recover m sig id hs hid).1 _ hr0 hs0 hR h0
    rw [h] at hk
    exact absurd (pure_inj' hk) (by simp)
  · intro h
    refine (C26_recover m sig id hs hid).2.1 ?_
    rintro ⟨R', _, _, c', hne⟩
    obtain rfl := recoveryPoint_unique hR c'
    exact hne h

/-- The signatures below `n` with an id for which `recover` succeeds on the message. -/
def Recoverable (m : Message) : Set (Signature × RecoveryId) :=
  {q | Canonical q.1 ∧ q.2.id.toNat < 4 ∧ ∃ k, recover m q.1 q.2 = pure (.ok k)}

theorem usable_ncard : {k : ZMod n | rOf k ≠ 0}.ncard = n - 3 := by
  have h := Set.ncard_add_ncard_compl {k : ZMod n | rOf k = 0} (Set.toFinite _) (Set.toFinite _)
  rw [ncard_zero, Nat.card_zmod] at h
  have e : {k : ZMod n | rOf k ≠ 0} = {k : ZMod n | rOf k = 0}ᶜ := rfl
  rw [e]
  omega

theorem compl_pair_ncard (m : ZMod n) : ({0, m}ᶜ : Set (ZMod n)).ncard = if m = 0 then n - 1 else n - 2 := by
  have h := Set.ncard_add_ncard_compl ({0, m} : Set (ZMod n)) (Set.toFinite _) (Set.toFinite _)
  rw [Nat.card_zmod] at h
  split
  · next h0 =>
    subst h0
    rw [Set.pair_eq_singleton, Set.ncard_singleton] at h
    rw [Set.pair_eq_singleton]
    omega
  · next h0 =>
    rw [Set.ncard_pair (Ne.symm h0)] at h
    omega

/-- The id and component of a point are determined by it. -/
theorem recoveryPoint_pair {r r' i i' : ℕ} {P : Pt} (hr : r < n) (hr' : r' < n) (h : IsRecoveryPoint r i P) (h' : IsRecoveryPoint r' i' P) :
    r = r' ∧ i = i' := by
  obtain ⟨x, y, hP, hx, hy⟩ := h
  obtain ⟨x', y', hP', hx', hy'⟩ := h'
  obtain ⟨rfl, rfl⟩ := hP.inj hP'
  have e : r + n * (i / 2) = r' + n * (i' / 2) := hx.symm.trans hx'
  have e1 := congrArg (· % n) e
  simp only [Nat.add_mul_mod_self_left, Nat.mod_eq_of_lt hr, Nat.mod_eq_of_lt hr'] at e1
  subst e1
  have e2 : i / 2 = i' / 2 := Nat.eq_of_mul_eq_mul_left (by decide) (Nat.add_left_cancel e)
  exact ⟨rfl, by omega⟩

theorem recoverable_iff {m : Message} {sig : Signature} {id : RecoveryId} (hs : Canonical sig) (hid : id.id.toNat < 4) :
    (∃ k, recover m sig id = pure (.ok k)) ↔
      ∃ k : ZMod n, sigR sig ≠ 0 ∧ sigS sig ≠ 0 ∧ IsRecoveryPoint sig.r.val id.id.toNat (k.val • G) ∧ sigS sig * k ≠ msgZ m := by
  constructor
  · rintro ⟨pk, h⟩
    obtain ⟨R, a, b, c, _⟩ := recover_ok hs hid h
    obtain ⟨k, _, rfl⟩ := exists_smul_G R
    rw [← zs_cast] at c
    refine ⟨k, a, b, c, fun h0 => ?_⟩
    rw [(C124_failing_message sig id k hs hid a b c m).2 h0.symm] at h
    exact absurd (pure_inj' h) (by simp)
  · rintro ⟨k, a, b, c, hne⟩
    by_cases h0 : recoveredKey (msgZ m) (sigR sig) (sigS sig) (k.val • G) = 0
    · refine absurd ((C124_failing_message sig id k hs hid a b c m).1 ((C26_recover m sig id hs hid).2.1 ?_)).symm hne
      rintro ⟨R', _, _, c', hne⟩
      obtain rfl := recoveryPoint_unique c c'
      exact hne h0
    · obtain ⟨pk, h, _⟩ := (C26_recover m sig id hs hid).1 _ a b c h0
      exact ⟨pk, h⟩

/-- C124. For a message that is not a multiple of `n`, `recover` succeeds for exactly `(n-3)(n-2)` of the `4 n²` pairs of a signature below `n`
and an id; for the others for `(n-3)(n-1)`. -/
theorem C124_count (m : Message) : (Recoverable m).ncard = (n - 3) * (if msgZ m = 0 then n - 1 else n - 2) := by
  have hex : ∀ q : Signature × RecoveryId, ∃ k : ZMod n, (∃ k' : ZMod n, IsRecoveryPoint q.1.r.val q.2.id.toNat (k'.val • G)) →
      IsRecoveryPoint q.1.r.val q.2.id.toNat (k.val • G) := fun q => by
    by_cases h : ∃ k' : ZMod n, IsRecoveryPoint q.1.r.val q.2.id.toNat (k'.val • G)
    · exact ⟨h.choose, fun _ => h.choose_spec⟩
    · exact ⟨0, fun h' => absurd h' h⟩
  choose f hf using hex
  have hrz : ∀ {k : ZMod n} {sig : Signature} {i : ℕ}, IsRecoveryPoint sig.r.val i (k.val • G) → rOf k = sigR sig := by
    rintro k sig i ⟨x, y, hP, hx, _⟩
    rw [rOf_eq hP, hx, Nat.cast_add, Nat.cast_mul, ZMod.natCast_self, zero_mul, add_zero]
  have hinj : Set.InjOn (fun q => (f q, sigS q.1 * f q)) (Recoverable m) := by
    rintro ⟨sig, id⟩ ⟨hs, hid, h⟩ ⟨sig', id'⟩ ⟨hs', hid', h'⟩ e
    obtain ⟨k, a, b, c, _⟩ := (recoverable_iff hs hid).1 h
    obtain ⟨k', a', b', c', _⟩ := (recoverable_iff hs' hid').1 h'
    have d := hf (sig, id) ⟨k, c⟩
    have d' := hf (sig', id') ⟨k', c'⟩
    simp only [Prod.mk.injEq] at e
    obtain ⟨e1, e2⟩ := e
    rw [← e1] at d' e2
    have hk : f (sig, id) ≠ 0 := fun h0 => a (by rw [← hrz d, h0, rOf_zero])
    have e2 := mul_right_cancel₀ hk e2
    obtain ⟨er, ei⟩ := recoveryPoint_pair hs.1 hs'.1 d d'
    have : sig = sig' := sig_injOn hs hs' (Prod.ext (congrArg (Nat.cast : ℕ → ZMod n) er) e2)
    have : id = id' := by cases id; cases id'; exact congrArg _ (UInt8.toNat_inj.1 ei)
    subst_vars; rfl
  have himg : (fun q => (f q, sigS q.1 * f q)) '' Recoverable m = {k : ZMod n | rOf k ≠ 0} ×ˢ ({0, msgZ m}ᶜ : Set (ZMod n)) := by
    ext ⟨k, t⟩
    simp only [Set.mem_image, Set.mem_prod, Set.mem_ofPred_eq, Set.mem_compl_iff, Set.mem_insert_iff, Set.mem_singleton_iff, not_or, Prod.mk.injEq]
    constructor
    · rintro ⟨⟨sig, id⟩, ⟨hs, hid, h⟩, rfl, rfl⟩
      obtain ⟨k, a, b, c, hne⟩ := (recoverable_iff hs hid).1 h
      have d := hf (sig, id) ⟨k, c⟩
      have hk : f (sig, id) ≠ 0 := fun h0 => a (by rw [← hrz d, h0, rOf_zero])
      obtain rfl : k = f (sig, id) := zs_inj G_ne_zero (recoveryPoint_unique c d)
      exact ⟨by rw [hrz d]; exact a, mul_ne_zero b hk, hne⟩
    · rintro ⟨hr, ht, hne⟩
      have hk : k ≠ 0 := fun h0 => hr (by rw [h0, rOf_zero])
      obtain ⟨x, y, hP⟩ := rOf_pt hk
      obtain ⟨sig, hs, e⟩ := exists_pair_sig (rOf k, t / k)
      simp only [Prod.mk.injEq] at e
      have hx2 : x.val / n < 2 := (Nat.div_lt_iff_lt_mul (by decide)).2 ((ZMod.val_lt x).trans (by decide +kernel))
      have hy2 : y.val % 2 < 2 := Nat.mod_lt _ (by decide)
      have hi : (UInt8.ofNat (2 * (x.val / n) + y.val % 2)).toNat = 2 * (x.val / n) + y.val % 2 := by
        rw [UInt8.toNat_ofNat']
        exact Nat.mod_eq_of_lt (by omega)
      have hrv : sig.r.val = x.val % n := by
        have e1 : ((sig.r.val : ℕ) : ZMod n) = ((x.val : ℕ) : ZMod n) := e.1.trans (rOf_eq hP)
        rw [ZMod.natCast_eq_natCast_iff', Nat.mod_eq_of_lt hs.1] at e1
        exact e1
      have c : IsRecoveryPoint sig.r.val (UInt8.ofNat (2 * (x.val / n) + y.val % 2)).toNat (k.val • G) := by
        refine ⟨x, y, hP, ?_, ?_⟩
        · rw [hi, hrv, show (2 * (x.val / n) + y.val % 2) / 2 = x.val / n by omega, Nat.mod_add_div]
        · rw [hi]; omega
      have d := hf (sig, ⟨UInt8.ofNat (2 * (x.val / n) + y.val % 2)⟩) ⟨k, c⟩
      have ek := zs_inj G_ne_zero (recoveryPoint_unique d c)
      have et : sigS sig * k = t := by rw [e.2, div_mul_cancel₀ _ hk]
      have hid : (UInt8.ofNat (2 * (x.val / n) + y.val % 2)).toNat < 4 := by rw [hi]; omega
      refine ⟨(sig, ⟨UInt8.ofNat (2 * (x.val / n) + y.val % 2)⟩), ⟨hs, hid, ?_⟩, ek, ?_⟩
      · refine (recoverable_iff hs hid).2 ⟨k, ?_, ?_, c, ?_⟩
        · rw [e.1]; exact hr
        · rw [e.2]; exact div_ne_zero ht hk
        · rw [et]; exact hne
      · dsimp only
        rw [ek, et]
  rw [← hinj.ncard_image, himg, Set.ncard_prod, usable_ncard, compl_pair_ncard]

/-- A signature and an id that recover a key, and messages of both kinds. -/
example : (∃ m sig id k, Canonical sig ∧ id.id.toNat < 4 ∧ recover m sig id = pure (.ok k)) ∧
    (∃ m, ValidMessage m ∧ msgZ m = 0) ∧ ∃ m, ValidMessage m ∧ msgZ m = 1 := by
  obtain ⟨_, m, _, sig, id, pk, _, _, _, _, hc, hid, hk, _, k, hrec⟩ := exists_signed
  exact ⟨⟨m, sig, id, k, hc, hid, hrec⟩, exists_residue_msg 0, exists_residue_msg 1⟩

end Verif.Props
