import Verif.Props.SignatureCount

/-!
# How many messages and keys a signature fits (C121)
-/

namespace Verif.Props
open Verif Spec Ecdsa

/-- The x coordinates of curve points that are congruent to `r` modulo `n`. -/
def candidates (r : ℕ) : Set Fp := {x | x.val % n = r ∧ IsSquare (x ^ 3 + 7)}

/-- The reduced messages for which the signature verifies. -/
def MessagesOf (sig : Signature) (pk : PublicKey) : Set Message := {m | ValidMessage m ∧ verify m sig pk = pure true}

/-- The curve points whose keys verify the signature for the message. -/
def KeysOf (m : Message) (sig : Signature) : Set Pt := {P | ∃ pk, IsKey pk P ∧ verify m sig pk = pure true}

/-- Every candidate is the x coordinate of two nonces. -/
theorem nonces_ncard {r : ℕ} (hr : r < n) (hr0 : r ≠ 0) : {k : ZMod n | rOf k = (r : ZMod n)}.ncard = 2 * (candidates r).ncard := by
  have hrz : (r : ZMod n) ≠ 0 := by
    rw [ne_eq, ZMod.natCast_eq_zero_iff]
    exact fun h => absurd (Nat.le_of_dvd (Nat.pos_of_ne_zero hr0) h) (by omega)
  have hmod : ∀ x : Fp, x.val % n = r ↔ ((x.val : ℕ) : ZMod n) = (r : ZMod n) := fun x => by
    rw [ZMod.natCast_eq_natCast_iff', Nat.mod_eq_of_lt hr]
  -- two nonces for each candidate
  have hex : ∀ x : Fp, ∃ k : ZMod n, IsSquare (x ^ 3 + 7) → ∃ y, IsPt (k.val • G) x y := by
    intro x
    by_cases h : IsSquare (x ^ 3 + 7)
    · obtain ⟨y, hy⟩ := h
      obtain ⟨P, hP⟩ := isPt_of_eqn (x := x) (y := y) (by rw [hy, sq])
      obtain ⟨k, _, rfl⟩ := exists_smul_G P
      exact ⟨k, fun _ => ⟨y, by rw [zs_cast]; exact hP⟩⟩
    · exact ⟨0, fun h' => absurd h' h⟩
  choose f hf using hex
  have key : ∀ x ∈ candidates r, ∀ k : ZMod n, (∃ y, IsPt (k.val • G) x y) → k = f x ∨ k = -f x := by
    rintro x hx k ⟨y, hP⟩
    obtain ⟨y', hP'⟩ := hf x hx.2
    rcases hP'.same_x hP with e | e
    · subst e; exact .inl (zs_inj G_ne_zero (hP.unique hP'))
    · subst e; exact .inr (zs_inj G_ne_zero (hP.unique (by rw [zs_neg]; exact hP'.neg)))
  have e : {k : ZMod n | rOf k = (r : ZMod n)} = f '' candidates r ∪ (fun x => -f x) '' candidates r := by
    ext k
    simp only [Set.mem_ofPred_eq, Set.mem_union, Set.mem_image]
    constructor
    · intro h
      have hk : k ≠ 0 := fun hk => hrz (by rw [← h, hk, rOf_zero])
      obtain ⟨x, y, hP⟩ := rOf_pt hk
      have hx : x ∈ candidates r := ⟨(hmod x).2 (by rw [← rOf_eq hP, h]), y, by rw [← sq]; exact hP.eqn.symm⟩
      rcases key x hx k ⟨y, hP⟩ with e | e
      · exact .inl ⟨x, hx, e.symm⟩
      · exact .inr ⟨x, hx, e.symm⟩
    · rintro (⟨x, hx, rfl⟩ | ⟨x, hx, rfl⟩)
      · obtain ⟨y, hP⟩ := hf x hx.2
        rw [rOf_eq hP, (hmod x).1 hx.1]
      · obtain ⟨y, hP⟩ := hf x hx.2
        rw [rOf_neg, rOf_eq hP, (hmod x).1 hx.1]
  have hi : Set.InjOn f (candidates r) := by
    intro x hx x' hx' h
    obtain ⟨y, hP⟩ := hf x hx.2
    obtain ⟨y', hP'⟩ := hf x' hx'.2
    rw [h] at hP
    exact (hP.inj hP').1
  have hdis : Disjoint (f '' candidates r) ((fun x => -f x) '' candidates r) := by
    rw [Set.disjoint_left]
    rintro _ ⟨x, hx, rfl⟩ ⟨x', hx', h⟩
    obtain ⟨y, hP⟩ := hf x hx.2
    obtain ⟨y', hP'⟩ := hf x' hx'.2
    have h : -f x' = f x := h
    have hN : IsPt ((f x).val • G) x' (-y') := by rw [← h, zs_neg]; exact hP'.neg
    obtain rfl := (hP.inj hN).1
    have hz : (2 : ZMod n) * f x = 0 := by linear_combination -h
    rcases mul_eq_zero.1 hz with h0 | h0
    · exact absurd h0 (by decide +kernel)
    · rw [h0, zs_zero] at hP
      exact hP.ne_zero rfl
  rw [e, Set.ncard_union_eq hdis (Set.toFinite _) (Set.toFinite _), hi.ncard_image,
    Set.InjOn.ncard_image (fun x hx x' hx' h => hi hx hx' (neg_injective h))]
  ring

/-- At most two candidates. -/
theorem candidates_le {r : ℕ} (hr : r < n) : (candidates r).ncard ≤ 2 ∧ (p - n ≤ r → (candidates r).ncard ≤ 1) := by
  have hs : candidates r ⊆ {((r : ℕ) : Fp), ((r + n : ℕ) : Fp)} := by
    rintro x ⟨hx, _⟩
    rcases (x_mod_iff hr).1 (by rw [ZMod.natCast_eq_natCast_iff', Nat.mod_eq_of_lt hr]; exact hx) with e | ⟨_, e⟩
    · exact .inl e
    · exact .inr e
  refine ⟨(Set.ncard_le_ncard hs (Set.toFinite _)).trans (Set.ncard_insert_le _ _ |>.trans (by rw [Set.ncard_singleton])), fun h => ?_⟩
  have hs : candidates r ⊆ {((r : ℕ) : Fp)} := by
    rintro x ⟨hx, _⟩
    rcases (x_mod_iff hr).1 (by rw [ZMod.natCast_eq_natCast_iff', Nat.mod_eq_of_lt hr]; exact hx) with e | ⟨h', e⟩
    · exact e
    · omega
  exact (Set.ncard_le_ncard hs (Set.toFinite _)).trans (by rw [Set.ncard_singleton])

theorem msg_injOn : Set.InjOn msgZ {m | ValidMessage m} := by
  intro a ha b hb h
  have := sigR_inj ha hb h
  cases a; cases b; cases this; rfl

theorem exists_residue_msg (z : ZMod n) : ∃ m, ValidMessage m ∧ msgZ m = z := by
  obtain ⟨a, ha⟩ := exists_scalar (ZMod.val_lt z)
  exact ⟨⟨a⟩, by show a.val < n; rw [ha]; exact ZMod.val_lt _, by show ((a.val : ℕ) : ZMod n) = z; rw [ha, ZMod.natCast_zmod_val]⟩

theorem natCast_ne {v : ℕ} (h : v < n) (h0 : v ≠ 0) : (v : ZMod n) ≠ 0 := by
  rw [ne_eq, ZMod.natCast_eq_zero_iff]
  exact fun hd => absurd (Nat.le_of_dvd (Nat.pos_of_ne_zero h0) hd) (by omega)

/-- C121. A signature with nonzero components verifies for exactly two messages per x coordinate that is congruent to `r`, under every key. -/
theorem C121_messages (sig : Signature) (pk : PublicKey) (hc : Canonical sig) (hr : sig.r.val ≠ 0) (hs : sig.s.val ≠ 0) (hq : ValidKey pk) :
    (MessagesOf sig pk).ncard = 2 * (candidates sig.r.val).ncard := by
  obtain ⟨Q, hQ⟩ := hq
  obtain ⟨k, _, rfl⟩ := exists_smul_G Q
  have hQ' : IsKey pk ((k : ZMod n).val • G) := by rw [zs_cast]; exact hQ
  generalize (k : ZMod n) = d at hQ'
  have hrz : sigR sig ≠ 0 := natCast_ne hc.1 hr
  have hsz : sigS sig ≠ 0 := natCast_ne hc.2 hs
  rw [← nonces_ncard hc.1 hr, ← (msg_injOn.mono fun m h => h.1 : Set.InjOn _ (MessagesOf sig pk)).ncard_image,
    ← Set.InjOn.ncard_image (f := fun k => sigS sig * k - sigR sig * d) (s := {k : ZMod n | rOf k = (sig.r.val : ZMod n)})
      (fun a _ b _ h => mul_left_cancel₀ hsz (sub_left_inj.1 h))]
  congr 1
  ext z
  simp only [Set.mem_image, Set.mem_ofPred_eq, MessagesOf]
  constructor
  · rintro ⟨m, ⟨_, hv⟩, rfl⟩
    obtain ⟨_, _, h⟩ := valid_iff_nonce.1 (verify_valid hc hQ' hv)
    exact ⟨_, h, by field_simp; ring⟩
  · rintro ⟨k, hk, rfl⟩
    obtain ⟨m, hm, e⟩ := exists_residue_msg (sigS sig * k - sigR sig * d)
    refine ⟨m, ⟨hm, verify_true hc hQ' (valid_iff_nonce.2 ⟨hrz, hsz, ?_⟩)⟩, e⟩
    have e' : (msgZ m + sigR sig * d) / sigS sig = k := by rw [e]; field_simp; ring
    rw [e']; exact hk

/-- C121. The number of messages is 0, 2 or 4, the same for all keys and all `s`; at most 2 if `r ≥ p - n`; and with a zero component 0. -/
theorem C121_values (sig : Signature) (pk : PublicKey) (hc : Canonical sig) (hq : ValidKey pk) :
    ((MessagesOf sig pk).ncard = 0 ∨ (MessagesOf sig pk).ncard = 2 ∨ (MessagesOf sig pk).ncard = 4) ∧
    (p - n ≤ sig.r.val → (MessagesOf sig pk).ncard ≤ 2) ∧
    (sig.r.val = 0 ∨ sig.s.val = 0 → (MessagesOf sig pk).ncard = 0) ∧
    ∀ s' pk', s'.val < n → (s'.val = 0 ↔ sig.s.val = 0) → ValidKey pk' → (MessagesOf ⟨sig.r, s'⟩ pk').ncard = (MessagesOf sig pk).ncard := by
  have hzero : ∀ sig pk, Canonical sig → ValidKey pk → (sig.r.val = 0 ∨ sig.s.val = 0) → (MessagesOf sig pk).ncard = 0 := by
    intro sig pk hc hq h
    have : MessagesOf sig pk = ∅ := by
      rw [Set.eq_empty_iff_forall_notMem]
      rintro m ⟨_, hv⟩
      obtain ⟨Q, hQ⟩ := hq
      obtain ⟨h1, h2, _⟩ := verify_valid hc hQ hv
      rcases h with h | h
      · exact h1 (by show ((sig.r.val : ℕ) : ZMod n) = 0; rw [h, Nat.cast_zero])
      · exact h2 (by show ((sig.s.val : ℕ) : ZMod n) = 0; rw [h, Nat.cast_zero])
    rw [this, Set.ncard_empty]
  obtain ⟨h2, h1⟩ := candidates_le hc.1
  refine ⟨?_, ?_, hzero sig pk hc hq, ?_⟩
  · by_cases h : sig.r.val = 0 ∨ sig.s.val = 0
    · exact .inl (hzero sig pk hc hq h)
    · rw [not_or] at h
      rw [C121_messages sig pk hc h.1 h.2 hq]
      omega
  · intro hp
    by_cases h : sig.r.val = 0 ∨ sig.s.val = 0
    · rw [hzero sig pk hc hq h]; omega
    · rw [not_or] at h
      rw [C121_messages sig pk hc h.1 h.2 hq]
      have := h1 hp
      omega
  · intro s' pk' hs' he hq'
    have hc' : Canonical ⟨sig.r, s'⟩ := ⟨hc.1, hs'⟩
    by_cases h : sig.r.val = 0 ∨ sig.s.val = 0
    · rw [hzero sig pk hc hq h, hzero ⟨sig.r, s'⟩ pk' hc' hq' (by rcases h with h | h; exacts [.inl h, .inr (he.2 h)])]
    · rw [not_or] at h
      rw [C121_messages sig pk hc h.1 h.2 hq, C121_messages ⟨sig.r, s'⟩ pk' hc' h.1 (fun e => h.2 (he.1 e)) hq']

/-- C121. A signature with nonzero components verifies for a message under exactly two keys per x coordinate that is congruent to `r`,
one less if the nonce `m/s` has component `r`, since the key for that nonce would be the point at infinity. -/
theorem C121_keys (m : Message) (sig : Signature) (hc : Canonical sig) (hr : sig.r.val ≠ 0) (hs : sig.s.val ≠ 0) :
    ((∃ x y, IsPt ((msgZ m / sigS sig).val • G) x y ∧ x.val % n = sig.r.val) → (KeysOf m sig).ncard + 1 = 2 * (candidates sig.r.val).ncard) ∧
    ((¬ ∃ x y, IsPt ((msgZ m / sigS sig).val • G) x y ∧ x.val % n = sig.r.val) → (KeysOf m sig).ncard = 2 * (candidates sig.r.val).ncard) := by
  have hrz : sigR sig ≠ 0 := natCast_ne hc.1 hr
  have hsz : sigS sig ≠ 0 := natCast_ne hc.2 hs
  have hex : (∃ x y, IsPt ((msgZ m / sigS sig).val • G) x y ∧ x.val % n = sig.r.val) ↔ rOf (msgZ m / sigS sig) = (sig.r.val : ZMod n) := by
    constructor
    · rintro ⟨x, y, hP, hx⟩
      rw [rOf_eq hP, ZMod.natCast_eq_natCast_iff', Nat.mod_eq_of_lt hc.1, hx]
    · intro h
      have h0 : msgZ m / sigS sig ≠ 0 := fun h0 => hrz (by show (sig.r.val : ZMod n) = 0; rw [← h, h0, rOf_zero])
      obtain ⟨x, y, hP⟩ := rOf_pt h0
      refine ⟨x, y, hP, ?_⟩
      rw [rOf_eq hP, ZMod.natCast_eq_natCast_iff', Nat.mod_eq_of_lt hc.1] at h
      exact h
  have himg : KeysOf m sig = (fun k : ZMod n => ((sigS sig * k - msgZ m) / sigR sig).val • G) ''
      ({k : ZMod n | rOf k = (sig.r.val : ZMod n)} \ {msgZ m / sigS sig}) := by
    ext P
    simp only [KeysOf, Set.mem_ofPred_eq, Set.mem_image, Set.mem_sdiff, Set.mem_singleton_iff]
    constructor
    · rintro ⟨pk, hQ, hv⟩
      obtain ⟨k, _, rfl⟩ := exists_smul_G P
      have hQ' : IsKey pk ((k : ZMod n).val • G) := by rw [zs_cast]; exact hQ
      obtain ⟨_, _, h⟩ := valid_iff_nonce.1 (verify_valid hc hQ' hv)
      have hd : (k : ZMod n) ≠ 0 := fun h => (isKey_iff.1 hQ').2 (by rw [h, zs_zero])
      refine ⟨_, ⟨h, fun e => ?_⟩, ?_⟩
      · rw [div_left_inj' hsz] at e
        exact mul_ne_zero hrz hd (by linear_combination e)
      · have e : (sigS sig * ((msgZ m + sigR sig * (k : ZMod n)) / sigS sig) - msgZ m) / sigR sig = (k : ZMod n) := by field_simp; ring
        rw [e, zs_cast]
    · rintro ⟨k, ⟨hk, hne⟩, rfl⟩
      have hd : (sigS sig * k - msgZ m) / sigR sig ≠ 0 := by
        refine div_ne_zero (fun h => hne ?_) hrz
        rw [eq_div_iff hsz]
        linear_combination h
      obtain ⟨pk, hpk⟩ := exists_key ((zs_eq_zero G_ne_zero).not.2 hd)
      refine ⟨pk, hpk, verify_true hc hpk (valid_iff_nonce.2 ⟨hrz, hsz, ?_⟩)⟩
      have e : (msgZ m + sigR sig * ((sigS sig * k - msgZ m) / sigR sig)) / sigS sig = k := by field_simp; ring
      rw [e]; exact hk
  have hinj : Function.Injective (fun k : ZMod n => ((sigS sig * k - msgZ m) / sigR sig).val • G) := by
    intro a b h
    have h := zs_inj G_ne_zero h
    rw [div_left_inj' hrz, sub_left_inj] at h
    exact mul_left_cancel₀ hsz h
  rw [himg, Set.ncard_image_of_injective _ hinj, hex, ← nonces_ncard hc.1 hr]
  constructor
  · intro h
    exact Set.ncard_sdiff_singleton_add_one h (Set.toFinite _)
  · intro h
    rw [Set.sdiff_singleton_eq_self (a := msgZ m / sigS sig) (s := {k : ZMod n | rOf k = (sig.r.val : ZMod n)}) h]

/-- `r = 2` has two candidates, so every signature with it and a nonzero `s` fits four messages under every key. -/
example : ∃ r : Scalar, r.val = 2 ∧ ∀ s pk, s.val < n → s.val ≠ 0 → ValidKey pk → (MessagesOf ⟨r, s⟩ pk).ncard = 4 := by
  obtain ⟨r, hr⟩ := exists_scalar (v := 2) (by decide +kernel)
  refine ⟨r, hr, fun s pk hs h0 hq => ?_⟩
  rw [C121_messages ⟨r, s⟩ pk ⟨by show r.val < n; rw [hr]; decide +kernel, hs⟩ (by show r.val ≠ 0; rw [hr]; decide) h0 hq]
  have e : candidates 2 = {((2 : ℕ) : Fp), ((2 + n : ℕ) : Fp)} := by
    obtain ⟨P, Q, y, y', hP, hQ⟩ := exists_pt_two
    refine Set.Subset.antisymm ?_ ?_
    · rintro x ⟨hx, _⟩
      rcases (x_mod_iff (x := x) (r := 2) (by decide +kernel)).1
        (by rw [ZMod.natCast_eq_natCast_iff']; exact hx.trans (by decide +kernel)) with e | ⟨_, e⟩
      · exact .inl e
      · exact .inr e
    · rintro x (rfl | rfl)
      · exact ⟨by decide +kernel, y, by rw [← sq]; exact hP.eqn.symm⟩
      · exact ⟨by decide +kernel, y', by rw [← sq]; exact hQ.eqn.symm⟩
  show 2 * (candidates r.val).ncard = 4
  rw [hr, e, Set.ncard_pair (by decide +kernel)]

end Verif.Props
