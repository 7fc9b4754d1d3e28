import Verif.Props.Counting
import Verif.Props.Exact
import Mathlib.Data.Set.Card

/-!
# How many signatures verify for a message and a key (C116)
-/

namespace Verif.Props
open Verif Spec Ecdsa

/-- The component `r` of a nonce, zero for the nonce zero. -/
noncomputable def rOf (k : ZMod n) : ZMod n :=
  open Classical in if h : ∃ x y, IsPt (k.val • G) x y then ((h.choose.val : ℕ) : ZMod n) else 0

theorem rOf_eq {k : ZMod n} {x y : Fp} (h : IsPt (k.val • G) x y) : rOf k = ((x.val : ℕ) : ZMod n) := by
  have he : ∃ x y, IsPt (k.val • G) x y := ⟨x, y, h⟩
  rw [rOf, dif_pos he]
  obtain ⟨y', hy⟩ := he.choose_spec
  rw [(hy.inj h).1]

theorem rOf_zero : rOf 0 = 0 := by
  rw [rOf, dif_neg]
  rintro ⟨x, y, h⟩
  rw [zs_zero] at h
  exact h.ne_zero rfl

theorem rOf_pt {k : ZMod n} (h : k ≠ 0) : ∃ x y, IsPt (k.val • G) x y :=
  Spec.IsPt.of_ne_zero ((zs_eq_zero G_ne_zero).not.2 h)

/-- ECDSA validity in terms of the nonce. -/
theorem valid_iff_nonce {m r s d : ZMod n} :
    EcdsaValid m r s (d.val • G) ↔ r ≠ 0 ∧ s ≠ 0 ∧ rOf ((m + r * d) / s) = r := by
  have e : (m / s).val • G + (r / s).val • d.val • G = ((m + r * d) / s).val • G := by
    rw [← zs_mul, ← zs_add]
    congr 2
    ring
  unfold EcdsaValid
  rw [e]
  refine and_congr_right fun hr => and_congr_right fun hs => ?_
  constructor
  · rintro ⟨x, y, h, hx⟩
    rw [rOf_eq h, hx]
  · intro h
    have h0 : (m + r * d) / s ≠ 0 := fun h0 => hr (by rw [← h, h0, rOf_zero])
    obtain ⟨x, y, hP⟩ := rOf_pt h0
    exact ⟨x, y, hP, by rw [← h, rOf_eq hP]⟩

/-- The nonces that give a valid signature. -/
def goodNonces (m d : ZMod n) : Set (ZMod n) := {k | rOf k ≠ 0 ∧ m + rOf k * d ≠ 0}

theorem valid_image (m d : ZMod n) :
    {q : ZMod n × ZMod n | EcdsaValid m q.1 q.2 (d.val • G)} = (fun k => (rOf k, (m + rOf k * d) / k)) '' goodNonces m d := by
  ext ⟨r, s⟩
  simp only [Set.mem_ofPred_eq, Set.mem_image, valid_iff_nonce, Prod.mk.injEq, goodNonces]
  constructor
  · rintro ⟨hr, hs, h⟩
    have h0 : (m + r * d) / s ≠ 0 := fun h0 => hr (by rw [← h, h0, rOf_zero])
    have h1 : m + r * d ≠ 0 := fun h1 => h0 (by rw [h1, zero_div])
    refine ⟨(m + r * d) / s, ⟨by rw [h]; exact hr, by rw [h]; exact h1⟩, h, ?_⟩
    rw [h]
    field_simp
  · rintro ⟨k, ⟨hr, h1⟩, rfl, rfl⟩
    have hk : k ≠ 0 := fun hk => hr (by rw [hk, rOf_zero])
    refine ⟨hr, div_ne_zero h1 hk, ?_⟩
    congr 1
    field_simp

theorem nonce_injOn (m d : ZMod n) : Set.InjOn (fun k => (rOf k, (m + rOf k * d) / k)) (goodNonces m d) := by
  intro k hk k' hk' h
  simp only [Prod.mk.injEq] at h
  obtain ⟨h1, h2⟩ := h
  have h0 : k ≠ 0 := fun h => hk.1 (by rw [h, rOf_zero])
  have h0' : k' ≠ 0 := fun h => hk'.1 (by rw [h, rOf_zero])
  rw [← h1] at h2
  have h3 := hk.2
  rw [div_eq_div_iff h0 h0'] at h2
  exact (mul_left_cancel₀ h3 h2).symm

theorem ncard_zero : {k : ZMod n | rOf k = 0}.ncard = 3 := by
  obtain ⟨kv, y, h0, hk, hP⟩ := exists_x_n
  have hz : (kv : ZMod n) ≠ 0 := by
    rw [ne_eq, ZMod.natCast_eq_zero_iff]
    exact fun hd => absurd (Nat.le_of_dvd h0 hd) (by omega)
  have hP' : IsPt ((kv : ZMod n).val • G) ((n : ℕ) : Fp) y := by rw [zs_cast]; exact hP
  have hN : IsPt ((-(kv : ZMod n)).val • G) ((n : ℕ) : Fp) (-y) := by rw [zs_neg]; exact hP'.neg
  have h2 : (kv : ZMod n) ≠ -kv := by
    intro h
    have : (2 : ZMod n) * kv = 0 := by linear_combination h
    rcases mul_eq_zero.1 this with h | h
    · exact absurd h (by decide +kernel)
    · exact hz h
  have e : {k : ZMod n | rOf k = 0} = {0, (kv : ZMod n), -(kv : ZMod n)} := by
    ext k
    simp only [Set.mem_ofPred_eq, Set.mem_insert_iff, Set.mem_singleton_iff]
    constructor
    · intro h
      by_cases hk0 : k = 0
      · exact .inl hk0
      obtain ⟨x, y', hx⟩ := rOf_pt hk0
      rw [rOf_eq hx] at h
      right
      have hxn : x = ((n : ℕ) : Fp) := by
        rcases (x_mod_iff (r := 0) (by decide +kernel)).1 (by rw [h, Nat.cast_zero]) with e | ⟨_, e⟩
        · exact absurd (by rw [← ZMod.natCast_zmod_val x, e]; rfl) hx.x_ne
        · rw [e, zero_add]
      subst hxn
      rcases hP'.same_x hx with e | e
      · subst e
        exact .inl (zs_inj G_ne_zero (hx.unique hP'))
      · subst e
        exact .inr (zs_inj G_ne_zero (hx.unique hN))
    · rintro (rfl | rfl | rfl)
      · exact rOf_zero
      · rw [rOf_eq hP', n_fp_val, ZMod.natCast_self]
      · rw [rOf_eq hN, n_fp_val, ZMod.natCast_self]
  rw [e, Set.ncard_eq_toFinset_card', Set.toFinset_insert, Set.toFinset_insert, Set.toFinset_singleton]
  rw [Finset.card_eq_three]
  exact ⟨_, _, _, hz.symm, (neg_ne_zero.2 hz).symm, h2, rfl⟩

theorem ncard_unusable {m d : ZMod n} (hd : d ≠ 0) : {k : ZMod n | rOf k ≠ 0 ∧ m + rOf k * d = 0}.ncard ≤ 4 := by
  have hfin : {k : ZMod n | rOf k ≠ 0 ∧ m + rOf k * d = 0}.Finite := Set.toFinite _
  rw [Set.ncard_eq_toFinset_card _ hfin, ← Finset.length_toList, ← List.length_map (f := ZMod.val)]
  refine unusable_le (m := m) hd _ ((Finset.nodup_toList _).map (ZMod.val_injective n)) fun v hv => ?_
  obtain ⟨k, hk, rfl⟩ := List.mem_map.1 hv
  rw [Finset.mem_toList, Set.Finite.mem_toFinset] at hk
  obtain ⟨h1, h2⟩ := hk
  have hk0 : k ≠ 0 := fun h => h1 (by rw [h, rOf_zero])
  refine ⟨Nat.pos_of_ne_zero ((ZMod.val_ne_zero k).2 hk0), ZMod.val_lt k, ?_⟩
  rintro ⟨x, y, hP, hu⟩
  rw [rOf_eq hP] at h2
  exact hu h2

theorem ncard_good {m d : ZMod n} (hd : d ≠ 0) :
    n - 7 ≤ (goodNonces m d).ncard ∧ (goodNonces m d).ncard ≤ n - 3 ∧ (m = 0 → (goodNonces m d).ncard = n - 3) := by
  have hu := ncard_unusable (m := m) hd
  have hz := ncard_zero
  have e : {k : ZMod n | rOf k = 0} ∪ {k : ZMod n | rOf k ≠ 0 ∧ m + rOf k * d = 0} = (goodNonces m d)ᶜ := by
    ext k
    simp only [goodNonces, Set.mem_union, Set.mem_ofPred_eq, Set.mem_compl_iff]
    by_cases h1 : rOf k = 0 <;> by_cases h2 : m + rOf k * d = 0 <;> simp [h1, h2]
  have hdis : Disjoint {k : ZMod n | rOf k = 0} {k : ZMod n | rOf k ≠ 0 ∧ m + rOf k * d = 0} :=
    Set.disjoint_left.2 fun k h1 h2 => h2.1 h1
  have hc := Set.ncard_union_eq hdis (Set.toFinite _) (Set.toFinite _)
  have ht := Set.ncard_add_ncard_compl (goodNonces m d) (Set.toFinite _) (Set.toFinite _)
  rw [e] at hc
  rw [hc, hz, Nat.card_zmod] at ht
  have h0 : m = 0 → {k : ZMod n | rOf k ≠ 0 ∧ m + rOf k * d = 0}.ncard = 0 := by
    rintro rfl
    rw [Set.ncard_eq_zero (Set.toFinite _), Set.eq_empty_iff_forall_notMem]
    rintro k ⟨h1, h2⟩
    rw [zero_add] at h2
    exact (mul_ne_zero h1 hd) h2
  refine ⟨?_, ?_, fun hm => ?_⟩
  · omega
  · omega
  · have := h0 hm; omega

/-- The canonical signatures that verify for the message and the key. -/
def Verifying (m : Message) (pk : PublicKey) : Set Signature := {sig | Canonical sig ∧ verify m sig pk = pure true}

theorem sig_injOn : Set.InjOn (fun sig : Signature => (sigR sig, sigS sig)) {sig | Canonical sig} := by
  intro a ha b hb h
  simp only [Prod.mk.injEq] at h
  have h1 := sigR_inj ha.1 hb.1 h.1
  have h2 := sigR_inj ha.2 hb.2 h.2
  cases a; cases b; cases h1; cases h2; rfl

theorem exists_pair_sig (q : ZMod n × ZMod n) : ∃ sig, Canonical sig ∧ (sigR sig, sigS sig) = q := by
  obtain ⟨r, hr⟩ := exists_scalar (ZMod.val_lt q.1)
  obtain ⟨s, hs⟩ := exists_scalar (ZMod.val_lt q.2)
  refine ⟨⟨r, s⟩, ⟨by show r.val < n; rw [hr]; exact ZMod.val_lt _, by show s.val < n; rw [hs]; exact ZMod.val_lt _⟩, ?_⟩
  refine Prod.ext ?_ ?_
  · show ((r.val : ℕ) : ZMod n) = q.1
    rw [hr, ZMod.natCast_zmod_val]
  · show ((s.val : ℕ) : ZMod n) = q.2
    rw [hs, ZMod.natCast_zmod_val]

theorem verifying_ncard (m : Message) (pk : PublicKey) (d : ZMod n) (hq : IsKey pk (d.val • G)) :
    (Verifying m pk).ncard = (goodNonces (msgZ m) d).ncard := by
  rw [← (nonce_injOn (msgZ m) d).ncard_image, ← valid_image,
    ← (sig_injOn.mono fun sig h => h.1 : Set.InjOn _ (Verifying m pk)).ncard_image]
  congr 1
  ext q
  simp only [Set.mem_image, Set.mem_ofPred_eq, Verifying]
  constructor
  · rintro ⟨sig, ⟨hc, hv⟩, rfl⟩
    exact verify_valid hc hq hv
  · intro h
    obtain ⟨sig, hc, rfl⟩ := exists_pair_sig q
    exact ⟨sig, ⟨hc, verify_true hc hq h⟩, rfl⟩

/-- C116. For every message and key between `n - 7` and `n - 3` of the `n²` pairs `(r, s)` verify; for the message zero exactly `n - 3`. -/
theorem C116_count (m : Message) (pk : PublicKey) (hq : ValidKey pk) :
    n - 7 ≤ (Verifying m pk).ncard ∧ (Verifying m pk).ncard ≤ n - 3 ∧ (n ∣ m.sc.val → (Verifying m pk).ncard = n - 3) := by
  obtain ⟨Q, hQ⟩ := hq
  obtain ⟨k, hk, rfl⟩ := exists_smul_G Q
  have hQ' : IsKey pk ((k : ZMod n).val • G) := by rw [zs_cast]; exact hQ
  have hd : (k : ZMod n) ≠ 0 := fun h => (isKey_iff.1 hQ').2 (by rw [h, zs_zero])
  rw [verifying_ncard m pk _ hQ']
  obtain ⟨h1, h2, h3⟩ := ncard_good (m := msgZ m) hd
  exact ⟨h1, h2, fun h => h3 ((ZMod.natCast_eq_zero_iff _ _).2 h)⟩

/-- C116. There are `n²` canonical signatures: a pair `(r, s)` drawn at random verifies with probability below `1/n`. -/
theorem C116_random (m : Message) (pk : PublicKey) (hq : ValidKey pk) :
    {sig : Signature | Canonical sig}.ncard = n ^ 2 ∧ n * (Verifying m pk).ncard < {sig : Signature | Canonical sig}.ncard := by
  have h : {sig : Signature | Canonical sig}.ncard = n ^ 2 := by
    rw [← sig_injOn.ncard_image]
    have : (fun sig : Signature => (sigR sig, sigS sig)) '' {sig | Canonical sig} = Set.univ :=
      Set.eq_univ_iff_forall.2 fun q => exists_pair_sig q
    rw [this, Set.ncard_univ, Nat.card_prod, Nat.card_zmod, sq]
  refine ⟨h, ?_⟩
  rw [h, sq]
  have h1 := (C116_count m pk hq).2.1
  have h0 : 3 < n := by decide +kernel
  exact Nat.mul_lt_mul_of_pos_left (by omega) (by omega)

theorem rOf_neg (k : ZMod n) : rOf (-k) = rOf k := by
  by_cases h : k = 0
  · rw [h, neg_zero]
  · obtain ⟨x, y, hP⟩ := rOf_pt h
    have hN : IsPt ((-k).val • G) x (-y) := by rw [zs_neg]; exact hP.neg
    rw [rOf_eq hP, rOf_eq hN]

/-- C116. Exactly half of them have `s` at most `(n-1)/2`, and the other half are these with `s` negated. -/
theorem C116_low (m : Message) (pk : PublicKey) (hq : ValidKey pk) :
    2 * {sig ∈ Verifying m pk | sig.s.val ≤ half}.ncard = (Verifying m pk).ncard := by
  obtain ⟨Q, hQ⟩ := hq
  obtain ⟨k, hk, rfl⟩ := exists_smul_G Q
  have hQ' : IsKey pk ((k : ZMod n).val • G) := by rw [zs_cast]; exact hQ
  have hn : n = 2 * half + 1 := by decide +kernel
  -- negation of `s`
  have key : ∀ sig ∈ Verifying m pk, ∃ sig' ∈ Verifying m pk, sig'.r = sig.r ∧ sig'.s.val = n - sig.s.val ∧ sig.s.val ≠ 0 := by
    rintro sig ⟨hc, hv⟩
    obtain ⟨h1, h2, h3⟩ := valid_iff_nonce.1 (verify_valid hc hQ' hv)
    have h0 : sig.s.val ≠ 0 := fun h => h2 (by show ((sig.s.val : ℕ) : ZMod n) = 0; rw [h, Nat.cast_zero])
    obtain ⟨s', hs'⟩ := exists_scalar (v := n - sig.s.val) (by have := hc.2; omega)
    have hc' : Canonical ⟨sig.r, s'⟩ := ⟨hc.1, by show s'.val < n; have := hc.2; omega⟩
    refine ⟨⟨sig.r, s'⟩, ⟨hc', verify_true hc' hQ' (valid_iff_nonce.2 ?_)⟩, rfl, hs', h0⟩
    have e : sigS ⟨sig.r, s'⟩ = -sigS sig := by
      show ((s'.val : ℕ) : ZMod n) = -((sig.s.val : ℕ) : ZMod n)
      rw [hs', Nat.cast_sub hc.2.le, ZMod.natCast_self, zero_sub]
    rw [e]
    exact ⟨h1, neg_ne_zero.2 h2, by rw [div_neg, rOf_neg]; exact h3⟩
  have hfin : (Verifying m pk).Finite := by
    refine Set.finite_of_ncard_pos ?_
    have := (C116_count m pk ⟨_, hQ⟩).1
    have h7 : 7 < n := by decide +kernel
    omega
  have e : {sig ∈ Verifying m pk | sig.s.val ≤ half}.ncard = {sig ∈ Verifying m pk | ¬ sig.s.val ≤ half}.ncard := by
    refine Set.ncard_congr (fun sig h => (key sig h.1).choose) ?_ ?_ ?_
    · intro sig h
      obtain ⟨h1, _, h2, h3⟩ := (key sig h.1).choose_spec
      refine ⟨h1, ?_⟩
      have := h.2
      have := h.1.1.2
      rw [h2]
      generalize half = t at *
      omega
    · intro a b ha hb h
      obtain ⟨_, h2, h3, _⟩ := (key a ha.1).choose_spec
      obtain ⟨_, h2', h3', _⟩ := (key b hb.1).choose_spec
      rw [h] at h2 h3
      refine sig_eq_iff.2 ⟨h2.symm.trans h2', ?_⟩
      have := ha.1.1.2
      have := hb.1.1.2
      rw [h3] at h3'
      generalize half = t at *
      omega
    · intro b hb
      obtain ⟨a, ha, h1, h2, h3⟩ := key b hb.1
      have hl : a.s.val ≤ half := by
        have := hb.2
        have := hb.1.1.2
        rw [h2]
        generalize half = t at *
        omega
      refine ⟨a, ⟨ha, hl⟩, ?_⟩
      obtain ⟨_, g1, g2, _⟩ := (key a ha).choose_spec
      refine sig_eq_iff.2 ⟨g1.trans h1, ?_⟩
      rw [g2, h2]
      have := hb.1.1.2
      generalize half = t at *
      omega
  have hu : {sig ∈ Verifying m pk | sig.s.val ≤ half} ∪ {sig ∈ Verifying m pk | ¬ sig.s.val ≤ half} = Verifying m pk := by
    ext sig
    simp only [Set.mem_union, Set.mem_ofPred_eq]
    by_cases h : sig.s.val ≤ half <;> simp [h]
  have hd : Disjoint {sig ∈ Verifying m pk | sig.s.val ≤ half} {sig ∈ Verifying m pk | ¬ sig.s.val ≤ half} :=
    Set.disjoint_left.2 fun _ h1 h2 => h2.2 h1.2
  have := Set.ncard_union_eq hd (hfin.subset fun _ h => h.1) (hfin.subset fun _ h => h.1)
  rw [hu, ← e] at this
  omega

/-- A valid key. -/
example : ∃ pk, ValidKey pk := ⟨_, _, (exists_key G_ne_zero).choose_spec⟩

end Verif.Props
