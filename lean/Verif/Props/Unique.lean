import Verif.Props.Laws

/-!
# How many signatures, messages and keys fit together (C76), and reuse of a nonce (C77)
-/

namespace Verif.Props
open Verif Spec Ecdsa

theorem length_le_of_labels {α : Type} {l : List α} {D : α → α → Prop} (N : ℕ) (f : α → ℕ → Prop) (hl : l.Pairwise D)
    (h : ∀ a ∈ l, ∃ i < N, f a i) (hf : ∀ a ∈ l, ∀ b ∈ l, ∀ i, f a i → f b i → ¬ D a b) : l.length ≤ N := by
  classical
  have key : ∀ l : List α, l.Pairwise D → (∀ a ∈ l, ∃ i < N, f a i) → (∀ a ∈ l, ∀ b ∈ l, ∀ i, f a i → f b i → ¬ D a b) →
      ∃ L : List ℕ, L.length = l.length ∧ L.Nodup ∧ ∀ i ∈ L, i < N ∧ ∃ a ∈ l, f a i := by
    intro l
    induction l with
    | nil => intro _ _ _; exact ⟨[], rfl, .nil, by simp⟩
    | cons a l ih =>
      intro hp h hf
      obtain ⟨hp1, hp2⟩ := List.pairwise_cons.1 hp
      obtain ⟨L, h1, h2, h3⟩ := ih hp2 (fun b hb => h b (List.mem_cons_of_mem _ hb))
        (fun b hb c hc => hf b (List.mem_cons_of_mem _ hb) c (List.mem_cons_of_mem _ hc))
      obtain ⟨i, hi, hai⟩ := h a List.mem_cons_self
      refine ⟨i :: L, by simp [h1], List.nodup_cons.2 ⟨fun hm => ?_, h2⟩, ?_⟩
      · obtain ⟨_, b, hb, hbi⟩ := h3 i hm
        exact hf a List.mem_cons_self b (List.mem_cons_of_mem _ hb) i hai hbi (hp1 b hb)
      · intro j hj
        rcases List.mem_cons.1 hj with rfl | hj
        · exact ⟨hi, a, List.mem_cons_self, hai⟩
        · obtain ⟨x, b, hb, y⟩ := h3 j hj
          exact ⟨x, b, List.mem_cons_of_mem _ hb, y⟩
  obtain ⟨L, h1, h2, h3⟩ := key l hl h hf
  rw [← h1, ← List.toFinset_card_of_nodup h2]
  calc _ ≤ (Finset.range N).card := Finset.card_le_card fun i hi => Finset.mem_range.2 (h3 i (List.mem_toFinset.1 hi)).1
    _ = N := Finset.card_range N

/-- A valid signature belongs to a recovery id, and to one below 2 if `r ≥ p - n`. -/
theorem valid_label {m s : ZMod n} {r : ℕ} {Q : Pt} (hr : r < n) (h : EcdsaValid m (r : ZMod n) s Q) :
    ∃ i < 4, IsRecoveryPoint r i ((m / s).val • G + ((r : ZMod n) / s).val • Q) ∧ (p - n ≤ r → i < 2) := by
  obtain ⟨_, _, x, y, hpt, hx⟩ := h
  have h3 := n_lt_p
  have hy : y.val % 2 < 2 := Nat.mod_lt _ (by decide)
  rcases (x_mod_iff hr).1 hx with e | ⟨hlt, e⟩
  · refine ⟨y.val % 2, by omega, ⟨x, y, hpt, ?_, by omega⟩, fun _ => hy⟩
    rw [e, ZMod.val_natCast_of_lt (hr.trans h3), Nat.div_eq_of_lt hy]
    omega
  · refine ⟨2 + y.val % 2, by omega, ⟨x, y, hpt, ?_, by omega⟩, fun _ => by omega⟩
    rw [e, ZMod.val_natCast_of_lt (by omega), show (2 + y.val % 2) / 2 = 1 by omega]
    omega

/-- The point that verification computes, times `s`. -/
theorem valid_scaled {m r s : ZMod n} {Q : Pt} (hs : s ≠ 0) :
    s.val • ((m / s).val • G + (r / s).val • Q) = m.val • G + r.val • Q := by
  rw [nsmul_add, ← zs_mul, ← zs_mul, mul_div_cancel₀ _ hs, mul_div_cancel₀ _ hs]

theorem zs_inj {a b : ZMod n} {P : Pt} (hP : P ≠ 0) (h : a.val • P = b.val • P) : a = b := by
  rw [← sub_eq_zero, ← zs_eq_zero hP, sub_eq_add_neg, zs_add, zs_neg, h, add_neg_cancel]

theorem zs_inj_pt {a : ZMod n} (ha : a ≠ 0) {P Q : Pt} (h : a.val • P = a.val • Q) : P = Q := by
  have := congrArg (fun X => (a⁻¹).val • X) h
  simpa only [← zs_mul, inv_mul_cancel₀ ha, zs_one] using this

theorem sigR_inj {a b : Scalar} (ha : a.val < n) (hb : b.val < n) (h : (a.val : ZMod n) = (b.val : ZMod n)) : a = b := by
  rw [ZMod.natCast_eq_natCast_iff', Nat.mod_eq_of_lt ha, Nat.mod_eq_of_lt hb] at h
  exact Scalar.val_inj h

theorem verify_valid {m : Message} {sig : Signature} {pk : PublicKey} {Q : Pt} (hs : Canonical sig) (hq : IsKey pk Q)
    (h : verify m sig pk = pure true) : EcdsaValid (msgZ m) (sigR sig) (sigS sig) Q := by
  obtain ⟨b, e, hb⟩ := C23_verify m sig pk Q hs hq
  rw [h] at e
  exact hb.1 (pure_inj' e).symm

/-- C76. For one message, key and component `r`, at most four values of `s` verify; if `r ≥ p - n`, at most two. -/
theorem C76_signatures (m : Message) (pk : PublicKey) (r : Scalar) (hq : ValidKey pk) (hr : r.val < n) (l : List Scalar) (hl : l.Nodup)
    (h : ∀ s ∈ l, s.val < n ∧ verify m ⟨r, s⟩ pk = pure true) : l.length ≤ 4 ∧ (p - n ≤ r.val → l.length ≤ 2) := by
  obtain ⟨Q, hQ⟩ := hq
  have hv : ∀ s ∈ l, EcdsaValid (msgZ m) (r.val : ZMod n) (s.val : ZMod n) Q := fun s hs =>
    verify_valid (sig := ⟨r, s⟩) ⟨hr, (h s hs).1⟩ hQ (h s hs).2
  have hinj : ∀ a ∈ l, ∀ b ∈ l, ∀ i,
      IsRecoveryPoint r.val i ((msgZ m / (a.val : ZMod n)).val • G + ((r.val : ZMod n) / (a.val : ZMod n)).val • Q) →
      IsRecoveryPoint r.val i ((msgZ m / (b.val : ZMod n)).val • G + ((r.val : ZMod n) / (b.val : ZMod n)).val • Q) → ¬ a ≠ b := by
    intro a ha b hb i h1 h2 hne
    have e := recoveryPoint_unique h1 h2
    obtain ⟨_, _, hpt, _⟩ := h1
    have e1 := valid_scaled (m := msgZ m) (r := (r.val : ZMod n)) (Q := Q) (hv a ha).2.1
    have e2 := valid_scaled (m := msgZ m) (r := (r.val : ZMod n)) (Q := Q) (hv b hb).2.1
    rw [← e, ← e1] at e2
    exact hne (sigR_inj (h a ha).1 (h b hb).1 (zs_inj hpt.ne_zero e2).symm)
  refine ⟨length_le_of_labels 4 _ hl (fun a ha => ?_) hinj, fun hp => length_le_of_labels 2 _ hl (fun a ha => ?_) hinj⟩
  · obtain ⟨i, hi, hrec, _⟩ := valid_label hr (hv a ha)
    exact ⟨i, hi, hrec⟩
  · obtain ⟨i, _, hrec, hi⟩ := valid_label hr (hv a ha)
    exact ⟨i, hi hp, hrec⟩

/-- C76: if `r ≥ p - n`, two values of `s` that verify are equal or opposite; so one of them is at most `(n-1)/2`. -/
theorem C76_malleability (m : Message) (pk : PublicKey) (r s s' : Scalar) (hq : ValidKey pk) (hr : r.val < n) (hp : p - n ≤ r.val)
    (hs : s.val < n) (hs' : s'.val < n) (hv : verify m ⟨r, s⟩ pk = pure true) :
    verify m ⟨r, s'⟩ pk = pure true ↔ s' = s ∨ s'.val = n - s.val := by
  have hn0 : 0 < n := by decide +kernel
  have hs0 : s.val ≠ 0 := fun h0 => by
    obtain ⟨Q, hQ⟩ := hq
    have := (verify_valid (sig := ⟨r, s⟩) ⟨hr, hs⟩ hQ hv).2.1
    exact this (by simp [sigS, h0])
  have hneg : ∀ t : Scalar, t.val = n - s.val → verify m ⟨r, t⟩ pk = pure true := fun t ht => by
    obtain ⟨h1, _⟩ := C27_malleability m ⟨r, s⟩ pk ⟨hr, hs⟩ hq
    have := h1 t (by omega) (by show (s.val + t.val) % n = 0; rw [ht, show s.val + (n - s.val) = n by omega, Nat.mod_self])
    rw [← hv, ← this]
  constructor
  · intro hv'
    by_contra hc
    rw [not_or] at hc
    obtain ⟨t, ht⟩ := exists_scalar (v := n - s.val) (by omega)
    have hts : t ≠ s := by
      rintro rfl
      have : n % 2 = 1 := by decide +kernel
      omega
    have := (C76_signatures m pk r hq hr [s, s', t] (by
      simp only [List.nodup_cons, List.mem_cons, List.not_mem_nil, or_false, not_or, not_false_iff, and_true, List.nodup_nil]
      exact ⟨⟨fun e => hc.1 e.symm, fun e => hts e.symm⟩, fun e => hc.2 (by rw [e, ht])⟩) (by
      intro x hx
      simp only [List.mem_cons, List.not_mem_nil, or_false] at hx
      rcases hx with rfl | rfl | rfl
      · exact ⟨hs, hv⟩
      · exact ⟨hs', hv'⟩
      · exact ⟨by omega, hneg _ ht⟩)).2 hp
    simp only [List.length_cons, List.length_nil] at this
    omega
  · rintro (rfl | h)
    · exact hv
    · exact hneg _ h

/-- C76. One signature verifies for at most four messages under one key. -/
theorem C76_messages (sig : Signature) (pk : PublicKey) (hc : Canonical sig) (hq : ValidKey pk) (l : List Message) (hl : l.Nodup)
    (h : ∀ m ∈ l, ValidMessage m ∧ verify m sig pk = pure true) : l.length ≤ 4 ∧ (p - n ≤ sig.r.val → l.length ≤ 2) := by
  obtain ⟨Q, hQ⟩ := hq
  have hv : ∀ m ∈ l, EcdsaValid (msgZ m) (sigR sig) (sigS sig) Q := fun m hm => verify_valid hc hQ (h m hm).2
  have hinj : ∀ a ∈ l, ∀ b ∈ l, ∀ i,
      IsRecoveryPoint sig.r.val i ((msgZ a / sigS sig).val • G + (sigR sig / sigS sig).val • Q) →
      IsRecoveryPoint sig.r.val i ((msgZ b / sigS sig).val • G + (sigR sig / sigS sig).val • Q) → ¬ a ≠ b := by
    intro a ha b hb i h1 h2 hne
    have e := recoveryPoint_unique h1 h2
    have e1 := valid_scaled (m := msgZ a) (r := sigR sig) (Q := Q) (hv a ha).2.1
    have e2 := valid_scaled (m := msgZ b) (r := sigR sig) (Q := Q) (hv a ha).2.1
    rw [← e, e1] at e2
    have := sigR_inj (h a ha).1 (h b hb).1 (zs_inj G_ne_zero (add_right_cancel e2))
    exact hne (by cases a; cases b; cases this; rfl)
  refine ⟨length_le_of_labels 4 _ hl (fun a ha => ?_) hinj, fun hp => length_le_of_labels 2 _ hl (fun a ha => ?_) hinj⟩
  · obtain ⟨i, hi, hrec, _⟩ := valid_label hc.1 (hv a ha)
    exact ⟨i, hi, hrec⟩
  · obtain ⟨i, _, hrec, hi⟩ := valid_label hc.1 (hv a ha)
    exact ⟨i, hi hp, hrec⟩

/-- C76. One signature of one message verifies under at most four keys. -/
theorem C76_keys (m : Message) (sig : Signature) (hc : Canonical sig) (l : List PublicKey)
    (hl : l.Pairwise fun a b => PublicKey.eq a b = pure false)
    (h : ∀ k ∈ l, ValidKey k ∧ verify m sig k = pure true) : l.length ≤ 4 ∧ (p - n ≤ sig.r.val → l.length ≤ 2) := by
  have hv : ∀ k ∈ l, ∃ Q, IsKey k Q ∧ EcdsaValid (msgZ m) (sigR sig) (sigS sig) Q := fun k hk => by
    obtain ⟨Q, hQ⟩ := (h k hk).1
    exact ⟨Q, hQ, verify_valid hc hQ (h k hk).2⟩
  have hinj : ∀ a ∈ l, ∀ b ∈ l, ∀ i,
      (∃ Q, IsKey a Q ∧ IsRecoveryPoint sig.r.val i ((msgZ m / sigS sig).val • G + (sigR sig / sigS sig).val • Q)) →
      (∃ Q, IsKey b Q ∧ IsRecoveryPoint sig.r.val i ((msgZ m / sigS sig).val • G + (sigR sig / sigS sig).val • Q)) →
      ¬ PublicKey.eq a b = pure false := by
    rintro a ha b hb i ⟨P, hP, h1⟩ ⟨Q, hQ, h2⟩ hne
    obtain ⟨_, _, hvP⟩ := hv a ha
    have e := add_left_cancel (recoveryPoint_unique h1 h2)
    have := zs_inj_pt (div_ne_zero hvP.1 hvP.2.1) e
    subst this
    rw [key_eq_true hP hQ] at hne
    cases pure_inj' hne
  refine ⟨length_le_of_labels 4 _ hl (fun a ha => ?_) hinj, fun hp => length_le_of_labels 2 _ hl (fun a ha => ?_) hinj⟩
  · obtain ⟨Q, hQ, hv⟩ := hv a ha
    obtain ⟨i, hi, hrec, _⟩ := valid_label hc.1 hv
    exact ⟨i, hi, Q, hQ, hrec⟩
  · obtain ⟨Q, hQ, hv⟩ := hv a ha
    obtain ⟨i, _, hrec, hi⟩ := valid_label hc.1 hv
    exact ⟨i, hi hp, Q, hQ, hrec⟩

/-! ### The bound four is attained -/

theorem exists_smul {P : Pt} (hP : P ≠ 0) (T : Pt) : ∃ s : ZMod n, s.val • P = T := by
  obtain ⟨a, _, rfl⟩ := exists_smul_G P
  obtain ⟨b, _, rfl⟩ := exists_smul_G T
  have ha : (a : ZMod n) ≠ 0 := by
    rw [ne_eq, ZMod.natCast_eq_zero_iff]
    exact fun h => hP ((smul_eq_zero_iff G_ne_zero).2 h)
  refine ⟨b / a, ?_⟩
  rw [← zs_cast a, ← zs_mul, div_mul_cancel₀ _ ha, zs_cast]

theorem exists_pt_two : ∃ (P Q : Pt) (y y' : Fp), IsPt P ((2 : ℕ) : Fp) y ∧ IsPt Q ((2 + n : ℕ) : Fp) y' := by
  have h : ∀ v w : ℕ, (w ^ 2) % p = (v ^ 3 + 7) % p → ∃ P : Pt, IsPt P ((v : ℕ) : Fp) ((w : ℕ) : Fp) := fun v w e => by
    apply isPt_of_eqn
    have := (ZMod.natCast_eq_natCast_iff' _ _ p).2 e
    push_cast at this
    exact this
  obtain ⟨P, hP⟩ := h 2 69211104694897500952317515077652022726490027694212560352756646854116994689233 (by decide +kernel)
  obtain ⟨Q, hQ⟩ := h (2 + n) 24738801717713540165859037596706942650182884013760002261031960508407254471123 (by decide +kernel)
  exact ⟨P, Q, _, _, hP, hQ⟩

/-- C76: under the key of the secret 1, the message 1 has four signatures with `r = 2`. -/
theorem C76_four : ∃ (m : Message) (pk : PublicKey) (r : Scalar) (l : List Scalar), PublicKey.fromSecretKey secretOne = pure pk ∧
    m.sc.val = 1 ∧ r.val = 2 ∧ l.Nodup ∧ l.length = 4 ∧ ∀ s ∈ l, s.val < n ∧ verify m ⟨r, s⟩ pk = pure true := by
  have h2n : 2 < n := by decide +kernel
  have hxp : 2 + n < p := by decide +kernel
  obtain ⟨a, ha⟩ := exists_scalar (v := 1) (by omega)
  obtain ⟨r, hr⟩ := exists_scalar (v := 2) h2n
  obtain ⟨pk, hpk, hkey, _⟩ := C18_from_secret_key secretOne secretOne_valid.not_dvd
  rw [show secretInt secretOne = 1 by decide +kernel, one_nsmul] at hkey
  obtain ⟨P, Q, y, y', hP, hQ⟩ := exists_pt_two
  have hr0 : (r.val : ZMod n) ≠ 0 := by
    rw [hr, ne_eq, ZMod.natCast_eq_zero_iff]; exact fun h => absurd (Nat.le_of_dvd (by omega) h) (by omega)
  have hT : (a.val : ZMod n).val • G + (r.val : ZMod n).val • G ≠ 0 := by
    rw [← zs_add, ne_eq, zs_eq_zero G_ne_zero, ha, hr, ← Nat.cast_add, ZMod.natCast_eq_zero_iff]
    exact fun h => absurd h (by decide +kernel)
  have key : ∀ R : Pt, (∃ y, IsPt R ((2 : ℕ) : Fp) y) ∨ (∃ y, IsPt R ((2 + n : ℕ) : Fp) y) →
      ∃ s : Scalar, s.val < n ∧ verify ⟨a⟩ ⟨r, s⟩ pk = pure true ∧
        (s.val : ZMod n).val • R = (a.val : ZMod n).val • G + (r.val : ZMod n).val • G := by
    intro R hR
    have hR0 : R ≠ 0 := by rcases hR with ⟨_, h⟩ | ⟨_, h⟩ <;> exact h.ne_zero
    obtain ⟨s, hs⟩ := exists_smul hR0 ((a.val : ZMod n).val • G + (r.val : ZMod n).val • G)
    have hs0 : s ≠ 0 := by
      rintro rfl
      rw [zs_zero] at hs
      exact hT hs.symm
    obtain ⟨sc, hsc⟩ := exists_scalar (v := s.val) (ZMod.val_lt s)
    have hcast : (sc.val : ZMod n) = s := by rw [hsc]; exact ZMod.natCast_zmod_val s
    refine ⟨sc, by rw [hsc]; exact ZMod.val_lt s, ?_, by rw [hcast, hs]⟩
    obtain ⟨b, e, hb⟩ := C23_verify ⟨a⟩ ⟨r, sc⟩ pk G ⟨by show r.val < n; omega, by show sc.val < n; rw [hsc]; exact ZMod.val_lt s⟩ hkey
    rw [e, hb.2]
    have e2 : (msgZ ⟨a⟩ / s).val • G + ((r.val : ZMod n) / s).val • G = R := by
      apply zs_inj_pt hs0
      rw [valid_scaled hs0, hs]
    show EcdsaValid (msgZ ⟨a⟩) (r.val : ZMod n) (sc.val : ZMod n) G
    rw [hcast]
    rcases hR with ⟨y, h⟩ | ⟨y, h⟩
    · refine ⟨hr0, hs0, _, _, by rw [e2]; exact h, ?_⟩
      rw [ZMod.val_natCast_of_lt (by omega), hr]
    · refine ⟨hr0, hs0, _, _, by rw [e2]; exact h, ?_⟩
      rw [ZMod.val_natCast_of_lt hxp, hr, Nat.cast_add, ZMod.natCast_self, add_zero]
  obtain ⟨s1, l1, v1, e1⟩ := key P (Or.inl ⟨_, hP⟩)
  obtain ⟨s2, l2, v2, e2⟩ := key (-P) (Or.inl ⟨_, hP.neg⟩)
  obtain ⟨s3, l3, v3, e3⟩ := key Q (Or.inr ⟨_, hQ⟩)
  obtain ⟨s4, l4, v4, e4⟩ := key (-Q) (Or.inr ⟨_, hQ.neg⟩)
  have hne : ∀ {A B : Pt} {s t : Scalar}, (s.val : ZMod n).val • A = (a.val : ZMod n).val • G + (r.val : ZMod n).val • G →
      (t.val : ZMod n).val • B = (a.val : ZMod n).val • G + (r.val : ZMod n).val • G → A ≠ B → s ≠ t := by
    rintro A B s _ h1 h2 hAB rfl
    refine hAB (zs_inj_pt (a := (s.val : ZMod n)) ?_ (h1.trans h2.symm))
    intro h0
    rw [h0, zs_zero] at h1
    exact hT h1.symm
  have hself : ∀ {A : Pt} {x y : Fp}, IsPt A x y → A ≠ -A := fun {A x y} h e => by
    have := dbl_ne_zero h.ne_zero
    apply this
    conv_lhs => rw [e]
    conv_lhs => rw [neg_add_eq_zero.2 e]
  have hxne : ((2 : ℕ) : Fp) ≠ ((2 + n : ℕ) : Fp) := by
    intro e
    have := congrArg ZMod.val e
    rw [ZMod.val_natCast_of_lt (by omega), ZMod.val_natCast_of_lt hxp] at this
    omega
  have hx : ∀ {A B : Pt} {y y' : Fp}, IsPt A ((2 : ℕ) : Fp) y → IsPt B ((2 + n : ℕ) : Fp) y' → A ≠ B := by
    rintro A _ y y' h h' rfl
    exact hxne (h.inj h').1
  refine ⟨⟨a⟩, pk, r, [s1, s2, s3, s4], hpk, ha, hr, ?_, rfl, ?_⟩
  · simp only [List.nodup_cons, List.mem_cons, List.not_mem_nil, or_false, not_or, not_false_iff, and_true, List.nodup_nil]
    exact ⟨⟨hne e1 e2 (hself hP), hne e1 e3 (hx hP hQ), hne e1 e4 (hx hP hQ.neg)⟩,
      ⟨hne e2 e3 (hx hP.neg hQ), hne e2 e4 (hx hP.neg hQ.neg)⟩, hne e3 e4 (hself hQ)⟩
  · intro s hs
    simp only [List.mem_cons, List.not_mem_nil, or_false] at hs
    rcases hs with rfl | rfl | rfl | rfl
    · exact ⟨l1, v1⟩
    · exact ⟨l2, v2⟩
    · exact ⟨l3, v3⟩
    · exact ⟨l4, v4⟩

/-- The hypotheses of C76 are met by a signature made by the library. -/
example : ∃ m sig pk, ValidMessage m ∧ Canonical sig ∧ ValidKey pk ∧ verify m sig pk = pure true := by
  obtain ⟨_, m, _, sig, _, pk, hm, _, _, _, hc, _, hk, hv, _⟩ := exists_signed
  exact ⟨m, sig, pk, hm, hc, hk, hv⟩

/-! ## Reuse of a nonce -/

/-- What a returned signature says of the key and the nonce: `s k = ± (m + r d)`, the sign being told by the recovery id
and the parity of `y`. -/
theorem sign_raw_equation {ctx : Ecmult.GenContext} (hctx : Ecmult.newGenContext = pure ctx) {sk m k : Scalar} (hk : ¬ n ∣ k.val) {x y : Fp}
    (hpt : IsPt (k.val • G) x y) {π : Profile} {r s : Scalar} {id : UInt8} (h : signRaw ctx sk m k π = some (.ok (r, s, id))) :
    r.val = x.val % n ∧
    ((id.toNat % 2 = y.val % 2 ∧ (s.val : ZMod n) * k.val = m.val + r.val * sk.val) ∨
     (id.toNat % 2 ≠ y.val % 2 ∧ (s.val : ZMod n) * k.val = -(m.val + r.val * sk.val))) := by
  obtain ⟨x', y', o, hpt', hrel, _, hsig, hlt, hge⟩ := C54_sign_raw_partial ctx hctx sk m k hk
  obtain ⟨rfl, rfl⟩ := hpt.inj hpt'
  have ho : o = .ok (r, s, id) := by
    cases π with
    | release => rw [hrel] at h; exact Option.some.inj h
    | debug =>
      by_cases hx : x.val < n
      · rw [hlt hx] at h; exact Option.some.inj h
      · rw [hge hx] at h; cases h
  obtain ⟨hr, hs⟩ := (hsig r s id ho).1
  have hk0 : (k.val : ZMod n) ≠ 0 := by rwa [ne_eq, ZMod.natCast_eq_zero_iff]
  refine ⟨hr, ?_⟩
  generalize hs0 : ((m.val : ZMod n) + (r.val : ZMod n) * (sk.val : ZMod n)) / (k.val : ZMod n) = s₀ at hs
  have hmul : s₀ * k.val = m.val + r.val * sk.val := by rw [← hs0, div_mul_cancel₀ _ hk0]
  have hlt := ZMod.val_lt s₀
  dsimp only at hs
  split at hs
  · refine Or.inl ⟨by omega, ?_⟩
    rw [hs.1, ZMod.natCast_zmod_val, hmul]
  · refine Or.inr ⟨by omega, ?_⟩
    rw [hs.1, Nat.cast_sub hlt.le, ZMod.natCast_self, ZMod.natCast_zmod_val, zero_sub, neg_mul, hmul]

/-- C77. Two signatures of different messages with one nonce have the same `r` and reveal the secret key:
with `t = s₂` if the ids have the same parity and `t = -s₂` otherwise, `s₁ ≠ t` and `d r (s₁ - t) = t m₁ - s₁ m₂`. -/
theorem C77_nonce_reuse (ctx : Ecmult.GenContext) (hctx : Ecmult.newGenContext = pure ctx) (sk m₁ m₂ k : Scalar) (hk : ¬ n ∣ k.val)
    (π₁ π₂ : Profile) (r₁ r₂ s₁ s₂ : Scalar) (id₁ id₂ : UInt8) (h₁ : signRaw ctx sk m₁ k π₁ = some (.ok (r₁, s₁, id₁)))
    (h₂ : signRaw ctx sk m₂ k π₂ = some (.ok (r₂, s₂, id₂))) :
    r₁ = r₂ ∧
    let t : ZMod n := if id₁.toNat % 2 = id₂.toNat % 2 then s₂.val else -(s₂.val : ZMod n)
    ((m₁.val : ZMod n) ≠ m₂.val → (s₁.val : ZMod n) ≠ t) ∧
    (sk.val : ZMod n) * (r₁.val * (s₁.val - t)) = t * m₁.val - s₁.val * m₂.val := by
  obtain ⟨x, y, hpt⟩ := IsPt.of_ne_zero (P := k.val • G) (fun h => hk ((smul_eq_zero_iff G_ne_zero).1 h))
  obtain ⟨a1, a2⟩ := sign_raw_equation hctx hk hpt h₁
  obtain ⟨b1, b2⟩ := sign_raw_equation hctx hk hpt h₂
  have hr : r₁ = r₂ := Scalar.val_inj (a1.trans b1.symm)
  subst hr
  have hk0 : (k.val : ZMod n) ≠ 0 := by rwa [ne_eq, ZMod.natCast_eq_zero_iff]
  refine ⟨rfl, ?_⟩
  generalize (k.val : ZMod n) = κ at *
  generalize (sk.val : ZMod n) = d at *
  generalize (r₁.val : ZMod n) = ρ at *
  generalize (s₁.val : ZMod n) = σ at *
  generalize (s₂.val : ZMod n) = τ at *
  generalize (m₁.val : ZMod n) = μ at *
  generalize (m₂.val : ZMod n) = ν at *
  have key : ∀ e t : ZMod n, e * e = 1 → σ * κ = e * (μ + ρ * d) → t * κ = e * (ν + ρ * d) →
      (μ ≠ ν → σ ≠ t) ∧ d * (ρ * (σ - t)) = t * μ - σ * ν := by
    intro e t he h1 h2
    constructor
    · rintro hne rfl
      rw [h1] at h2
      apply hne
      linear_combination e * h2 + (ν - μ) * he
    · apply mul_right_cancel₀ hk0
      linear_combination (d * ρ + ν) * h1 - (d * ρ + μ) * h2
  rcases a2 with ⟨p1, q1⟩ | ⟨p1, q1⟩ <;> rcases b2 with ⟨p2, q2⟩ | ⟨p2, q2⟩
  · rw [if_pos (by omega)]
    exact key 1 τ (by ring) (by rw [q1]; ring) (by rw [q2]; ring)
  · rw [if_neg (by omega)]
    exact key 1 (-τ) (by ring) (by rw [q1]; ring) (by rw [neg_mul, q2]; ring)
  · rw [if_neg (by omega)]
    exact key (-1) (-τ) (by ring) (by rw [q1]; ring) (by rw [neg_mul, q2]; ring)
  · rw [if_pos (by omega)]
    exact key (-1) τ (by ring) (by rw [q1]; ring) (by rw [q2]; ring)

/-- C77. A known nonce reveals the secret key, up to the sign of `s`. -/
theorem C77_known_nonce (ctx : Ecmult.GenContext) (hctx : Ecmult.newGenContext = pure ctx) (sk m k : Scalar) (hk : ¬ n ∣ k.val)
    (π : Profile) (r s : Scalar) (id : UInt8) (h : signRaw ctx sk m k π = some (.ok (r, s, id))) (hr : r.val ≠ 0) (hr' : r.val < n) :
    (sk.val : ZMod n) = (s.val * k.val - m.val) / r.val ∨ (sk.val : ZMod n) = (-(s.val * k.val) - m.val) / r.val := by
  obtain ⟨x, y, hpt⟩ := IsPt.of_ne_zero (P := k.val • G) (fun h => hk ((smul_eq_zero_iff G_ne_zero).1 h))
  obtain ⟨_, a⟩ := sign_raw_equation hctx hk hpt h
  have hr0 : (r.val : ZMod n) ≠ 0 := by
    rw [ne_eq, ZMod.natCast_eq_zero_iff]; exact fun h => absurd (Nat.le_of_dvd (by omega) h) (by omega)
  rcases a with ⟨_, e⟩ | ⟨_, e⟩
  · left; rw [eq_div_iff hr0, e]; ring
  · right; rw [eq_div_iff hr0, e]; ring

/-- C77. Two signatures whose nonces and keys are in known affine relations `k₂ = α k₁ + β`, `d₂ = γ d₁ + δ` give a linear
equation for the secret key, up to the signs of `s₁` and `s₂`; the key is one of four known values unless the coefficient
is zero. (Reuse of a nonce is `α = 1`, `β = 0`; a tweaked key is `γ = 1` or `δ = 0`.) -/
theorem C77_related_nonces (ctx : Ecmult.GenContext) (hctx : Ecmult.newGenContext = pure ctx) (d₁ d₂ m₁ m₂ k₁ k₂ : Scalar)
    (hk₁ : ¬ n ∣ k₁.val) (hk₂ : ¬ n ∣ k₂.val) (π₁ π₂ : Profile) (r₁ r₂ s₁ s₂ : Scalar) (id₁ id₂ : UInt8)
    (h₁ : signRaw ctx d₁ m₁ k₁ π₁ = some (.ok (r₁, s₁, id₁))) (h₂ : signRaw ctx d₂ m₂ k₂ π₂ = some (.ok (r₂, s₂, id₂)))
    (α β γ δ : ZMod n) (hk : (k₂.val : ZMod n) = α * k₁.val + β) (hd : (d₂.val : ZMod n) = γ * d₁.val + δ) :
    ∃ e₁ ∈ ({1, -1} : Set (ZMod n)), ∃ e₂ ∈ ({1, -1} : Set (ZMod n)),
      let t₁ := e₁ * s₁.val
      let t₂ := e₂ * s₂.val
      (d₁.val : ZMod n) * (α * t₂ * r₁.val - γ * t₁ * r₂.val) = t₁ * (m₂.val + r₂.val * δ) - α * t₂ * m₁.val - β * t₁ * t₂ ∧
      (α * t₂ * r₁.val ≠ γ * t₁ * r₂.val → (d₁.val : ZMod n) =
        (t₁ * (m₂.val + r₂.val * δ) - α * t₂ * m₁.val - β * t₁ * t₂) / (α * t₂ * r₁.val - γ * t₁ * r₂.val)) := by
  have sgn : ∀ {d m k r s : Scalar} {π : Profile} {id : UInt8}, ¬ n ∣ k.val → signRaw ctx d m k π = some (.ok (r, s, id)) →
      ∃ e ∈ ({1, -1} : Set (ZMod n)), e * s.val * k.val = m.val + r.val * d.val := by
    intro d m k r s π id hk h
    obtain ⟨x, y, hpt⟩ := IsPt.of_ne_zero (P := k.val • G) (fun h => hk ((smul_eq_zero_iff G_ne_zero).1 h))
    obtain ⟨_, a⟩ := sign_raw_equation hctx hk hpt h
    rcases a with ⟨_, e⟩ | ⟨_, e⟩
    · exact ⟨1, Or.inl rfl, by rw [one_mul, e]⟩
    · exact ⟨-1, Or.inr rfl, by rw [neg_one_mul, neg_mul, e]; ring⟩
  obtain ⟨e₁, he₁, q₁⟩ := sgn hk₁ h₁
  obtain ⟨e₂, he₂, q₂⟩ := sgn hk₂ h₂
  rw [hk, hd] at q₂
  refine ⟨e₁, he₁, e₂, he₂, ?_⟩
  dsimp only
  generalize (d₁.val : ZMod n) = d at *
  generalize (k₁.val : ZMod n) = k at *
  have key : d * (α * (e₂ * s₂.val) * r₁.val - γ * (e₁ * s₁.val) * r₂.val) =
      e₁ * s₁.val * (m₂.val + r₂.val * δ) - α * (e₂ * s₂.val) * m₁.val - β * (e₁ * s₁.val) * (e₂ * s₂.val) := by
    linear_combination (-(α * (e₂ * s₂.val))) * q₁ + (e₁ * s₁.val) * q₂
  exact ⟨key, fun hne => by rw [eq_div_iff (sub_ne_zero.2 hne)]; exact key⟩

/-- The hypotheses of C77 are met: with key 1 and nonce 1, the messages 1 and 2 are both signed. (`C77_related_nonces` applies
to the two with `α = 2`, `β = -1`, `γ = 3`, `δ = -2`, for instance.) -/
example : ∃ ctx m₁ m₂ r₁ r₂ s₁ s₂ id₁ id₂, Ecmult.newGenContext = pure ctx ∧ (m₁.val : ZMod n) ≠ m₂.val ∧ r₁.val ≠ 0 ∧ r₁.val < n ∧
    signRaw ctx scalarOne m₁ scalarOne .debug = some (.ok (r₁, s₁, id₁)) ∧ signRaw ctx scalarOne m₂ scalarOne .debug = some (.ok (r₂, s₂, id₂)) := by
  obtain ⟨ctx, hctx, _⟩ := Ecmult.newGenContext_runs
  have h1 : scalarOne.val = 1 := by decide +kernel
  have hgx : ((Gx : ℕ) : Fp).val = Gx := by rw [ZMod.val_natCast]; decide +kernel
  have hlt : Gx < n := by decide +kernel
  have key : ∀ v : ℕ, v = 1 ∨ v = 2 → ∃ m r s id, m.val = v ∧ r.val ≠ 0 ∧ r.val < n ∧ signRaw ctx scalarOne m scalarOne .debug = some (.ok (r, s, id)) := by
    intro v hv
    obtain ⟨m, hm⟩ := exists_scalar (v := v) (by have : 2 < n := by decide +kernel
                                                 omega)
    obtain ⟨x, y, o, hpt, _, herr, hsig, hp, _⟩ := C54_sign_raw_partial ctx hctx scalarOne m scalarOne (by rw [h1]; decide +kernel)
    rw [h1, one_nsmul] at hpt
    obtain ⟨rfl, rfl⟩ := isPt_G.inj hpt
    rw [hgx] at herr hsig hp
    cases o with
    | ok a =>
      obtain ⟨r, s, id⟩ := a
      obtain ⟨⟨hr, _⟩, h0⟩ := hsig r s id rfl
      rw [hgx, Nat.mod_eq_of_lt hlt] at hr
      exact ⟨m, r, s, id, hm, fun h => by have := h0.1 h; omega, by omega, by rw [hp hlt]; rfl⟩
    | error e =>
      have := ((herr e).1 rfl).2
      rw [h1, Nat.cast_one, mul_one, hm, ← Nat.cast_add, ZMod.natCast_eq_zero_iff] at this
      exact absurd this (by rcases hv with rfl | rfl <;> decide +kernel)
  obtain ⟨m₁, r₁, s₁, id₁, e₁, a₁, b₁, c₁⟩ := key 1 (Or.inl rfl)
  obtain ⟨m₂, r₂, s₂, id₂, e₂, a₂, b₂, c₂⟩ := key 2 (Or.inr rfl)
  refine ⟨ctx, m₁, m₂, r₁, r₂, s₁, s₂, id₁, id₂, hctx, ?_, a₁, b₁, c₁, c₂⟩
  rw [e₁, e₂, ne_eq, ZMod.natCast_eq_natCast_iff']
  decide +kernel

end Verif.Props
