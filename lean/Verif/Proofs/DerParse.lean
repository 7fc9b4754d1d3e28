import Verif.Proofs.Der

/-! What the DER parsers accept, and what the DER serializer emits. -/

namespace Verif
open Spec

/-! ## Lengths and contents -/

theorem beNat_nil : beNat [] = 0 := rfl

theorem beNat_single (b : UInt8) : beNat [b] = b.toNat := by rw [beNat_cons, beNat_nil]; simp

theorem derNat_single {b : UInt8} {v : ℕ} : DerNat [b] v ↔ v = b.toNat ∧ b.toNat < 128 := by
  unfold DerNat
  rw [beNat_single]
  simp only [List.length_singleton, Nat.sub_self, pow_zero, mul_one]
  constructor
  · rintro ⟨_, rfl, h, _⟩; exact ⟨rfl, h⟩
  · rintro ⟨rfl, h⟩; exact ⟨by simp, rfl, h, fun h => absurd rfl h⟩

theorem derNat_cons {a b : UInt8} {c : List UInt8} {v : ℕ} :
    DerNat (a :: b :: c) v ↔ v = beNat (a :: b :: c) ∧ a.toNat < 128 ∧ (a = 0 → 128 ≤ b.toNat) := by
  unfold DerNat
  simp only [List.length_cons, Nat.add_sub_cancel, show c.length + 1 + 1 - 2 = c.length by omega]
  have hb := beNat_cons b c
  have ha := beNat_cons a (b :: c)
  have hl1 := beNat_lt (b :: c)
  have hl := beNat_lt c
  rw [List.length_cons] at hl1 ha
  have hpos : 0 < 256 ^ c.length := by positivity
  have hs : 256 ^ (c.length + 1) = 256 * 256 ^ c.length := by rw [pow_succ, mul_comm]
  have ha0 : a = 0 ↔ a.toNat = 0 := ⟨fun h => by rw [h]; rfl, fun h => UInt8.toNat_inj.1 h⟩
  have h8 := u8_le b
  generalize 256 ^ c.length = X at *
  rw [hs] at hl1 ha ⊢
  constructor
  · rintro ⟨_, rfl, h1, h2⟩
    have h2 := h2 (by omega)
    refine ⟨rfl, ?_, fun h0 => ?_⟩
    · by_contra hc
      have : 128 * (256 * X) ≤ a.toNat * (256 * X) := Nat.mul_le_mul_right _ (by omega)
      omega
    · rw [ha0.1 h0] at ha
      by_contra hc
      have : b.toNat * X ≤ 127 * X := Nat.mul_le_mul_right _ (by omega)
      omega
  · rintro ⟨rfl, h1, h2⟩
    refine ⟨by simp, rfl, ?_, fun _ => ?_⟩
    · have : a.toNat * (256 * X) ≤ 127 * (256 * X) := Nat.mul_le_mul_right _ (by omega)
      omega
    · by_cases h0 : a = 0
      · have : 128 * X ≤ b.toNat * X := Nat.mul_le_mul_right _ (h2 h0)
        omega
      · have : 1 * (256 * X) ≤ a.toNat * (256 * X) := Nat.mul_le_mul_right _ (by
          rw [ha0] at h0; omega)
        omega

/-- The contents of an integer are determined by it. -/
theorem derNat_unique {c d : List UInt8} {v : ℕ} (hc : DerNat c v) (hd : DerNat d v) : c = d := by
  have key : ∀ {c d : List UInt8}, DerNat c v → DerNat d v → ¬ c.length < d.length := by
    intro c d ⟨hc, _, h1, _⟩ ⟨hd, _, _, h2⟩ hlt
    have hc0 := List.length_pos_iff.2 hc
    have := h2 (by omega)
    have : 256 ^ (c.length - 1) ≤ 256 ^ (d.length - 2) := Nat.pow_le_pow_right (by omega) (by omega)
    omega
  have := key hc hd
  have := key hd hc
  exact beNat_inj (by omega) (hc.2.1.trans hd.2.1.symm)

theorem derLen_short {L : List UInt8} {v : ℕ} (h : DerLen L v) (hv : v < 128) : ∃ b : UInt8, b.toNat = v ∧ L = [b] := by
  rcases h with ⟨b, _, h1, h2⟩ | ⟨b, c, _, _, _, _, h, _⟩
  · exact ⟨b, h2.symm, h1⟩
  · omega

theorem derLen_of_lt {v : ℕ} (hv : v < 128) : DerLen [UInt8.ofNat v] v := by
  refine Or.inl ⟨_, ?_, rfl, ?_⟩ <;> rw [UInt8.toNat_ofNat'] <;> omega

theorem derLen_unique {L M : List UInt8} {v : ℕ} (h : DerLen L v) (h' : DerLen M v) : L = M := by
  rcases h with ⟨b, hb, rfl, rfl⟩ | ⟨b, c, hb, hc, rfl, rfl, h1, h2⟩
  · obtain ⟨b', hb', rfl⟩ := derLen_short h' hb
    rw [UInt8.toNat_inj.1 hb']
  · rcases h' with ⟨b', hb', rfl, e⟩ | ⟨b', d, hb', hd, rfl, e, h3, h4⟩
    · omega
    · have hl : c.length = d.length := by
        have hc1 := beNat_lt c
        have hd1 := beNat_lt d
        have k1 : c.length - 1 < d.length := (Nat.pow_lt_pow_iff_right (by omega : 1 < 256)).1 (by omega)
        have k2 : d.length - 1 < c.length := (Nat.pow_lt_pow_iff_right (by omega : 1 < 256)).1 (by omega)
        omega
      rw [beNat_inj hl e, UInt8.toNat_inj.1 (show b.toNat = b'.toNat by omega)]

theorem derInteger_unique {v : ℕ} {a b : List UInt8} (ha : DerInteger v a) (hb : DerInteger v b) : a = b := by
  obtain ⟨c, hc, L, hL, rfl⟩ := ha
  obtain ⟨d, hd, M, hM, rfl⟩ := hb
  obtain rfl := derNat_unique hc hd
  rw [derLen_unique hL hM]

theorem derSignature_unique {r s : ℕ} {a b : List UInt8} (ha : DerSignature r s a) (hb : DerSignature r s b) : a = b := by
  obtain ⟨i, j, hi, hj, L, hL, rfl⟩ := ha
  obtain ⟨i', j', hi', hj', M, hM, rfl⟩ := hb
  obtain rfl := derInteger_unique hi hi'
  obtain rfl := derInteger_unique hj hj'
  rw [derLen_unique hL hM]

/-! ## Lengths -/

theorem readLen_short {b : UInt8} {t : List UInt8} (h : b.toNat < 128) : Pa.readLen (b :: t) = some (b.toNat, t) := by
  have h1 : ¬ (b == 0xff) = true := by
    intro hc
    rw [show b = 0xff by simpa using hc] at h
    revert h; decide
  show (if b == 0xff then Pa.fail else if b &&& 0x80 == 0 then pure b.toNat else _ : Pa ℕ) t = _
  rw [if_neg h1, if_pos (u8_high.2 h)]; rfl

theorem readLen_some {l t : List UInt8} {v : ℕ} (h : Pa.readLen l = some (v, t)) :
    ∃ L, l = L ++ t ∧ DerLen L v ∧ (128 ≤ v → v < t.length) := by
  cases l with
  | nil => cases h
  | cons b l =>
    by_cases hb : b.toNat < 128
    · rw [readLen_short hb] at h
      simp only [Option.some.injEq, Prod.mk.injEq] at h
      obtain ⟨rfl, rfl⟩ := h
      exact ⟨[b], rfl, Or.inl ⟨b, hb, rfl, rfl⟩, fun h => absurd h (by omega)⟩
    · unfold Pa.readLen at h
      rw [Pa.bind_of (a := b) (t := l) rfl] at h
      split at h
      · cases h
      rename_i hff
      rw [if_neg (by rw [u8_high]; exact hb)] at h
      split at h
      · cases h
      rw [Pa.bind_of (a := l.length) (t := l) rfl] at h
      split at h
      · cases h
      rename_i h80 hle
      obtain ⟨x, u, hp, h⟩ := Pa.bind_some.1 h
      simp only [Pa.peek, Option.map_eq_some_iff, Prod.mk.injEq] at hp
      obtain ⟨x', hx, rfl, rfl⟩ := hp
      split at h
      · cases h
      rename_i hx0
      obtain ⟨ret, u, hl, h⟩ := Pa.bind_some.1 h
      split at h
      · cases h
      rename_i h128
      rw [Pa.pure_app] at h
      simp only [Option.some.injEq, Prod.mk.injEq] at h
      obtain ⟨rfl, rfl⟩ := h
      obtain ⟨c, rfl, hc, e, hlt⟩ := readLenLoop_some hl
      rw [zero_mul, zero_add] at e
      rw [u8_low] at hc
      have h8 := u8_le b
      have hb255 : b.toNat ≠ 255 := fun h => hff (by rw [beq_iff_eq]; exact UInt8.toNat_inj.1 h)
      have hb128 : b.toNat ≠ 128 := fun h => h80 (by rw [beq_iff_eq]; exact UInt8.toNat_inj.1 h)
      refine ⟨b :: c, rfl, Or.inr ⟨b, c, by omega, by omega, rfl, e, by omega, ?_⟩, fun _ => hlt ?_⟩
      · cases c with
        | nil => simp at hc; omega
        | cons y c =>
          have : y = x' := by simpa using hx
          subst this
          rw [e]
          exact le_beNat_cons (by simpa using hx0)
      · rw [u8_low]; omega

/-! ## Integers -/

theorem finishInt_of {c t : List UInt8} : Pa.finishInt false c.length (c ++ t) =
    if c = [] ∧ t = [] then none else some (intOf (beNat c), t) := by
  have hiff : (c.length = 0 ∧ c ++ t = []) ∨ (c ++ t).length < c.length ↔ c = [] ∧ t = [] := by
    rw [List.length_append, List.append_eq_nil_iff, List.length_eq_zero_iff]
    constructor
    · rintro (h | h)
      · exact h.2
      · omega
    · exact fun h => Or.inl ⟨h.1, h⟩
  show (Pa.peekSlice c.length >>= fun s => Pa.skip c.length >>= fun _ => pure (intOf (beNat s))) (c ++ t) = _
  by_cases h : c = [] ∧ t = []
  · rw [if_pos h, Pa.bind_none]
    simp only [Pa.peekSlice, hiff, if_pos h]
  · have h1 : Pa.peekSlice c.length (c ++ t) = some (c, c ++ t) := by
      simp only [Pa.peekSlice, hiff, if_neg h, List.take_left]
    have h2 : Pa.skip c.length (c ++ t) = some ((), t) := by
      simp only [Pa.skip, hiff, if_neg h, List.drop_left]
    rw [if_neg h, Pa.bind_of h1, Pa.bind_of h2]; rfl

theorem zero_iff_dropWhile {c : List UInt8} : c.dropWhile (· == 0) = [] ↔ beNat c = 0 := by
  constructor
  · intro h; rw [← beNat_dropWhile, h]; rfl
  · intro h
    by_contra hc
    have := le_beNat_dropWhile hc
    have : 0 < 256 ^ ((c.dropWhile (· == 0)).length - 1) := by positivity
    omega

theorem big_iff_dropWhile {c : List UInt8} : 32 < (c.dropWhile (· == 0)).length ↔ 2 ^ 256 ≤ beNat c := by
  constructor
  · intro h
    refine le_trans ?_ (le_beNat_dropWhile (by rintro h0; rw [h0] at h; simp at h))
    rw [show 256 = 2 ^ 8 from rfl, ← pow_mul]
    exact Nat.pow_le_pow_right (by omega) (by omega)
  · intro h
    by_contra hc
    have h1 := beNat_lt (c.dropWhile (· == 0))
    rw [beNat_dropWhile] at h1
    have h2 : 256 ^ (c.dropWhile (· == 0)).length ≤ 2 ^ 256 := by
      rw [show 256 = 2 ^ 8 from rfl, ← pow_mul]
      exact Nat.pow_le_pow_right (by omega) (by omega)
    omega

/-- The first byte is there and below 128. -/
def lowHead : List UInt8 → Bool
  | [] => false
  | b :: _ => b &&& 0x80 == 0

theorem badLead_of {x a : UInt8} {c t : List UInt8} : Pa.badLead x (a :: c).length (a :: c ++ t) =
    some (a == x && lowHead c, a :: c ++ t) := by
  show (if a == x && decide ((a :: c).length > 1) then (Pa.peek 1 >>= fun b' => pure (b' &&& 0x80 == 0)) else pure false : Pa Bool) (a :: c ++ t) = _
  cases c with
  | nil =>
    rw [if_neg (by simp)]
    simp [Pa.pure_app, lowHead]
  | cons b c =>
    by_cases h : (a == x) = true
    · rw [if_pos (by simp [h]), h]; rfl
    · rw [if_neg (by simp [h]), Bool.eq_false_iff.2 h]; rfl

/-- Reading an integer whose length has been read. -/
theorem readInteger_eq {l : List UInt8} {a : UInt8} {c t : List UInt8} (hl : Pa.readLen l = some ((a :: c).length, a :: c ++ t)) :
    Pa.readInteger (2 :: l) =
      if (a == 0 && lowHead c) then none
      else if (a == 0xff && lowHead c) then none
      else Pa.finishInt ((a &&& 0x80 == 0x80) || decide (((a :: c).dropWhile (· == 0)).length > 32)) ((a :: c).dropWhile (· == 0)).length
        ((a :: c).dropWhile (· == 0) ++ t) := by
  unfold Pa.readInteger
  rw [Pa.bind_of (a := 2) (t := l) rfl, if_neg (by decide), Pa.bind_of hl, Pa.bind_of (a := (a :: c ++ t).length) (t := a :: c ++ t) rfl,
    if_neg (by simp), Pa.bind_of badLead_of]
  by_cases h1 : (a == 0 && lowHead c) = true
  · rw [if_pos h1, if_pos h1]; rfl
  · rw [if_neg h1, if_neg h1, Pa.bind_of badLead_of]
    by_cases h2 : (a == 0xff && lowHead c) = true
    · rw [if_pos h2, if_pos h2]; rfl
    · rw [if_neg h2, if_neg h2, Pa.bind_of (a := a) (t := a :: c ++ t) rfl, Pa.bind_of (skipZeros_append (a :: c) t)]

/-- The content of an INTEGER below `2^256` is short. -/
theorem derNat_length {c : List UInt8} {v : ℕ} (h : DerNat c v) (hv : v < 2 ^ 256) : c.length ≤ 33 := by
  by_contra hc
  have := h.2.2.2 (by omega)
  have h2 : 256 ^ 32 ≤ 256 ^ (c.length - 2) := Nat.pow_le_pow_right (by omega) (by omega)
  have e : (256 : ℕ) ^ 32 = 2 ^ 256 := by norm_num
  omega

/-- A minimal nonnegative integer below `2^256` is read. -/
theorem readInteger_of {l c t : List UInt8} {v : ℕ} (hl : Pa.readLen l = some (c.length, c ++ t)) (hc : DerNat c v) (hv : v < 2 ^ 256)
    (h0 : v = 0 → t ≠ []) : Pa.readInteger (2 :: l) = some (intOf v, t) := by
  cases c with
  | nil => exact absurd rfl hc.1
  | cons a c =>
    have hbig : ¬ ((a :: c).dropWhile (· == 0)).length > 32 := by
      intro h
      have := big_iff_dropWhile.1 h
      rw [hc.2.1] at this; omega
    have hfin : Pa.finishInt false ((a :: c).dropWhile (· == 0)).length ((a :: c).dropWhile (· == 0) ++ t) = some (intOf v, t) := by
      rw [finishInt_of, beNat_dropWhile, hc.2.1, if_neg]
      rintro ⟨h1, h2⟩
      rw [zero_iff_dropWhile, hc.2.1] at h1
      exact h0 h1 h2
    rw [readInteger_eq hl, decide_eq_false hbig, Bool.or_false]
    have ha : a.toNat < 128 := by
      cases c with
      | nil => exact (derNat_single.1 hc).2
      | cons b c => exact (derNat_cons.1 hc).2.1
    have hneg : (a &&& 0x80 == 0x80) = false := by
      rw [Bool.eq_false_iff, ne_eq, u8_high']; omega
    have hff : (a == 0xff) = false := by
      rw [Bool.eq_false_iff]; intro h
      rw [show a = 0xff by simpa using h] at ha
      revert ha; decide
    rw [hneg, hfin, hff, Bool.false_and, if_neg (c := false = true) (by decide)]
    cases c with
    | nil => rw [lowHead, Bool.and_false, if_neg (by decide)]
    | cons b c =>
      rw [if_neg]
      rw [Bool.and_eq_true, beq_iff_eq]
      rintro ⟨h, h'⟩
      have h1 := (derNat_cons.1 hc).2.2 h
      have h2 := (u8_high (b := b)).1 h'
      omega

/-- An integer of more than 256 bits whose contents do not begin with zero is taken for zero, and
its contents are not skipped. -/
theorem readInteger_big {l c t : List UInt8} {a : UInt8} (hl : Pa.readLen l = some ((a :: c).length, a :: c ++ t))
    (ha0 : a ≠ 0) (ha : a.toNat < 128) (hc : 32 < (a :: c).length) : Pa.readInteger (2 :: l) = some (Scalar.zero, a :: c ++ t) := by
  have h0 : (a == 0) = false := by simpa using ha0
  have hff : (a == 0xff) = false := by
    rw [Bool.eq_false_iff]; intro h
    rw [show a = 0xff by simpa using h] at ha
    revert ha; decide
  have hd : (a :: c).dropWhile (· == 0) = a :: c := by
    rw [List.dropWhile_cons, if_neg (by simp [h0])]
  rw [readInteger_eq hl, h0, hff, hd, Bool.false_and, if_neg (by decide), if_neg (by decide), decide_eq_true hc, Bool.or_true]
  rfl

/-- What `read_integer` accepts. -/
theorem readInteger_some {l u : List UInt8} {x : Scalar} (h : Pa.readInteger l = some (x, u)) :
    ∃ L c t, l = 2 :: (L ++ (c ++ t)) ∧ DerLen L c.length ∧
      ((∃ v, DerNat c v ∧ v < 2 ^ 256 ∧ x = intOf v ∧ u = t ∧ (v = 0 → t ≠ [])) ∨
       (∃ v, DerNat c v ∧ 2 ^ 256 ≤ v ∧ x = Scalar.zero ∧ u = c.dropWhile (· == 0) ++ t) ∨
       (∃ b d, c = b :: d ∧ 128 ≤ b.toNat ∧ x = Scalar.zero ∧ u = c ++ t)) := by
  have h' := h
  unfold Pa.readInteger at h'
  obtain ⟨b, l1, hr, h'⟩ := Pa.bind_some.1 h'
  cases l with
  | nil => cases hr
  | cons b' l' =>
    simp only [Pa.read, Option.some.injEq, Prod.mk.injEq] at hr
    obtain ⟨rfl, rfl⟩ := hr
    by_cases hb2 : b' = 2
    swap
    · rw [if_pos (by simpa using hb2)] at h'; cases h'
    subst hb2
    rw [if_neg (by decide)] at h'
    obtain ⟨k, l2, hlen, h'⟩ := Pa.bind_some.1 h'
    rw [Pa.bind_of (a := l2.length) (t := l2) rfl] at h'
    split at h'
    · cases h'
    rename_i hk
    simp only [Bool.or_eq_true, beq_iff_eq, decide_eq_true_eq, not_or] at hk
    clear h'
    obtain ⟨L, rfl, hL, _⟩ := readLen_some hlen
    obtain ⟨c, t, rfl, hck⟩ : ∃ c t, l2 = c ++ t ∧ c.length = k := ⟨l2.take k, l2.drop k, (List.take_append_drop _ _).symm, by
      rw [List.length_take]; omega⟩
    subst hck
    refine ⟨L, c, t, rfl, hL, ?_⟩
    cases c with
    | nil => exact absurd rfl hk.1
    | cons a c =>
      rw [readInteger_eq hlen] at h
      split at h
      · cases h
      rename_i hlead
      split at h
      · cases h
      clear hlen
      by_cases ha : 128 ≤ a.toNat
      · right; right
        have hd : (a :: c).dropWhile (· == 0) = a :: c := by
          rw [List.dropWhile_cons, if_neg]
          intro h0
          rw [show a = 0 by simpa using h0] at ha
          revert ha; decide
        rw [u8_high'.2 ha, Bool.true_or, hd] at h
        simp only [Pa.finishInt, if_true, Pa.pure_app, Option.some.injEq, Prod.mk.injEq] at h
        exact ⟨a, c, rfl, ha, h.1.symm, h.2.symm⟩
      · have hneg : (a &&& 0x80 == 0x80) = false := by
          rw [Bool.eq_false_iff, ne_eq, u8_high']; exact ha
        have hnat : DerNat (a :: c) (beNat (a :: c)) := by
          cases c with
          | nil => exact derNat_single.2 ⟨beNat_single a, by omega⟩
          | cons b c =>
            refine derNat_cons.2 ⟨rfl, by omega, fun h0 => ?_⟩
            by_contra hb
            apply hlead
            simp only [Bool.and_eq_true]
            exact ⟨by rw [h0]; rfl, u8_high.2 (by omega)⟩
        rw [hneg, Bool.false_or] at h
        by_cases hbig : ((a :: c).dropWhile (· == 0)).length > 32
        · right; left
          rw [decide_eq_true hbig] at h
          simp only [Pa.finishInt, if_true, Pa.pure_app, Option.some.injEq, Prod.mk.injEq] at h
          exact ⟨_, hnat, big_iff_dropWhile.1 hbig, h.1.symm, h.2.symm⟩
        · left
          rw [decide_eq_false hbig, finishInt_of, beNat_dropWhile] at h
          split at h
          · cases h
          · rename_i hne
            simp only [Option.some.injEq, Prod.mk.injEq] at h
            refine ⟨_, hnat, ?_, h.1.symm, h.2.symm, fun h0 ht => hne ⟨zero_iff_dropWhile.2 h0, ht⟩⟩
            by_contra hc
            exact hbig (big_iff_dropWhile.2 (by omega))

/-! ## Strict parsing -/

/-- The two shapes of input that strict parsing accepts. -/
def StrictAccept (b : List UInt8) (r s : ℕ) : Prop :=
  (∃ u v, DerSignature u v b ∧ u < 2 ^ 256 ∧ 0 < v ∧ v < 2 ^ 256 ∧ r = component u ∧ s = component v) ∨
  (∃ L k j v, DerLen L k ∧ 33 ≤ k ∧ k ≤ j.length ∧ DerInteger v j ∧ 0 < v ∧ v < 2 ^ 256 ∧
    DerTlv 0x30 (0x02 :: (L ++ j)) b ∧ r = 0 ∧ s = component v)

theorem component_zero : component 0 = 0 := by unfold component; split <;> rfl

theorem derInteger_length {v : ℕ} {j : List UInt8} (h : DerInteger v j) (hv : v < 2 ^ 256) :
    ∃ (b : UInt8) (c : List UInt8), j = 2 :: b :: c ∧ b.toNat = c.length ∧ c.length ≤ 33 ∧ DerNat c v := by
  obtain ⟨c, hc, L, hL, rfl⟩ := h
  have hl := derNat_length hc hv
  obtain ⟨b, hb, rfl⟩ := derLen_short hL (by omega)
  exact ⟨b, c, rfl, hb, hl, hc⟩

theorem readInteger_derInteger {v : ℕ} {j t : List UInt8} (h : DerInteger v j) (hv : v < 2 ^ 256) (h0 : v = 0 → t ≠ []) :
    Pa.readInteger (j ++ t) = some (intOf v, t) := by
  obtain ⟨b, c, rfl, hb, hl, hc⟩ := derInteger_length h hv
  exact readInteger_of (l := b :: (c ++ t)) (by rw [readLen_short (by omega), hb]) hc hv h0

theorem parseDer_some {l u : List UInt8} {sig : Signature} (h : Pa.parseDer l = some (sig, u)) :
    StrictAccept l sig.r.val sig.s.val := by
  unfold Pa.parseDer at h
  obtain ⟨_, l1, hc, h⟩ := Pa.bind_some.1 h
  obtain ⟨k, l2, hlen, h⟩ := Pa.bind_some.1 h
  rw [Pa.bind_of (a := l2.length) (t := l2) rfl] at h
  split at h
  · cases h
  rename_i hk
  have hk : k = l2.length := by simpa using hk
  subst hk
  obtain ⟨r, l3, hr, h⟩ := Pa.bind_some.1 h
  obtain ⟨s, l4, hs, h⟩ := Pa.bind_some.1 h
  rw [Pa.bind_of (a := l4.length) (t := l4) rfl] at h
  split at h
  · cases h
  rename_i hl4
  have hl4 : l4 = [] := by simpa using hl4
  subst hl4
  rw [Pa.pure_app] at h
  simp only [Option.some.injEq, Prod.mk.injEq] at h
  obtain ⟨rfl, _⟩ := h
  have hl : l = 0x30 :: l1 := by
    cases l with
    | nil => cases hc
    | cons b l =>
      have hc' : (if b == 0x30 then pure () else Pa.fail : Pa Unit) l = some ((), l1) := hc
      split at hc'
      · rename_i hb
        simp only [Pa.pure_app, Option.some.injEq, Prod.mk.injEq] at hc'
        rw [hc'.2, show b = 0x30 by simpa using hb]
      · cases hc'
  subst hl
  obtain ⟨L, rfl, hL, _⟩ := readLen_some hlen
  have hnil : ∀ {c t : List UInt8}, c ≠ [] → [] ≠ c ++ t := fun h e => h (List.append_eq_nil_iff.1 e.symm).1
  -- the second integer
  obtain ⟨v, j, hj, hv0, hv, rfl, rfl⟩ : ∃ v j, DerInteger v j ∧ 0 < v ∧ v < 2 ^ 256 ∧ s = intOf v ∧ l3 = j := by
    obtain ⟨L', c, t, rfl, hL', h⟩ := readInteger_some hs
    rcases h with ⟨v, h1, h2, rfl, ht, h0⟩ | ⟨v, h1, h2, rfl, ht⟩ | ⟨b, d, rfl, _, rfl, ht⟩
    · subst ht
      rw [List.append_nil]
      exact ⟨v, _, ⟨c, h1, L', hL', rfl⟩, Nat.pos_of_ne_zero fun h => h0 h rfl, h2, rfl, rfl⟩
    · refine absurd ht (hnil fun h => ?_)
      rw [zero_iff_dropWhile, h1.2.1] at h
      rw [h] at h2
      exact absurd h2 (by norm_num)
    · exact absurd ht (hnil (by simp))
  obtain ⟨L', c, t, rfl, hL', h⟩ := readInteger_some hr
  rcases h with ⟨u, h1, h2, rfl, rfl, _⟩ | ⟨u, h1, h2, rfl, ht⟩ | ⟨b, d, rfl, hb, rfl, ht⟩
  · left
    refine ⟨u, v, ⟨2 :: (L' ++ c), l3, ⟨c, h1, L', hL', rfl⟩, hj, L, ?_, ?_⟩, h2, hv0, hv, intOf_val u, intOf_val v⟩
    · simpa using hL
    · simp
  · right
    obtain ⟨b', c', rfl, _⟩ := derInteger_length hj hv
    have hcne := h1.1
    have hd : c.dropWhile (· == 0) = c := by
      cases c with
      | nil => rfl
      | cons a c =>
        rw [List.dropWhile_cons]
        split
        · rename_i h0
          exfalso
          have h0 : a = 0 := by simpa using h0
          cases c with
          | nil =>
            have := (derNat_single.1 h1)
            rw [this.1] at h2
            have : (128 : ℕ) < 2 ^ 256 := by norm_num
            omega
          | cons a' c =>
            have ha' := (derNat_cons.1 h1).2.2 h0
            rw [List.dropWhile_cons, if_pos (by simp [h0]), List.dropWhile_cons, if_neg, List.cons_append, List.cons.injEq] at ht
            · rw [← ht.1] at ha'
              revert ha'; decide
            · intro h; rw [show a' = 0 by simpa using h] at ha'
              revert ha'; decide
        · rfl
    rw [hd] at ht
    rw [← ht] at hL ⊢
    refine ⟨L', c.length, _, v, hL', ?_, ?_, hj, hv0, hv, ⟨L, hL, rfl⟩, Scalar.zero_val, intOf_val v⟩
    · have := big_iff_dropWhile.2 (h1.2.1 ▸ h2)
      rw [hd] at this
      exact this
    · rw [ht, List.length_append]; omega
  · exfalso
    obtain ⟨b', c', rfl, _⟩ := derInteger_length hj hv
    rw [List.cons_append, List.cons.injEq] at ht
    rw [← ht.1] at hb
    revert hb; decide

theorem parseDer_of {l : List UInt8} {sig : Signature} (h : StrictAccept l sig.r.val sig.s.val) :
    Pa.parseDer l = some (sig, []) := by
  have key : ∀ {content : List UInt8} {r s : Scalar} {t : List UInt8}, content.length < 128 → DerTlv 0x30 content l →
      Pa.readInteger content = some (r, t) → Pa.readInteger t = some (s, []) → r = sig.r → s = sig.s →
      Pa.parseDer l = some (sig, []) := by
    intro content r s t hlt ⟨L, hL, e⟩ hr hs h1 h2
    subst e h1 h2
    obtain ⟨b, hb, rfl⟩ := derLen_short hL hlt
    unfold Pa.parseDer
    rw [Pa.bind_of (a := ()) (t := [b] ++ content) rfl, List.singleton_append, Pa.bind_of (readLen_short (by omega)), Pa.bind_of (a := content.length) (t := content) rfl,
      if_neg (by simp [hb]), Pa.bind_of hr, Pa.bind_of hs]
    rfl
  rcases h with ⟨u, v, ⟨i, j, hi, hj, hb⟩, hu, hv0, hv, hr, hs⟩ | ⟨L, k, j, v, hL, hk, hkj, hj, hv0, hv, hb, hr, hs⟩
  · obtain ⟨b1, c1, e1, _, hl1, _⟩ := derInteger_length hi hu
    obtain ⟨b2, c2, e2, _, hl2, _⟩ := derInteger_length hj hv
    have hlen : (i ++ j).length < 128 := by rw [e1, e2]; simp; omega
    refine key hlen hb (readInteger_derInteger hi hu fun _ => by rw [e2]; simp) (s := intOf v) ?_ ?_ ?_
    · have := readInteger_derInteger (t := []) hj hv (fun h => by omega)
      rwa [List.append_nil] at this
    · exact Scalar.val_inj (by rw [intOf_val, hr])
    · exact Scalar.val_inj (by rw [intOf_val, hs])
  · obtain ⟨b2, c2, e2, _, hl2, _⟩ := derInteger_length hj hv
    have hjl : j.length ≤ 35 := by rw [e2]; simp; omega
    obtain ⟨b, hb', rfl⟩ := derLen_short hL (by omega)
    refine key (by simp; omega) hb (r := Scalar.zero) (t := j) (s := intOf v) ?_ ?_ ?_ ?_
    · have hsplit : j = 2 :: ((b2 :: c2).take (k - 1)) ++ (b2 :: c2).drop (k - 1) := by
        rw [List.cons_append, List.take_append_drop]; exact e2
      have hlen : (2 :: (b2 :: c2).take (k - 1)).length = k := by
        rw [e2, List.length_cons] at hkj
        rw [List.length_cons, List.length_take, Nat.min_eq_left (by omega)]; omega
      have := readInteger_big (l := b :: j) (a := 2) (c := (b2 :: c2).take (k - 1)) (t := (b2 :: c2).drop (k - 1))
        (by rw [hlen, ← hsplit, ← hb']; exact readLen_short (by omega)) (by decide) (by decide) (by omega)
      rw [← hsplit] at this
      exact this
    · have := readInteger_derInteger (t := []) hj hv (fun h => by omega)
      rwa [List.append_nil] at this
    · exact Scalar.val_inj (by rw [Scalar.zero_val, hr])
    · exact Scalar.val_inj (by rw [intOf_val, hs])

/-! ## Lax parsing -/

theorem readLenLaxEnd_eq {v : ℕ} {t : List UInt8} : Pa.readLenLaxEnd v t = if v > t.length then none else some (v, t) := by
  unfold Pa.readLenLaxEnd
  rw [Pa.bind_of (a := t.length) (t := t) rfl]
  split <;> rfl

theorem readLenLax_iff {W : ℕ} (hW : W = 32 ∨ W = 64) {l t : List UInt8} {v : ℕ} :
    Pa.readLenLax W l = some (v, t) ↔ ∃ L, l = L ++ t ∧ BerLen L v ∧ v ≤ t.length ∧ v < 2 ^ (W - 8) := by
  have short : ∀ {b : UInt8} {u : List UInt8}, b.toNat < 128 → Pa.readLenLax W (b :: u) = if b.toNat > u.length then none else some (b.toNat, u) := by
    intro b u hb
    rw [← readLenLaxEnd_eq]
    show (if b &&& 0x80 != 0 then _ else Pa.readLenLaxEnd b.toNat : Pa ℕ) u = _
    rw [if_neg]
    rw [bne, u8_high.2 hb]; decide
  have long : ∀ {b : UInt8} {c u : List UInt8}, b.toNat = 128 + c.length → Pa.readLenLax W (b :: (c ++ u)) =
      if beNat c < 2 ^ (W - 8) then if beNat c > u.length then none else some (beNat c, u) else none := by
    intro b c u hb
    rw [← readLenLaxEnd_eq]
    unfold Pa.readLenLax
    have hs : (b - 0x80).toNat = c.length := by rw [u8_sub (by omega)]; omega
    rw [Pa.bind_of (a := b) (t := c ++ u) rfl, if_pos, Pa.bind_of (a := (c ++ u).length) (t := c ++ u) rfl, hs,
      if_neg (by rw [List.length_append]; omega), Pa.bind_of (skipZeros_append c u)]
    · have h256 : 2 ^ (W - 8) = 256 ^ (W / 8 - 1) := by rcases hW with rfl | rfl <;> rfl
      by_cases hk : (c.dropWhile (· == 0)).length ≥ W / 8
      · rw [if_pos hk, if_neg]
        · rfl
        · rw [not_lt, h256]
          refine le_trans (Nat.pow_le_pow_right (by norm_num) (by omega)) (le_beNat_dropWhile ?_)
          rintro h0
          rw [h0] at hk
          rcases hW with rfl | rfl <;> simp at hk
      · rw [if_neg hk, if_pos, Pa.bind_of (readLenLaxLoop_of (by rw [List.length_append]; omega)),
          List.take_left, List.drop_left, beNat_dropWhile, zero_mul, zero_add]
        rw [h256, ← beNat_dropWhile]
        exact (beNat_lt _).trans_le (Nat.pow_le_pow_right (by norm_num) (by omega))
    rw [bne, Bool.not_eq_true', Bool.eq_false_iff, ne_eq, u8_high]; omega
  constructor
  · intro h
    cases l with
    | nil => cases h
    | cons b l =>
      by_cases hb : b.toNat < 128
      · rw [short hb] at h
        split at h
        · cases h
        · simp only [Option.some.injEq, Prod.mk.injEq] at h
          obtain ⟨rfl, rfl⟩ := h
          exact ⟨[b], rfl, Or.inl ⟨b, hb, rfl, rfl⟩, by omega, by rcases hW with rfl | rfl <;> norm_num <;> omega⟩
      · by_cases hlen : b.toNat - 128 ≤ l.length
        · have hl : (l.take (b.toNat - 128)).length = b.toNat - 128 := by rw [List.length_take]; omega
          have h' := long (b := b) (c := l.take (b.toNat - 128)) (u := l.drop (b.toNat - 128)) (by omega)
          rw [List.take_append_drop, h] at h'
          split_ifs at h' with hsm hle
          · rw [Option.some.injEq, Prod.mk.injEq] at h'
            obtain ⟨e1, e2⟩ := h'
            rw [e1, e2]
            exact ⟨b :: l.take (b.toNat - 128), by rw [List.cons_append, List.take_append_drop],
              Or.inr ⟨b, _, by omega, rfl, rfl⟩, by omega, hsm⟩
        · exfalso
          unfold Pa.readLenLax at h
          rw [Pa.bind_of (a := b) (t := l) rfl, if_pos, Pa.bind_of (a := l.length) (t := l) rfl, u8_sub (by omega),
            if_pos (by omega)] at h
          · cases h
          · rw [bne, Bool.not_eq_true', Bool.eq_false_iff, ne_eq, u8_high]; omega
  · rintro ⟨L, rfl, ⟨b, hb, rfl, rfl⟩ | ⟨b, c, hb, rfl, rfl⟩, hv, hv'⟩
    · rw [List.singleton_append, short hb, if_neg (by omega)]
    · rw [List.cons_append, long hb, if_pos hv', if_neg (by omega)]

theorem readIntegerLax_iff {W : ℕ} (hW : W = 32 ∨ W = 64) {l u : List UInt8} {x : Scalar} :
    Pa.readIntegerLax W l = some (x, u) ↔ LaxRead (2 ^ (W - 8)) l x.val u := by
  have key : ∀ {L c t : List UInt8}, BerLen L c.length → c.length < 2 ^ (W - 8) → Pa.readIntegerLax W (2 :: (L ++ (c ++ t))) =
      if 2 ^ 256 ≤ beNat c then some (Scalar.zero, c.dropWhile (· == 0) ++ t)
      else if beNat c = 0 ∧ t = [] then none else some (intOf (beNat c), t) := by
    intro L c t hL hc
    have h1 : Pa.readLenLax W (L ++ (c ++ t)) = some (c.length, c ++ t) :=
      (readLenLax_iff hW).2 ⟨L, rfl, hL, by rw [List.length_append]; omega, hc⟩
    unfold Pa.readIntegerLax
    rw [Pa.bind_of (a := 2) (t := L ++ (c ++ t)) rfl, if_neg (by decide), Pa.bind_of h1, Pa.bind_of (skipZeros_append c t)]
    by_cases hbig : 2 ^ 256 ≤ beNat c
    · rw [if_pos hbig, decide_eq_true (big_iff_dropWhile.2 hbig)]; rfl
    · rw [if_neg hbig, decide_eq_false (fun h => hbig (big_iff_dropWhile.1 h)), finishInt_of, beNat_dropWhile]
      simp only [zero_iff_dropWhile]
  constructor
  · intro h
    have h' := h
    unfold Pa.readIntegerLax at h'
    cases l with
    | nil => cases h'
    | cons b l =>
      rw [Pa.bind_of (a := b) (t := l) rfl] at h'
      split at h'
      · cases h'
      rename_i hb
      have hb : b = 2 := by simpa using hb
      subst hb
      obtain ⟨k, t', hk, _⟩ := Pa.bind_some.1 h'
      clear h'
      obtain ⟨L, rfl, hL, hle, hsm⟩ := (readLenLax_iff hW).1 hk
      obtain ⟨c, t, rfl, rfl⟩ : ∃ c t, t' = c ++ t ∧ c.length = k := ⟨t'.take k, t'.drop k, (List.take_append_drop _ _).symm, by
        rw [List.length_take]; omega⟩
      rw [key hL hsm] at h
      refine ⟨L, c, t, rfl, hL, hsm, ?_⟩
      split at h
      · rename_i hbig
        simp only [Option.some.injEq, Prod.mk.injEq] at h
        exact Or.inr ⟨hbig, by rw [← h.1, Scalar.zero_val], h.2.symm⟩
      · split at h
        · cases h
        · rename_i h1 h2
          simp only [Option.some.injEq, Prod.mk.injEq] at h
          exact Or.inl ⟨by omega, by rw [← h.1, intOf_val], h.2.symm, fun h0 ht => h2 ⟨h0, ht⟩⟩
  · rintro ⟨L, c, t, rfl, hL, hsm, ⟨h1, h2, rfl, h3⟩ | ⟨h1, h2, rfl⟩⟩
    · rw [key hL hsm, if_neg (by omega), if_neg (fun h => h3 h.1 h.2), Scalar.val_inj (h2.trans (intOf_val _).symm)]
    · rw [key hL hsm, if_pos h1, Scalar.val_inj (h2.trans Scalar.zero_val.symm)]

theorem readSeqLenLax_some {l t : List UInt8} {v : ℕ} (h : Pa.readSeqLenLax l = some (v, t)) : ∃ L v', l = L ++ t ∧ BerLen L v' := by
  unfold Pa.readSeqLenLax at h
  cases l with
  | nil => cases h
  | cons b l =>
    rw [Pa.bind_of (a := b) (t := l) rfl] at h
    split at h
    · rename_i hb
      have hb : 128 ≤ b.toNat := by
        rw [bne, Bool.not_eq_true', Bool.eq_false_iff, ne_eq, u8_high] at hb; omega
      rw [Pa.bind_of (a := l.length) (t := l) rfl] at h
      split at h
      · cases h
      · rename_i hle
        rw [u8_sub hb] at h hle
        obtain ⟨_, t', hs, h⟩ := Pa.bind_some.1 h
        simp only [Pa.skip] at hs
        split at hs
        · cases hs
        · simp only [Option.some.injEq, Prod.mk.injEq] at hs
          simp only [Pa.pure_app, Option.some.injEq, Prod.mk.injEq] at h
          obtain ⟨_, rfl⟩ := hs
          obtain ⟨_, rfl⟩ := h
          refine ⟨b :: l.take (b.toNat - 128), _, by rw [List.cons_append, List.take_append_drop],
              Or.inr ⟨b, _, ?_, rfl, rfl⟩⟩
          rw [List.length_take]; omega
    · rename_i hb
      have hb : b.toNat < 128 := by
        rw [bne, Bool.not_eq_true', Bool.eq_false_iff, ne_eq, u8_high] at hb; omega
      simp only [Pa.pure_app, Option.some.injEq, Prod.mk.injEq] at h
      exact ⟨[b], _, by rw [h.2]; rfl, Or.inl ⟨b, hb, rfl, rfl⟩⟩

theorem readSeqLenLax_of {L t : List UInt8} {v' : ℕ} (h : BerLen L v') (ht : t ≠ []) : ∃ v, Pa.readSeqLenLax (L ++ t) = some (v, t) := by
  unfold Pa.readSeqLenLax
  rcases h with ⟨b, hb, rfl, rfl⟩ | ⟨b, c, hb, rfl, rfl⟩
  · refine ⟨b.toNat, ?_⟩
    rw [Pa.bind_of (a := b) (t := t) rfl, if_neg, Pa.pure_app]
    rw [bne, u8_high.2 hb]; decide
  · refine ⟨(b - 0x80).toNat, ?_⟩
    have hs : (b - 0x80).toNat = c.length := by rw [u8_sub (by omega)]; omega
    have h2 : Pa.skip c.length (c ++ t) = some ((), t) := by
      simp only [Pa.skip]
      rw [if_neg, List.drop_left]
      rintro (⟨_, h⟩ | h)
      · exact ht (List.append_eq_nil_iff.1 h).2
      · rw [List.length_append] at h; omega
    rw [Pa.bind_of (a := b) (t := c ++ t) rfl, if_pos, Pa.bind_of (a := (c ++ t).length) (t := c ++ t) rfl, hs,
      if_neg (by rw [List.length_append]; omega), Pa.bind_of h2, Pa.pure_app]
    rw [bne, Bool.not_eq_true', Bool.eq_false_iff, ne_eq, u8_high]; omega

theorem parseDerLax_iff {W : ℕ} (hW : W = 32 ∨ W = 64) {l u : List UInt8} {sig : Signature} : Pa.parseDerLax W l = some (sig, u) ↔
    ∃ h x y, LaxHeader h ∧ l = h ++ x ∧ LaxRead (2 ^ (W - 8)) x sig.r.val y ∧ LaxRead (2 ^ (W - 8)) y sig.s.val u := by
  constructor
  · intro h
    unfold Pa.parseDerLax at h
    obtain ⟨_, l1, hc, h⟩ := Pa.bind_some.1 h
    obtain ⟨k, l2, hlen, h⟩ := Pa.bind_some.1 h
    obtain ⟨r, l3, hr, h⟩ := Pa.bind_some.1 h
    obtain ⟨s, l4, hs, h⟩ := Pa.bind_some.1 h
    simp only [Pa.pure_app, Option.some.injEq, Prod.mk.injEq] at h
    obtain ⟨rfl, rfl⟩ := h
    have hl : l = 0x30 :: l1 := by
      cases l with
      | nil => cases hc
      | cons b l =>
        have hc' : (if b == 0x30 then pure () else Pa.fail : Pa Unit) l = some ((), l1) := hc
        split at hc'
        · rename_i hb
          simp only [Pa.pure_app, Option.some.injEq, Prod.mk.injEq] at hc'
          rw [hc'.2, show b = 0x30 by simpa using hb]
        · cases hc'
    subst hl
    obtain ⟨L, v', rfl, hL⟩ := readSeqLenLax_some hlen
    exact ⟨0x30 :: L, l2, l3, ⟨L, v', hL, rfl⟩, rfl, (readIntegerLax_iff hW).1 hr, (readIntegerLax_iff hW).1 hs⟩
  · rintro ⟨h, x, y, ⟨L, v', hL, rfl⟩, rfl, hr, hs⟩
    obtain ⟨v, hv⟩ := readSeqLenLax_of (t := x) hL (by obtain ⟨L, c, t, rfl, _⟩ := hr; simp)
    unfold Pa.parseDerLax
    rw [List.cons_append, Pa.bind_of (a := ()) (t := L ++ x) rfl, Pa.bind_of hv, Pa.bind_of ((readIntegerLax_iff hW).2 hr),
      Pa.bind_of ((readIntegerLax_iff hW).2 hs), Pa.pure_app]

end Verif
