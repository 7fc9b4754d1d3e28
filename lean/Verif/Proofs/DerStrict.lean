import Verif.Proofs.DerParse

/-! What the strict methods of the decoder accept, exactly. -/

namespace Verif
open Spec

theorem readLen_of {L t : List UInt8} {v : ℕ} (h : DerLen L v) (ht : 128 ≤ v → v < t.length) : Pa.readLen (L ++ t) = some (v, t) := by
  rcases h with ⟨b, hb, rfl, rfl⟩ | ⟨b, c, hb, hc, rfl, rfl, h128, hmin⟩
  · exact readLen_short hb
  · have hlt := ht h128
    cases c with
    | nil => rw [beNat_nil] at h128; omega
    | cons a c =>
      have ha : a ≠ 0 := by
        rintro rfl
        have h1 := beNat_lt c
        rw [beNat_cons] at hmin
        simp only [List.length_cons, Nat.add_sub_cancel] at hmin
        have : (0 : UInt8).toNat = 0 := rfl
        rw [this] at hmin
        omega
      have hlow : (b &&& 0x7f).toNat = (a :: c).length := by rw [u8_low]; omega
      have h1 : ¬ (b == 0xff) = true := by
        intro h
        rw [show b = 0xff by simpa using h] at hb
        have : (0xff : UInt8).toNat = 255 := rfl
        omega
      have h2 : ¬ (b &&& 0x80 == 0) = true := by rw [u8_high]; omega
      have h3 : ¬ (b == 0x80) = true := by
        intro h
        rw [show b = 0x80 by simpa using h] at hb
        have : (0x80 : UInt8).toNat = 128 := rfl
        rw [List.length_cons] at hb
        omega
      unfold Pa.readLen
      rw [List.cons_append, Pa.bind_of (a := b) (t := a :: c ++ t) rfl, if_neg h1, if_neg h2, if_neg h3,
        Pa.bind_of (a := (a :: c ++ t).length) (t := a :: c ++ t) rfl, hlow, if_neg (by rw [List.length_append]; omega),
        Pa.bind_of (a := a) (t := a :: c ++ t) rfl, if_neg (by simpa using ha),
        Pa.bind_of (readLenLoop_of (by rw [zero_mul, zero_add]; exact hlt)), zero_mul, zero_add, if_neg (by omega)]
      rfl

theorem readLen_iff {l t : List UInt8} {v : ℕ} :
    Pa.readLen l = some (v, t) ↔ ∃ L, l = L ++ t ∧ DerLen L v ∧ (128 ≤ v → v < t.length) := by
  constructor
  · exact readLen_some
  · rintro ⟨L, rfl, h1, h2⟩
    exact readLen_of h1 h2

theorem lowHead_false {d : List UInt8} : lowHead d = false ↔ ∀ b ∈ d.head?, 128 ≤ b.toNat := by
  cases d with
  | nil => simp [lowHead]
  | cons b d =>
    simp only [lowHead, List.head?_cons, Option.mem_def, Option.some.injEq, forall_eq']
    rw [Bool.eq_false_iff, ne_eq, u8_high]; omega

theorem dropWhile_high {a : UInt8} {c : List UInt8} (ha : 128 ≤ a.toNat) : (a :: c).dropWhile (· == 0) = a :: c := by
  rw [List.dropWhile_cons, if_neg]
  intro h0
  rw [show a = 0 by simpa using h0] at ha
  revert ha; decide

theorem readInteger_iff {l u : List UInt8} {x : Scalar} : Pa.readInteger l = some (x, u) ↔ StrictRead l x.val u := by
  constructor
  · intro h
    have h' := h
    unfold Pa.readInteger at h'
    obtain ⟨b, l1, hr, h'⟩ := Pa.bind_some.1 h'
    cases l with
    | nil => cases hr
    | cons b' l' =>
      simp only [Pa.read, Option.some.injEq, Prod.mk.injEq] at hr
      obtain ⟨rfl, rfl⟩ := hr
      by_cases hb2 : b' = 2
      swap
      · rw [if_pos (by simpa using hb2)] at h'; cases h'
      subst hb2
      rw [if_neg (by decide)] at h'
      obtain ⟨k, l2, hlen, h'⟩ := Pa.bind_some.1 h'
      rw [Pa.bind_of (a := l2.length) (t := l2) rfl] at h'
      split at h'
      · cases h'
      rename_i hk
      simp only [Bool.or_eq_true, beq_iff_eq, decide_eq_true_eq, not_or] at hk
      clear h'
      obtain ⟨L, rfl, hL, hlong⟩ := readLen_some hlen
      obtain ⟨c, t, rfl, hck⟩ : ∃ c t, l2 = c ++ t ∧ c.length = k := ⟨l2.take k, l2.drop k, (List.take_append_drop _ _).symm, by
        rw [List.length_take]; omega⟩
      subst hck
      refine ⟨L, c, t, rfl, hL, fun h128 h0 => ?_, ?_⟩
      · have := hlong h128
        rw [h0, List.append_nil] at this; omega
      cases c with
      | nil => exact absurd rfl hk.1
      | cons a c =>
        rw [readInteger_eq hlen] at h
        split at h
        · cases h
        rename_i hlead
        split at h
        · cases h
        rename_i hff
        clear hlen
        by_cases ha : 128 ≤ a.toNat
        · right; right
          rw [u8_high'.2 ha, Bool.true_or, dropWhile_high ha] at h
          simp only [Pa.finishInt, if_true, Pa.pure_app, Option.some.injEq, Prod.mk.injEq] at h
          refine ⟨a, c, rfl, ha, fun e => ?_, by rw [← h.1, Scalar.zero_val], h.2.symm⟩
          rw [← lowHead_false, Bool.eq_false_iff]
          intro hl
          exact hff (by rw [hl, e]; rfl)
        · have hneg : (a &&& 0x80 == 0x80) = false := by
            rw [Bool.eq_false_iff, ne_eq, u8_high']; exact ha
          have hnat : DerNat (a :: c) (beNat (a :: c)) := by
            cases c with
            | nil => exact derNat_single.2 ⟨beNat_single a, by omega⟩
            | cons b c =>
              refine derNat_cons.2 ⟨rfl, by omega, fun h0 => ?_⟩
              by_contra hb
              apply hlead
              simp only [Bool.and_eq_true]
              exact ⟨by rw [h0]; rfl, u8_high.2 (by omega)⟩
          rw [hneg, Bool.false_or] at h
          by_cases hbig : ((a :: c).dropWhile (· == 0)).length > 32
          · right; left
            rw [decide_eq_true hbig] at h
            simp only [Pa.finishInt, if_true, Pa.pure_app, Option.some.injEq, Prod.mk.injEq] at h
            exact ⟨_, hnat, big_iff_dropWhile.1 hbig, by rw [← h.1, Scalar.zero_val], h.2.symm⟩
          · left
            rw [decide_eq_false hbig, finishInt_of, beNat_dropWhile] at h
            split at h
            · cases h
            · rename_i hne
              simp only [Option.some.injEq, Prod.mk.injEq] at h
              refine ⟨_, hnat, ?_, by rw [← h.1, intOf_val], h.2.symm, fun h0 ht => hne ⟨zero_iff_dropWhile.2 h0, ht⟩⟩
              by_contra hc
              exact hbig (big_iff_dropWhile.2 (by omega))
  · rintro ⟨L, c, t, rfl, hL, hlong, h⟩
    have hl : Pa.readLen (L ++ (c ++ t)) = some (c.length, c ++ t) := readLen_of hL fun h128 => by
      have := List.length_pos_iff.2 (hlong h128)
      rw [List.length_append]; omega
    rcases h with ⟨w, hw, hlt, hx, rfl, h0⟩ | ⟨w, hw, hge, hx, rfl⟩ | ⟨b, d, rfl, hb, hff, hx, rfl⟩
    · rw [readInteger_of hl hw hlt h0, Scalar.val_inj (hx.trans (intOf_val _).symm)]
    · cases c with
      | nil => exact absurd rfl hw.1
      | cons a c =>
        have ha : a.toNat < 128 := by
          cases c with
          | nil => exact (derNat_single.1 hw).2
          | cons b c => exact (derNat_cons.1 hw).2.1
        have hff : (a == 0xff) = false := by
          rw [Bool.eq_false_iff]; intro h
          rw [show a = 0xff by simpa using h] at ha
          revert ha; decide
        have hlead : (a == 0 && lowHead c) = false := by
          cases c with
          | nil => rw [lowHead, Bool.and_false]
          | cons b c =>
            rw [Bool.eq_false_iff, ne_eq, Bool.and_eq_true, beq_iff_eq]
            rintro ⟨h, h'⟩
            have h1 := (derNat_cons.1 hw).2.2 h
            have h2 := (u8_high (b := b)).1 h'
            omega
        rw [readInteger_eq hl, hlead, hff, Bool.false_and, if_neg (by decide), if_neg (by decide),
          decide_eq_true (big_iff_dropWhile.2 (by rw [hw.2.1]; exact hge)), Bool.or_true, Scalar.val_inj (hx.trans Scalar.zero_val.symm)]
        rfl
    · have h0 : (b == 0) = false := by
        rw [Bool.eq_false_iff]; intro h
        rw [show b = 0 by simpa using h] at hb
        revert hb; decide
      have hlead : (b == 0xff && lowHead d) = false := by
        by_cases hbf : b = 0xff
        · rw [lowHead_false.2 (hff hbf), Bool.and_false]
        · rw [show (b == 0xff) = false by simpa using hbf, Bool.false_and]
      rw [readInteger_eq hl, hlead, h0, Bool.false_and, if_neg (by decide), if_neg (by decide), dropWhile_high hb, u8_high'.2 hb,
        Bool.true_or, Scalar.val_inj (hx.trans Scalar.zero_val.symm)]
      rfl

theorem readSeqLenLax_iff {l t : List UInt8} {v : ℕ} : Pa.readSeqLenLax l = some (v, t) ↔
    (∃ b : UInt8, b.toNat < 128 ∧ l = b :: t ∧ v = b.toNat) ∨
    (∃ (b : UInt8) (c : List UInt8), b.toNat = 128 + c.length ∧ l = b :: (c ++ t) ∧ v = c.length ∧ (c = [] → t ≠ [])) := by
  cases l with
  | nil =>
    constructor
    · intro h; cases h
    · rintro (⟨b, _, h, _⟩ | ⟨b, c, _, h, _⟩) <;> cases h
  | cons b l =>
    unfold Pa.readSeqLenLax
    rw [Pa.bind_of (a := b) (t := l) rfl]
    by_cases hb : b.toNat < 128
    · rw [if_neg (by rw [bne, u8_high.2 hb]; decide), Pa.pure_app]
      simp only [Option.some.injEq, Prod.mk.injEq, List.cons.injEq]
      constructor
      · rintro ⟨rfl, rfl⟩
        exact .inl ⟨b, hb, ⟨rfl, rfl⟩, rfl⟩
      · rintro (⟨b', _, ⟨rfl, rfl⟩, rfl⟩ | ⟨b', c, h, ⟨rfl, _⟩, _⟩)
        · exact ⟨rfl, rfl⟩
        · omega
    · rw [if_pos (by rw [bne, Bool.not_eq_true', Bool.eq_false_iff, ne_eq, u8_high]; exact hb),
        Pa.bind_of (a := l.length) (t := l) rfl, u8_sub (by omega)]
      by_cases hle : b.toNat - 128 > l.length
      · rw [if_pos hle]
        constructor
        · intro h; cases h
        · rintro (⟨b', h, e, _⟩ | ⟨b', c, h, e, _⟩)
          · cases e; omega
          · cases e; rw [List.length_append] at hle; omega
      · rw [if_neg hle]
        obtain ⟨c, u, rfl, hc⟩ : ∃ c u, l = c ++ u ∧ c.length = b.toNat - 128 :=
          ⟨l.take (b.toNat - 128), l.drop (b.toNat - 128), (List.take_append_drop _ _).symm, by rw [List.length_take]; omega⟩
        rw [← hc]
        by_cases h0 : c = [] ∧ u = []
        · obtain ⟨rfl, rfl⟩ := h0
          constructor
          · intro h
            obtain ⟨_, _, h, _⟩ := Pa.bind_some.1 h
            cases h
          · rintro (⟨b', h, e, _⟩ | ⟨b', c, h, e, _, h3⟩)
            · cases e; omega
            · simp only [List.append_nil, List.cons.injEq] at e
              have := List.append_eq_nil_iff.1 e.2.symm
              exact absurd this.2 (h3 this.1)
        · have h2 : Pa.skip c.length (c ++ u) = some ((), u) := by
            simp only [Pa.skip]
            rw [if_neg, List.drop_left]
            rintro (⟨_, h⟩ | h)
            · exact h0 (List.append_eq_nil_iff.1 h)
            · rw [List.length_append] at h; omega
          rw [Pa.bind_of h2, Pa.pure_app]
          simp only [Option.some.injEq, Prod.mk.injEq]
          constructor
          · rintro ⟨rfl, rfl⟩
            exact .inr ⟨b, c, by omega, rfl, rfl, fun h1 h2 => h0 ⟨h1, h2⟩⟩
          · rintro (⟨b', h, e, _⟩ | ⟨b', c', h, e, rfl, h3⟩)
            · cases e; omega
            · cases (List.cons.injEq .. ▸ e : _ ∧ _) with
              | intro e1 e2 =>
                subst e1
                obtain ⟨rfl, rfl⟩ := List.append_inj e2 (by omega)
                exact ⟨rfl, rfl⟩

end Verif
