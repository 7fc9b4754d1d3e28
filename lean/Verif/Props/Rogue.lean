import Verif.Props.Laws

/-!
# Opposite keys, and keys chosen after the others (C109)
-/

namespace Verif.Props
open Verif Spec

theorem neg_of_max {t : SecretKey} (ht : secretInt t + 1 = n) (P : Pt) : secretInt t • P = -P := by
  rw [eq_neg_iff_add_eq_zero, ← succ_nsmul, ht]
  exact n_smul P

/-- C109. Multiplying a public key by `n - 1` negates it: the compressed encoding changes in the first byte only, from 2 to 3 or
back, and the two keys do not combine. -/
theorem C109_negate (k : PublicKey) (t : SecretKey) (hk : ValidKey k) (ht : secretInt t + 1 = n) :
    ∃ k' b b', PublicKey.tweakMulAssign k t = pure (k', .ok ()) ∧ ValidKey k' ∧ PublicKey.eq k k' = pure false ∧
      PublicKey.combine [k, k'] = pure (.error .invalidPublicKey) ∧
      PublicKey.serializeCompressed k = pure b ∧ PublicKey.serializeCompressed k' = pure b' ∧
      (b[0] = 2 ∨ b[0] = 3) ∧ b'[0] = b[0] ^^^ 1 ∧ b'.toList.drop 1 = b.toList.drop 1 := by
  obtain ⟨P, hP⟩ := hk
  have hn : 1 < n := by decide +kernel
  obtain ⟨k', e, hk'⟩ := (C31_public_tweak_mul k P t hP (by omega)).2 (by omega)
  rw [neg_of_max ht] at hk'
  have hP0 := (isKey_iff.1 hP).2
  obtain ⟨x, y, hxy⟩ := IsPt.of_ne_zero hP0
  obtain ⟨b, eb, hb⟩ := serializeCompressed_runs (isKey_iff.1 hP).1 hxy
  obtain ⟨b', eb', hb'⟩ := serializeCompressed_runs (isKey_iff.1 hk').1 hxy.neg
  have hc := (C32_combine [k, k'] [P, -P] (.cons hP (.cons hk' .nil))).1 (by simp)
  obtain ⟨r, _, _, er, _, _, hr, _⟩ := C22_equality k k' P (-P) hP hk'
  have hr0 : r = false := by
    rw [Bool.eq_false_iff, ne_eq, hr]
    intro h
    exact dbl_ne_zero hP0 (eq_neg_iff_add_eq_zero.1 h)
  rw [hr0] at er
  have g : ∀ c : Vector UInt8 33, c.toList.head? = some c[0] := by
    intro c
    rw [List.head?_eq_getElem?, ← Vector.getElem_toList (xs := c) (i := 0) (by simp)]
    exact List.getElem?_eq_getElem _
  have g1 := g b
  have g2 := g b'
  unfold sec1Compressed at hb hb'
  rw [hb] at g1
  rw [hb'] at g2
  have g1 := (Option.some.inj g1).symm
  have g2 := (Option.some.inj g2).symm
  have hpar : (-y).val % 2 ≠ y.val % 2 := by
    have : NeZero y := ⟨hxy.y_ne⟩
    rw [ZMod.val_neg_of_ne_zero]
    have h1 := ZMod.val_lt y
    have h2 : p % 2 = 1 := by decide +kernel
    omega
  refine ⟨k', b, b', e, ⟨_, hk'⟩, er, hc, eb, eb', ?_, ?_, ?_⟩
  · rw [g1]; split
    · exact .inr rfl
    · exact .inl rfl
  · rw [g1, g2]
    rcases Nat.mod_two_eq_zero_or_one y.val with h | h <;> rcases Nat.mod_two_eq_zero_or_one (-y).val with h' | h' <;>
      rw [h, h'] <;> first | rfl | (rw [h, h'] at hpar; exact absurd rfl hpar)
  · rw [hb, hb']; rfl

/-- C109. Whoever speaks last chooses the combined key: given the keys of the others and any target other than their sum, the
operations of the library make a public key with which the combination is the target. -/
theorem C109_last_key (keys : List PublicKey) (s target : PublicKey) (t : SecretKey) (hv : ∀ k ∈ keys, ValidKey k)
    (hs : PublicKey.combine keys = pure (.ok s)) (hT : ValidKey target) (ht : secretInt t + 1 = n) (hne : PublicKey.eq s target = pure false) :
    ∃ s' r c, PublicKey.tweakMulAssign s t = pure (s', .ok ()) ∧ PublicKey.combine [target, s'] = pure (.ok r) ∧ ValidKey r ∧
      PublicKey.combine (keys ++ [r]) = pure (.ok c) ∧ PublicKey.eq c target = pure true := by
  obtain ⟨ps, hps⟩ := exists_pts hv
  have hS := combine_ok hps hs
  obtain ⟨T, hT⟩ := hT
  have hn : 1 < n := by decide +kernel
  obtain ⟨s', e, hs'⟩ := (C31_public_tweak_mul s ps.sum t hS (by omega)).2 (by omega)
  rw [neg_of_max ht] at hs'
  have hd : T + -ps.sum ≠ 0 := by
    intro h
    rw [← sub_eq_add_neg, sub_eq_zero] at h
    rw [key_eq_true hS (h ▸ hT)] at hne
    exact absurd (pure_inj' hne) (by simp)
  have e2 : [T, -ps.sum].sum = T + -ps.sum := by rw [List.sum_cons, List.sum_singleton]
  obtain ⟨r, er, hr⟩ := (C32_combine [target, s'] [T, -ps.sum] (.cons hT (.cons hs' .nil))).2 (by rw [e2]; exact hd)
  rw [e2] at hr
  have e3 : (ps ++ [T + -ps.sum]).sum = T := by rw [List.sum_append, List.sum_singleton]; abel
  obtain ⟨c, ec, hc⟩ := (C32_combine (keys ++ [r]) (ps ++ [T + -ps.sum]) (List.rel_append hps (.cons hr .nil))).2 (by
    rw [e3]; exact (isKey_iff.1 hT).2)
  rw [e3] at hc
  exact ⟨s', r, c, e, er, ⟨_, hr⟩, ec, key_eq_true hc hT⟩

/-- The hypotheses are met: one key `G`, the target `2 G`, and `n - 1`. -/
example : ∃ k s target : PublicKey, ValidKey k ∧ PublicKey.combine [k] = pure (.ok s) ∧ ValidKey target ∧ PublicKey.eq s target = pure false ∧
    secretInt secretMax + 1 = n := by
  obtain ⟨k, hk⟩ := exists_key G_ne_zero
  obtain ⟨c, hc⟩ := exists_key (dbl_ne_zero G_ne_zero)
  obtain ⟨s, es, hs⟩ := (C32_combine [k] [G] (.cons hk .nil)).2 (by simpa using G_ne_zero)
  rw [List.sum_singleton] at hs
  obtain ⟨r, _, _, er, _, _, hr, _⟩ := C22_equality s c _ _ hs hc
  have hr0 : r = false := by
    rw [Bool.eq_false_iff, ne_eq, hr]
    intro h
    exact G_ne_zero (left_eq_add.1 h)
  exact ⟨k, s, c, ⟨_, hk⟩, es, ⟨_, hc⟩, by rw [er, hr0], by decide +kernel⟩

end Verif.Props
