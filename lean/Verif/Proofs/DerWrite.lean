import Verif.Proofs.DerParse

/-! The DER serializer. -/

namespace Verif
open Spec

namespace Signature

theorem integerLen_runs : ∀ {k : ℕ} {pre d : List UInt8} {a : UInt8}, a.toNat < 128 → d.length = k →
    Runs (integerLen (pre ++ a :: d) k) (fun m => 1 ≤ m ∧ m ≤ k + 1 ∧
      DerNat ((pre ++ a :: d).drop ((pre ++ a :: d).length - m)) (beNat (a :: d)))
  | 0, pre, d, a, ha, hd => by
    have : d = [] := List.length_eq_zero_iff.1 hd
    subst this
    refine runs_pure ⟨le_rfl, le_rfl, ?_⟩
    rw [List.length_append, List.length_singleton, Nat.add_sub_cancel, List.drop_left]
    exact derNat_single.2 ⟨beNat_single a, ha⟩
  | k + 1, pre, [], a, ha, hd => by simp at hd
  | k + 1, pre, b :: d, a, ha, hd => by
    rw [List.length_cons, Nat.add_right_cancel_iff] at hd
    unfold integerLen
    have hlen : (pre ++ a :: b :: d).length = pre.length + (k + 2) := by simp [hd]
    rw [hlen, subNat_pure (by omega), Nat.add_sub_cancel, pure_bind, idx_pure (by rw [hlen]; omega), pure_bind,
      idx_pure (by rw [hlen]; omega), pure_bind]
    have h0 : (pre ++ a :: b :: d)[pre.length]'(by rw [hlen]; omega) = a := by simp
    have h1 : (pre ++ a :: b :: d)[pre.length + 1]'(by rw [hlen]; omega) = b := by simp
    rw [h0, h1]
    by_cases hc : (a == 0 && decide (b < 0x80)) = true
    · rw [if_pos hc]
      simp only [Bool.and_eq_true, beq_iff_eq, decide_eq_true_eq] at hc
      have hb : b.toNat < 128 := UInt8.lt_iff_toNat_lt.1 hc.2
      have e : pre ++ a :: b :: d = (pre ++ [a]) ++ b :: d := by simp
      rw [← hlen, e]
      refine (integerLen_runs (pre := pre ++ [a]) hb hd).mono ?_
      rintro m ⟨h1, h2, h3⟩
      refine ⟨h1, by omega, ?_⟩
      have hv : beNat (a :: b :: d) = beNat (b :: d) := by rw [beNat_cons, hc.1]; simp
      rw [hv]; exact h3
    · rw [if_neg hc]
      refine runs_pure ⟨by omega, by omega, ?_⟩
      rw [Nat.add_sub_cancel, List.drop_left]
      refine derNat_cons.2 ⟨rfl, ha, fun h => ?_⟩
      by_contra hb
      apply hc
      simp only [Bool.and_eq_true, beq_iff_eq, decide_eq_true_eq]
      exact ⟨h, UInt8.lt_iff_toNat_lt.2 (by simpa using hb)⟩

theorem integerSlice_runs (a : Scalar) : Runs (integerSlice (fillScalar a)) (fun c => DerNat c a.val ∧ c.length ≤ 33) := by
  unfold integerSlice fillScalar
  refine Runs.bind (integerLen_runs (pre := []) (k := 32) (a := 0) (d := a.b32.toList) (by decide) (by simp)) ?_
  rintro m ⟨h1, h2, h3⟩
  rw [List.nil_append] at h3
  have hl : ((0 : UInt8) :: a.b32.toList).length = 33 := by simp
  refine ⟨_, slice_pure (by omega) le_rfl, ?_⟩
  rw [List.take_of_length_le (by rw [List.length_drop])]
  rw [beNat_cons, Scalar.beNat_b32] at h3
  refine ⟨by simpa using h3, ?_⟩
  rw [List.length_drop]; omega

theorem setIdx_pure {α : Type} {l : List α} {i : ℕ} {v : α} (h : i < l.length) : setIdx l i v = pure (l.set i v) := by
  unfold setIdx
  rw [rassert_true (decide_eq_true h)]; rfl

theorem copyInto_pure {l s : List UInt8} {a b : ℕ} (h : a ≤ b) (h' : b ≤ l.length) (hs : s.length = b - a) :
    copyInto l a b s = pure (l.take a ++ s ++ l.drop b) := by
  unfold copyInto
  rw [rassert_true (by simp [h, h']), rassert_true (by simp [hs])]; rfl

theorem u8_ofNat {k : ℕ} (h : k < 256) : (UInt8.ofNat k).toNat = k := by
  rw [UInt8.toNat_ofNat']; omega

theorem asMut_runs {a : SignatureArray} {f : List UInt8 → Exec (List UInt8)} {P : List UInt8 → Prop} (ha : a.size ≤ 72)
    (hf : Runs (f (a.buf.toList.take a.size)) P) (hl : ∀ l, P l → l.length = a.size) :
    Runs (a.asMut f) (fun b => b.size = a.size ∧ ∃ l, P l ∧ b.buf.toList = l ++ a.buf.toList.drop a.size ∧ b.asRef = pure l) := by
  unfold SignatureArray.asMut
  rw [slice_pure (by omega) (by simpa using ha), List.drop_zero, Nat.sub_zero, pure_bind]
  refine Runs.bind hf fun l hP => ?_
  have hs := hl l hP
  rw [dif_pos (by simp; omega)]
  refine runs_pure ⟨rfl, l, hP, by simp [Vector.toList], ?_⟩
  unfold SignatureArray.asRef
  rw [slice_pure (by omega) (by simp; omega)]
  simp [Vector.toList, ← hs]

theorem writeDer_runs {u v : ℕ} {r s : List UInt8} (hr : DerNat r u) (hrl : r.length ≤ 33) (hs : DerNat s v) (hsl : s.length ≤ 33) :
    Runs (writeDer r s ((List.replicate 72 (0 : UInt8)).take (6 + r.length + s.length)))
      (fun b => DerSignature u v b ∧ b.length = 6 + r.length + s.length) := by
  unfold writeDer
  have e0 : (List.replicate 72 (0 : UInt8)).take (6 + r.length + s.length) =
      0 :: 0 :: 0 :: 0 :: (List.replicate r.length 0 ++ 0 :: 0 :: List.replicate s.length 0) := by
    rw [List.take_replicate, Nat.min_eq_left (by omega)]
    have : 6 + r.length + s.length = r.length + (s.length + 2) + 4 := by omega
    rw [this, List.replicate_succ, List.replicate_succ, List.replicate_succ, List.replicate_succ, List.replicate_add,
      List.replicate_succ, List.replicate_succ]
  rw [e0, setIdx_pure (by simp), pure_bind, add8_pure (by rw [u8_ofNat (by omega)]; show 4 + _ < 256; omega), pure_bind]
  have h4 : (4 + UInt8.ofNat r.length).toNat = 4 + r.length := by
    rw [UInt8.toNat_add, u8_ofNat (by omega)]; show (4 + r.length) % 256 = _; omega
  rw [add8_pure (by rw [h4, u8_ofNat (by omega)]; show _ < 256; omega), pure_bind]
  have hn : (4 + UInt8.ofNat r.length + UInt8.ofNat s.length).toNat = 4 + r.length + s.length := by
    rw [UInt8.toNat_add, h4, u8_ofNat (by omega)]; show _ % 256 = _; omega
  obtain ⟨nn, hnn⟩ : ∃ nn, nn = 4 + UInt8.ofNat r.length + UInt8.ofNat s.length := ⟨_, rfl⟩
  obtain ⟨rl, hrl'⟩ : ∃ rl, rl = UInt8.ofNat r.length := ⟨_, rfl⟩
  obtain ⟨sl, hsl'⟩ : ∃ sl, sl = UInt8.ofNat s.length := ⟨_, rfl⟩
  rw [← hnn] at hn ⊢
  rw [← hrl', ← hsl']
  rw [List.set_cons_zero, setIdx_pure (by simp), pure_bind, List.set_cons_succ, List.set_cons_zero,
    setIdx_pure (by simp), pure_bind, List.set_cons_succ, List.set_cons_succ, List.set_cons_zero,
    setIdx_pure (by simp), pure_bind, List.set_cons_succ, List.set_cons_succ, List.set_cons_succ, List.set_cons_zero,
    copyInto_pure (by omega) (by simp; omega) (by omega), pure_bind]
  have e1 : (0x30 :: nn :: 0x02 :: rl :: (List.replicate r.length 0 ++ 0 :: 0 :: List.replicate s.length 0)).take 4 ++ r ++
      (0x30 :: nn :: 0x02 :: rl :: (List.replicate r.length 0 ++ 0 :: 0 :: List.replicate s.length 0)).drop (4 + r.length) =
      (0x30 :: nn :: 0x02 :: rl :: r) ++ 0 :: 0 :: List.replicate s.length 0 := by
    have : 4 + r.length = r.length + 4 := by omega
    rw [this]
    simp
  rw [e1, setIdx_pure (by simp; omega), pure_bind]
  have hl4 : (0x30 :: nn :: 0x02 :: rl :: r).length = 4 + r.length := by simp; omega
  rw [List.set_append_right _ _ (by omega), hl4, Nat.sub_self, List.set_cons_zero, setIdx_pure (by simp; omega), pure_bind,
    List.set_append_right _ _ (by omega), hl4, show 5 + r.length - (4 + r.length) = 1 by omega, List.set_cons_succ, List.set_cons_zero,
    copyInto_pure (by omega) (by simp; omega) (by omega)]
  refine runs_pure ?_
  have e2 : ((0x30 :: nn :: 0x02 :: rl :: r) ++ 0x02 :: sl :: List.replicate s.length 0).take (6 + r.length) ++ s ++
      ((0x30 :: nn :: 0x02 :: rl :: r) ++ 0x02 :: sl :: List.replicate s.length 0).drop (6 + r.length + s.length) =
      0x30 :: ([nn] ++ ((0x02 :: ([rl] ++ r)) ++ (0x02 :: ([sl] ++ s)))) := by
    rw [List.take_append, List.drop_append, hl4, List.take_of_length_le (by omega), List.drop_of_length_le (by omega)]
    rw [show 6 + r.length - (4 + r.length) = 2 by omega, show 6 + r.length + s.length - (4 + r.length) = s.length + 2 by omega]
    simp
  rw [e2]
  refine ⟨⟨0x02 :: ([rl] ++ r), 0x02 :: ([sl] ++ s), ⟨r, hr, [rl], ?_, rfl⟩, ⟨s, hs, [sl], ?_, rfl⟩, [nn], ?_, rfl⟩, ?_⟩
  · rw [hrl']; exact derLen_of_lt (by omega)
  · rw [hsl']; exact derLen_of_lt (by omega)
  · refine Or.inl ⟨nn, by omega, rfl, ?_⟩
    simp; omega
  · simp; omega

/-- The bytes that `serialize_der` assembles. -/
theorem serializeDerArray_runs (sig : Signature) : Runs (serializeDerArray sig) (fun a => ∃ b, a.asRef = pure b ∧ a.len = b.length ∧
    DerSignature sig.r.val sig.s.val b ∧ b.length ≤ 72) := by
  unfold serializeDerArray
  refine Runs.bind (integerSlice_runs sig.r) fun r ⟨hr, hrl⟩ => Runs.bind (integerSlice_runs sig.s) fun s ⟨hs, hsl⟩ => ?_
  have e : (SignatureArray.new (6 + r.length + s.length)).size = 6 + r.length + s.length := rfl
  refine (asMut_runs (a := SignatureArray.new (6 + r.length + s.length))
    (P := fun b => DerSignature sig.r.val sig.s.val b ∧ b.length = 6 + r.length + s.length) (by rw [e]; omega) ?_ fun l hP => hP.2.trans e.symm).mono ?_
  · have := writeDer_runs hr hrl hs hsl
    simpa [SignatureArray.new, Vector.toList_replicate] using this
  · rintro a ⟨h1, l, ⟨h2, h3⟩, _, h4⟩
    exact ⟨l, h4, h1.trans h3.symm, h2, by omega⟩

theorem serializeDer_runs (sig : Signature) : Runs (serializeDer sig) (fun b => DerSignature sig.r.val sig.s.val b ∧ b.length ≤ 72) := by
  unfold serializeDer
  refine Runs.bind (serializeDerArray_runs sig) fun a ⟨b, h, _, h1, h2⟩ => ?_
  rw [h]
  exact runs_pure ⟨h1, h2⟩

end Signature

end Verif
