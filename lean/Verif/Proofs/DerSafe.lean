import Verif.Proofs.DerParse

/-! The panic of the DER decoder of a 32-bit debug build on long inputs. -/

namespace Verif
open Spec

theorem exec_read {W : ℕ} {pre t : List UInt8} {b : UInt8} (h : pre.length + 1 < 2 ^ W) :
    exec (Decoder.read W) ⟨pre ++ b :: t, pre.length⟩ = pure (.ok (b, ⟨(pre ++ [b]) ++ t, (pre ++ [b]).length⟩)) := by
  have key : exec (Decoder.read W) ⟨pre ++ b :: t, pre.length⟩ = exec (if pre.length ≥ (pre ++ b :: t).length then Decoder.fail else (do
      let v ← idx (pre ++ b :: t) pre.length
      let pos ← addU W pre.length 1
      set (⟨pre ++ b :: t, pos⟩ : Decoder)
      pure v) : Dec UInt8) ⟨pre ++ b :: t, pre.length⟩ := rfl
  rw [key, if_neg (by simp), idx_pure (by simp), addU_pure h]
  simp only [List.getElem_append_right (le_refl pre.length), Nat.sub_self, List.getElem_cons_zero, List.length_append, List.length_cons,
    List.length_nil, List.append_assoc, List.singleton_append]
  rfl

theorem exec_peek {W : ℕ} {pre t : List UInt8} {b : UInt8} (h : pre.length < 2 ^ W) :
    exec (Decoder.peek W 0) ⟨pre ++ b :: t, pre.length⟩ = pure (.ok (b, ⟨pre ++ b :: t, pre.length⟩)) := by
  have key : exec (Decoder.peek W 0) ⟨pre ++ b :: t, pre.length⟩ =
      exec ((do
        let j ← addU W pre.length 0
        if j ≥ (pre ++ b :: t).length then Decoder.fail else (idx (pre ++ b :: t) j : Dec UInt8) : Dec UInt8)) ⟨pre ++ b :: t, pre.length⟩ := rfl
  rw [key, addU_pure (by omega)]
  show exec (if pre.length ≥ (pre ++ b :: t).length then Decoder.fail else (idx (pre ++ b :: t) pre.length : Dec UInt8) : Dec UInt8) _ = _
  rw [if_neg (by simp), idx_pure (by simp)]
  simp only [List.getElem_append_right (le_refl pre.length), Nat.sub_self, List.getElem_cons_zero]
  rfl

theorem exec_lift {α β : Type} {x : Exec α} {a : α} {g : α → Dec β} {d : Decoder} (h : x = pure a) :
    exec (do let v ← (x : Dec α); g v) d = exec (g a) d := by
  rw [h]; rfl

theorem exec_loop {k ret : ℕ} {b : UInt8} {pre t : List UInt8} (h : pre.length + 1 < 2 ^ 32)
    (h1 : ret * 256 + b.toNat + (k + 1) < 2 ^ 32) (h2 : ret * 256 + b.toNat + (k + 1) ≤ t.length) :
    exec (Decoder.readLenLoop 32 (k + 1) ret) ⟨pre ++ b :: t, pre.length⟩ =
      exec (Decoder.readLenLoop 32 k (ret * 256 + b.toNat)) ⟨(pre ++ [b]) ++ t, (pre ++ [b]).length⟩ := by
  rw [Decoder.readLenLoop, SimAt.dec_bind_ok (exec_read h), shl8U_or (lt_of_le_of_lt (by rw [Nat.add_assoc]; exact Nat.le_add_right _ _) h1), exec_lift (addU_pure h1), SimAt.dec_bind_ok exec_len,
    if_neg (by omega)]

theorem runDec_exec {α : Type} {x : Dec α} {p : List UInt8} (π : Profile) :
    Signature.runDec x p π = (exec x ⟨p, 0⟩ π).map fun r => match r with
      | .ok a => .ok a.1
      | .error e => .error e := by
  show (x ⟨p, 0⟩ π).bind _ = ((x ⟨p, 0⟩ π).bind _).map _
  cases x ⟨p, 0⟩ π with
  | none => rfl
  | some r => obtain ⟨e | a, d⟩ := r <;> rfl

theorem runDec_debug_none {α : Type} {x : Dec α} {p : List UInt8} (h : exec x ⟨p, 0⟩ .debug = none) :
    Signature.runDec x p .debug = none := by
  rw [runDec_exec, h]; rfl

theorem overflow_loop {z : List UInt8} (hz : 2 ^ 24 ≤ z.length) :
    exec (Decoder.readLenLoop 32 4 0) ⟨([] ++ [0x30] ++ [0x84]) ++ 0xff :: 0xff :: 0xff :: 0xff :: z, ([] ++ [0x30] ++ [0x84] : List UInt8).length⟩ .debug = none := by
  have hff : ((0xff : UInt8)).toNat = 255 := rfl
  norm_num at hz
  rw [exec_loop (by decide) (by decide) (by rw [hff]; simp only [List.length_cons]; omega),
    exec_loop (by decide) (by decide) (by rw [hff]; simp only [List.length_cons]; omega),
    exec_loop (by decide) (by decide) (by rw [hff]; simp only [List.length_cons]; omega)]
  rw [Decoder.readLenLoop, SimAt.dec_bind_ok (exec_read (by decide)), shl8U_or (by rw [hff]; norm_num)]
  apply bind_debug_none
  apply lift_debug_none
  apply addU_debug
  rw [hff]; norm_num

/-- A sequence whose 4-byte length is `2^32 - 1`, followed by at least `2^24` bytes. -/
theorem parseDer_overflow {z : List UInt8} (hz : 2 ^ 24 ≤ z.length) :
    Signature.parseDer 32 ([0x30, 0x84, 0xff, 0xff, 0xff, 0xff] ++ z) .debug = none := by
  have h : exec (Signature.parseDerD 32) ⟨[] ++ 0x30 :: 0x84 :: 0xff :: 0xff :: 0xff :: 0xff :: z, ([] : List UInt8).length⟩ .debug = none := by
    have h1 : exec (Decoder.readConstructedSequence 32) ⟨[] ++ 0x30 :: 0x84 :: 0xff :: 0xff :: 0xff :: 0xff :: z, ([] : List UInt8).length⟩ =
        pure (.ok ((), ⟨([] ++ [0x30]) ++ 0x84 :: 0xff :: 0xff :: 0xff :: 0xff :: z, ([] ++ [0x30] : List UInt8).length⟩)) := by
      unfold Decoder.readConstructedSequence
      rw [SimAt.dec_bind_ok (exec_read (by decide)), if_pos (by decide)]; rfl
    unfold Signature.parseDerD
    rw [SimAt.dec_bind_ok h1]
    apply bind_debug_none
    unfold Decoder.readLen
    rw [SimAt.dec_bind_ok (exec_read (by decide)), if_neg (by decide), if_neg (by decide), if_neg (by decide)]
    unfold Decoder.readLenLong
    have h4 : ((0x84 : UInt8) &&& 0x7f).toNat = 4 := by decide
    rw [SimAt.dec_bind_ok exec_len, h4, if_neg (by simp only [List.length_cons]; omega),
      SimAt.dec_bind_ok (exec_peek (by decide)), if_neg (by decide), if_neg (by decide)]
    apply bind_debug_none
    exact overflow_loop hz
  exact runDec_debug_none h

end Verif
