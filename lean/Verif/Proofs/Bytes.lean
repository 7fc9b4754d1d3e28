import Verif.Model.Lib
import Verif.Proofs.Ecdsa

/-! Byte arrays. -/

namespace Verif

open Spec

theorem toArr_toList {m : ℕ} (b : Vector UInt8 m) : toArr m b.toList = pure b := by
  unfold toArr
  rw [dif_pos (by simp)]
  congr 1

theorem exists_vec {m : ℕ} {p : List UInt8} (h : p.length = m) : ∃ b : Vector UInt8 m, p = b.toList :=
  ⟨⟨p.toArray, by simpa using h⟩, rfl⟩

theorem vec_inj {m : ℕ} {a b : Vector UInt8 m} (h : a.toList = b.toList) : a = b := Vector.toList_inj.1 h

theorem pure_ne {α : Type} {a b : α} (h : a ≠ b) : (pure a : Exec α) ≠ pure b := fun e => h (pure_inj' e)

theorem arrayRef32_toList {m : ℕ} (p : Vector UInt8 m) (off : ℕ) (h : off + 32 ≤ m) :
    (arrayRef32 p off h).toList = (p.toList.drop off).take 32 := by
  unfold arrayRef32
  apply List.ext_getElem
  · simp; omega
  · intro i h1 h2
    simp

theorem val_lt_b32 (x : Fp) : x.val < 256 ^ 32 := (ZMod.val_lt x).trans (by decide +kernel)

theorem beNat_fp (x : Fp) : beNat (beBytes 32 x.val) = x.val := by
  rw [beNat_beBytes]; exact Nat.mod_eq_of_lt (val_lt_b32 x)

theorem beBytes_fp_inj {x y : Fp} (h : beBytes 32 x.val = beBytes 32 y.val) : x = y := by
  apply ZMod.val_injective
  rw [← beNat_fp x, ← beNat_fp y, h]

/-- Thirty-two bytes with a value below `p` encode that residue. -/
theorem beBytes_of_lt {l : List UInt8} (hl : l.length = 32) (h : beNat l < p) : beBytes 32 ((beNat l : ℕ) : Fp).val = l := by
  rw [ZMod.val_natCast, Nat.mod_eq_of_lt h]
  have := beBytes_beNat l
  rwa [hl] at this

/-- The parts of a 65-byte array. -/
theorem split65 (b : Vector UInt8 65) : b.toList =
    b[0] :: ((arrayRef32 b 1 (by decide)).toList ++ (arrayRef32 b 33 (by decide)).toList) := by
  rw [arrayRef32_toList, arrayRef32_toList]
  rw [List.take_of_length_le (l := b.toList.drop 33) (by simp)]
  rw [show b.toList.drop 33 = (b.toList.drop 1).drop 32 by rw [List.drop_drop], List.take_append_drop]
  have := List.cons_getElem_drop_succ (l := b.toList) (n := 0) (h := by simp)
  simpa using this.symm

/-- The parts of a 33-byte array. -/
theorem split33 (b : Vector UInt8 33) : b.toList = b[0] :: (arrayRef32 b 1 (by decide)).toList := by
  rw [arrayRef32_toList, List.take_of_length_le (l := b.toList.drop 1) (by simp)]
  have := List.cons_getElem_drop_succ (l := b.toList) (n := 0) (h := by simp)
  simpa using this.symm

end Verif
