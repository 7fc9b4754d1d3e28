import Verif.Proofs.Machine
import Verif.Model.Ecmult
import Verif.Model.Der

/-!
# Integer arithmetic (C82)

The primitives of the execution model, stated with the exact result in the integers: a debug build panics unless it
fits the type, a release build returns it modulo the size of the type.
-/

namespace Verif.Props
open Verif

/-- `x` computes the integer `v` in a type whose values are `lo ≤ v < lo + 2 ^ k`, seen through `val`. -/
def Checked {α : Type} (x : Exec α) (val : α → ℤ) (lo : ℤ) (k : ℕ) (v : ℤ) : Prop :=
  (∃ a, x .release = some a ∧ lo ≤ val a ∧ val a < lo + 2 ^ k ∧ (2 ^ k : ℤ) ∣ val a - v) ∧
  (lo ≤ v ∧ v < lo + 2 ^ k → ∃ a, x = pure a ∧ val a = v) ∧
  (¬(lo ≤ v ∧ v < lo + 2 ^ k) → x .debug = none)

theorem checked_of {α : Type} {c : Bool} {a : α} {val : α → ℤ} {lo : ℤ} {k : ℕ} {v : ℤ} (h1 : lo ≤ val a) (h2 : val a < lo + 2 ^ k)
    (h3 : (2 ^ k : ℤ) ∣ val a - v) (hc : c = true ↔ lo ≤ v ∧ v < lo + 2 ^ k) : Checked (dassert c >>= fun _ => pure a) val lo k v := by
  refine ⟨⟨a, rfl, h1, h2, h3⟩, fun h => ⟨a, ?_, ?_⟩, fun h => ?_⟩
  · rw [hc.2 h]; funext q; cases q <;> rfl
  · obtain ⟨d, hd⟩ := h3
    have hp : (0 : ℤ) < 2 ^ k := by positivity
    have : d = 0 := by
      have h4 : 2 ^ k * d < 2 ^ k * 1 := by omega
      have h5 : 2 ^ k * (-1) < 2 ^ k * d := by omega
      have := lt_of_mul_lt_mul_left h4 hp.le
      have := lt_of_mul_lt_mul_left h5 hp.le
      omega
    rw [this] at hd; omega
  · have : c = false := by by_contra hne; exact h (hc.1 (by simpa using hne))
    rw [this]; rfl

theorem emod_checked {k : ℕ} {v : ℤ} {r : ℕ} (h : (r : ℤ) = v % 2 ^ k) : (0 : ℤ) ≤ r ∧ (r : ℤ) < 0 + 2 ^ k ∧ (2 ^ k : ℤ) ∣ r - v := by
  have hp : (0 : ℤ) < 2 ^ k := by positivity
  refine ⟨by omega, ?_, ?_⟩
  · rw [h, zero_add]; exact Int.emod_lt_of_pos _ hp
  · rw [h, Int.emod_def]; exact ⟨-(v / 2 ^ k), by ring⟩

/-- C82. Unsigned 32-bit addition, subtraction and multiplication. -/
theorem C82_u32 (a b : UInt32) :
    Checked (add32 a b) (fun r => r.toNat) 0 32 (a.toNat + b.toNat) ∧
    Checked (sub32 a b) (fun r => r.toNat) 0 32 (a.toNat - b.toNat) ∧
    Checked (mul32 a b) (fun r => r.toNat) 0 32 (a.toNat * b.toNat) := by
  have ha := a.toNat_lt; have hb := b.toNat_lt
  refine ⟨?_, ?_, ?_⟩
  · obtain ⟨h1, h2, h3⟩ := emod_checked (k := 32) (v := a.toNat + b.toNat) (r := (a + b).toNat) (by rw [UInt32.toNat_add]; push_cast; rfl)
    exact checked_of h1 h2 h3 (by rw [decide_eq_true_eq]; omega)
  · obtain ⟨h1, h2, h3⟩ := emod_checked (k := 32) (v := a.toNat - b.toNat) (r := (a - b).toNat) (by rw [UInt32.toNat_sub]; omega)
    exact checked_of h1 h2 h3 (by rw [decide_eq_true_eq]; omega)
  · obtain ⟨h1, h2, h3⟩ := emod_checked (k := 32) (v := a.toNat * b.toNat) (r := (a * b).toNat) (by rw [UInt32.toNat_mul]; push_cast; rfl)
    refine checked_of h1 h2 h3 ?_
    rw [decide_eq_true_eq]
    have : (0 : ℤ) ≤ a.toNat * b.toNat := by positivity
    zify; constructor
    · exact fun h => ⟨this, by omega⟩
    · exact fun h => by omega

/-- C82. Unsigned 64-bit addition and multiplication, and 8-bit addition. -/
theorem C82_u64 (a b : UInt64) (c d : UInt8) :
    Checked (add64 a b) (fun r => r.toNat) 0 64 (a.toNat + b.toNat) ∧
    Checked (mul64 a b) (fun r => r.toNat) 0 64 (a.toNat * b.toNat) ∧
    Checked (add8 c d) (fun r => r.toNat) 0 8 (c.toNat + d.toNat) := by
  have ha := a.toNat_lt; have hb := b.toNat_lt
  refine ⟨?_, ?_, ?_⟩
  · obtain ⟨h1, h2, h3⟩ := emod_checked (k := 64) (v := a.toNat + b.toNat) (r := (a + b).toNat) (by rw [UInt64.toNat_add]; push_cast; rfl)
    exact checked_of h1 h2 h3 (by rw [decide_eq_true_eq]; omega)
  · obtain ⟨h1, h2, h3⟩ := emod_checked (k := 64) (v := a.toNat * b.toNat) (r := (a * b).toNat) (by rw [UInt64.toNat_mul]; push_cast; rfl)
    refine checked_of h1 h2 h3 ?_
    rw [decide_eq_true_eq]
    have : (0 : ℤ) ≤ a.toNat * b.toNat := by positivity
    zify; constructor
    · exact fun h => ⟨this, by omega⟩
    · exact fun h => by omega
  · obtain ⟨h1, h2, h3⟩ := emod_checked (k := 8) (v := c.toNat + d.toNat) (r := (c + d).toNat) (by rw [UInt8.toNat_add]; push_cast; rfl)
    exact checked_of h1 h2 h3 (by rw [decide_eq_true_eq]; omega)

/-- C82. Subtraction of `usize` (64 bits), and its addition for any pointer width `W`. -/
theorem C82_usize (a b : ℕ) (ha : a < 2 ^ 64) (hb : b < 2 ^ 64) (W : ℕ) (c d : ℕ) :
    Checked (subNat a b) (fun r => r) 0 64 (a - b) ∧ Checked (addU W c d) (fun r => r) 0 W (c + d) := by
  refine ⟨?_, ?_⟩
  · refine checked_of (by omega) ?_ ?_ (by rw [decide_eq_true_eq]; omega)
    · split <;> omega
    · split
      · exact ⟨0, by omega⟩
      · exact ⟨1, by omega⟩
  · obtain ⟨h1, h2, h3⟩ := emod_checked (k := W) (v := c + d) (r := (c + d) % 2 ^ W) (by push_cast; rfl)
    refine checked_of h1 h2 h3 ?_
    rw [decide_eq_true_eq]
    zify; constructor
    · exact fun h => ⟨by positivity, by omega⟩
    · exact fun h => by omega

/-- C82. Signed 32-bit arithmetic. -/
theorem C82_i32 (v : ℤ) : Checked (i32 v) id (-2 ^ 31) 32 v := by
  unfold i32 wrap32
  refine checked_of ?_ ?_ ?_ ?_
  · have := Int.le_bmod (x := v) (m := 4294967296) (by norm_num); dsimp only [id]; omega
  · have := Int.bmod_lt (x := v) (m := 4294967296) (by norm_num); dsimp only [id]; omega
  · have := Int.bmod_emod (x := v) (m := 4294967296); dsimp only [id]; omega
  · rw [Bool.and_eq_true, decide_eq_true_eq, decide_eq_true_eq]; omega

/-- C82. Shifts: a count of 32 or more panics in a debug build and is reduced modulo 32 in a release build. -/
theorem C82_shift (a : UInt32) (k : ℕ) :
    (∃ r, shl32 a k .release = some r ∧ r.toNat = a.toNat * 2 ^ (k % 32) % 2 ^ 32) ∧
    (∃ r, shr32 a k .release = some r ∧ r.toNat = a.toNat / 2 ^ (k % 32)) ∧
    (k < 32 → shl32 a k .debug = shl32 a k .release ∧ shr32 a k .debug = shr32 a k .release) ∧
    (32 ≤ k → shl32 a k .debug = none ∧ shr32 a k .debug = none) := by
  have hk : k % 32 < 32 := Nat.mod_lt _ (by norm_num)
  have e : (UInt32.ofNat (k % 32)).toNat = k % 32 := by rw [UInt32.toNat_ofNat']; omega
  refine ⟨⟨_, rfl, ?_⟩, ⟨_, rfl, ?_⟩, fun h => ?_, fun h => ?_⟩
  · rw [UInt32.toNat_shiftLeft, e, Nat.mod_eq_of_lt hk, Nat.shiftLeft_eq]
  · rw [UInt32.toNat_shiftRight, e, Nat.mod_eq_of_lt hk, Nat.shiftRight_eq_div_pow]
  · unfold shl32 shr32
    rw [decide_eq_true h]; exact ⟨rfl, rfl⟩
  · unfold shl32 shr32
    rw [decide_eq_false (by omega)]; exact ⟨rfl, rfl⟩

/-- Both cases of `Checked` occur. -/
example : add32 1 2 = pure 3 ∧ add32 0xFFFFFFFF 1 .debug = none ∧ add32 0xFFFFFFFF 1 .release = some 0 :=
  ⟨by funext q; cases q <;> rfl, rfl, rfl⟩

end Verif.Props
