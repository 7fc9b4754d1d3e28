import Verif.Model.Machine
import Mathlib.Tactic.NormNum
import Mathlib.Tactic.Ring
import Mathlib.Tactic.Linarith

/-! Rules for reasoning about `Exec` computations. -/

namespace Verif

theorem runs_pure {α : Type} {a : α} {P : α → Prop} (h : P a) : Runs (pure a) P := ⟨a, rfl, h⟩

theorem Runs.bind {α β : Type} {x : Exec α} {f : α → Exec β} {P : α → Prop} {Q : β → Prop}
    (hx : Runs x P) (hf : ∀ a, P a → Runs (f a) Q) : Runs (x >>= f) Q := by
  obtain ⟨a, rfl, ha⟩ := hx
  rw [pure_bind]; exact hf a ha

theorem Runs.mono {α : Type} {x : Exec α} {P Q : α → Prop} (hx : Runs x P) (h : ∀ a, P a → Q a) :
    Runs x Q := by
  obtain ⟨a, e, ha⟩ := hx; exact ⟨a, e, h a ha⟩

theorem Runs.and {α : Type} {x : Exec α} {P Q : α → Prop} (hx : Runs x P) (hy : Runs x Q) :
    Runs x (fun a => P a ∧ Q a) := by
  obtain ⟨a, rfl, ha⟩ := hx
  obtain ⟨b, e, hb⟩ := hy
  have : a = b := by
    have := congrFun e .debug
    simpa [pure, ReaderT.pure] using this
  subst this
  exact ⟨a, rfl, ha, hb⟩

theorem pure_inj' {α : Type} {a b : α} (e : (pure a : Exec α) = pure b) : a = b := by
  have := congrFun e .debug
  simpa [pure, ReaderT.pure] using this

theorem runs_pure_iff {α : Type} {a : α} {P : α → Prop} : Runs (pure a) P ↔ P a := by
  constructor
  · rintro ⟨b, e, h⟩; rw [pure_inj' e]; exact h
  · exact runs_pure

theorem dassert_true {c : Bool} (h : c = true) : dassert c = pure () := by
  funext p; cases p <;> simp [dassert, h] <;> rfl

theorem rassert_true {c : Bool} (h : c = true) : rassert c = pure () := by
  funext p; simp [rassert, h]; rfl

theorem dassert_runs {c : Bool} {P : Unit → Prop} (h : c = true) (hp : P ()) : Runs (dassert c) P :=
  ⟨(), dassert_true h, hp⟩

theorem runs_dassert {β : Type} {c : Bool} {f : Unit → Exec β} {Q : β → Prop} (h : c = true)
    (hf : Runs (f ()) Q) : Runs (dassert c >>= f) Q := by
  rw [dassert_true h, pure_bind]; exact hf

theorem runs_rassert {β : Type} {c : Bool} {f : Unit → Exec β} {Q : β → Prop} (h : c = true)
    (hf : Runs (f ()) Q) : Runs (rassert c >>= f) Q := by
  rw [rassert_true h, pure_bind]; exact hf

theorem add32_pure {a b : UInt32} (h : a.toNat + b.toNat < 2 ^ 32) : add32 a b = pure (a + b) := by
  simp only [add32, h, decide_true, dassert_true, pure_bind]

theorem sub32_pure {a b : UInt32} (h : b.toNat ≤ a.toNat) : sub32 a b = pure (a - b) := by
  simp only [sub32, h, decide_true, dassert_true, pure_bind]

theorem mul32_pure {a b : UInt32} (h : a.toNat * b.toNat < 2 ^ 32) : mul32 a b = pure (a * b) := by
  simp only [mul32, h, decide_true, dassert_true, pure_bind]

theorem add64_pure {a b : UInt64} (h : a.toNat + b.toNat < 2 ^ 64) : add64 a b = pure (a + b) := by
  simp only [add64, h, decide_true, dassert_true, pure_bind]

theorem mul64_pure {a b : UInt64} (h : a.toNat * b.toNat < 2 ^ 64) : mul64 a b = pure (a * b) := by
  simp only [mul64, h, decide_true, dassert_true, pure_bind]

theorem add8_pure {a b : UInt8} (h : a.toNat + b.toNat < 2 ^ 8) : add8 a b = pure (a + b) := by
  simp only [add8, h, decide_true, dassert_true, pure_bind]

theorem subNat_pure {a b : Nat} (h : b ≤ a) : subNat a b = pure (a - b) := by
  simp only [subNat, h, decide_true, dassert_true, pure_bind, if_true]

theorem shl32_pure {a : UInt32} {k : Nat} (h : k < 32) : shl32 a k = pure (a <<< UInt32.ofNat k) := by
  simp only [shl32, h, decide_true, dassert_true, pure_bind, Nat.mod_eq_of_lt h]

theorem shr32_pure {a : UInt32} {k : Nat} (h : k < 32) : shr32 a k = pure (a >>> UInt32.ofNat k) := by
  simp only [shr32, h, decide_true, dassert_true, pure_bind, Nat.mod_eq_of_lt h]

theorem choiceFrom_pure {x : UInt8} (h : x.toNat ≤ 1) : choiceFrom x = pure (x == 1) := by
  have : (x == 0 || x == 1) = true := by
    have : x = 0 ∨ x = 1 := by
      rcases Nat.le_one_iff_eq_zero_or_eq_one.1 h with h | h
      · left; exact UInt8.toNat_inj.1 (by simpa using h)
      · right; exact UInt8.toNat_inj.1 (by simpa using h)
    simpa using this
  simp only [choiceFrom, this, rassert_true, pure_bind]

/-! Interval rules. -/

theorem add32_runs {a b : UInt32} {A B : Nat} (C : Nat) (ha : a.toNat ≤ A) (hb : b.toNat ≤ B)
    (hC : A + B ≤ C) (h : C < 2 ^ 32) :
    Runs (add32 a b) (fun r => r.toNat = a.toNat + b.toNat ∧ r.toNat ≤ C) := by
  have h' : a.toNat + b.toNat < 2 ^ 32 := by omega
  refine ⟨a + b, add32_pure h', ?_, ?_⟩ <;>
    rw [UInt32.toNat_add, Nat.mod_eq_of_lt h']; omega

theorem sub32_runs {a b : UInt32} (h : b.toNat ≤ a.toNat) :
    Runs (sub32 a b) (fun r => r.toNat = a.toNat - b.toNat) :=
  ⟨a - b, sub32_pure h, UInt32.toNat_sub_of_le _ _ (by rwa [UInt32.le_iff_toNat_le])⟩

theorem mul32_runs {a b : UInt32} {A B : Nat} (C : Nat) (ha : a.toNat ≤ A) (hb : b.toNat ≤ B)
    (hC : A * B ≤ C) (h : C < 2 ^ 32) :
    Runs (mul32 a b) (fun r => r.toNat = a.toNat * b.toNat ∧ r.toNat ≤ C) := by
  have h0 : a.toNat * b.toNat ≤ A * B := Nat.mul_le_mul ha hb
  have h' : a.toNat * b.toNat < 2 ^ 32 := by omega
  refine ⟨a * b, mul32_pure h', ?_, ?_⟩ <;>
    rw [UInt32.toNat_mul, Nat.mod_eq_of_lt h']; omega

theorem add64_runs {a b : UInt64} {A B : Nat} (C : Nat) (ha : a.toNat ≤ A) (hb : b.toNat ≤ B)
    (hC : A + B ≤ C) (h : C < 2 ^ 64) :
    Runs (add64 a b) (fun r => r.toNat = a.toNat + b.toNat ∧ r.toNat ≤ C) := by
  have h' : a.toNat + b.toNat < 2 ^ 64 := by omega
  refine ⟨a + b, add64_pure h', ?_, ?_⟩ <;>
    rw [UInt64.toNat_add, Nat.mod_eq_of_lt h']; omega

theorem mul64_runs {a b : UInt64} {A B : Nat} (C : Nat) (ha : a.toNat ≤ A) (hb : b.toNat ≤ B)
    (hC : A * B ≤ C) (h : C < 2 ^ 64) :
    Runs (mul64 a b) (fun r => r.toNat = a.toNat * b.toNat ∧ r.toNat ≤ C) := by
  have h0 : a.toNat * b.toNat ≤ A * B := Nat.mul_le_mul ha hb
  have h' : a.toNat * b.toNat < 2 ^ 64 := by omega
  refine ⟨a * b, mul64_pure h', ?_, ?_⟩ <;>
    rw [UInt64.toNat_mul, Nat.mod_eq_of_lt h']; omega

theorem u32_le (a : UInt32) : a.toNat ≤ 4294967295 := by have := a.toNat_lt; omega
theorem u64_le (a : UInt64) : a.toNat ≤ 18446744073709551615 := by have := a.toNat_lt; omega
theorem u8_le (a : UInt8) : a.toNat ≤ 255 := by have := a.toNat_lt; omega

theorem u64_and_mask32 (t : UInt64) : (t &&& 0xFFFFFFFF).toUInt32.toNat = t.toNat % 2 ^ 32 := by
  have : (4294967295 : Nat) = 2 ^ 32 - 1 := rfl
  simp only [UInt64.toNat_toUInt32, UInt64.toNat_and, UInt64.toNat_ofNat]
  norm_num
  rw [this, Nat.and_two_pow_sub_one_eq_mod]
  omega

theorem u64_shr32 (t : UInt64) : (t >>> 32).toNat = t.toNat / 2 ^ 32 := by
  simp [UInt64.toNat_shiftRight, Nat.shiftRight_eq_div_pow]

theorem u32_u64 (a : UInt32) : a.toUInt64.toNat = a.toNat := UInt32.toNat_toUInt64 a

theorem u32_u64_le (a : UInt32) : a.toUInt64.toNat ≤ 4294967295 := by
  rw [u32_u64]; exact u32_le a

/-- Product of two `u32` in `u64`. -/
theorem mulw_toNat (a b : UInt32) : (a.toUInt64 * b.toUInt64).toNat = a.toNat * b.toNat := by
  have ha := u32_le a; have hb := u32_le b
  have h : a.toNat * b.toNat ≤ 4294967295 * 4294967295 := Nat.mul_le_mul ha hb
  rw [UInt64.toNat_mul, u32_u64, u32_u64, Nat.mod_eq_of_lt (by omega)]

/-! Loops. -/

theorem forN_runs {σ : Type} {f : Nat → σ → Exec σ} (I : Nat → σ → Prop) :
    ∀ (n : Nat) (s : σ), I 0 s → (∀ i s, i < n → I i s → Runs (f i s) (I (i + 1))) →
      Runs (forN n f s) (I n)
  | 0, s, h0, _ => runs_pure h0
  | n + 1, s, h0, hs => by
    unfold forN
    exact Runs.bind (forN_runs I n s h0 (fun i s hi => hs i s (by omega)))
      (fun a ha => hs n a (by omega) ha)

theorem idx_pure {α : Type} {l : List α} {i : Nat} (h : i < l.length) : idx l i = pure l[i] := by
  simp [idx, List.getElem?_eq_getElem h]

end Verif
