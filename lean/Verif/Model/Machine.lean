import Mathlib.Logic.Basic

/-!
# Execution model

A Rust computation is a function of the build profile that either panics (`none`)
or returns a value.  Integer overflow and `debug_assert!` panic in the `debug`
profile only; in the `release` profile overflow wraps and `debug_assert!` is
absent.  Everything else (index out of range, `assert!`, `unwrap`) panics in both.

This models Rust semantics, not a particular file of /repo.
-/

namespace Verif

/-- Cargo build profiles (overflow checks and debug assertions on / off). -/
inductive Profile
  | debug
  | release
  deriving DecidableEq, Repr

/-- A Rust computation: `none` is a panic. -/
abbrev Exec (α : Type) := ReaderT Profile Option α

/-- `panic!` in both profiles. -/
def panic {α : Type} : Exec α := fun _ => none

/-- `debug_assert!(c)`. -/
def dassert (c : Bool) : Exec Unit := fun
  | .debug => if c then some () else none
  | .release => some ()

/-- `assert!(c)`, and bounds checks. -/
def rassert (c : Bool) : Exec Unit := fun _ => if c then some () else none

/-- `a + b` on `u32`. -/
def add32 (a b : UInt32) : Exec UInt32 := do
  dassert (decide (a.toNat + b.toNat < 2 ^ 32)); pure (a + b)

/-- `a - b` on `u32`. -/
def sub32 (a b : UInt32) : Exec UInt32 := do
  dassert (decide (b.toNat ≤ a.toNat)); pure (a - b)

/-- `a * b` on `u32`. -/
def mul32 (a b : UInt32) : Exec UInt32 := do
  dassert (decide (a.toNat * b.toNat < 2 ^ 32)); pure (a * b)

/-- `a << k` on `u32` with a `usize` shift count (32 or more panics in debug and is
masked in release). -/
def shl32 (a : UInt32) (k : Nat) : Exec UInt32 := do
  dassert (decide (k < 32)); pure (a <<< UInt32.ofNat (k % 32))

/-- `a >> k` on `u32` with a `usize` shift count. -/
def shr32 (a : UInt32) (k : Nat) : Exec UInt32 := do
  dassert (decide (k < 32)); pure (a >>> UInt32.ofNat (k % 32))

/-- `a + b` on `u64`. -/
def add64 (a b : UInt64) : Exec UInt64 := do
  dassert (decide (a.toNat + b.toNat < 2 ^ 64)); pure (a + b)

/-- `a * b` on `u64`. -/
def mul64 (a b : UInt64) : Exec UInt64 := do
  dassert (decide (a.toNat * b.toNat < 2 ^ 64)); pure (a * b)

/-- `a + b` on `u8`. -/
def add8 (a b : UInt8) : Exec UInt8 := do
  dassert (decide (a.toNat + b.toNat < 2 ^ 8)); pure (a + b)

/-- `a - b` on `usize`, a `Nat` here: underflow panics in debug and wraps in release.
The wrapped value is the one of a 64-bit `usize`; the code only compares it, masks it to
five bits or indexes with it, with the same outcome for a 32-bit `usize`. -/
def subNat (a b : Nat) : Exec Nat := do
  dassert (decide (b ≤ a)); pure (if b ≤ a then a - b else 2 ^ 64 + a - b)

/-- `Choice::from(x)` of the `subtle` crate: it debug-asserts that `x` is 0 or 1.
The model panics in both profiles otherwise (stronger obligation). -/
def choiceFrom (x : UInt8) : Exec Bool := do
  rassert (x == 0 || x == 1); pure (x == 1)

/-- Element `i` of a list; out of range panics. -/
def idx {α : Type} (l : List α) (i : Nat) : Exec α :=
  match l[i]? with
  | some a => pure a
  | none => panic

/-- `for i in 0..n { s = f i s }`. -/
def forN {σ : Type} : (n : Nat) → (f : Nat → σ → Exec σ) → σ → Exec σ
  | 0, _, s => pure s
  | n + 1, f, s => do let s ← forN n f s; f n s

/-- The computation returns, in both profiles, the same value, and it satisfies `P`. -/
def Runs {α : Type} (x : Exec α) (P : α → Prop) : Prop := ∃ a, x = pure a ∧ P a

end Verif
