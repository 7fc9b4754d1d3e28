import Verif.Model.LeakVar

/-!
# Observations of reading a secret key from a slice and of drawing one

Continues `Model/LeakVar.lean`, with the same rules.
-/

namespace Verif.SecretKey
open Leak

/-- src/lib.rs:421-429 `parse_slice`.  The copy has a fixed length. -/
def parseSliceL (p : List UInt8) : Leak (Res SecretKey) := do
  let c ← branch (p.length != 32)
  if c then pure (.error .invalidInputLength)
  else do
    let a ← lift (toArr 32 p)
    parseL a

/-- src/lib.rs:431-440 `random`; `draw` and `fuel` as in `SecretKey.random`. -/
def randomL {σ : Type} (draw : σ → Vector UInt8 32 × σ) : (fuel : Nat) → σ → Leak (Option (SecretKey × σ))
  | 0, _ => pure none
  | fuel + 1, rng => do
    emit (.extern 32)
    let r ← parseL (draw rng).1
    match r with
    | .ok key => do
      let _ ← branch true
      pure (some (key, (draw rng).2))
    | .error _ => do
      let _ ← branch false
      randomL draw fuel (draw rng).2

end Verif.SecretKey
