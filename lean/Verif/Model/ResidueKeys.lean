import Verif.Model.Residue

/-!
# Local variables of the functions that make and change keys

As in `Model/Residue`: the functions a second time, with the contents of their named local variables at return.  `Scalar` is `Copy`
(scalar.rs:24), so passing a local by value leaves the local as it is.
-/

namespace Verif
open Ecmult

namespace SecretKey

/-- lib.rs:412-419 `parse`, with its local `elem`. -/
def parseR (p : Vector UInt8 32) : Exec (Res SecretKey × Scalar) := do
  let elem ← Scalar.setB32 p
  if !elem.2 then pure (tryFrom elem.1, elem.1) else pure (.error .invalidSecretKey, elem.1)

/-- lib.rs:421-429 `parse_slice`, with its local `a` and that of `parse`, unless it returns before. -/
def parseSliceR (p : List UInt8) : Exec (Res SecretKey × Option (Vector UInt8 32 × Scalar)) :=
  if p.length != 32 then pure (.error .invalidInputLength, none)
  else do
    let a ← toArr 32 p
    let r ← parseR a
    pure (r.1, some (a, r.2))

/-- lib.rs:431-440 `random`, with its local `ret` and that of `parse` in the last turn; `none` is "more than `fuel` draws". -/
def randomR {σ : Type} (draw : σ → Vector UInt8 32 × σ) : (fuel : Nat) → σ → Exec (Option (SecretKey × σ × Vector UInt8 32 × Scalar))
  | 0, _ => pure none
  | fuel + 1, rng => do
    let ret := (draw rng).1
    let r ← parseR ret
    match r.1 with
    | .ok key => pure (some (key, (draw rng).2, ret, r.2))
    | .error _ => randomR draw fuel (draw rng).2

/-- lib.rs:446-453 `tweak_add_assign`, with its local `v`. -/
def tweakAddAssignR (k tweak : SecretKey) : Exec (SecretKey × Res Unit × Scalar) := do
  let v ← Scalar.add k.sc tweak.sc
  if v.isZero then pure (k, .error .tweakOutOfRange, v) else pure (⟨v⟩, .ok (), v)

end SecretKey

/-- lib.rs:107-116 `from_secret_key_with_context`, with its local `pj` and those of `ecmult_gen`; its local `p` is the result. -/
def PublicKey.fromSecretKeyR (seckey : SecretKey) (ctx : GenContext) : Exec (PublicKey × Jacobian × GenLocals) := do
  let g ← ecmultGenR ctx seckey.sc
  let pj := g.1
  let p ← Affine.setGej pj
  pure (⟨p⟩, pj, g.2)

end Verif
