import Verif.Model.Ecmult

/-! Model of core/src/error.rs, core/src/ecdsa.rs and core/src/ecdh.rs. -/

namespace Verif

/-- core/src/error.rs:1-11 `Error`. -/
inductive Error
  | invalidSignature
  | invalidPublicKey
  | invalidSecretKey
  | invalidRecoveryId
  | invalidMessage
  | invalidInputLength
  | tweakOutOfRange
  | invalidAffine
  deriving DecidableEq, Repr

/-- core/src/error.rs:16-29 `Display for Error`. -/
def Error.display : Error → String
  | .invalidSignature => "Invalid signature"
  | .invalidPublicKey => "Invalid public key"
  | .invalidSecretKey => "Invalid secret key"
  | .invalidRecoveryId => "Invalid recovery ID"
  | .invalidMessage => "Invalid message"
  | .invalidInputLength => "Invalid input length"
  | .tweakOutOfRange => "Tweak out of range"
  | .invalidAffine => "Invalid Affine"

/-- `Result<T, Error>` with the `Error` of core/src/error.rs:2-11. -/
abbrev Res (α : Type) := Except Error α

namespace Ecdsa
open Ecmult

/-- core/src/ecdsa.rs:9 `P_MINUS_ORDER`. -/
def pMinusOrder : FElem := FElem.new 0 0 0 1 0x45512319 0x50B75FC4 0x402DA172 0x2FC9BAEE

/-- core/src/ecdsa.rs:11-13 `ORDER_AS_FE`. -/
def orderAsFe : FElem :=
  FElem.new 0xFFFFFFFF 0xFFFFFFFF 0xFFFFFFFF 0xFFFFFFFE 0xBAAEDCE6 0xAF48A03B 0xBFD25E8C 0xD0364141

/-- core/src/ecdsa.rs:48-55: the second comparison of `verify_raw`. -/
def verifySecond (pr : Jacobian) (xr : FElem) : Exec Bool := do
  let c ← FElem.cmpVar xr pMinusOrder
  if c != .lt then pure false
  else do
    let xr ← FElem.add xr orderAsFe
    Jacobian.eqXVar pr xr

/-- core/src/ecdsa.rs:37-55: the end of `verify_raw`, after the multiplication. -/
def verifyTail (sigr : Scalar) (pr : Jacobian) : Exec Bool :=
  if pr.infinity then pure false
  else do
    let xr ← FElem.setB32 FElem.zero sigr.b32
    let e ← Jacobian.eqXVar pr xr.1
    if e then pure true else verifySecond pr xr.1

/-- core/src/ecdsa.rs:16-56 `verify_raw`; `inv_var` is `inv` (scalar.rs:920-922). -/
def verifyRaw (ctx : List AffineStorage) (sigr sigs : Scalar) (pubkey : Affine) (message : Scalar) : Exec Bool :=
  if sigr.isZero || sigs.isZero then pure false
  else do
    let sn ← Scalar.inv sigs
    let u1 ← Scalar.mul sn message
    let u2 ← Scalar.mul sn sigr
    let pubkeyj ← Jacobian.setGe pubkey
    let pr ← ecmult ctx pubkeyj u2 u1
    verifyTail sigr pr

/-- core/src/ecdsa.rs:76-81: add the group order to the x coordinate if bit 1 of the recovery id
is set; `none` is the early return of `Err`. -/
def recoverX (recId : UInt8) (fx : FElem) : Exec (Option FElem) :=
  if recId &&& 2 > 0 then do
    let c ← FElem.cmpVar fx pMinusOrder
    if c != .lt then pure none
    else do
      let fx ← FElem.add fx orderAsFe
      pure (some fx)
  else pure (some fx)

/-- core/src/ecdsa.rs:86-102: the end of `recover_raw`, from the recovered point `R` on. -/
def recoverTail (ctx : List AffineStorage) (sigr sigs : Scalar) (message : Scalar) (x : Affine) : Exec (Res Affine) := do
  let xj ← Jacobian.setGe x
  let rn ← Scalar.inv sigr
  let u1 ← Scalar.mul rn message
  let u1 ← Scalar.neg u1
  let u2 ← Scalar.mul rn sigs
  let qj ← ecmult ctx xj u2 u1
  let pubkey ← Affine.setGejVar Affine.default qj
  if pubkey.infinity then pure (.error .invalidSignature) else pure (.ok pubkey)

/-- core/src/ecdsa.rs:58-103 `recover_raw`. -/
def recoverRaw (ctx : List AffineStorage) (sigr sigs : Scalar) (recId : UInt8) (message : Scalar) : Exec (Res Affine) := do
  dassert (decide (recId < 4))
  if sigr.isZero || sigs.isZero then pure (.error .invalidSignature)
  else do
    let fx ← FElem.setB32 FElem.zero sigr.b32
    dassert fx.2
    let fx ← recoverX recId fx.1
    match fx with
    | none => pure (.error .invalidSignature)
    | some fx => do
      let x ← Affine.setXoVar fx (decide (recId &&& 1 > 0))
      if !x.2 then pure (.error .invalidSignature)
      else recoverTail ctx sigr sigs message x.1

/-- core/src/ecdsa.rs:133-140: the end of `sign_raw`. -/
def signTail (sigr sigs : Scalar) (recid : UInt8) : Exec (Res (Scalar × Scalar × UInt8)) :=
  if sigs.isZero then pure (.error .invalidMessage)
  else if sigs.isHigh then do
    let sigs ← Scalar.neg sigs
    pure (.ok (sigr, sigs, recid ^^^ 1))
  else pure (.ok (sigr, sigs, recid))

/-- core/src/ecdsa.rs:107-141 `sign_raw`.  The `clear` calls (130-132) wipe locals that are not
used any more and are left out. -/
def signRaw (ctx : GenContext) (seckey message nonce : Scalar) : Exec (Res (Scalar × Scalar × UInt8)) := do
  let rp ← ecmultGen ctx nonce
  let r ← Affine.setGej rp
  let x ← FElem.normalize r.x
  let y ← FElem.normalize r.y
  let b ← FElem.b32 x
  let sr ← Scalar.setB32 b
  dassert (!sr.1.isZero)
  dassert (!sr.2)
  let odd ← FElem.isOdd y
  let recid : UInt8 := (if sr.2 then 2 else 0) ||| (if odd then 1 else 0)
  let n ← Scalar.mul sr.1 seckey
  let n ← Scalar.add n message
  let sigs ← Scalar.inv nonce
  let sigs ← Scalar.mul sigs n
  signTail sr.1 sigs recid

end Ecdsa

/-- The `Digest` trait of the external crate `digest`, as used by core/src/ecdh.rs: a streaming
hash.  The law is the contract of `update`: splitting the input has no influence. -/
structure Digest where
  State : Type
  init : State
  update : State → List UInt8 → State
  finalize : State → List UInt8
  update_append : ∀ s a b, update (update s a) b = update s (a ++ b)

namespace Ecdsa
open Ecmult

/-- core/src/ecdh.rs:9-36 `ecdh_raw`. -/
def ecdhRaw (D : Digest) (point : Affine) (scalar : Scalar) : Exec (Option (List UInt8)) :=
  if scalar.isZero then pure none
  else do
    let res ← ecmultConst point scalar
    let pt ← Affine.setGej res
    let ptx ← FElem.normalize pt.x
    let pty ← FElem.normalize pt.y
    let x ← FElem.b32 ptx
    let odd ← FElem.isOdd pty
    let y : UInt8 := 0x02 ||| (if odd then 1 else 0)
    let d := D.update D.init [y]
    let d := D.update d x.toList
    pure (some (D.finalize d))

end Ecdsa
end Verif
