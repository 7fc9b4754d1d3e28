import Verif.Model.Lib

/-!
# Local variables at return

`ecmult_gen`, `sign_raw`, `sign_with_context`, `ecmult_const` and `ecdh_raw` a second time, with the contents of their named local
variables when they return.  This is the level at which the source calls `clear`.  Copies made by the
compiler, temporaries without a name, the frames of the arithmetic below, and the removal of assignments to
dead variables are not modelled.
-/

namespace Verif

namespace Ecmult

/-- The locals of `ecmult_gen` (ecmult.rs:561-569); `bits` as its block leaves it. -/
structure GenLocals where
  adds : AffineStorage
  gnb : Scalar
  add : Affine
  bits : UInt32

/-- ecmult.rs:560-582 `ecmult_gen`. -/
def ecmultGenR (ctx : GenContext) (gn : Scalar) : Exec (Jacobian × GenLocals) := do
  let gnb ← Scalar.add gn ctx.blind
  let s ← forN 64 (genStep ctx gnb) (ctx.initial, AffineStorage.default)
  let add := Affine.ofStorage s.2
  let bits : UInt32 := 0
  pure (s.1, ⟨s.2, gnb.clear, add.clear, bits⟩)

/-- The locals of `ecmult_const` (ecmult.rs:494-502, 539-540) that depend on the scalar.  The others (`pre_a`, `z`, `tmpj`, `a2_stor`) are
computed from the point. -/
structure ConstLocals where
  tmpa : Affine
  wnaf1 : List Int
  sc : Scalar
  skew1 : Int
  correction1Stor : AffineStorage
  correction : Affine

/-- ecmult.rs:491-556 `ecmult_const`. -/
def ecmultConstR (a : Affine) (scalar : Scalar) : Exec (Jacobian × ConstLocals) := do
  let sc := scalar
  let w ← ecmultWnafConst (List.replicate (1 + wnafSize) 0) sc (windowA - 1)
  let r ← Jacobian.setGe a
  let t ← oddMultiplesTableGlobalz r
  let preA ← weakTable t.1
  let i ← idx w.1 wnafSize
  dassert (i != 0)
  let tmpa ← tableGetGeConst Affine.default preA i windowA
  let r ← Jacobian.setGe tmpa
  let s ← forRev wnafSize (constStep preA w.1) (r, tmpa)
  let z ← FElem.mul s.1.z t.2
  let r : Jacobian := { s.1 with z := z }
  let tmpj ← Jacobian.setGe a
  let tmpj ← Jacobian.doubleVar tmpj none
  let correction ← Affine.setGej tmpj.1
  let c1 ← Affine.toStorage a
  let a2 ← Affine.toStorage correction
  let c1 := c1.cmov a2 (w.2 == 2)
  let correction ← Affine.neg (Affine.ofStorage c1)
  let r ← Jacobian.addGe r correction
  pure (r, ⟨s.2, w.1, sc, w.2, c1, correction⟩)

end Ecmult

namespace Ecdsa
open Ecmult

/-- The locals of `sign_raw` (ecdsa.rs:113-128). -/
structure SignRawLocals where
  rp : Jacobian
  r : Affine
  b : Vector UInt8 32
  sigr : Scalar
  overflow : Bool
  recid : UInt8
  n : Scalar
  sigs : Scalar

/-- ecdsa.rs:133-140: the end of `sign_raw`. -/
def signTailR (l : SignRawLocals) : Exec (Res (Scalar × Scalar × UInt8) × SignRawLocals) :=
  if l.sigs.isZero then pure (.error .invalidMessage, l)
  else if l.sigs.isHigh then do
    let sigs ← Scalar.neg l.sigs
    let l := { l with sigs := sigs, recid := l.recid ^^^ 1 }
    pure (.ok (l.sigr, l.sigs, l.recid), l)
  else pure (.ok (l.sigr, l.sigs, l.recid), l)

/-- ecdsa.rs:107-141 `sign_raw`, with its locals and those of the call of `ecmult_gen`. -/
def signRawR (ctx : GenContext) (seckey message nonce : Scalar) :
    Exec (Res (Scalar × Scalar × UInt8) × SignRawLocals × GenLocals) := do
  let g ← ecmultGenR ctx nonce
  let rp := g.1
  let r ← Affine.setGej rp
  let x ← FElem.normalize r.x
  let y ← FElem.normalize r.y
  let r : Affine := { r with x := x, y := y }
  let b ← FElem.b32 x
  let sr ← Scalar.setB32 b
  dassert (!sr.1.isZero)
  dassert (!sr.2)
  let odd ← FElem.isOdd y
  let recid : UInt8 := (if sr.2 then 2 else 0) ||| (if odd then 1 else 0)
  let n ← Scalar.mul sr.1 seckey
  let n ← Scalar.add n message
  let sigs ← Scalar.inv nonce
  let sigs ← Scalar.mul sigs n
  let n := n.clear
  let rp := rp.clear
  let r := r.clear
  let o ← signTailR ⟨rp, r, b, sr.1, sr.2, recid, n, sigs⟩
  pure (o.1, o.2, g.2)

/-- The locals of `ecdh_raw` (ecdh.rs:16-29); the digest is reset by `finalize_reset`. -/
structure EcdhLocals where
  pt : Affine
  s : Scalar
  res : Jacobian
  x : Vector UInt8 32
  y : UInt8

/-- ecdh.rs:9-36 `ecdh_raw`, with its locals and those of the call of `ecmult_const` unless it returns before. -/
def ecdhRawR (D : Digest) (point : Affine) (scalar : Scalar) : Exec (Option (List UInt8 × EcdhLocals × ConstLocals)) :=
  let s := scalar
  if s.isZero then pure none
  else do
    let c ← ecmultConstR point s
    let res := c.1
    let pt ← Affine.setGej res
    let ptx ← FElem.normalize pt.x
    let pty ← FElem.normalize pt.y
    let pt : Affine := { pt with x := ptx, y := pty }
    let x ← FElem.b32 pt.x
    let odd ← FElem.isOdd pt.y
    let y : UInt8 := 0x02 ||| (if odd then 1 else 0)
    let d := D.update D.init [y]
    let d := D.update d x.toList
    pure (some (D.finalize d, ⟨pt, s, res, x, y⟩, c.2))

end Ecdsa

open Ecmult Ecdsa

/-- The locals of `sign_with_context` (lib.rs:823-833) that are not part of the result; `generated` as the
last turn of the loop leaves it. -/
structure SignLocals (D : Drbg) where
  seckeyB32 : Vector UInt8 32
  messageB32 : Vector UInt8 32
  drbg : D.State
  nonce : Scalar
  overflow : Bool
  generated : Vector UInt8 32

/-- lib.rs:831-841: the loop; `none` is "more than `fuel` blocks". -/
def signLoopR (D : Drbg) (ctx : GenContext) (seckey message : Scalar) :
    (fuel : Nat) → SignLocals D → Exec (Option (Scalar × Scalar × UInt8) × SignLocals D)
  | 0, l => pure (none, l)
  | fuel + 1, l => do
    let g := D.generate l.drbg
    let nonce ← Scalar.setB32 g.1
    let l : SignLocals D := { l with drbg := g.2, generated := g.1, nonce := nonce.1, overflow := nonce.2 }
    if !l.overflow && !l.nonce.isZero then do
      let r ← signRawR ctx seckey message l.nonce
      match r.1 with
      | .ok val => pure (some val, l)
      | .error _ => signLoopR D ctx seckey message fuel l
    else signLoopR D ctx seckey message fuel l

/-- lib.rs:818-859 `sign_with_context` and `sign`.  Before the loop `overflow` and `generated` hold nothing; the
model writes `false` and zeros. -/
def signR (D : Drbg) (fuel : Nat) (message : Message) (seckey : SecretKey) :
    Exec (Option (Signature × RecoveryId) × SignLocals D) := do
  let ctx ← newGenContext
  let l : SignLocals D :=
    ⟨seckey.sc.b32, message.sc.b32, D.new seckey.sc.b32.toList message.sc.b32.toList [], Scalar.zero, false, Vector.replicate 32 0⟩
  let r ← signLoopR D ctx seckey.sc message.sc fuel l
  let l := { r.2 with nonce := Scalar.zero }
  match r.1 with
  | some (sigr, sigs, recid) => pure (some (⟨sigr, sigs⟩, ⟨recid⟩), l)
  | none => pure (none, l)

end Verif
