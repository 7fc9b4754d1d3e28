import Verif.Model.Lib

/-!
# What the control flow of the secret-dependent functions depends on

A second model of the functions of /repo that compute with secret keys and nonces: each returns, next
to its value, the list of what an observer of branches and memory addresses sees.  The functions here
repeat the text of `Verif/Model/*.lean` (same file and lines of /repo); `Verif/Props/Leak.lean` states
that their values are those of that model.

An event is recorded for

* every `if`, `match`, `&&`, `||` and early return that decides which statements or calls are executed;
* every read of an array at an index (`self.prec[j][i]`, `pre[m]`, `wnaf[i]`);
* every call whose arguments are public: the event carries the arguments, which says more than the
  branches and reads inside the call;
* the number of bytes handed to or obtained from an external hash or generator.

No event is recorded for

* expressions `if c { x } else { y }`, `a && b`, `a || b` and `match` whose operands are constants or
  values computed before (`cmov` in field.rs:1640-1661 and 1795-1804, the carries in scalar.rs, the
  masks in field.rs:159-165, `normalizes_to_zero` in field.rs:397, group.rs:497-502, and the sign and
  parity selections in ecmult.rs:313, 416-437): they select a value and decide nothing else;
* arithmetic, shifts and multiplications: the duration of a machine instruction is taken not to depend
  on its operands;
* `debug_assert!` and overflow checks: they are absent from release builds, and in debug builds they
  either pass or panic.

Functions that contain no branch, and whose loops and indices are fixed by the text (`lift`): the
operations of field.rs and scalar.rs used here, `Affine::set_gej`, `Affine::neg`, `Jacobian::set_ge` and the
storage conversions.
-/

namespace Verif

/-- An observation. -/
inductive Event
  | branch (taken : Bool)
  | read (index : Nat)
  | call (a : Affine)
  | extern (bytes : Nat)
  deriving DecidableEq

/-- A computation with its observations. -/
def Leak (α : Type) := Exec (α × List Event)

/-- The value and the observations. -/
def Leak.run {α : Type} (x : Leak α) : Exec (α × List Event) := x

instance : Monad Leak where
  pure a := (pure (a, []) : Exec _)
  bind x f := (do
    let a ← x.run
    let b ← (f a.1).run
    pure (b.1, a.2 ++ b.2) : Exec _)

namespace Leak

/-- The value, without the observations. -/
def value {α : Type} (x : Leak α) : Exec α := do
  let a ← x.run
  pure a.1

/-- A computation without observations. -/
def lift {α : Type} (x : Exec α) : Leak α := (do
  let a ← x
  pure (a, []) : Exec _)

/-- Record an event. -/
def emit (e : Event) : Leak Unit := (pure ((), [e]) : Exec _)

/-- `if` on `c`: record which way it went. -/
def branch (c : Bool) : Leak Bool := (pure (c, [.branch c]) : Exec _)

/-- Read of element `i`. -/
def read {α : Type} (l : List α) (i : Nat) : Leak α := do
  emit (.read i)
  lift (idx l i)

/-- `for i in 0..n`. -/
def forN {σ : Type} : (n : Nat) → (f : Nat → σ → Leak σ) → σ → Leak σ
  | 0, _, s => pure s
  | n + 1, f, s => do let s ← forN n f s; f n s

/-- `for i in (0..n).rev()` (ecmult.rs:524). -/
def forRev {σ : Type} : (n : Nat) → (f : Nat → σ → Leak σ) → σ → Leak σ
  | 0, _, s => pure s
  | n + 1, f, s => do let s ← f n s; forRev n f s

end Leak

open Leak Ecmult Ecdsa

/-- group.rs:478: the right operand is evaluated if the left one is true. -/
def Jacobian.bothZeroL (m rr : FElem) : Leak Bool := do
  let a ← lift (FElem.normalizesToZero m)
  let a ← branch a
  if a then lift (FElem.normalizesToZero rr) else pure false

/-- group.rs:457-522 `add_ge_in_place`, `add_ge` (524-528). -/
def Jacobian.addGeL (a : Jacobian) (b : Affine) : Leak Jacobian := do
  lift (dassert (!b.infinity))
  let zz ← lift (FElem.sqr a.z)
  let u1 ← lift (FElem.normalizeWeak a.x)
  let u2 ← lift (FElem.mul b.x zz)
  let s1 ← lift (FElem.normalizeWeak a.y)
  let s2 ← lift (FElem.mul b.y zz)
  let s2 ← lift (FElem.mul s2 a.z)
  let t ← lift (FElem.add u1 u2)
  let m ← lift (FElem.add s1 s2)
  let rr ← lift (FElem.sqr t)
  let mAlt ← lift (FElem.neg u2 1)
  let tt ← lift (FElem.mul u1 mAlt)
  let rr ← lift (FElem.add rr tt)
  let degenerate ← bothZeroL m rr
  let rrAlt ← lift (FElem.mulInt s1 2)
  let mAlt ← lift (FElem.add mAlt u1)
  let rrAlt ← pure (rrAlt.cmov rr (!degenerate))
  let mAlt ← pure (mAlt.cmov m (!degenerate))
  let n ← lift (FElem.sqr mAlt)
  let q ← lift (FElem.mul n t)
  let n ← lift (FElem.sqr n)
  let n ← pure (n.cmov m degenerate)
  let t ← lift (FElem.sqr rrAlt)
  let z ← lift (FElem.mul a.z mAlt)
  let zz0 ← lift (FElem.normalizesToZero z)
  let infinity ← pure (zz0 && !a.infinity)
  let z ← lift (FElem.mulInt z 2)
  let q ← lift (FElem.neg q 1)
  let t ← lift (FElem.add t q)
  let t ← lift (FElem.normalizeWeak t)
  let x ← pure t
  let t ← lift (FElem.mulInt t 2)
  let t ← lift (FElem.add t q)
  let t ← lift (FElem.mul t rrAlt)
  let t ← lift (FElem.add t n)
  let y ← lift (FElem.neg t 3)
  let y ← lift (FElem.normalizeWeak y)
  let x ← lift (FElem.mulInt x 4)
  let y ← lift (FElem.mulInt y 4)
  pure ⟨x.cmov b.x a.infinity, y.cmov b.y a.infinity, z.cmov fe1 a.infinity, infinity⟩

/-- group.rs:337-379 `double_nonzero_in_place` without `rzr`, as called in ecmult.rs:525-528. -/
def Jacobian.doubleNonzeroL (r : Jacobian) : Leak Jacobian := do
  lift (dassert (!r.infinity))
  let i ← branch r.infinity
  if i then pure { r with infinity := true } else lift (Jacobian.doubleCore r)

namespace Ecmult

/-- The loop ecmult.rs:318-322. -/
def cmovLoopL (pre : List Affine) (idxN : Nat) (r : Affine) : Leak Affine :=
  Leak.forN pre.length (fun m r => do
    let p ← read pre m
    pure { r with x := r.x.cmov p.x (m == idxN), y := r.y.cmov p.y (m == idxN) }) r

/-- ecmult.rs:312-326 `table_get_ge_const`. -/
def tableGetGeConstL (r : Affine) (pre : List Affine) (n : Int) (w : Nat) : Leak Affine := do
  let absN ← lift (i32 (n * ((if n > 0 then 1 else 0) * 2 - 1)))
  lift (digitCheck n w)
  let r ← cmovLoopL pre (absN / 2).toNat r
  let negY ← lift (FElem.neg r.y 1)
  pure ⟨r.x, r.y.cmov negY (n != absN), false⟩

/-- One iteration of the loop ecmult.rs:524-534. -/
def constStepL (preA : List Affine) (wnaf : List Int) (i : Nat) (s : Jacobian × Affine) : Leak (Jacobian × Affine) := do
  let r ← Leak.forN (windowA - 1) (fun _ r => Jacobian.doubleNonzeroL r) s.1
  let n ← read wnaf i
  let tmpa ← tableGetGeConstL s.2 preA n windowA
  lift (dassert (n != 0))
  let r ← Jacobian.addGeL r tmpa
  pure (r, tmpa)

/-- ecmult.rs:538-555.  The double of `a` is a computation on public data. -/
def constCorrectL (a : Affine) (skew : Int) (r : Jacobian) : Leak Jacobian := do
  emit (.call a)
  let tmpj ← lift (Jacobian.setGe a)
  let tmpj ← lift (Jacobian.doubleVar tmpj none)
  let correction ← lift (Affine.setGej tmpj.1)
  let c1 ← lift (Affine.toStorage a)
  let a2 ← lift (Affine.toStorage correction)
  let c1 := c1.cmov a2 (skew == 2)
  let correction ← lift (Affine.neg (Affine.ofStorage c1))
  Jacobian.addGeL r correction

/-- ecmult.rs:491-556 `ecmult_const`.  `ecmult_wnaf_const` (394-451) has no branch: its loop runs a fixed
number of times and writes `wnaf[0]`, `wnaf[1]`, …  The table of odd multiples is a computation on `a`,
which is public. -/
def ecmultConstL (a : Affine) (scalar : Scalar) : Leak Jacobian := do
  let w ← lift (ecmultWnafConst (List.replicate (1 + wnafSize) 0) scalar (windowA - 1))
  let r ← lift (Jacobian.setGe a)
  emit (.call a)
  let t ← lift (oddMultiplesTableGlobalz r)
  let preA ← lift (weakTable t.1)
  let i ← read w.1 wnafSize
  lift (dassert (i != 0))
  let tmpa ← tableGetGeConstL Affine.default preA i windowA
  let r ← lift (Jacobian.setGe tmpa)
  let s ← Leak.forRev wnafSize (constStepL preA w.1) (r, tmpa)
  let z ← lift (FElem.mul s.1.z t.2)
  constCorrectL a w.2 { s.1 with z := z }

/-- ecmult.rs:570-572. -/
def genSelectL (row : List AffineStorage) (bits : UInt32) (adds : AffineStorage) : Leak AffineStorage :=
  Leak.forN 16 (fun i adds => do
    let e ← read row i
    pure (adds.cmov e (UInt32.ofNat i == bits))) adds

/-- One iteration of the loop ecmult.rs:568-579. -/
def genStepL (ctx : GenContext) (gnb : Scalar) (j : Nat) (s : Jacobian × AffineStorage) : Leak (Jacobian × AffineStorage) := do
  let bits ← lift (Scalar.bits gnb (j * 4) 4)
  let row ← read ctx.prec j
  let adds ← genSelectL row bits s.2
  let r ← Jacobian.addGeL s.1 (Affine.ofStorage adds)
  pure (r, adds)

/-- ecmult.rs:560-582 `ecmult_gen`. -/
def ecmultGenL (ctx : GenContext) (gn : Scalar) : Leak Jacobian := do
  let gnb ← lift (Scalar.add gn ctx.blind)
  let s ← Leak.forN 64 (genStepL ctx gnb) (ctx.initial, AffineStorage.default)
  pure s.1

end Ecmult

namespace Ecdsa

/-- core/src/ecdsa.rs:133-140. -/
def signTailL (sigr sigs : Scalar) (recid : UInt8) : Leak (Res (Scalar × Scalar × UInt8)) := do
  let z ← branch sigs.isZero
  if z then pure (.error .invalidMessage)
  else do
    let h ← branch sigs.isHigh
    if h then do
      let sigs ← lift (Scalar.neg sigs)
      pure (.ok (sigr, sigs, recid ^^^ 1))
    else pure (.ok (sigr, sigs, recid))

/-- core/src/ecdsa.rs:107-141 `sign_raw`. -/
def signRawL (ctx : GenContext) (seckey message nonce : Scalar) : Leak (Res (Scalar × Scalar × UInt8)) := do
  let rp ← ecmultGenL ctx nonce
  let r ← lift (Affine.setGej rp)
  let x ← lift (FElem.normalize r.x)
  let y ← lift (FElem.normalize r.y)
  let b ← lift (FElem.b32 x)
  let sr ← lift (Scalar.setB32 b)
  lift (dassert (!sr.1.isZero))
  lift (dassert (!sr.2))
  let odd ← lift (FElem.isOdd y)
  let recid : UInt8 := (if sr.2 then 2 else 0) ||| (if odd then 1 else 0)
  let n ← lift (Scalar.mul sr.1 seckey)
  let n ← lift (Scalar.add n message)
  let sigs ← lift (Scalar.inv nonce)
  let sigs ← lift (Scalar.mul sigs n)
  signTailL sr.1 sigs recid

/-- core/src/ecdh.rs:9-36 `ecdh_raw`. -/
def ecdhRawL (D : Digest) (point : Affine) (scalar : Scalar) : Leak (Option (List UInt8)) := do
  let z ← branch scalar.isZero
  if z then pure none
  else do
    let res ← ecmultConstL point scalar
    let pt ← lift (Affine.setGej res)
    let ptx ← lift (FElem.normalize pt.x)
    let pty ← lift (FElem.normalize pt.y)
    let x ← lift (FElem.b32 ptx)
    let odd ← lift (FElem.isOdd pty)
    let y : UInt8 := 0x02 ||| (if odd then 1 else 0)
    emit (.extern 1)
    let d := D.update D.init [y]
    emit (.extern x.toList.length)
    let d := D.update d x.toList
    pure (some (D.finalize d))

end Ecdsa

/-- src/lib.rs:107-121 `from_secret_key_with_context`, `from_secret_key`.  The context is a constant. -/
def PublicKey.fromSecretKeyL (seckey : SecretKey) : Leak PublicKey := do
  let ctx ← lift newGenContext
  let pj ← ecmultGenL ctx seckey.sc
  let p ← lift (Affine.setGej pj)
  pure ⟨p⟩

/-- src/lib.rs:753-769 `new_with_context`, `new`. -/
def SharedSecret.newL (D : Digest) (pubkey : PublicKey) (seckey : SecretKey) : Leak (Res SharedSecret) := do
  let inner ← ecdhRawL D pubkey.pt seckey.sc
  match inner with
  | some val => do
    let _ ← branch true
    pure (.ok ⟨val⟩)
  | none => do
    let _ ← branch false
    pure (.error .invalidSecretKey)

/-- src/lib.rs:835 `!overflow && !nonce.is_zero()`. -/
def nonceOkL (nonce : Scalar × Bool) : Leak Bool := do
  let a ← branch (!nonce.2)
  if a then branch (!nonce.1.isZero) else pure false

/-- src/lib.rs:831-841: the loop of `sign_with_context`. -/
def signLoopL (D : Drbg) (ctx : GenContext) (seckey message : Scalar) :
    (fuel : Nat) → D.State → Leak (Option (Scalar × Scalar × UInt8))
  | 0, _ => pure none
  | fuel + 1, drbg => do
    emit (.extern 32)
    let nonce ← lift (Scalar.setB32 (D.generate drbg).1)
    let a ← nonceOkL nonce
    if a then do
      let r ← signRawL ctx seckey message nonce.1
      match r with
      | .ok val => do
        let _ ← branch true
        pure (some val)
      | .error _ => do
        let _ ← branch false
        signLoopL D ctx seckey message fuel (D.generate drbg).2
    else signLoopL D ctx seckey message fuel (D.generate drbg).2

/-- src/lib.rs:818-850 `sign_with_context`, 857-859 `sign`. -/
def signL (D : Drbg) (fuel : Nat) (message : Message) (seckey : SecretKey) : Leak (Option (Signature × RecoveryId)) := do
  let ctx ← lift newGenContext
  emit (.extern seckey.sc.b32.toList.length)
  emit (.extern message.sc.b32.toList.length)
  let drbg := D.new seckey.sc.b32.toList message.sc.b32.toList []
  let result ← signLoopL D ctx seckey.sc message.sc fuel drbg
  match result with
  | some (sigr, sigs, recid) => pure (some (⟨sigr, sigs⟩, ⟨recid⟩))
  | none => pure none

end Verif
