import Verif.Model.Leak

/-!
# Observations of the operations on secret keys and of the tweaks of public keys

Continues `Model/Leak.lean`, with the same rules.  `ecmult` and what it calls are not constant time; their
branches and indices are written out here.  A write at an index is recorded like a read.
-/

namespace Verif

open Leak Ecmult Ecdsa

namespace SecretKey

/-- src/lib.rs:497-507 `TryFrom<Scalar>`. -/
def tryFromL (scalar : Scalar) : Leak (Res SecretKey) := do
  let z ← branch scalar.isZero
  if z then pure (.error .invalidSecretKey) else pure (.ok ⟨scalar⟩)

/-- src/lib.rs:412-419. -/
def parseL (p : Vector UInt8 32) : Leak (Res SecretKey) := do
  let elem ← lift (Scalar.setB32 p)
  let c ← branch (!elem.2)
  if c then tryFromL elem.1 else pure (.error .invalidSecretKey)

/-- src/lib.rs:446-453. -/
def tweakAddAssignL (k tweak : SecretKey) : Leak (SecretKey × Res Unit) := do
  let v ← lift (Scalar.add k.sc tweak.sc)
  let z ← branch v.isZero
  if z then pure (k, .error .tweakOutOfRange) else pure (⟨v⟩, .ok ())

/-- src/lib.rs:455-462. -/
def tweakMulAssignL (k tweak : SecretKey) : Leak (SecretKey × Res Unit) := do
  let z ← branch tweak.sc.isZero
  if z then pure (k, .error .tweakOutOfRange)
  else do
    let v ← lift (Scalar.mul k.sc tweak.sc)
    pure (⟨v⟩, .ok ())

/-- src/lib.rs:464-466: no branch (scalar.rs `inv`). -/
def invL (k : SecretKey) : Leak SecretKey := do
  let v ← lift (Scalar.inv k.sc)
  pure ⟨v⟩

end SecretKey

/-- field.rs:404-483 `normalizes_to_zero_var`: `z0 != 0 && z1 != 0x3ffffff`, then the early return. -/
def FElem.normalizesToZeroVarL (f : FElem) : Leak Bool := do
  let x := f.n.n9 >>> 22
  let y ← lift (mul32 x 0x3d1)
  let t0 ← lift (add32 f.n.n0 y)
  let z0 := t0 &&& 0x3ffffff
  let c ← branch (z0 != 0 && (z0 ^^^ 0x3d0) != 0x3ffffff)
  if c then pure false
  else do
    let t1 ← lift (add32 f.n.n1 (x <<< 6))
    let t ← lift (FElem.carry { f.n with n0 := t0, n1 := t1, n9 := f.n.n9 &&& 0x03fffff })
    lift (dassert (t.n9 >>> 23 == 0))
    pure (FElem.maskZ0 t == 0 || FElem.maskZ1 t == 0x3ffffff)

namespace Jacobian

/-- group.rs:344-385 `double_var_in_place`, `double_var` without `rzr`. -/
def doubleVarL (self a : Jacobian) : Leak Jacobian := do
  let i ← branch a.infinity
  if i then pure { self with infinity := true } else lift (doubleCore a)

/-- group.rs:564-572, 632-639: the branch for equal x-coordinates. -/
def addEqualXL (self a : Jacobian) (i : FElem) : Leak Jacobian := do
  let zi ← FElem.normalizesToZeroVarL i
  let zi ← branch zi
  if zi then doubleVarL { self with infinity := false } a else pure { self with infinity := true }

/-- group.rs:536-599 `add_ge_var_in_place`, `add_ge_var` without `rzr`. -/
def addGeVarL (a : Jacobian) (b : Affine) : Leak Jacobian := do
  let ia ← branch a.infinity
  if ia then lift (setGe b)
  else do
    let ib ← branch b.infinity
    if ib then pure a
    else do
      let z12 ← lift (FElem.sqr a.z)
      let u1 ← lift (FElem.normalizeWeak a.x)
      let u2 ← lift (FElem.mul b.x z12)
      let s1 ← lift (FElem.normalizeWeak a.y)
      let s2 ← lift (FElem.mul b.y z12)
      let s2 ← lift (FElem.mul s2 a.z)
      let h ← lift (FElem.neg u1 1)
      let h ← lift (FElem.add h u2)
      let i ← lift (FElem.neg s1 1)
      let i ← lift (FElem.add i s2)
      let zh ← FElem.normalizesToZeroVarL h
      let zh ← branch zh
      if zh then addEqualXL default a i
      else do
        let i2 ← lift (FElem.sqr i)
        let h2 ← lift (FElem.sqr h)
        let h3 ← lift (FElem.mul h h2)
        let z ← lift (FElem.mul a.z h)
        lift (addTail u1 s1 h2 h3 i i2 z)

/-- group.rs:603-663 `add_zinv_var_in_place`, `add_zinv_var`. -/
def addZinvVarL (a : Jacobian) (b : Affine) (bzinv : FElem) : Leak Jacobian := do
  let ib ← branch b.infinity
  if ib then pure a
  else do
    let ia ← branch a.infinity
    if ia then do
      let bzinv2 ← lift (FElem.sqr bzinv)
      let bzinv3 ← lift (FElem.mul bzinv2 bzinv)
      let x ← lift (FElem.mul b.x bzinv2)
      let y ← lift (FElem.mul b.y bzinv3)
      let z ← lift (FElem.setInt 1)
      pure ⟨x, y, z, b.infinity⟩
    else do
      let az ← lift (FElem.mul a.z bzinv)
      let z12 ← lift (FElem.sqr az)
      let u1 ← lift (FElem.normalizeWeak a.x)
      let u2 ← lift (FElem.mul b.x z12)
      let s1 ← lift (FElem.normalizeWeak a.y)
      let s2 ← lift (FElem.mul b.y z12)
      let s2 ← lift (FElem.mul s2 az)
      let h ← lift (FElem.neg u1 1)
      let h ← lift (FElem.add h u2)
      let i ← lift (FElem.neg s1 1)
      let i ← lift (FElem.add i s2)
      let zh ← FElem.normalizesToZeroVarL h
      let zh ← branch zh
      if zh then addEqualXL default a i
      else do
        let i2 ← lift (FElem.sqr i)
        let h2 ← lift (FElem.sqr h)
        let h3 ← lift (FElem.mul h h2)
        let z ← lift (FElem.mul a.z h)
        lift (addTail u1 s1 h2 h3 i i2 z)

end Jacobian

namespace Ecmult

/-- ecmult.rs:301-310 `table_get_ge`. -/
def tableGetGeL (pre : List Affine) (n : Int) (w : Nat) : Leak Affine := do
  lift (digitCheck n w)
  let c ← branch (decide (n > 0))
  if c then read pre ((n - 1) / 2).toNat
  else do
    let x ← read pre ((-n - 1) / 2).toNat
    lift (Affine.neg x)

/-- ecmult.rs:328-338 `table_get_ge_storage`. -/
def tableGetGeStorageL (pre : List AffineStorage) (n : Int) (w : Nat) : Leak Affine := do
  lift (digitCheck n w)
  let c ← branch (decide (n > 0))
  if c then do
    let s ← read pre ((n - 1) / 2).toNat
    pure (Affine.ofStorage s)
  else do
    let s ← read pre ((-n - 1) / 2).toNat
    lift (Affine.neg (Affine.ofStorage s))

/-- scalar.rs:56-67: the test in `bits_var` and the limbs it reads. -/
def bitsVarTouch (offset count : Nat) : Leak Unit := do
  let c ← branch ((offset + count - 1) / 32 == offset / 32)
  emit (.read (offset / 32))
  if c then pure () else emit (.read (offset / 32 + 1))

/-- ecmult.rs:367-380: one digit at position `bit`; `wnaf[bit]` is written. -/
def wnafDigitL (s : Scalar) (w : Nat) (sign : Int) (st : WnafState) : Leak WnafState := do
  let now := if w > st.wnaf.length - st.bit then st.wnaf.length - st.bit else w
  bitsVarTouch st.bit now
  let b ← lift (Scalar.bitsVar s st.bit now)
  let word ← lift (i32 ((b.toNat : Int) + st.carry))
  let carry := word / 2 ^ ((w - 1) % 32) % 2
  let word ← lift (i32 (word - wrap32 (carry * 2 ^ (w % 32))))
  let d ← lift (i32 (sign * word))
  emit (.read st.bit)
  let wnaf ← lift (setIdx st.wnaf st.bit d)
  pure ⟨wnaf, st.bit + now, carry, st.bit⟩

/-- One iteration of the loop ecmult.rs:359-381. -/
def wnafStepL (s : Scalar) (w : Nat) (sign : Int) (st : WnafState) : Leak WnafState := do
  emit (.read (st.bit / 32))
  let b ← lift (Scalar.bits s st.bit 1)
  let c ← branch ((b.toNat : Int) == st.carry)
  if c then pure { st with bit := st.bit + 1 } else wnafDigitL s w sign st

/-- The loop ecmult.rs:359-381. -/
def wnafLoopL (s : Scalar) (w : Nat) (sign : Int) : Nat → WnafState → Leak WnafState
  | fuel, st => do
    let c ← branch (decide (st.bit < st.wnaf.length))
    if c then
      match fuel with
      | 0 => lift panic
      | fuel + 1 => do
        let st ← wnafStepL s w sign st
        wnafLoopL s w sign fuel st
    else pure st

/-- ecmult.rs:354-357. -/
def wnafSignL (a : Scalar) : Leak (Scalar × Int) := do
  let b ← lift (Scalar.bits a 255 1)
  let c ← branch (decide (b > 0))
  if c then do
    let s ← lift (Scalar.neg a)
    pure (s, -1)
  else pure (a, 1)

/-- ecmult.rs:340-392 `ecmult_wnaf`. -/
def ecmultWnafL (len : Nat) (a : Scalar) (w : Nat) : Leak (List Int × Int) := do
  lift (dassert (decide (len ≤ 256)))
  lift (dassert (decide (w ≥ 2) && decide (w ≤ 31)))
  let s ← wnafSignL a
  let st ← wnafLoopL s.1 w s.2 len ⟨List.replicate len 0, 0, 0, -1⟩
  lift (dassert (st.carry == 0))
  lift (FElem.dassertE (bitsZero s.1 256 st.bit))
  let r ← lift (i32 (st.lastSetBit + 1))
  pure (st.wnaf, r)

/-- `i < bits && n != 0` (ecmult.rs:475, 480). -/
def digitTestL (n i bits : Int) : Leak Bool := do
  let c ← branch (decide (i < bits))
  if c then branch (decide (n ≠ 0)) else pure false

/-- ecmult.rs:474-478. -/
def ecmultAddAL (preA : List Affine) (n i bitsNa : Int) (r : Jacobian) : Leak Jacobian := do
  let c ← digitTestL n i bitsNa
  if c then do
    let tmpa ← tableGetGeL preA n windowA
    Jacobian.addGeVarL r tmpa
  else pure r

/-- ecmult.rs:479-483. -/
def ecmultAddGL (preG : List AffineStorage) (z : FElem) (n i bitsNg : Int) (r : Jacobian) : Leak Jacobian := do
  let c ← digitTestL n i bitsNg
  if c then do
    let tmpa ← tableGetGeStorageL preG n windowG
    Jacobian.addZinvVarL r tmpa z
  else pure r

/-- One iteration of the loop ecmult.rs:470-484. -/
def ecmultStepL (preG : List AffineStorage) (preA : List Affine) (z : FElem) (wnafNa wnafNg : List Int) (bitsNa bitsNg : Int)
    (i : Nat) (r : Jacobian) : Leak Jacobian := do
  let r ← Jacobian.doubleVarL Jacobian.default r
  let n ← read wnafNa i
  let r ← ecmultAddAL preA n i bitsNa r
  let n ← read wnafNg i
  ecmultAddGL preG z n i bitsNg r

/-- `for i in (0..bits).rev()` (ecmult.rs:470) where the number of iterations is secret: each test is a branch. -/
def forRevL {σ : Type} (f : Nat → σ → Leak σ) : Nat → σ → Leak σ
  | 0, s => do
    let _ ← branch false
    pure s
  | n + 1, s => do
    let _ ← branch true
    let s ← f n s
    forRevL f n s

/-- ecmult.rs:454-489 `ecmult`.  The table of `a` is a computation on public data. -/
def ecmultL (preG : List AffineStorage) (a : Jacobian) (na ng : Scalar) : Leak Jacobian := do
  let wa ← ecmultWnafL 256 na windowA
  let t ← lift (oddMultiplesTableGlobalz a)
  let wg ← ecmultWnafL 256 ng windowG
  let c ← branch (decide (wg.2 > wa.2))
  let bits : Int := if c then wg.2 else wa.2
  let r ← forRevL (ecmultStepL preG t.1 t.2 wa.1 wg.1 wa.2 wg.2) bits.toNat (Jacobian.setInfinity Jacobian.default)
  let i ← branch r.infinity
  if i then pure r
  else do
    let z ← lift (FElem.mul r.z t.2)
    pure { r with z := z }

end Ecmult

namespace PublicKey

/-- src/lib.rs:253-274 `tweak_add_assign_with_context`, `tweak_add_assign`. -/
def tweakAddAssignL (k : PublicKey) (tweak : SecretKey) : Leak (PublicKey × Res Unit) := do
  let ctx ← lift newContext
  let a ← lift (Jacobian.setGe k.pt)
  let r ← ecmultL ctx a (Scalar.fromInt 1) tweak.sc
  let i ← branch r.infinity
  if i then pure (k, .error .tweakOutOfRange)
  else do
    let p ← lift (Affine.setGej r)
    pure (⟨p⟩, .ok ())

/-- src/lib.rs:276-297 `tweak_mul_assign_with_context`, `tweak_mul_assign`. -/
def tweakMulAssignL (k : PublicKey) (tweak : SecretKey) : Leak (PublicKey × Res Unit) := do
  let ctx ← lift newContext
  let z ← branch tweak.sc.isZero
  if z then pure (k, .error .tweakOutOfRange)
  else do
    let pt ← lift (Jacobian.setGe k.pt)
    let r ← ecmultL ctx pt tweak.sc (Scalar.fromInt 0)
    let p ← lift (Affine.setGej r)
    pure (⟨p⟩, .ok ())

end PublicKey
end Verif
