import Verif.Model.Group
import Verif.Model.Scalar

/-!
# Model of `core/src/ecmult.rs`

Slices and arrays are lists of fixed length; an index out of range panics.  `i32` values are
integers whose range is checked after every operation that can overflow (`<<` drops bits silently).
-/

namespace Verif

/-- The `i32` with the same low 32 bits (release-mode `i32` arithmetic of ecmult.rs:340-451). -/
def wrap32 (x : Int) : Int := x.bmod 4294967296

/-- An `i32` result (ecmult.rs:301-451): out of range panics in debug and wraps in release. -/
def i32 (x : Int) : Exec Int := do
  dassert (decide (-2147483648 ≤ x) && decide (x ≤ 2147483647)); pure (wrap32 x)

/-- `for i in 0..n { v.push(f(i)) }` (ecmult.rs:101-110), and the element-wise initialisation of an array. -/
def tabulate {α : Type} (n : Nat) (f : Nat → Exec α) : Exec (List α) :=
  forN n (fun i acc => do let v ← f i; pure (acc ++ [v])) []

namespace Ecmult

/-- ecmult.rs:14 `WINDOW_A`. -/
def windowA : Nat := 5
/-- ecmult.rs:15 `WINDOW_G`. -/
def windowG : Nat := 16
/-- ecmult.rs:16 `ECMULT_TABLE_SIZE_A`. -/
def tableSizeA : Nat := 1 <<< (windowA - 2)
/-- ecmult.rs:17 `ECMULT_TABLE_SIZE_G`. -/
def tableSizeG : Nat := 1 <<< (windowG - 2)
/-- ecmult.rs:18 `WNAF_BITS`. -/
def wnafBits : Nat := 256

/-- One step of the loop ecmult.rs:281-283, `i = k + 1`. -/
def oddStep (dGe : Affine) (k : Nat) (s : List Jacobian × List FElem) : Exec (List Jacobian × List FElem) := do
  let prev ← idx s.1 k
  let z ← idx s.2 (k + 1)
  let r ← Jacobian.addGeVar prev dGe (some z)
  let prej ← setIdx s.1 (k + 1) r.1
  let zr ← setIdx s.2 (k + 1) (r.2.getD z)
  pure (prej, zr)

/-- ecmult.rs:261-287 `odd_multiples_table`. -/
def oddMultiplesTable (prej : List Jacobian) (zr : List FElem) (a : Jacobian) :
    Exec (List Jacobian × List FElem) := do
  dassert (decide (prej.length = zr.length))
  dassert (!prej.isEmpty)
  dassert (!a.infinity)
  let d ← Jacobian.doubleVar a none
  let dGe : Affine := ⟨d.1.x, d.1.y, false⟩
  let aGe ← Affine.setGejZinv a d.1.z
  let prej ← setIdx prej 0 ⟨aGe.x, aGe.y, a.z, false⟩
  let zr ← setIdx zr 0 d.1.z
  let s ← forN (prej.length - 1) (oddStep dGe) (prej, zr)
  let last ← idx s.1 (prej.length - 1)
  let l ← FElem.mul last.z d.1.z
  let prej ← setIdx s.1 (prej.length - 1) { last with z := l }
  pure (prej, s.2)

/-- ecmult.rs:20-40 `odd_multiples_table_storage_var` for a table of `len` entries. -/
def oddMultiplesTableStorageVar (len : Nat) (a : Jacobian) : Exec (List AffineStorage) := do
  let s ← oddMultiplesTable (List.replicate len Jacobian.default) (List.replicate len FElem.zero) a
  let prea ← setTableGejVar (List.replicate len Affine.default) s.1 s.2
  tabulate len fun i => do
    let x ← idx prea i
    Affine.toStorage x

/-- ecmult.rs:43-45, 64-84 `ECMultContext::new_boxed`: the table `pre_g`.  The `static-context`
feature compiles in the table printed by `gen/ecmult`, which calls this function. -/
def newContext : Exec (List AffineStorage) := do
  let gj ← Jacobian.setGe Affine.g
  oddMultiplesTableStorageVar tableSizeG gj

/-- One step of the loop ecmult.rs:124-127, `i = k + 1`. -/
def invForward (fields : List FElem) (k : Nat) (ret : List FElem) : Exec (List FElem) := do
  let a ← idx ret k
  let b ← idx fields (k + 1)
  let v ← FElem.mul a b
  pure (ret ++ [v])

/-- One step of the loop ecmult.rs:131-136 for `j = len - 1 - k`. -/
def invBackward (fields : List FElem) (k : Nat) (s : List FElem × FElem) : Exec (List FElem × FElem) := do
  let j := fields.length - 1 - k
  let a ← idx s.1 (j - 1)
  let v ← FElem.mul a s.2
  let ret ← setIdx s.1 j v
  let b ← idx fields j
  let u ← FElem.mul s.2 b
  pure (ret, u)

/-- ecmult.rs:116-140 `inv_all_var`. -/
def invAllVar (fields : List FElem) : Exec (List FElem) :=
  if fields.isEmpty then pure []
  else do
    let f0 ← idx fields 0
    let ret ← forN (fields.length - 1) (invForward fields) [f0]
    let l ← idx ret (fields.length - 1)
    let u ← FElem.inv l
    let s ← forN (fields.length - 1) (invBackward fields) (ret, u)
    setIdx s.1 0 s.2

/-- One step of the loop ecmult.rs:102-108; the state is the result and `count`. -/
def setAllStep (a : List Jacobian) (azi : List FElem) (i : Nat) (s : List Affine × Nat) : Exec (List Affine × Nat) := do
  let ai ← idx a i
  if ai.infinity then do
    let r ← idx s.1 i
    let ret ← setIdx s.1 i { r with infinity := true }
    pure (ret, s.2)
  else do
    let zi ← idx azi s.2
    let v ← Affine.setGejZinv ai zi
    let ret ← setIdx s.1 i v
    pure (ret, s.2 + 1)

/-- ecmult.rs:90-110 `set_all_gej_var`. -/
def setAllGejVar (a : List Jacobian) : Exec (List Affine) := do
  let az := (a.filter fun point => !point.infinity).map Jacobian.z
  let azi ← invAllVar az
  let s ← forN a.length (setAllStep a azi) (List.replicate a.length Affine.default, 0)
  pure s.1

/-- ecmult.rs:142-144 `GEN_BLIND`. -/
def genBlind : Scalar := ⟨2217680822, 850875797, 1046150361, 1330484644, 4015777837, 2466086288, 2052467175, 2084507480⟩

/-- ecmult.rs:145-159 `GEN_INITIAL`. -/
def genInitial : Jacobian where
  x := FElem.newRaw 586608 43357028 207667908 262670128 142222828 38529388 267186148 45417712 115291924 13447464
  y := FElem.newRaw 12696548 208302564 112025180 191752716 143238548 145482948 228906000 69755164 243572800 210897016
  z := FElem.newRaw 3685368 75404844 20246216 5748944 73206666 107661790 110806176 73488774 5707384 104448710
  infinity := false

/-- ecmult.rs:162-166 `ECMultGenContext`. -/
structure GenContext where
  prec : List (List AffineStorage)
  blind : Scalar
  initial : Jacobian

/-- ecmult.rs:214-218: the ASCII bytes of "The scalar for this x is unknown". -/
def nums32 : Vector UInt8 32 :=
  #v[0x54, 0x68, 0x65, 0x20, 0x73, 0x63, 0x61, 0x6c, 0x61, 0x72, 0x20, 0x66, 0x6f, 0x72, 0x20, 0x74,
     0x68, 0x69, 0x73, 0x20, 0x78, 0x20, 0x69, 0x73, 0x20, 0x75, 0x6e, 0x6b, 0x6e, 0x6f, 0x77, 0x6e]

/-- One step of the loop ecmult.rs:236-238, `i = k + 1`. -/
def precInner (gbase : Jacobian) (j k : Nat) (precj : List Jacobian) : Exec (List Jacobian) := do
  let prev ← idx precj (j * 16 + (k + 1) - 1)
  let r ← Jacobian.addVar prev gbase none
  setIdx precj (j * 16 + (k + 1)) r.1

/-- ecmult.rs:243-246: the correction of `numsbase` in round 62. -/
def precFix (numsGej : Jacobian) (j : Nat) (numsbase : Jacobian) : Exec Jacobian :=
  if j == 62 then do
    let m ← Jacobian.neg numsbase
    let r ← Jacobian.addVar m numsGej none
    pure r.1
  else pure numsbase

/-- One round of the loop ecmult.rs:234-247; the state is `precj`, `gbase`, `numsbase`. -/
def precOuter (numsGej : Jacobian) (j : Nat) (s : List Jacobian × Jacobian × Jacobian) :
    Exec (List Jacobian × Jacobian × Jacobian) := do
  let precj ← setIdx s.1 (j * 16) s.2.2
  let precj ← forN 15 (precInner s.2.1 j) precj
  let gbase ← forN 4 (fun _ g => do let r ← Jacobian.doubleVar g none; pure r.1) s.2.1
  let nb ← Jacobian.doubleVar s.2.2 none
  let numsbase ← precFix numsGej j nb.1
  pure (precj, gbase, numsbase)

/-- ecmult.rs:189-258 `ECMultGenContext::new_boxed`. -/
def newGenContext : Exec GenContext := do
  let gj ← Jacobian.setGe Affine.g
  let numsX ← FElem.setB32 FElem.zero nums32
  rassert numsX.2
  let numsGe ← Affine.setXoVar numsX.1 false
  rassert numsGe.2
  let numsGej ← Jacobian.setGe numsGe.1
  let r ← Jacobian.addGeVar numsGej Affine.g none
  let s ← forN 64 (precOuter r.1) (List.replicate 1024 Jacobian.default, gj, r.1)
  let prec ← setAllGejVar s.1
  let t ← tabulate 64 fun j => tabulate 16 fun i => do
    let x ← idx prec (j * 16 + i)
    Affine.toStorage x
  pure ⟨t, genBlind, genInitial⟩

/-- ecmult.rs:289-299 `odd_multiples_table_globalz_windowa`; both callers pass default values for
`pre` and `globalz`. -/
def oddMultiplesTableGlobalz (a : Jacobian) : Exec (List Affine × FElem) := do
  let s ← oddMultiplesTable (List.replicate tableSizeA Jacobian.default) (List.replicate tableSizeA FElem.zero) a
  globalzSetTableGej (List.replicate tableSizeA Affine.default) FElem.zero s.1 s.2

/-- The assertions on a digit (ecmult.rs:302-304, 315-317, 329-331). -/
def digitCheck (n : Int) (w : Nat) : Exec Unit := do
  dassert (n % 2 == 1)
  dassert (decide (-((2 : Int) ^ (w - 1) - 1) ≤ n))
  dassert (decide (n ≤ (2 : Int) ^ (w - 1) - 1))

/-- ecmult.rs:301-310 `table_get_ge`. -/
def tableGetGe (pre : List Affine) (n : Int) (w : Nat) : Exec Affine := do
  digitCheck n w
  if n > 0 then idx pre ((n - 1) / 2).toNat
  else do
    let x ← idx pre ((-n - 1) / 2).toNat
    Affine.neg x

/-- The loop ecmult.rs:318-322 of `table_get_ge_const`. -/
def cmovLoop (pre : List Affine) (idxN : Nat) (r : Affine) : Exec Affine :=
  forN pre.length (fun m r => do
    let p ← idx pre m
    pure { r with x := r.x.cmov p.x (m == idxN), y := r.y.cmov p.y (m == idxN) }) r

/-- ecmult.rs:312-326 `table_get_ge_const`; `r` is the old value of the destination. -/
def tableGetGeConst (r : Affine) (pre : List Affine) (n : Int) (w : Nat) : Exec Affine := do
  let absN ← i32 (n * ((if n > 0 then 1 else 0) * 2 - 1))
  digitCheck n w
  let r ← cmovLoop pre (absN / 2).toNat r
  let negY ← FElem.neg r.y 1
  pure ⟨r.x, r.y.cmov negY (n != absN), false⟩

/-- ecmult.rs:328-338 `table_get_ge_storage`. -/
def tableGetGeStorage (pre : List AffineStorage) (n : Int) (w : Nat) : Exec Affine := do
  digitCheck n w
  if n > 0 then do
    let s ← idx pre ((n - 1) / 2).toNat
    pure (Affine.ofStorage s)
  else do
    let s ← idx pre ((-n - 1) / 2).toNat
    Affine.neg (Affine.ofStorage s)

/-- ecmult.rs:383-390: the bits of `s` from `bit` up to 255 are zero. -/
def bitsZero (s : Scalar) : Nat → Nat → Exec Bool
  | 0, _ => pure true
  | fuel + 1, bit =>
    if bit < 256 then do
      let b ← Scalar.bits s bit 1
      if b == 0 then bitsZero s fuel (bit + 1) else pure false
    else pure true

/-- ecmult.rs:340-390: the state of the loop of `ecmult_wnaf`. -/
structure WnafState where
  wnaf : List Int
  bit : Nat
  carry : Int
  lastSetBit : Int

/-- ecmult.rs:367-380: one digit at position `bit`.  Shift counts are masked to five bits in
release; in debug `w ≤ 31` has been asserted. -/
def wnafDigit (s : Scalar) (w : Nat) (sign : Int) (st : WnafState) : Exec WnafState := do
  let now := if w > st.wnaf.length - st.bit then st.wnaf.length - st.bit else w
  let b ← Scalar.bitsVar s st.bit now
  let word ← i32 ((b.toNat : Int) + st.carry)
  let carry := word / 2 ^ ((w - 1) % 32) % 2
  let word ← i32 (word - wrap32 (carry * 2 ^ (w % 32)))
  let d ← i32 (sign * word)
  let wnaf ← setIdx st.wnaf st.bit d
  pure ⟨wnaf, st.bit + now, carry, st.bit⟩

/-- One iteration of the loop ecmult.rs:359-381. -/
def wnafStep (s : Scalar) (w : Nat) (sign : Int) (st : WnafState) : Exec WnafState := do
  let b ← Scalar.bits s st.bit 1
  if (b.toNat : Int) == st.carry then pure { st with bit := st.bit + 1 }
  else wnafDigit s w sign st

/-- The loop ecmult.rs:359-381.  Each iteration advances `bit` unless `w = 0`, so `len` iterations are
enough: running out of fuel before `bit` reaches the end, which stands for an endless loop, is `none`. -/
def wnafLoop (s : Scalar) (w : Nat) (sign : Int) : Nat → WnafState → Exec WnafState
  | fuel, st =>
    if st.bit < st.wnaf.length then
      match fuel with
      | 0 => panic
      | fuel + 1 => do
        let st ← wnafStep s w sign st
        wnafLoop s w sign fuel st
    else pure st

/-- ecmult.rs:354-357: negate a scalar with its top bit set. -/
def wnafSign (a : Scalar) : Exec (Scalar × Int) := do
  let b ← Scalar.bits a 255 1
  if b > 0 then do
    let s ← Scalar.neg a
    pure (s, -1)
  else pure (a, 1)

/-- ecmult.rs:340-392 `ecmult_wnaf` for a destination of `len` digits (overwritten with zeros first). -/
def ecmultWnaf (len : Nat) (a : Scalar) (w : Nat) : Exec (List Int × Int) := do
  dassert (decide (len ≤ 256))
  dassert (decide (w ≥ 2) && decide (w ≤ 31))
  let s ← wnafSign a
  let st ← wnafLoop s.1 w s.2 len ⟨List.replicate len 0, 0, 0, -1⟩
  dassert (st.carry == 0)
  FElem.dassertE (bitsZero s.1 256 st.bit)
  let r ← i32 (st.lastSetBit + 1)
  pure (st.wnaf, r)

/-- ecmult.rs:394-451: the state of the loop of `ecmult_wnaf_const`. -/
structure WnafConstState where
  s : Scalar
  uLast : Int
  u : Int
  wnaf : List Int

/-- One iteration of the loop ecmult.rs:432-443. -/
def wnafConstStep (w : Nat) (globalSign : Int) (word : Nat) (st : WnafConstState) : Exec WnafConstState := do
  let r ← Scalar.shrInt st.s w
  let u : Int := r.1.toNat
  let e : Int := if u % 2 == 0 then 1 else 0
  let sign : Int := 2 * (if st.uLast > 0 then 1 else 0) - 1
  let u ← i32 (u + sign * e)
  let uLast ← i32 (st.uLast - sign * e * 2 ^ (w % 32))
  let d ← i32 (uLast * globalSign)
  let wnaf ← setIdx st.wnaf word d
  pure ⟨r.2, u, u, wnaf⟩

/-- ecmult.rs:394-451 `ecmult_wnaf_const`: the digits and the skew.  The loop `while word * w <
WNAF_BITS` runs for `word = 0, …, ⌈256 / w⌉ - 1`; for `w = 0` (release only) it runs until `wnaf[word]`
is out of range. -/
def ecmultWnafConst (wnaf : List Int) (a : Scalar) (w : Nat) : Exec (List Int × Int) := do
  let flip := a.isHigh
  let bit := flip ^^ !a.isEven
  let negS ← Scalar.neg a
  let notNegOne := !negS.isOne
  let s ← Scalar.caddBit a (if bit then 1 else 0) notNegOne
  let globalSign : Int := if flip then -1 else 1
  let s ← Scalar.condNeg s flip
  let globalSign : Int := globalSign * ((if notNegOne then 1 else 0) * 2 - 1)
  let skew : Int := if bit then 2 else 1
  let r ← Scalar.shrInt s w
  rassert (decide (0 < w))
  let st ← forN ((wnafBits + w - 1) / w) (wnafConstStep w globalSign) ⟨r.2, r.1.toNat, 0, wnaf⟩
  let d ← i32 (st.u * globalSign)
  let wnaf ← setIdx st.wnaf ((wnafBits + w - 1) / w) d
  dassert st.s.isZero
  pure (wnaf, skew)

/-- ecmult.rs:474-478: add the digit of `na`. -/
def ecmultAddA (preA : List Affine) (n i bitsNa : Int) (r : Jacobian) : Exec Jacobian :=
  if i < bitsNa ∧ n ≠ 0 then do
    let tmpa ← tableGetGe preA n windowA
    let r ← Jacobian.addGeVar r tmpa none
    pure r.1
  else pure r

/-- ecmult.rs:479-483: add the digit of `ng`. -/
def ecmultAddG (preG : List AffineStorage) (z : FElem) (n i bitsNg : Int) (r : Jacobian) : Exec Jacobian :=
  if i < bitsNg ∧ n ≠ 0 then do
    let tmpa ← tableGetGeStorage preG n windowG
    Jacobian.addZinvVar r tmpa z
  else pure r

/-- One iteration of the loop ecmult.rs:470-484. -/
def ecmultStep (preG : List AffineStorage) (preA : List Affine) (z : FElem) (wnafNa wnafNg : List Int) (bitsNa bitsNg : Int)
    (i : Nat) (r : Jacobian) : Exec Jacobian := do
  let r ← Jacobian.doubleVar r none
  let n ← idx wnafNa i
  let r ← ecmultAddA preA n i bitsNa r.1
  let n ← idx wnafNg i
  ecmultAddG preG z n i bitsNg r

/-- `for i in (0..n).rev() { s = f i s }` (ecmult.rs:470, 524). -/
def forRev {σ : Type} : (n : Nat) → (f : Nat → σ → Exec σ) → σ → Exec σ
  | 0, _, s => pure s
  | n + 1, f, s => do let s ← f n s; forRev n f s

/-- ecmult.rs:486-488. -/
def ecmultFinish (r : Jacobian) (z : FElem) : Exec Jacobian :=
  if r.infinity then pure r
  else do
    let z' ← FElem.mul r.z z
    pure { r with z := z' }

/-- ecmult.rs:454-489 `ecmult` with the table `pre_g`. -/
def ecmult (preG : List AffineStorage) (a : Jacobian) (na ng : Scalar) : Exec Jacobian := do
  let wa ← ecmultWnaf 256 na windowA
  let t ← oddMultiplesTableGlobalz a
  let wg ← ecmultWnaf 256 ng windowG
  let bits : Int := if wg.2 > wa.2 then wg.2 else wa.2
  let r ← forRev bits.toNat (ecmultStep preG t.1 t.2 wa.1 wg.1 wa.2 wg.2) (Jacobian.setInfinity Jacobian.default)
  ecmultFinish r t.2

/-- ecmult.rs:492 `WNAF_SIZE`. -/
def wnafSize : Nat := (wnafBits + (windowA - 1) - 1) / (windowA - 1)

/-- ecmult.rs:525-528: one doubling. -/
def constDouble (_ : Nat) (r : Jacobian) : Exec Jacobian := do
  let x ← Jacobian.doubleNonzeroInPlace r r none
  pure x.1

/-- One iteration of the loop ecmult.rs:524-534; the state is `r` and `tmpa`. -/
def constStep (preA : List Affine) (wnaf : List Int) (i : Nat) (s : Jacobian × Affine) : Exec (Jacobian × Affine) := do
  let r ← forN (windowA - 1) constDouble s.1
  let n ← idx wnaf i
  let tmpa ← tableGetGeConst s.2 preA n windowA
  dassert (n != 0)
  let r ← Jacobian.addGe r tmpa
  pure (r, tmpa)

/-- ecmult.rs:511-513: `pre_a[i].y.normalize_weak()` for every entry. -/
def weakTable (preA : List Affine) : Exec (List Affine) :=
  tabulate tableSizeA fun i => do
    let x ← idx preA i
    let y ← FElem.normalizeWeak x.y
    pure { x with y := y }

/-- ecmult.rs:538-555: subtract `skew * a`. -/
def constCorrect (a : Affine) (skew : Int) (r : Jacobian) : Exec Jacobian := do
  let tmpj ← Jacobian.setGe a
  let tmpj ← Jacobian.doubleVar tmpj none
  let correction ← Affine.setGej tmpj.1
  let c1 ← Affine.toStorage a
  let a2 ← Affine.toStorage correction
  let c1 := c1.cmov a2 (skew == 2)
  let correction ← Affine.neg (Affine.ofStorage c1)
  Jacobian.addGe r correction

/-- ecmult.rs:491-556 `ecmult_const`. -/
def ecmultConst (a : Affine) (scalar : Scalar) : Exec Jacobian := do
  let w ← ecmultWnafConst (List.replicate (1 + wnafSize) 0) scalar (windowA - 1)
  let r ← Jacobian.setGe a
  let t ← oddMultiplesTableGlobalz r
  let preA ← weakTable t.1
  let i ← idx w.1 wnafSize
  dassert (i != 0)
  let tmpa ← tableGetGeConst Affine.default preA i windowA
  let r ← Jacobian.setGe tmpa
  let s ← forRev wnafSize (constStep preA w.1) (r, tmpa)
  let z ← FElem.mul s.1.z t.2
  constCorrect a w.2 { s.1 with z := z }

/-- ecmult.rs:570-572: select entry `bits` of a row. -/
def genSelect (row : List AffineStorage) (bits : UInt32) (adds : AffineStorage) : Exec AffineStorage :=
  forN 16 (fun i adds => do
    let e ← idx row i
    pure (adds.cmov e (UInt32.ofNat i == bits))) adds

/-- One iteration of the loop ecmult.rs:568-579; the state is `r` and `adds`. -/
def genStep (ctx : GenContext) (gnb : Scalar) (j : Nat) (s : Jacobian × AffineStorage) : Exec (Jacobian × AffineStorage) := do
  let bits ← Scalar.bits gnb (j * 4) 4
  let row ← idx ctx.prec j
  let adds ← genSelect row bits s.2
  let r ← Jacobian.addGe s.1 (Affine.ofStorage adds)
  pure (r, adds)

/-- ecmult.rs:560-582 `ecmult_gen`. -/
def ecmultGen (ctx : GenContext) (gn : Scalar) : Exec Jacobian := do
  let gnb ← Scalar.add gn ctx.blind
  let s ← forN 64 (genStep ctx gnb) (ctx.initial, AffineStorage.default)
  pure s.1

end Ecmult

end Verif
