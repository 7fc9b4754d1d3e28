import Verif.Model.Machine

/-!
# Model of `core/src/scalar.rs`

The `[u32; 8]` inside `Scalar` is a structure with one field per limb (`d0` is
index 0, the least significant limb).  `Choice` (crate `subtle`) is `Bool`.
`&mut self` methods return the new value.
-/

namespace Verif

/-- core/src/scalar.rs:24-26 `Scalar(pub [u32; 8])`; derived `PartialEq` is limb-wise. -/
structure Scalar where
  d0 : UInt32
  d1 : UInt32
  d2 : UInt32
  d3 : UInt32
  d4 : UInt32
  d5 : UInt32
  d6 : UInt32
  d7 : UInt32
  deriving DecidableEq, Repr

namespace Scalar

/-- scalar.rs:5-7 `SECP256K1_N` limb 0. -/
def N0 : UInt32 := 0xD0364141
/-- scalar.rs:5-7 `SECP256K1_N` limb 1. -/
def N1 : UInt32 := 0xBFD25E8C
/-- scalar.rs:5-7 `SECP256K1_N` limb 2. -/
def N2 : UInt32 := 0xAF48A03B
/-- scalar.rs:5-7 `SECP256K1_N` limb 3. -/
def N3 : UInt32 := 0xBAAEDCE6
/-- scalar.rs:5-7 `SECP256K1_N` limb 4. -/
def N4 : UInt32 := 0xFFFFFFFE
/-- scalar.rs:5-7 `SECP256K1_N` limb 5. -/
def N5 : UInt32 := 0xFFFFFFFF
/-- scalar.rs:5-7 `SECP256K1_N` limb 6. -/
def N6 : UInt32 := 0xFFFFFFFF
/-- scalar.rs:5-7 `SECP256K1_N` limb 7. -/
def N7 : UInt32 := 0xFFFFFFFF

/-- scalar.rs:9 `SECP256K1_N_C_0 = !N[0] + 1`. -/
def nC0 : UInt32 := ~~~N0 + 1
/-- scalar.rs:10 `SECP256K1_N_C_1 = !N[1]`. -/
def nC1 : UInt32 := ~~~N1
/-- scalar.rs:11 `SECP256K1_N_C_2 = !N[2]`. -/
def nC2 : UInt32 := ~~~N2
/-- scalar.rs:12 `SECP256K1_N_C_3 = !N[3]`. -/
def nC3 : UInt32 := ~~~N3
/-- scalar.rs:13 `SECP256K1_N_C_4 = 1`. -/
def nC4 : UInt32 := 1

/-- scalar.rs:15 -/
def nH0 : UInt32 := 0x681B20A0
/-- scalar.rs:16 -/
def nH1 : UInt32 := 0xDFE92F46
/-- scalar.rs:17 -/
def nH2 : UInt32 := 0x57A4501D
/-- scalar.rs:18 -/
def nH3 : UInt32 := 0x5D576E73
/-- scalar.rs:19 -/
def nH4 : UInt32 := 0xFFFFFFFF
/-- scalar.rs:20 -/
def nH5 : UInt32 := 0xFFFFFFFF
/-- scalar.rs:21 -/
def nH6 : UInt32 := 0xFFFFFFFF
/-- scalar.rs:22 -/
def nH7 : UInt32 := 0x7FFFFFFF

/-- scalar.rs:929-933 `Default`: zero. -/
def zero : Scalar := ⟨0, 0, 0, 0, 0, 0, 0, 0⟩

/-- scalar.rs:30-34 `clear`: a volatile write of zero limbs. -/
def clear (_ : Scalar) : Scalar := ⟨0, 0, 0, 0, 0, 0, 0, 0⟩

/-- scalar.rs:37-46 `set_int` / `from_int`. -/
def fromInt (v : UInt32) : Scalar := ⟨v, 0, 0, 0, 0, 0, 0, 0⟩

/-- scalar.rs:52, `self.0[i]`, panicking when `i` is out of range. -/
def limb (a : Scalar) (i : Nat) : Exec UInt32 :=
  idx [a.d0, a.d1, a.d2, a.d3, a.d4, a.d5, a.d6, a.d7] i

/-- scalar.rs:50-53 `bits`.  `offset + count` is not wrapped: the model is meant for sums below `2^32`, the
smallest range of `usize`; the library passes sums of at most 256. -/
def bits (a : Scalar) (offset count : Nat) : Exec UInt32 := do
  let e ← subNat (offset + count) 1
  dassert (e >>> 5 == offset >>> 5)
  let w ← limb a (offset >>> 5)
  let w ← shr32 w (offset &&& 0x1F)
  let m ← shl32 1 count
  let m ← sub32 m 1
  pure (w &&& m)

/-- scalar.rs:56-67 `bits_var`; `offset + count` as in `bits`. -/
def bitsVar (a : Scalar) (offset count : Nat) : Exec UInt32 := do
  dassert (decide (count < 32))
  dassert (decide (offset + count ≤ 256))
  let e ← subNat (offset + count) 1
  if e >>> 5 == offset >>> 5 then
    bits a offset count
  else do
    dassert (decide ((offset >>> 5) + 1 < 8))
    let w0 ← limb a (offset >>> 5)
    let w0 ← shr32 w0 (offset &&& 0x1f)
    let w1 ← limb a ((offset >>> 5) + 1)
    let k ← subNat 32 (offset &&& 0x1f)
    let w1 ← shl32 w1 k
    let m ← shl32 1 count
    let m ← sub32 m 1
    pure ((w0 ||| w1) &&& m)

/-- scalar.rs:70-87 `check_overflow`: whether the limbs denote a value `≥ n`. -/
def checkOverflow (a : Scalar) : Bool := Id.run do
  let mut yes := false
  let mut no := false
  no := no || decide (a.d7 < N7)
  no := no || decide (a.d6 < N6)
  no := no || decide (a.d5 < N5)
  no := no || decide (a.d4 < N4)
  yes := yes || (decide (a.d4 > N4) && !no)
  no := no || (decide (a.d3 < N3) && !yes)
  yes := yes || (decide (a.d3 > N3) && !no)
  no := no || (decide (a.d2 < N2) && !yes)
  yes := yes || (decide (a.d2 > N2) && !no)
  no := no || (decide (a.d1 < N1) && !yes)
  yes := yes || (decide (a.d1 > N1) && !no)
  yes := yes || (decide (a.d0 ≥ N0) && !no)
  return yes

/-- The repeated fragment `t += x; limb = (t & 0xFFFFFFFF) as u32; t >>= 32`
(e.g. scalar.rs:97-99). Returns the limb and the new `t`. -/
def carryStep (t x : UInt64) : Exec (UInt32 × UInt64) := do
  let t ← add64 t x
  pure ((t &&& 0xFFFFFFFF).toUInt32, t >>> 32)

/-- The repeated fragment `(x as u64) + o * (c as u64)` (e.g. scalar.rs:97). -/
def addMul (x : UInt32) (o : UInt64) (c : UInt32) : Exec UInt64 := do
  let m ← mul64 o c.toUInt64
  add64 x.toUInt64 m

/-- scalar.rs:89-123 `reduce`: subtracts n (adds 2^256 - n, dropping the carry) when
`overflow`.  The first step `t = …` is written as `t = 0; t += …`. -/
def reduce (a : Scalar) (overflow : Bool) : Exec Scalar := do
  let o : UInt64 := if overflow then 1 else 0
  let x ← addMul a.d0 o nC0
  let (d0, t) ← carryStep 0 x
  let x ← addMul a.d1 o nC1
  let (d1, t) ← carryStep t x
  let x ← addMul a.d2 o nC2
  let (d2, t) ← carryStep t x
  let x ← addMul a.d3 o nC3
  let (d3, t) ← carryStep t x
  let x ← addMul a.d4 o nC4
  let (d4, t) ← carryStep t x
  let (d5, t) ← carryStep t a.d5.toUInt64
  let (d6, t) ← carryStep t a.d6.toUInt64
  let (d7, _) ← carryStep t a.d7.toUInt64
  pure ⟨d0, d1, d2, d3, d4, d5, d6, d7⟩

/-- The expression `(if (bit >> 5) == k { 1 } else { 0 }) << (bit & 0x1F)` as `u64`
(scalar.rs:131); the shift count is below 32, so it cannot overflow. -/
def bitWord (bit k : Nat) : UInt64 :=
  (if bit >>> 5 == k then 1 else 0) <<< UInt64.ofNat (bit &&& 0x1F)

/-- scalar.rs:127-156 `cadd_bit`.  The model is meant for `bit` below `2^32 - 256`, where `bit += …` does not
wrap; the library passes 0 and 1. -/
def caddBit (a : Scalar) (bit : Nat) (flag : Bool) : Exec Scalar := do
  dassert (decide (bit < 256))
  let bit := bit + ((if flag then 0 else 2 ^ 64 - 1) &&& 0x100)
  let x ← add64 a.d0.toUInt64 (bitWord bit 0)
  let (d0, t) ← carryStep 0 x
  let x ← add64 a.d1.toUInt64 (bitWord bit 1)
  let (d1, t) ← carryStep t x
  let x ← add64 a.d2.toUInt64 (bitWord bit 2)
  let (d2, t) ← carryStep t x
  let x ← add64 a.d3.toUInt64 (bitWord bit 3)
  let (d3, t) ← carryStep t x
  let x ← add64 a.d4.toUInt64 (bitWord bit 4)
  let (d4, t) ← carryStep t x
  let x ← add64 a.d5.toUInt64 (bitWord bit 5)
  let (d5, t) ← carryStep t x
  let x ← add64 a.d6.toUInt64 (bitWord bit 6)
  let (d6, t) ← carryStep t x
  let x ← add64 a.d7.toUInt64 (bitWord bit 7)
  let (d7, t) ← carryStep t x
  let r : Scalar := ⟨d0, d1, d2, d3, d4, d5, d6, d7⟩
  dassert (t == 0)
  dassert (!checkOverflow r)
  pure r

/-- The expression `(b3 as u32) | ((b2 as u32) << 8) | ((b1 as u32) << 16) | ((b0 as u32) << 24)`
(e.g. scalar.rs:161-164). -/
def beWord (b0 b1 b2 b3 : UInt8) : UInt32 :=
  b3.toUInt32 ||| (b2.toUInt32 <<< 8) ||| (b1.toUInt32 <<< 16) ||| (b0.toUInt32 <<< 24)

/-- scalar.rs:160-198 `set_b32`: returns the reduced scalar and the overflow flag. -/
def setB32 (b : Vector UInt8 32) : Exec (Scalar × Bool) := do
  let a : Scalar :=
    { d0 := beWord b[28] b[29] b[30] b[31]
      d1 := beWord b[24] b[25] b[26] b[27]
      d2 := beWord b[20] b[21] b[22] b[23]
      d3 := beWord b[16] b[17] b[18] b[19]
      d4 := beWord b[12] b[13] b[14] b[15]
      d5 := beWord b[8] b[9] b[10] b[11]
      d6 := beWord b[4] b[5] b[6] b[7]
      d7 := beWord b[0] b[1] b[2] b[3] }
  let overflow := checkOverflow a
  let r ← reduce a overflow
  pure (r, overflow)

/-- scalar.rs:201-241 `b32` / `fill_b32`. -/
def b32 (a : Scalar) : Vector UInt8 32 :=
  #v[
    (a.d7 >>> 24).toUInt8, (a.d7 >>> 16).toUInt8, (a.d7 >>> 8).toUInt8, a.d7.toUInt8,
    (a.d6 >>> 24).toUInt8, (a.d6 >>> 16).toUInt8, (a.d6 >>> 8).toUInt8, a.d6.toUInt8,
    (a.d5 >>> 24).toUInt8, (a.d5 >>> 16).toUInt8, (a.d5 >>> 8).toUInt8, a.d5.toUInt8,
    (a.d4 >>> 24).toUInt8, (a.d4 >>> 16).toUInt8, (a.d4 >>> 8).toUInt8, a.d4.toUInt8,
    (a.d3 >>> 24).toUInt8, (a.d3 >>> 16).toUInt8, (a.d3 >>> 8).toUInt8, a.d3.toUInt8,
    (a.d2 >>> 24).toUInt8, (a.d2 >>> 16).toUInt8, (a.d2 >>> 8).toUInt8, a.d2.toUInt8,
    (a.d1 >>> 24).toUInt8, (a.d1 >>> 16).toUInt8, (a.d1 >>> 8).toUInt8, a.d1.toUInt8,
    (a.d0 >>> 24).toUInt8, (a.d0 >>> 16).toUInt8, (a.d0 >>> 8).toUInt8, a.d0.toUInt8]

/-- scalar.rs:244-254 `is_zero`. -/
def isZero (a : Scalar) : Bool :=
  (a.d0 ||| a.d1 ||| a.d2 ||| a.d3 ||| a.d4 ||| a.d5 ||| a.d6 ||| a.d7) == 0

/-- scalar.rs:257-267 `is_one`. -/
def isOne (a : Scalar) : Bool :=
  ((a.d0 ^^^ 1) ||| a.d1 ||| a.d2 ||| a.d3 ||| a.d4 ||| a.d5 ||| a.d6 ||| a.d7) == 0

/-- scalar.rs:271-287 `is_high`. -/
def isHigh (a : Scalar) : Bool := Id.run do
  let mut yes := false
  let mut no := false
  no := no || decide (a.d7 < nH7)
  yes := yes || (decide (a.d7 > nH7) && !no)
  no := no || (decide (a.d6 < nH6) && !yes)
  no := no || (decide (a.d5 < nH5) && !yes)
  no := no || (decide (a.d4 < nH4) && !yes)
  no := no || (decide (a.d3 < nH3) && !yes)
  yes := yes || (decide (a.d3 > nH3) && !no)
  no := no || (decide (a.d2 < nH2) && !yes)
  yes := yes || (decide (a.d2 > nH2) && !no)
  no := no || (decide (a.d1 < nH1) && !yes)
  yes := yes || (decide (a.d1 > nH1) && !no)
  yes := yes || (decide (a.d0 ≥ nH0) && !no)
  return yes

/-- One iteration of the loop of `cond_neg_assign`, scalar.rs:298-300. -/
def condNegStep (t nonzero : UInt64) (mask d nlimb : UInt32) : Exec (UInt32 × UInt64) := do
  let x ← add64 (d ^^^ mask).toUInt64 (nlimb &&& mask).toUInt64
  let t ← add64 t x
  pure ((t &&& nonzero).toUInt32, t >>> 32)

/-- scalar.rs:290-305 `cond_neg_assign`. -/
def condNeg (a : Scalar) (flag : Bool) : Exec Scalar := do
  let mask : UInt32 := 0xFFFFFFFF * (if flag then 1 else 0)
  let nonzero : UInt64 := 0xFFFFFFFF * (if !isZero a then 1 else 0)
  let t : UInt64 := 1 * (if flag then 1 else 0)
  let (d0, t) ← condNegStep t nonzero mask a.d0 N0
  let (d1, t) ← condNegStep t nonzero mask a.d1 N1
  let (d2, t) ← condNegStep t nonzero mask a.d2 N2
  let (d3, t) ← condNegStep t nonzero mask a.d3 N3
  let (d4, t) ← condNegStep t nonzero mask a.d4 N4
  let (d5, t) ← condNegStep t nonzero mask a.d5 N5
  let (d6, t) ← condNegStep t nonzero mask a.d6 N6
  let (d7, _) ← condNegStep t nonzero mask a.d7 N7
  pure ⟨d0, d1, d2, d3, d4, d5, d6, d7⟩

/-- scalar.rs:308-414, the three accumulator words `c0, c1, c2` of the `define_ops!` macros. -/
structure Acc where
  c0 : UInt32
  c1 : UInt32
  c2 : UInt32

/-- `if b { 1 } else { 0 }` as `u32` (scalar.rs:319). -/
def b2w (b : Bool) : UInt32 := if b then 1 else 0

/-- scalar.rs:311-324 `muladd!` (all additions are `wrapping_add`; the `u64` product of
two `u32` cannot overflow). -/
def muladd (c : Acc) (a b : UInt32) : Exec Acc := do
  let t := a.toUInt64 * b.toUInt64
  let th := (t >>> 32).toUInt32
  let tl := t.toUInt32
  let c0 := c.c0 + tl
  let th := th + b2w (decide (c0 < tl))
  let c1 := c.c1 + th
  let c2 := c.c2 + b2w (decide (c1 < th))
  dassert (decide (c1 ≥ th) || c2 != 0)
  pure ⟨c0, c1, c2⟩

/-- scalar.rs:326-339 `muladd_fast!`. -/
def muladdFast (c : Acc) (a b : UInt32) : Exec Acc := do
  let t := a.toUInt64 * b.toUInt64
  let th := (t >>> 32).toUInt32
  let tl := t.toUInt32
  let c0 := c.c0 + tl
  let th := th + b2w (decide (c0 < tl))
  let c1 := c.c1 + th
  dassert (decide (c1 ≥ th))
  pure ⟨c0, c1, c.c2⟩

/-- scalar.rs:341-362 `muladd2!`. -/
def muladd2 (c : Acc) (a b : UInt32) : Exec Acc := do
  let t := a.toUInt64 * b.toUInt64
  let th := (t >>> 32).toUInt32
  let tl := t.toUInt32
  let th2 := th + th
  let c2 := c.c2 + b2w (decide (th2 < th))
  dassert (decide (th2 ≥ th) || c2 != 0)
  let tl2 := tl + tl
  let th2 := th2 + b2w (decide (tl2 < tl))
  let c0 := c.c0 + tl2
  let th2 := th2 + b2w (decide (c0 < tl2))
  let c2 := c2 + b2w (decide (c0 < tl2) && th2 == 0)
  dassert (decide (c0 ≥ tl2) || th2 != 0 || c2 != 0)
  let c1 := c.c1 + th2
  let c2 := c2 + b2w (decide (c1 < th2))
  dassert (decide (c1 ≥ th2) || c2 != 0)
  pure ⟨c0, c1, c2⟩

/-- scalar.rs:364-373 `sumadd!`. -/
def sumadd (c : Acc) (a : UInt32) : Exec Acc := do
  let c0 := c.c0 + a
  let over := b2w (decide (c0 < a))
  let c1 := c.c1 + over
  let c2 := c.c2 + b2w (decide (c1 < over))
  pure ⟨c0, c1, c2⟩

/-- scalar.rs:375-384 `sumadd_fast!`. -/
def sumaddFast (c : Acc) (a : UInt32) : Exec Acc := do
  let c0 := c.c0 + a
  let c1 := c.c1 + b2w (decide (c0 < a))
  dassert (c1 != 0 || decide (c0 ≥ a))
  dassert (c.c2 == 0)
  pure ⟨c0, c1, c.c2⟩

/-- scalar.rs:386-398 `extract!`. -/
def extract (c : Acc) : Exec (UInt32 × Acc) := pure (c.c0, ⟨c.c1, c.c2, 0⟩)

/-- scalar.rs:400-412 `extract_fast!`. -/
def extractFast (c : Acc) : Exec (UInt32 × Acc) := do
  dassert (c.c2 == 0)
  pure (c.c0, ⟨c.c1, 0, c.c2⟩)

/-- The `[u32; 16]` product buffer (scalar.rs:733, 757). -/
structure Limbs16 where
  l0 : UInt32
  l1 : UInt32
  l2 : UInt32
  l3 : UInt32
  l4 : UInt32
  l5 : UInt32
  l6 : UInt32
  l7 : UInt32
  l8 : UInt32
  l9 : UInt32
  l10 : UInt32
  l11 : UInt32
  l12 : UInt32
  l13 : UInt32
  l14 : UInt32
  l15 : UInt32

/-- The variables `m0..m12` of `reduce_512` (scalar.rs:424). -/
structure Limbs13 where
  m0 : UInt32
  m1 : UInt32
  m2 : UInt32
  m3 : UInt32
  m4 : UInt32
  m5 : UInt32
  m6 : UInt32
  m7 : UInt32
  m8 : UInt32
  m9 : UInt32
  m10 : UInt32
  m11 : UInt32
  m12 : UInt32

/-- The variables `p0..p8` of `reduce_512` (scalar.rs:439). -/
structure Limbs9 where
  p0 : UInt32
  p1 : UInt32
  p2 : UInt32
  p3 : UInt32
  p4 : UInt32
  p5 : UInt32
  p6 : UInt32
  p7 : UInt32
  p8 : UInt32

/-- scalar.rs:441-504, first part of `reduce_512`: `m = l[0..8] + l[8..16] * (2^256 - n)`. -/
def reduce512a (l : Limbs16) : Exec Limbs13 := do
  let n0 := l.l8
  let n1 := l.l9
  let n2 := l.l10
  let n3 := l.l11
  let n4 := l.l12
  let n5 := l.l13
  let n6 := l.l14
  let n7 := l.l15
  let c : Acc := ⟨l.l0, 0, 0⟩
  let c ← muladdFast c n0 nC0
  let (m0, c) ← extractFast c
  let c ← sumaddFast c l.l1
  let c ← muladd c n1 nC0
  let c ← muladd c n0 nC1
  let (m1, c) ← extract c
  let c ← sumadd c l.l2
  let c ← muladd c n2 nC0
  let c ← muladd c n1 nC1
  let c ← muladd c n0 nC2
  let (m2, c) ← extract c
  let c ← sumadd c l.l3
  let c ← muladd c n3 nC0
  let c ← muladd c n2 nC1
  let c ← muladd c n1 nC2
  let c ← muladd c n0 nC3
  let (m3, c) ← extract c
  let c ← sumadd c l.l4
  let c ← muladd c n4 nC0
  let c ← muladd c n3 nC1
  let c ← muladd c n2 nC2
  let c ← muladd c n1 nC3
  let c ← sumadd c n0
  let (m4, c) ← extract c
  let c ← sumadd c l.l5
  let c ← muladd c n5 nC0
  let c ← muladd c n4 nC1
  let c ← muladd c n3 nC2
  let c ← muladd c n2 nC3
  let c ← sumadd c n1
  let (m5, c) ← extract c
  let c ← sumadd c l.l6
  let c ← muladd c n6 nC0
  let c ← muladd c n5 nC1
  let c ← muladd c n4 nC2
  let c ← muladd c n3 nC3
  let c ← sumadd c n2
  let (m6, c) ← extract c
  let c ← sumadd c l.l7
  let c ← muladd c n7 nC0
  let c ← muladd c n6 nC1
  let c ← muladd c n5 nC2
  let c ← muladd c n4 nC3
  let c ← sumadd c n3
  let (m7, c) ← extract c
  let c ← muladd c n7 nC1
  let c ← muladd c n6 nC2
  let c ← muladd c n5 nC3
  let c ← sumadd c n4
  let (m8, c) ← extract c
  let c ← muladd c n7 nC2
  let c ← muladd c n6 nC3
  let c ← sumadd c n5
  let (m9, c) ← extract c
  let c ← muladd c n7 nC3
  let c ← sumadd c n6
  let (m10, c) ← extract c
  let c ← sumaddFast c n7
  let (m11, c) ← extractFast c
  dassert (decide (c.c0 ≤ 1))
  let m12 := c.c0
  pure ⟨m0, m1, m2, m3, m4, m5, m6, m7, m8, m9, m10, m11, m12⟩

/-- scalar.rs:506-551, second part of `reduce_512`: `p = m[0..8] + m[8..13] * (2^256 - n)`. -/
def reduce512b (m : Limbs13) : Exec Limbs9 := do
  let ⟨m0, m1, m2, m3, m4, m5, m6, m7, m8, m9, m10, m11, m12⟩ := m
  let c : Acc := ⟨m0, 0, 0⟩
  let c ← muladdFast c m8 nC0
  let (p0, c) ← extractFast c
  let c ← sumaddFast c m1
  let c ← muladd c m9 nC0
  let c ← muladd c m8 nC1
  let (p1, c) ← extract c
  let c ← sumadd c m2
  let c ← muladd c m10 nC0
  let c ← muladd c m9 nC1
  let c ← muladd c m8 nC2
  let (p2, c) ← extract c
  let c ← sumadd c m3
  let c ← muladd c m11 nC0
  let c ← muladd c m10 nC1
  let c ← muladd c m9 nC2
  let c ← muladd c m8 nC3
  let (p3, c) ← extract c
  let c ← sumadd c m4
  let c ← muladd c m12 nC0
  let c ← muladd c m11 nC1
  let c ← muladd c m10 nC2
  let c ← muladd c m9 nC3
  let c ← sumadd c m8
  let (p4, c) ← extract c
  let c ← sumadd c m5
  let c ← muladd c m12 nC1
  let c ← muladd c m11 nC2
  let c ← muladd c m10 nC3
  let c ← sumadd c m9
  let (p5, c) ← extract c
  let c ← sumadd c m6
  let c ← muladd c m12 nC2
  let c ← muladd c m11 nC3
  let c ← sumadd c m10
  let (p6, c) ← extract c
  let c ← sumaddFast c m7
  let c ← muladdFast c m12 nC3
  let c ← sumaddFast c m11
  let (p7, c) ← extractFast c
  let p8 ← add32 c.c0 m12
  dassert (decide (p8 ≤ 2))
  pure ⟨p0, p1, p2, p3, p4, p5, p6, p7, p8⟩

/-- scalar.rs:553-581, last part of `reduce_512`. The first step `c = …` is written
`c = 0; c += …`. -/
def reduce512c (p : Limbs9) : Exec Scalar := do
  let o := p.p8.toUInt64
  let x ← addMul p.p0 o nC0
  let (d0, c) ← carryStep 0 x
  let x ← addMul p.p1 o nC1
  let (d1, c) ← carryStep c x
  let x ← addMul p.p2 o nC2
  let (d2, c) ← carryStep c x
  let x ← addMul p.p3 o nC3
  let (d3, c) ← carryStep c x
  let x ← add64 p.p4.toUInt64 o
  let (d4, c) ← carryStep c x
  let (d5, c) ← carryStep c p.p5.toUInt64
  let (d6, c) ← carryStep c p.p6.toUInt64
  let (d7, c) ← carryStep c p.p7.toUInt64
  let r : Scalar := ⟨d0, d1, d2, d3, d4, d5, d6, d7⟩
  let overflow := checkOverflow r
  let hi ← choiceFrom c.toUInt8
  reduce r (hi || overflow)

/-- scalar.rs:417-582 `reduce_512`, split in its three commented parts. -/
def reduce512 (l : Limbs16) : Exec Scalar := do
  let m ← reduce512a l
  let p ← reduce512b m
  reduce512c p

/-- scalar.rs:584-670 `mul_512`. -/
def mul512 (a b : Scalar) : Exec Limbs16 := do
  let c : Acc := ⟨0, 0, 0⟩
  let c ← muladdFast c a.d0 b.d0
  let (l0, c) ← extractFast c
  let c ← muladd c a.d0 b.d1
  let c ← muladd c a.d1 b.d0
  let (l1, c) ← extract c
  let c ← muladd c a.d0 b.d2
  let c ← muladd c a.d1 b.d1
  let c ← muladd c a.d2 b.d0
  let (l2, c) ← extract c
  let c ← muladd c a.d0 b.d3
  let c ← muladd c a.d1 b.d2
  let c ← muladd c a.d2 b.d1
  let c ← muladd c a.d3 b.d0
  let (l3, c) ← extract c
  let c ← muladd c a.d0 b.d4
  let c ← muladd c a.d1 b.d3
  let c ← muladd c a.d2 b.d2
  let c ← muladd c a.d3 b.d1
  let c ← muladd c a.d4 b.d0
  let (l4, c) ← extract c
  let c ← muladd c a.d0 b.d5
  let c ← muladd c a.d1 b.d4
  let c ← muladd c a.d2 b.d3
  let c ← muladd c a.d3 b.d2
  let c ← muladd c a.d4 b.d1
  let c ← muladd c a.d5 b.d0
  let (l5, c) ← extract c
  let c ← muladd c a.d0 b.d6
  let c ← muladd c a.d1 b.d5
  let c ← muladd c a.d2 b.d4
  let c ← muladd c a.d3 b.d3
  let c ← muladd c a.d4 b.d2
  let c ← muladd c a.d5 b.d1
  let c ← muladd c a.d6 b.d0
  let (l6, c) ← extract c
  let c ← muladd c a.d0 b.d7
  let c ← muladd c a.d1 b.d6
  let c ← muladd c a.d2 b.d5
  let c ← muladd c a.d3 b.d4
  let c ← muladd c a.d4 b.d3
  let c ← muladd c a.d5 b.d2
  let c ← muladd c a.d6 b.d1
  let c ← muladd c a.d7 b.d0
  let (l7, c) ← extract c
  let c ← muladd c a.d1 b.d7
  let c ← muladd c a.d2 b.d6
  let c ← muladd c a.d3 b.d5
  let c ← muladd c a.d4 b.d4
  let c ← muladd c a.d5 b.d3
  let c ← muladd c a.d6 b.d2
  let c ← muladd c a.d7 b.d1
  let (l8, c) ← extract c
  let c ← muladd c a.d2 b.d7
  let c ← muladd c a.d3 b.d6
  let c ← muladd c a.d4 b.d5
  let c ← muladd c a.d5 b.d4
  let c ← muladd c a.d6 b.d3
  let c ← muladd c a.d7 b.d2
  let (l9, c) ← extract c
  let c ← muladd c a.d3 b.d7
  let c ← muladd c a.d4 b.d6
  let c ← muladd c a.d5 b.d5
  let c ← muladd c a.d6 b.d4
  let c ← muladd c a.d7 b.d3
  let (l10, c) ← extract c
  let c ← muladd c a.d4 b.d7
  let c ← muladd c a.d5 b.d6
  let c ← muladd c a.d6 b.d5
  let c ← muladd c a.d7 b.d4
  let (l11, c) ← extract c
  let c ← muladd c a.d5 b.d7
  let c ← muladd c a.d6 b.d6
  let c ← muladd c a.d7 b.d5
  let (l12, c) ← extract c
  let c ← muladd c a.d6 b.d7
  let c ← muladd c a.d7 b.d6
  let (l13, c) ← extract c
  let c ← muladdFast c a.d7 b.d7
  let (l14, c) ← extractFast c
  dassert (c.c1 == 0)
  let l15 := c.c0
  pure ⟨l0, l1, l2, l3, l4, l5, l6, l7, l8, l9, l10, l11, l12, l13, l14, l15⟩

/-- scalar.rs:672-730 `sqr_512`. -/
def sqr512 (a : Scalar) : Exec Limbs16 := do
  let c : Acc := ⟨0, 0, 0⟩
  let c ← muladdFast c a.d0 a.d0
  let (l0, c) ← extractFast c
  let c ← muladd2 c a.d0 a.d1
  let (l1, c) ← extract c
  let c ← muladd2 c a.d0 a.d2
  let c ← muladd c a.d1 a.d1
  let (l2, c) ← extract c
  let c ← muladd2 c a.d0 a.d3
  let c ← muladd2 c a.d1 a.d2
  let (l3, c) ← extract c
  let c ← muladd2 c a.d0 a.d4
  let c ← muladd2 c a.d1 a.d3
  let c ← muladd c a.d2 a.d2
  let (l4, c) ← extract c
  let c ← muladd2 c a.d0 a.d5
  let c ← muladd2 c a.d1 a.d4
  let c ← muladd2 c a.d2 a.d3
  let (l5, c) ← extract c
  let c ← muladd2 c a.d0 a.d6
  let c ← muladd2 c a.d1 a.d5
  let c ← muladd2 c a.d2 a.d4
  let c ← muladd c a.d3 a.d3
  let (l6, c) ← extract c
  let c ← muladd2 c a.d0 a.d7
  let c ← muladd2 c a.d1 a.d6
  let c ← muladd2 c a.d2 a.d5
  let c ← muladd2 c a.d3 a.d4
  let (l7, c) ← extract c
  let c ← muladd2 c a.d1 a.d7
  let c ← muladd2 c a.d2 a.d6
  let c ← muladd2 c a.d3 a.d5
  let c ← muladd c a.d4 a.d4
  let (l8, c) ← extract c
  let c ← muladd2 c a.d2 a.d7
  let c ← muladd2 c a.d3 a.d6
  let c ← muladd2 c a.d4 a.d5
  let (l9, c) ← extract c
  let c ← muladd2 c a.d3 a.d7
  let c ← muladd2 c a.d4 a.d6
  let c ← muladd c a.d5 a.d5
  let (l10, c) ← extract c
  let c ← muladd2 c a.d4 a.d7
  let c ← muladd2 c a.d5 a.d6
  let (l11, c) ← extract c
  let c ← muladd2 c a.d5 a.d7
  let c ← muladd c a.d6 a.d6
  let (l12, c) ← extract c
  let c ← muladd2 c a.d6 a.d7
  let (l13, c) ← extract c
  let c ← muladdFast c a.d7 a.d7
  let (l14, c) ← extractFast c
  dassert (c.c1 == 0)
  let l15 := c.c0
  pure ⟨l0, l1, l2, l3, l4, l5, l6, l7, l8, l9, l10, l11, l12, l13, l14, l15⟩

/-- scalar.rs:732-736 `mul_in_place`; also `Mul`/`MulAssign`, scalar.rs:975-1005. -/
def mul (a b : Scalar) : Exec Scalar := do
  let l ← mul512 a b
  reduce512 l

/-- scalar.rs:756-766 `sqr_in_place` / `sqr`. -/
def sqr (a : Scalar) : Exec Scalar := do
  let l ← sqr512 a
  reduce512 l

/-- The repeated expression `(lo >> n) + (hi << (32 - n))`, scalar.rs:745. -/
def shrStep (lo hi : UInt32) (n : Nat) : Exec UInt32 := do
  let x ← shr32 lo n
  let k ← subNat 32 n
  let y ← shl32 hi k
  add32 x y

/-- scalar.rs:740-754 `shr_int`: returns the shifted-off bits and the new scalar. -/
def shrInt (a : Scalar) (n : Nat) : Exec (UInt32 × Scalar) := do
  dassert (decide (n > 0))
  dassert (decide (n < 16))
  let m ← shl32 1 n
  let m ← sub32 m 1
  let ret := a.d0 &&& m
  let d0 ← shrStep a.d0 a.d1 n
  let d1 ← shrStep a.d1 a.d2 n
  let d2 ← shrStep a.d2 a.d3 n
  let d3 ← shrStep a.d3 a.d4 n
  let d4 ← shrStep a.d4 a.d5 n
  let d5 ← shrStep a.d5 a.d6 n
  let d6 ← shrStep a.d6 a.d7 n
  let d7 ← shr32 a.d7 n
  pure (ret, ⟨d0, d1, d2, d3, d4, d5, d6, d7⟩)

/-- `for _ in 0..k { t = t.sqr(); }` (scalar.rs:786-910). -/
def sqrN (k : Nat) (t : Scalar) : Exec Scalar := forN k (fun _ t => sqr t) t

/-- scalar.rs:768-922 `inv_in_place` / `inv` / `inv_var`. -/
def inv (x : Scalar) : Exec Scalar := do
  let u2 ← sqr x
  let x2 ← mul u2 x
  let u5 ← mul u2 x2
  let x3 ← mul u5 u2
  let u9 ← mul x3 u2
  let u11 ← mul u9 u2
  let u13 ← mul u11 u2
  let x6 ← sqr u13
  let x6 ← sqr x6
  let x6 ← mul x6 u11
  let x8 ← sqr x6
  let x8 ← sqr x8
  let x8 ← mul x8 x2
  let x14 ← sqr x8
  let x14 ← sqrN 5 x14
  let x14 ← mul x14 x6
  let x28 ← sqr x14
  let x28 ← sqrN 13 x28
  let x28 ← mul x28 x14
  let x56 ← sqr x28
  let x56 ← sqrN 27 x56
  let x56 ← mul x56 x28
  let x112 ← sqr x56
  let x112 ← sqrN 55 x112
  let x112 ← mul x112 x56
  let x126 ← sqr x112
  let x126 ← sqrN 13 x126
  let x126 ← mul x126 x14
  let t := x126
  let t ← sqrN 3 t
  let t ← mul t u5
  let t ← sqrN 4 t
  let t ← mul t x3
  let t ← sqrN 4 t
  let t ← mul t u5
  let t ← sqrN 5 t
  let t ← mul t u11
  let t ← sqrN 4 t
  let t ← mul t u11
  let t ← sqrN 4 t
  let t ← mul t x3
  let t ← sqrN 5 t
  let t ← mul t x3
  let t ← sqrN 6 t
  let t ← mul t u13
  let t ← sqrN 4 t
  let t ← mul t u5
  let t ← sqrN 3 t
  let t ← mul t x3
  let t ← sqrN 5 t
  let t ← mul t u9
  let t ← sqrN 6 t
  let t ← mul t u5
  let t ← sqrN 10 t
  let t ← mul t x3
  let t ← sqrN 4 t
  let t ← mul t x3
  let t ← sqrN 9 t
  let t ← mul t x8
  let t ← sqrN 5 t
  let t ← mul t u9
  let t ← sqrN 6 t
  let t ← mul t u11
  let t ← sqrN 4 t
  let t ← mul t u13
  let t ← sqrN 5 t
  let t ← mul t x2
  let t ← sqrN 6 t
  let t ← mul t u13
  let t ← sqrN 10 t
  let t ← mul t u13
  let t ← sqrN 4 t
  let t ← mul t u9
  let t ← sqrN 6 t
  let t ← mul t x
  let t ← sqrN 8 t
  mul t x6

/-- scalar.rs:924-926 `is_even`. -/
def isEven (a : Scalar) : Bool := a.d0 &&& 1 == 0

/-- scalar.rs:952-967 `add_assign` and the `Add` impls, scalar.rs:935-950. -/
def add (a b : Scalar) : Exec Scalar := do
  let x ← add64 a.d0.toUInt64 b.d0.toUInt64
  let (d0, t) ← carryStep 0 x
  let x ← add64 a.d1.toUInt64 b.d1.toUInt64
  let (d1, t) ← carryStep t x
  let x ← add64 a.d2.toUInt64 b.d2.toUInt64
  let (d2, t) ← carryStep t x
  let x ← add64 a.d3.toUInt64 b.d3.toUInt64
  let (d3, t) ← carryStep t x
  let x ← add64 a.d4.toUInt64 b.d4.toUInt64
  let (d4, t) ← carryStep t x
  let x ← add64 a.d5.toUInt64 b.d5.toUInt64
  let (d5, t) ← carryStep t x
  let x ← add64 a.d6.toUInt64 b.d6.toUInt64
  let (d6, t) ← carryStep t x
  let x ← add64 a.d7.toUInt64 b.d7.toUInt64
  let (d7, t) ← carryStep t x
  let r : Scalar := ⟨d0, d1, d2, d3, d4, d5, d6, d7⟩
  let overflow := checkOverflow r
  let hi ← choiceFrom t.toUInt8
  reduce r (hi || overflow)

/-- scalar.rs:1007-1021 `Neg`. -/
def neg (a : Scalar) : Exec Scalar := condNeg a true

/-- The two characters of `{:02x}`. -/
def hexByte (b : UInt8) : List Char :=
  [Nat.digitChar (b.toNat / 16), Nat.digitChar (b.toNat % 16)]

/-- `word.to_be_bytes()` (scalar.rs:1026). -/
def wordBytes (w : UInt32) : List UInt8 :=
  [(w >>> 24).toUInt8, (w >>> 16).toUInt8, (w >>> 8).toUInt8, w.toUInt8]

/-- scalar.rs:1023-1032 `LowerHex`: limbs are printed from index 0 upwards. -/
def lowerHex (a : Scalar) : List Char :=
  ([a.d0, a.d1, a.d2, a.d3, a.d4, a.d5, a.d6, a.d7].flatMap wordBytes).flatMap hexByte

end Scalar
end Verif
