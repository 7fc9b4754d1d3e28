import Verif.Model.Scalar

/-! Model of core/src/field.rs: the base field in ten 26-bit limbs. -/

namespace Verif

/-- field.rs:20 the array `n: [u32; 10]`. -/
structure Limbs10 where
  n0 : UInt32
  n1 : UInt32
  n2 : UInt32
  n3 : UInt32
  n4 : UInt32
  n5 : UInt32
  n6 : UInt32
  n7 : UInt32
  n8 : UInt32
  n9 : UInt32
  deriving DecidableEq

/-- field.rs:14-23 `struct Field`. -/
structure FElem where
  n : Limbs10
  magnitude : UInt32
  normalized : Bool
  deriving DecidableEq

namespace FElem

/-- `debug_assert!(x)` (e.g. field.rs:195, 240) where evaluating `x` may itself panic; not evaluated in release. -/
def dassertE (x : Exec Bool) : Exec Unit := fun
  | .debug => (x >>= dassert) .debug
  | .release => some ()

/-- `r && x` (short-circuit), as in field.rs:82-104. -/
def andThen (r : Bool) (x : Exec Bool) : Exec Bool := if r then x else pure false

/-- The expression `x <= c * m` (field.rs:82-91). -/
def leMul (x c m : UInt32) : Exec Bool := do let l ← mul32 c m; pure (decide (x ≤ l))

/-- field.rs:26-43 `new_raw`. -/
def newRaw (d9 d8 d7 d6 d5 d4 d3 d2 d1 d0 : UInt32) : FElem :=
  { n := ⟨d0, d1, d2, d3, d4, d5, d6, d7, d8, d9⟩, magnitude := 1, normalized := false }

/-- field.rs:45-71 `new`. -/
def new (d7 d6 d5 d4 d3 d2 d1 d0 : UInt32) : FElem :=
  { n :=
      { n0 := d0 &&& 0x3ffffff
        n1 := (d0 >>> 26) ||| ((d1 &&& 0xfffff) <<< 6)
        n2 := (d1 >>> 20) ||| ((d2 &&& 0x3fff) <<< 12)
        n3 := (d2 >>> 14) ||| ((d3 &&& 0xff) <<< 18)
        n4 := (d3 >>> 8) ||| ((d4 &&& 0x3) <<< 24)
        n5 := (d4 >>> 2) &&& 0x3ffffff
        n6 := (d4 >>> 28) ||| ((d5 &&& 0x3fffff) <<< 4)
        n7 := (d5 >>> 22) ||| ((d6 &&& 0xffff) <<< 10)
        n8 := (d6 >>> 16) ||| ((d7 &&& 0x3ff) <<< 16)
        n9 := d7 >>> 10 }
    magnitude := 1
    normalized := true }

/-- field.rs:1664-1672 `Default`. -/
def zero : FElem := { n := ⟨0, 0, 0, 0, 0, 0, 0, 0, 0, 0⟩, magnitude := 0, normalized := true }

/-- The expression `n8 & n7 & n6 & n5 & n4 & n3 & n2` (field.rs:96-102, 561) and the mask `m`
accumulated in the normalisation passes (field.rs:136-154). -/
def mid (t : Limbs10) : UInt32 :=
  t.n8 &&& t.n7 &&& t.n6 &&& t.n5 &&& t.n4 &&& t.n3 &&& t.n2

/-- The expression `n1 + 0x40 + ((n0 + 0x3d1) >> 26)` (field.rs:104, 163, 562). -/
def lowSum (t : Limbs10) : Exec UInt32 := do
  let x ← add32 t.n0 0x3d1
  let y ← add32 t.n1 0x40
  add32 y (x >>> 26)

/-- field.rs:79-109 `verify`. -/
def verify (f : FElem) : Exec Bool := do
  let m ← mul32 (if f.normalized then 1 else 2) f.magnitude
  let r ← andThen true (leMul f.n.n0 0x3ffffff m)
  let r ← andThen r (leMul f.n.n1 0x3ffffff m)
  let r ← andThen r (leMul f.n.n2 0x3ffffff m)
  let r ← andThen r (leMul f.n.n3 0x3ffffff m)
  let r ← andThen r (leMul f.n.n4 0x3ffffff m)
  let r ← andThen r (leMul f.n.n5 0x3ffffff m)
  let r ← andThen r (leMul f.n.n6 0x3ffffff m)
  let r ← andThen r (leMul f.n.n7 0x3ffffff m)
  let r ← andThen r (leMul f.n.n8 0x3ffffff m)
  let r ← andThen r (leMul f.n.n9 0x03fffff m)
  let r ← andThen r (pure (decide (f.magnitude ≤ 32)))
  if f.normalized then
    let r ← andThen r (pure (decide (f.magnitude ≤ 1)))
    if r && f.n.n9 == 0x03fffff then
      if mid f.n == 0x3ffffff then
        andThen r (do let s ← lowSum f.n; pure (decide (s ≤ 0x3ffffff)))
      else pure r
    else pure r
  else pure r

/-- The carry chain `t1 += t0 >> 26; t0 &= 0x3ffffff; ...; t9 += t8 >> 26; t8 &= 0x3ffffff`
that all normalisation functions contain verbatim (field.rs:131-154, 168-187, 216-235,
263-286, 299-318, 354-394, 443-475). The running masks `m`, `z0`, `z1` interleaved with it in
the source only read the masked limbs, so the model computes them afterwards. -/
def carry (t : Limbs10) : Exec Limbs10 := do
  let t1 ← add32 t.n1 (t.n0 >>> 26)
  let t0 ← pure (t.n0 &&& 0x3ffffff)
  let t2 ← add32 t.n2 (t1 >>> 26)
  let t1 ← pure (t1 &&& 0x3ffffff)
  let t3 ← add32 t.n3 (t2 >>> 26)
  let t2 ← pure (t2 &&& 0x3ffffff)
  let t4 ← add32 t.n4 (t3 >>> 26)
  let t3 ← pure (t3 &&& 0x3ffffff)
  let t5 ← add32 t.n5 (t4 >>> 26)
  let t4 ← pure (t4 &&& 0x3ffffff)
  let t6 ← add32 t.n6 (t5 >>> 26)
  let t5 ← pure (t5 &&& 0x3ffffff)
  let t7 ← add32 t.n7 (t6 >>> 26)
  let t6 ← pure (t6 &&& 0x3ffffff)
  let t8 ← add32 t.n8 (t7 >>> 26)
  let t7 ← pure (t7 &&& 0x3ffffff)
  let t9 ← add32 t.n9 (t8 >>> 26)
  let t8 ← pure (t8 &&& 0x3ffffff)
  pure ⟨t0, t1, t2, t3, t4, t5, t6, t7, t8, t9⟩

/-- `x = t9 >> 22; t9 &= 0x03fffff; t0 += x * 0x3d1; t1 += x << 6;` followed by the carry
chain (field.rs:126-154 and the same lines of the other normalisation functions). -/
def pass (t : Limbs10) : Exec Limbs10 := do
  let x := t.n9 >>> 22
  let y ← mul32 x 0x3d1
  let t0 ← add32 t.n0 y
  let t1 ← add32 t.n1 (x <<< 6)
  carry { t with n0 := t0, n1 := t1, n9 := t.n9 &&& 0x03fffff }

/-- The second `x` of `normalize` and `normalize_var` (field.rs:158-167, 290-299). -/
def finalX (t : Limbs10) : Exec UInt32 := do
  let s ← lowSum t
  pure ((t.n9 >>> 22) |||
    ((if t.n9 == 0x03fffff then 1 else 0) &&& (if mid t == 0x3ffffff then 1 else 0) &&&
      (if s > 0x3ffffff then 1 else 0)))

/-- field.rs:112-196 `normalize`. -/
def normalize (f : FElem) : Exec FElem := do
  let t ← pass f.n
  dassert (t.n9 >>> 23 == 0)
  let x ← finalX t
  let y ← mul32 x 0x3d1
  let t0 ← add32 t.n0 y
  let t1 ← add32 t.n1 (x <<< 6)
  let t ← carry { t with n0 := t0, n1 := t1 }
  dassert (t.n9 >>> 22 == x)
  let r : FElem :=
    { n := { t with n9 := t.n9 &&& 0x03fffff }, magnitude := 1, normalized := true }
  dassertE (verify r)
  pure r

/-- field.rs:200-241 `normalize_weak`. -/
def normalizeWeak (f : FElem) : Exec FElem := do
  let t ← pass f.n
  dassert (t.n9 >>> 23 == 0)
  let r : FElem := { f with n := t, magnitude := 1 }
  dassertE (verify r)
  pure r

/-- The final reduction of `normalize_var`, field.rs:300-324. -/
def varTail (t : Limbs10) (x : UInt32) : Exec Limbs10 :=
  if x > 0 then do
    let t0 ← add32 t.n0 0x3d1
    let t1 ← add32 t.n1 (x <<< 6)
    let t ← carry { t with n0 := t0, n1 := t1 }
    dassert (t.n9 >>> 22 == x)
    pure { t with n9 := t.n9 &&& 0x03fffff }
  else pure t

/-- field.rs:244-330 `normalize_var`. -/
def normalizeVar (f : FElem) : Exec FElem := do
  let t ← pass f.n
  dassert (t.n9 >>> 23 == 0)
  let x ← finalX t
  let t ← varTail t x
  let r : FElem := { n := t, magnitude := 1, normalized := true }
  dassertE (verify r)
  pure r

/-- The mask `z0` (field.rs:355-395). -/
def maskZ0 (t : Limbs10) : UInt32 :=
  t.n0 ||| t.n1 ||| t.n2 ||| t.n3 ||| t.n4 ||| t.n5 ||| t.n6 ||| t.n7 ||| t.n8 ||| t.n9

/-- The mask `z1` (field.rs:356-396). -/
def maskZ1 (t : Limbs10) : UInt32 :=
  (t.n0 ^^^ 0x3d0) &&& (t.n1 ^^^ 0x40) &&& t.n2 &&& t.n3 &&& t.n4 &&& t.n5 &&& t.n6 &&& t.n7 &&&
    t.n8 &&& (t.n9 ^^^ 0x3c00000)

/-- field.rs:336-398 `normalizes_to_zero`. -/
def normalizesToZero (f : FElem) : Exec Bool := do
  let t ← pass f.n
  dassert (t.n9 >>> 23 == 0)
  pure (maskZ0 t == 0 || maskZ1 t == 0x3ffffff)

/-- field.rs:404-483 `normalizes_to_zero_var`. -/
def normalizesToZeroVar (f : FElem) : Exec Bool := do
  let x := f.n.n9 >>> 22
  let y ← mul32 x 0x3d1
  let t0 ← add32 f.n.n0 y
  let z0 := t0 &&& 0x3ffffff
  if z0 != 0 && (z0 ^^^ 0x3d0) != 0x3ffffff then pure false
  else do
    let t1 ← add32 f.n.n1 (x <<< 6)
    let t ← carry { f.n with n0 := t0, n1 := t1, n9 := f.n.n9 &&& 0x03fffff }
    dassert (t.n9 >>> 23 == 0)
    pure (maskZ0 t == 0 || maskZ1 t == 0x3ffffff)

/-- field.rs:487-492 `set_int` (every field is overwritten). -/
def setInt (a : UInt32) : Exec FElem := do
  let r : FElem := { n := ⟨a, 0, 0, 0, 0, 0, 0, 0, 0, 0⟩, magnitude := 1, normalized := true }
  dassertE (verify r)
  pure r

/-- field.rs:73-77 `from_int`. -/
def fromInt (a : UInt32) : Exec FElem := setInt a

/-- field.rs:496-510 `is_zero`. -/
def isZero (f : FElem) : Exec Bool := do
  dassert f.normalized
  dassertE (verify f)
  pure (maskZ0 f.n == 0)

/-- field.rs:514-518 `is_odd`. -/
def isOdd (f : FElem) : Exec Bool := do
  dassert f.normalized
  dassertE (verify f)
  pure (f.n.n0 &&& 1 != 0)

/-- field.rs:521-525 `clear`: the element after the call. -/
def clear (_ : FElem) : FElem :=
  { n := ⟨0, 0, 0, 0, 0, 0, 0, 0, 0, 0⟩, magnitude := 0, normalized := true }

/-- The overflow test of `set_b32`, field.rs:569-576. -/
def isOverflow (t : Limbs10) : Exec Bool :=
  if t.n9 == 0x03fffff && mid t == 0x3ffffff then do
    let s ← lowSum t
    pure (decide (s > 0x3ffffff))
  else pure false

/-- field.rs:530-582 `set_b32`: the element after the call and the returned flag. -/
def setB32 (f : FElem) (b : Vector UInt8 32) : Exec (FElem × Bool) := do
  let n0 : UInt32 := b[31].toUInt32 ||| (b[30].toUInt32 <<< 8) ||| (b[29].toUInt32 <<< 16) ||| (((b[28] &&& 0x3).toUInt32) <<< 24)
  let n1 : UInt32 := ((b[28] >>> 2) &&& 0x3f).toUInt32 ||| (b[27].toUInt32 <<< 6) ||| (b[26].toUInt32 <<< 14) ||| (((b[25] &&& 0xf).toUInt32) <<< 22)
  let n2 : UInt32 := ((b[25] >>> 4) &&& 0xf).toUInt32 ||| (b[24].toUInt32 <<< 4) ||| (b[23].toUInt32 <<< 12) ||| ((b[22].toUInt32 &&& 0x3f) <<< 20)
  let n3 : UInt32 := ((b[22] >>> 6) &&& 0x3).toUInt32 ||| (b[21].toUInt32 <<< 2) ||| (b[20].toUInt32 <<< 10) ||| (b[19].toUInt32 <<< 18)
  let n4 : UInt32 := b[18].toUInt32 ||| (b[17].toUInt32 <<< 8) ||| (b[16].toUInt32 <<< 16) ||| (((b[15] &&& 0x3).toUInt32) <<< 24)
  let n5 : UInt32 := ((b[15] >>> 2) &&& 0x3f).toUInt32 ||| (b[14].toUInt32 <<< 6) ||| (b[13].toUInt32 <<< 14) ||| ((b[12].toUInt32 &&& 0xf) <<< 22)
  let n6 : UInt32 := ((b[12] >>> 4) &&& 0xf).toUInt32 ||| (b[11].toUInt32 <<< 4) ||| (b[10].toUInt32 <<< 12) ||| (((b[9] &&& 0x3f).toUInt32) <<< 20)
  let n7 : UInt32 := ((b[9] >>> 6) &&& 0x3).toUInt32 ||| (b[8].toUInt32 <<< 2) ||| (b[7].toUInt32 <<< 10) ||| (b[6].toUInt32 <<< 18)
  let n8 : UInt32 := b[5].toUInt32 ||| (b[4].toUInt32 <<< 8) ||| (b[3].toUInt32 <<< 16) ||| (((b[2] &&& 0x3).toUInt32) <<< 24)
  let n9 : UInt32 := ((b[2] >>> 2) &&& 0x3f).toUInt32 ||| (b[1].toUInt32 <<< 6) ||| (b[0].toUInt32 <<< 14)
  let t : Limbs10 := ⟨n0, n1, n2, n3, n4, n5, n6, n7, n8, n9⟩
  let bad ← isOverflow t
  if bad then pure ({ f with n := t }, false)
  else do
    let r : FElem := { n := t, magnitude := 1, normalized := true }
    dassertE (verify r)
    pure (r, true)

/-- field.rs:584-628 `fill_b32`, `b32`. -/
def b32 (f : FElem) : Exec (Vector UInt8 32) := do
  dassert f.normalized
  dassertE (verify f)
  pure #v[
    (((f.n.n9 >>> 14) &&& 0xff)).toUInt8,
    (((f.n.n9 >>> 6) &&& 0xff)).toUInt8,
    ((((f.n.n9 &&& 0x3f) <<< 2) ||| ((f.n.n8 >>> 24) &&& 0x3))).toUInt8,
    (((f.n.n8 >>> 16) &&& 0xff)).toUInt8,
    (((f.n.n8 >>> 8) &&& 0xff)).toUInt8,
    ((f.n.n8 &&& 0xff)).toUInt8,
    (((f.n.n7 >>> 18) &&& 0xff)).toUInt8,
    (((f.n.n7 >>> 10) &&& 0xff)).toUInt8,
    (((f.n.n7 >>> 2) &&& 0xff)).toUInt8,
    ((((f.n.n7 &&& 0x3) <<< 6) ||| ((f.n.n6 >>> 20) &&& 0x3f))).toUInt8,
    (((f.n.n6 >>> 12) &&& 0xff)).toUInt8,
    (((f.n.n6 >>> 4) &&& 0xff)).toUInt8,
    ((((f.n.n6 &&& 0xf) <<< 4) ||| ((f.n.n5 >>> 22) &&& 0xf))).toUInt8,
    (((f.n.n5 >>> 14) &&& 0xff)).toUInt8,
    (((f.n.n5 >>> 6) &&& 0xff)).toUInt8,
    ((((f.n.n5 &&& 0x3f) <<< 2) ||| ((f.n.n4 >>> 24) &&& 0x3))).toUInt8,
    (((f.n.n4 >>> 16) &&& 0xff)).toUInt8,
    (((f.n.n4 >>> 8) &&& 0xff)).toUInt8,
    ((f.n.n4 &&& 0xff)).toUInt8,
    (((f.n.n3 >>> 18) &&& 0xff)).toUInt8,
    (((f.n.n3 >>> 10) &&& 0xff)).toUInt8,
    (((f.n.n3 >>> 2) &&& 0xff)).toUInt8,
    ((((f.n.n3 &&& 0x3) <<< 6) ||| ((f.n.n2 >>> 20) &&& 0x3f))).toUInt8,
    (((f.n.n2 >>> 12) &&& 0xff)).toUInt8,
    (((f.n.n2 >>> 4) &&& 0xff)).toUInt8,
    ((((f.n.n2 &&& 0xf) <<< 4) ||| ((f.n.n1 >>> 22) &&& 0xf))).toUInt8,
    (((f.n.n1 >>> 14) &&& 0xff)).toUInt8,
    (((f.n.n1 >>> 6) &&& 0xff)).toUInt8,
    ((((f.n.n1 &&& 0x3f) <<< 2) ||| ((f.n.n0 >>> 24) &&& 0x3))).toUInt8,
    (((f.n.n0 >>> 16) &&& 0xff)).toUInt8,
    (((f.n.n0 >>> 8) &&& 0xff)).toUInt8,
    ((f.n.n0 &&& 0xff)).toUInt8]

/-- The expression `c * 2 * (m + 1) - x` (field.rs:637-646). -/
def negLimb (c m x : UInt32) : Exec UInt32 := do
  let u ← mul32 c 2
  let v ← add32 m 1
  let w ← mul32 u v
  sub32 w x

/-- field.rs:633-658 `neg_in_place`, `neg`. -/
def neg (other : FElem) (m : UInt32) : Exec FElem := do
  dassert (decide (other.magnitude ≤ m))
  dassertE (verify other)
  let n0 ← negLimb 0x3fffc2f m other.n.n0
  let n1 ← negLimb 0x3ffffbf m other.n.n1
  let n2 ← negLimb 0x3ffffff m other.n.n2
  let n3 ← negLimb 0x3ffffff m other.n.n3
  let n4 ← negLimb 0x3ffffff m other.n.n4
  let n5 ← negLimb 0x3ffffff m other.n.n5
  let n6 ← negLimb 0x3ffffff m other.n.n6
  let n7 ← negLimb 0x3ffffff m other.n.n7
  let n8 ← negLimb 0x3ffffff m other.n.n8
  let n9 ← negLimb 0x03fffff m other.n.n9
  let mag ← add32 m 1
  let r : FElem := { n := ⟨n0, n1, n2, n3, n4, n5, n6, n7, n8, n9⟩, magnitude := mag, normalized := false }
  dassertE (verify r)
  pure r

/-- field.rs:663-678 `mul_int`. -/
def mulInt (f : FElem) (a : UInt32) : Exec FElem := do
  let n0 ← mul32 f.n.n0 a
  let n1 ← mul32 f.n.n1 a
  let n2 ← mul32 f.n.n2 a
  let n3 ← mul32 f.n.n3 a
  let n4 ← mul32 f.n.n4 a
  let n5 ← mul32 f.n.n5 a
  let n6 ← mul32 f.n.n6 a
  let n7 ← mul32 f.n.n7 a
  let n8 ← mul32 f.n.n8 a
  let n9 ← mul32 f.n.n9 a
  let mag ← mul32 f.magnitude a
  let r : FElem := { n := ⟨n0, n1, n2, n3, n4, n5, n6, n7, n8, n9⟩, magnitude := mag, normalized := false }
  dassertE (verify r)
  pure r

/-- field.rs:1694-1709 `AddAssign`, and `Add` (1674-1690) in terms of it. -/
def add (f g : FElem) : Exec FElem := do
  let n0 ← add32 f.n.n0 g.n.n0
  let n1 ← add32 f.n.n1 g.n.n1
  let n2 ← add32 f.n.n2 g.n.n2
  let n3 ← add32 f.n.n3 g.n.n3
  let n4 ← add32 f.n.n4 g.n.n4
  let n5 ← add32 f.n.n5 g.n.n5
  let n6 ← add32 f.n.n6 g.n.n6
  let n7 ← add32 f.n.n7 g.n.n7
  let n8 ← add32 f.n.n8 g.n.n8
  let n9 ← add32 f.n.n9 g.n.n9
  let mag ← add32 f.magnitude g.magnitude
  let r : FElem := { n := ⟨n0, n1, n2, n3, n4, n5, n6, n7, n8, n9⟩, magnitude := mag, normalized := false }
  dassertE (verify r)
  pure r

/-- field.rs:689: the limbs in the order of `cmp_var`, from the most significant one down. -/
def limbsRev (t : Limbs10) : List UInt32 :=
  [t.n9, t.n8, t.n7, t.n6, t.n5, t.n4, t.n3, t.n2, t.n1, t.n0]

/-- The comparison loop of `cmp_var` (field.rs:689-696). -/
def cmpLoop : List UInt32 → List UInt32 → Ordering
  | x :: xs, y :: ys => if x > y then .gt else if x < y then .lt else cmpLoop xs ys
  | _, _ => .eq

/-- field.rs:682-698 `cmp_var`, `Ord`/`PartialOrd` (1759-1769). -/
def cmpVar (f g : FElem) : Exec Ordering := do
  dassert f.normalized
  dassert g.normalized
  dassertE (verify f)
  dassertE (verify g)
  pure (cmpLoop (limbsRev f.n) (limbsRev g.n))

/-- field.rs:700-704 `eq_var`. -/
def eqVar (f g : FElem) : Exec Bool := do
  let na ← neg f 1
  let na ← add na g
  normalizesToZeroVar na

/-- field.rs:1749-1755 `PartialEq`. -/
def eq (f g : FElem) : Exec Bool := do
  let na ← neg f f.magnitude
  let na ← add na g
  normalizesToZero na

/-- field.rs:740 and following, the product `(x as u64) * (y as u64)` of two `u32` (cannot overflow). -/
def mulw (x y : UInt32) : UInt64 := x.toUInt64 * y.toUInt64

/-- `(d & M) as u32` with `M = 0x3ffffff` (field.rs:707). -/
def lo26 (d : UInt64) : UInt32 := (d &&& 0x3ffffff).toUInt32

/-- `(c & (M >> 4)) as u32` (field.rs:1067). -/
def lo22 (c : UInt64) : UInt32 := (c &&& 0x3fffff).toUInt32

/-- field.rs:706-1096 `mul_inner`. Additions written `+` are `wrapping_add` in the source. -/
def mulInner (a b : Limbs10) : Exec Limbs10 := do
  dassert (a.n0 >>> 30 == 0)
  dassert (a.n1 >>> 30 == 0)
  dassert (a.n2 >>> 30 == 0)
  dassert (a.n3 >>> 30 == 0)
  dassert (a.n4 >>> 30 == 0)
  dassert (a.n5 >>> 30 == 0)
  dassert (a.n6 >>> 30 == 0)
  dassert (a.n7 >>> 30 == 0)
  dassert (a.n8 >>> 30 == 0)
  dassert (a.n9 >>> 26 == 0)
  dassert (b.n0 >>> 30 == 0)
  dassert (b.n1 >>> 30 == 0)
  dassert (b.n2 >>> 30 == 0)
  dassert (b.n3 >>> 30 == 0)
  dassert (b.n4 >>> 30 == 0)
  dassert (b.n5 >>> 30 == 0)
  dassert (b.n6 >>> 30 == 0)
  dassert (b.n7 >>> 30 == 0)
  dassert (b.n8 >>> 30 == 0)
  dassert (b.n9 >>> 26 == 0)
  let d ← pure (mulw a.n0 b.n9 + mulw a.n1 b.n8 + mulw a.n2 b.n7 + mulw a.n3 b.n6 + mulw a.n4 b.n5 + mulw a.n5 b.n4 + mulw a.n6 b.n3 + mulw a.n7 b.n2 + mulw a.n8 b.n1 + mulw a.n9 b.n0)
  let t9 ← pure (lo26 d)
  let d ← pure (d >>> 26)
  dassert (t9 >>> 26 == 0)
  dassert (d >>> 38 == 0)
  let c ← pure (mulw a.n0 b.n0)
  dassert (c >>> 60 == 0)
  let d ← pure (d + mulw a.n1 b.n9 + mulw a.n2 b.n8 + mulw a.n3 b.n7 + mulw a.n4 b.n6 + mulw a.n5 b.n5 + mulw a.n6 b.n4 + mulw a.n7 b.n3 + mulw a.n8 b.n2 + mulw a.n9 b.n1)
  dassert (d >>> 63 == 0)
  let v0 ← pure (d &&& 0x3ffffff)
  let d ← pure (d >>> 26)
  let x ← mul64 v0 0x3d10
  let c ← add64 c x
  dassert (v0 >>> 26 == 0)
  dassert (d >>> 37 == 0)
  dassert (c >>> 61 == 0)
  let t0 ← pure (lo26 c)
  let c ← pure (c >>> 26)
  let x ← mul64 v0 0x400
  let c ← add64 c x
  dassert (t0 >>> 26 == 0)
  dassert (c >>> 37 == 0)
  let c ← pure (c + mulw a.n0 b.n1 + mulw a.n1 b.n0)
  dassert (c >>> 62 == 0)
  let d ← pure (d + mulw a.n2 b.n9 + mulw a.n3 b.n8 + mulw a.n4 b.n7 + mulw a.n5 b.n6 + mulw a.n6 b.n5 + mulw a.n7 b.n4 + mulw a.n8 b.n3 + mulw a.n9 b.n2)
  dassert (d >>> 63 == 0)
  let v1 ← pure (d &&& 0x3ffffff)
  let d ← pure (d >>> 26)
  let x ← mul64 v1 0x3d10
  let c ← add64 c x
  dassert (v1 >>> 26 == 0)
  dassert (d >>> 37 == 0)
  dassert (c >>> 63 == 0)
  let t1 ← pure (lo26 c)
  let c ← pure (c >>> 26)
  let x ← mul64 v1 0x400
  let c ← add64 c x
  dassert (t1 >>> 26 == 0)
  dassert (c >>> 38 == 0)
  let c ← pure (c + mulw a.n0 b.n2 + mulw a.n1 b.n1 + mulw a.n2 b.n0)
  dassert (c >>> 62 == 0)
  let d ← pure (d + mulw a.n3 b.n9 + mulw a.n4 b.n8 + mulw a.n5 b.n7 + mulw a.n6 b.n6 + mulw a.n7 b.n5 + mulw a.n8 b.n4 + mulw a.n9 b.n3)
  dassert (d >>> 63 == 0)
  let v2 ← pure (d &&& 0x3ffffff)
  let d ← pure (d >>> 26)
  let x ← mul64 v2 0x3d10
  let c ← add64 c x
  dassert (v2 >>> 26 == 0)
  dassert (d >>> 37 == 0)
  dassert (c >>> 63 == 0)
  let t2 ← pure (lo26 c)
  let c ← pure (c >>> 26)
  let x ← mul64 v2 0x400
  let c ← add64 c x
  dassert (t2 >>> 26 == 0)
  dassert (c >>> 38 == 0)
  let c ← pure (c + mulw a.n0 b.n3 + mulw a.n1 b.n2 + mulw a.n2 b.n1 + mulw a.n3 b.n0)
  dassert (c >>> 63 == 0)
  let d ← pure (d + mulw a.n4 b.n9 + mulw a.n5 b.n8 + mulw a.n6 b.n7 + mulw a.n7 b.n6 + mulw a.n8 b.n5 + mulw a.n9 b.n4)
  dassert (d >>> 63 == 0)
  let v3 ← pure (d &&& 0x3ffffff)
  let d ← pure (d >>> 26)
  let x ← mul64 v3 0x3d10
  let c ← add64 c x
  dassert (v3 >>> 26 == 0)
  dassert (d >>> 37 == 0)
  let t3 ← pure (lo26 c)
  let c ← pure (c >>> 26)
  let x ← mul64 v3 0x400
  let c ← add64 c x
  dassert (t3 >>> 26 == 0)
  dassert (c >>> 39 == 0)
  let c ← pure (c + mulw a.n0 b.n4 + mulw a.n1 b.n3 + mulw a.n2 b.n2 + mulw a.n3 b.n1 + mulw a.n4 b.n0)
  dassert (c >>> 63 == 0)
  let d ← pure (d + mulw a.n5 b.n9 + mulw a.n6 b.n8 + mulw a.n7 b.n7 + mulw a.n8 b.n6 + mulw a.n9 b.n5)
  dassert (d >>> 62 == 0)
  let v4 ← pure (d &&& 0x3ffffff)
  let d ← pure (d >>> 26)
  let x ← mul64 v4 0x3d10
  let c ← add64 c x
  dassert (v4 >>> 26 == 0)
  dassert (d >>> 36 == 0)
  let t4 ← pure (lo26 c)
  let c ← pure (c >>> 26)
  let x ← mul64 v4 0x400
  let c ← add64 c x
  dassert (t4 >>> 26 == 0)
  dassert (c >>> 39 == 0)
  let c ← pure (c + mulw a.n0 b.n5 + mulw a.n1 b.n4 + mulw a.n2 b.n3 + mulw a.n3 b.n2 + mulw a.n4 b.n1 + mulw a.n5 b.n0)
  dassert (c >>> 63 == 0)
  let d ← pure (d + mulw a.n6 b.n9 + mulw a.n7 b.n8 + mulw a.n8 b.n7 + mulw a.n9 b.n6)
  dassert (d >>> 62 == 0)
  let v5 ← pure (d &&& 0x3ffffff)
  let d ← pure (d >>> 26)
  let x ← mul64 v5 0x3d10
  let c ← add64 c x
  dassert (v5 >>> 26 == 0)
  dassert (d >>> 36 == 0)
  let t5 ← pure (lo26 c)
  let c ← pure (c >>> 26)
  let x ← mul64 v5 0x400
  let c ← add64 c x
  dassert (t5 >>> 26 == 0)
  dassert (c >>> 39 == 0)
  let c ← pure (c + mulw a.n0 b.n6 + mulw a.n1 b.n5 + mulw a.n2 b.n4 + mulw a.n3 b.n3 + mulw a.n4 b.n2 + mulw a.n5 b.n1 + mulw a.n6 b.n0)
  dassert (c >>> 63 == 0)
  let d ← pure (d + mulw a.n7 b.n9 + mulw a.n8 b.n8 + mulw a.n9 b.n7)
  dassert (d >>> 61 == 0)
  let v6 ← pure (d &&& 0x3ffffff)
  let d ← pure (d >>> 26)
  let x ← mul64 v6 0x3d10
  let c ← add64 c x
  dassert (v6 >>> 26 == 0)
  dassert (d >>> 35 == 0)
  let t6 ← pure (lo26 c)
  let c ← pure (c >>> 26)
  let x ← mul64 v6 0x400
  let c ← add64 c x
  dassert (t6 >>> 26 == 0)
  dassert (c >>> 39 == 0)
  let c ← pure (c + mulw a.n0 b.n7 + mulw a.n1 b.n6 + mulw a.n2 b.n5 + mulw a.n3 b.n4 + mulw a.n4 b.n3 + mulw a.n5 b.n2 + mulw a.n6 b.n1 + mulw a.n7 b.n0)
  dassert (decide (c ≤ 0x8000007c00000007))
  let d ← pure (d + mulw a.n8 b.n9 + mulw a.n9 b.n8)
  dassert (d >>> 58 == 0)
  let v7 ← pure (d &&& 0x3ffffff)
  let d ← pure (d >>> 26)
  let x ← mul64 v7 0x3d10
  let c ← add64 c x
  dassert (v7 >>> 26 == 0)
  dassert (d >>> 32 == 0)
  dassert (decide (c ≤ 0x800001703fffc2f7))
  let t7 ← pure (lo26 c)
  let c ← pure (c >>> 26)
  let x ← mul64 v7 0x400
  let c ← add64 c x
  dassert (t7 >>> 26 == 0)
  dassert (c >>> 38 == 0)
  let c ← pure (c + mulw a.n0 b.n8 + mulw a.n1 b.n7 + mulw a.n2 b.n6 + mulw a.n3 b.n5 + mulw a.n4 b.n4 + mulw a.n5 b.n3 + mulw a.n6 b.n2 + mulw a.n7 b.n1 + mulw a.n8 b.n0)
  dassert (decide (c ≤ 0x9000007b80000008))
  let d ← pure (d + mulw a.n9 b.n9)
  dassert (d >>> 57 == 0)
  let v8 ← pure (d &&& 0x3ffffff)
  let d ← pure (d >>> 26)
  let x ← mul64 v8 0x3d10
  let c ← add64 c x
  dassert (v8 >>> 26 == 0)
  dassert (d >>> 31 == 0)
  dassert (decide (c ≤ 0x9000016fbfffc2f8))
  let r3 ← pure t3
  dassert (r3 >>> 26 == 0)
  let r4 ← pure t4
  dassert (r4 >>> 26 == 0)
  let r5 ← pure t5
  dassert (r5 >>> 26 == 0)
  let r6 ← pure t6
  dassert (r6 >>> 26 == 0)
  let r7 ← pure t7
  dassert (r7 >>> 26 == 0)
  let r8 ← pure (lo26 c)
  let c ← pure (c >>> 26)
  let x ← mul64 v8 0x400
  let c ← add64 c x
  dassert (r8 >>> 26 == 0)
  dassert (c >>> 39 == 0)
  let x ← mul64 d 0x3d10
  let x ← add64 x t9.toUInt64
  let c ← add64 c x
  dassert (c >>> 45 == 0)
  let r9 ← pure (lo22 c)
  let c ← pure (c >>> 22)
  let x ← mul64 d 0x4000
  let c ← add64 c x
  dassert (r9 >>> 22 == 0)
  dassert (c >>> 46 == 0)
  let x ← mul64 c 0x3d1
  let d ← add64 x t0.toUInt64
  dassert (d >>> 56 == 0)
  let r0 ← pure (lo26 d)
  let d ← pure (d >>> 26)
  dassert (r0 >>> 26 == 0)
  dassert (d >>> 30 == 0)
  let x ← mul64 c 0x40
  let x ← add64 x t1.toUInt64
  let d ← add64 d x
  dassert (d >>> 53 == 0)
  dassert (decide (d ≤ 0x10000003ffffbf))
  let r1 ← pure (lo26 d)
  let d ← pure (d >>> 26)
  dassert (r1 >>> 26 == 0)
  dassert (d >>> 27 == 0)
  dassert (decide (d ≤ 0x4000000))
  let d ← add64 d t2.toUInt64
  dassert (d >>> 27 == 0)
  let r2 ← pure d.toUInt32
  dassert (r2 >>> 27 == 0)
  pure ⟨r0, r1, r2, r3, r4, r5, r6, r7, r8, r9⟩

/-- field.rs:1097-1426 `sqr_inner`. Additions written `+` are `wrapping_add` in the source. The
source recomputes the checked product `a.n[i] * 2` at every use; the model computes it once. -/
def sqrInner (a : Limbs10) : Exec Limbs10 := do
  let e0 ← mul32 a.n0 2
  let e1 ← mul32 a.n1 2
  let e2 ← mul32 a.n2 2
  let e3 ← mul32 a.n3 2
  let e4 ← mul32 a.n4 2
  let e5 ← mul32 a.n5 2
  let e6 ← mul32 a.n6 2
  let e7 ← mul32 a.n7 2
  let e8 ← mul32 a.n8 2
  dassert (a.n0 >>> 30 == 0)
  dassert (a.n1 >>> 30 == 0)
  dassert (a.n2 >>> 30 == 0)
  dassert (a.n3 >>> 30 == 0)
  dassert (a.n4 >>> 30 == 0)
  dassert (a.n5 >>> 30 == 0)
  dassert (a.n6 >>> 30 == 0)
  dassert (a.n7 >>> 30 == 0)
  dassert (a.n8 >>> 30 == 0)
  dassert (a.n9 >>> 26 == 0)
  let d ← pure (mulw e0 a.n9 + mulw e1 a.n8 + mulw e2 a.n7 + mulw e3 a.n6 + mulw e4 a.n5)
  let t9 ← pure (lo26 d)
  let d ← pure (d >>> 26)
  dassert (t9 >>> 26 == 0)
  dassert (d >>> 38 == 0)
  let c ← pure (mulw a.n0 a.n0)
  dassert (c >>> 60 == 0)
  let d ← pure (d + mulw e1 a.n9 + mulw e2 a.n8 + mulw e3 a.n7 + mulw e4 a.n6 + mulw a.n5 a.n5)
  dassert (d >>> 63 == 0)
  let v0 ← pure (d &&& 0x3ffffff)
  let d ← pure (d >>> 26)
  let x ← mul64 v0 0x3d10
  let c ← add64 c x
  dassert (v0 >>> 26 == 0)
  dassert (d >>> 37 == 0)
  dassert (c >>> 61 == 0)
  let t0 ← pure (lo26 c)
  let c ← pure (c >>> 26)
  let x ← mul64 v0 0x400
  let c ← add64 c x
  dassert (t0 >>> 26 == 0)
  dassert (c >>> 37 == 0)
  let c ← pure (c + mulw e0 a.n1)
  dassert (c >>> 62 == 0)
  let d ← pure (d + mulw e2 a.n9 + mulw e3 a.n8 + mulw e4 a.n7 + mulw e5 a.n6)
  dassert (d >>> 63 == 0)
  let v1 ← pure (d &&& 0x3ffffff)
  let d ← pure (d >>> 26)
  let x ← mul64 v1 0x3d10
  let c ← add64 c x
  dassert (v1 >>> 26 == 0)
  dassert (d >>> 37 == 0)
  dassert (c >>> 63 == 0)
  let t1 ← pure (lo26 c)
  let c ← pure (c >>> 26)
  let x ← mul64 v1 0x400
  let c ← add64 c x
  dassert (t1 >>> 26 == 0)
  dassert (c >>> 38 == 0)
  let c ← pure (c + mulw e0 a.n2 + mulw a.n1 a.n1)
  dassert (c >>> 62 == 0)
  let d ← pure (d + mulw e3 a.n9 + mulw e4 a.n8 + mulw e5 a.n7 + mulw a.n6 a.n6)
  dassert (d >>> 63 == 0)
  let v2 ← pure (d &&& 0x3ffffff)
  let d ← pure (d >>> 26)
  let x ← mul64 v2 0x3d10
  let c ← add64 c x
  dassert (v2 >>> 26 == 0)
  dassert (d >>> 37 == 0)
  dassert (c >>> 63 == 0)
  let t2 ← pure (lo26 c)
  let c ← pure (c >>> 26)
  let x ← mul64 v2 0x400
  let c ← add64 c x
  dassert (t2 >>> 26 == 0)
  dassert (c >>> 38 == 0)
  let c ← pure (c + mulw e0 a.n3 + mulw e1 a.n2)
  dassert (c >>> 63 == 0)
  let d ← pure (d + mulw e4 a.n9 + mulw e5 a.n8 + mulw e6 a.n7)
  dassert (d >>> 63 == 0)
  let v3 ← pure (d &&& 0x3ffffff)
  let d ← pure (d >>> 26)
  let x ← mul64 v3 0x3d10
  let c ← add64 c x
  dassert (v3 >>> 26 == 0)
  dassert (d >>> 37 == 0)
  let t3 ← pure (lo26 c)
  let c ← pure (c >>> 26)
  let x ← mul64 v3 0x400
  let c ← add64 c x
  dassert (t3 >>> 26 == 0)
  dassert (c >>> 39 == 0)
  let c ← pure (c + mulw e0 a.n4 + mulw e1 a.n3 + mulw a.n2 a.n2)
  dassert (c >>> 63 == 0)
  let d ← pure (d + mulw e5 a.n9 + mulw e6 a.n8 + mulw a.n7 a.n7)
  dassert (d >>> 62 == 0)
  let v4 ← pure (d &&& 0x3ffffff)
  let d ← pure (d >>> 26)
  let x ← mul64 v4 0x3d10
  let c ← add64 c x
  dassert (v4 >>> 26 == 0)
  dassert (d >>> 36 == 0)
  let t4 ← pure (lo26 c)
  let c ← pure (c >>> 26)
  let x ← mul64 v4 0x400
  let c ← add64 c x
  dassert (t4 >>> 26 == 0)
  dassert (c >>> 39 == 0)
  let c ← pure (c + mulw e0 a.n5 + mulw e1 a.n4 + mulw e2 a.n3)
  dassert (c >>> 63 == 0)
  let d ← pure (d + mulw e6 a.n9 + mulw e7 a.n8)
  dassert (d >>> 62 == 0)
  let v5 ← pure (d &&& 0x3ffffff)
  let d ← pure (d >>> 26)
  let x ← mul64 v5 0x3d10
  let c ← add64 c x
  dassert (v5 >>> 26 == 0)
  dassert (d >>> 36 == 0)
  let t5 ← pure (lo26 c)
  let c ← pure (c >>> 26)
  let x ← mul64 v5 0x400
  let c ← add64 c x
  dassert (t5 >>> 26 == 0)
  dassert (c >>> 39 == 0)
  let c ← pure (c + mulw e0 a.n6 + mulw e1 a.n5 + mulw e2 a.n4 + mulw a.n3 a.n3)
  dassert (c >>> 63 == 0)
  let d ← pure (d + mulw e7 a.n9 + mulw a.n8 a.n8)
  dassert (d >>> 61 == 0)
  let v6 ← pure (d &&& 0x3ffffff)
  let d ← pure (d >>> 26)
  let x ← mul64 v6 0x3d10
  let c ← add64 c x
  dassert (v6 >>> 26 == 0)
  dassert (d >>> 35 == 0)
  let t6 ← pure (lo26 c)
  let c ← pure (c >>> 26)
  let x ← mul64 v6 0x400
  let c ← add64 c x
  dassert (t6 >>> 26 == 0)
  dassert (c >>> 39 == 0)
  let c ← pure (c + mulw e0 a.n7 + mulw e1 a.n6 + mulw e2 a.n5 + mulw e3 a.n4)
  dassert (decide (c ≤ 0x8000007C00000007))
  let d ← pure (d + mulw e8 a.n9)
  dassert (d >>> 58 == 0)
  let v7 ← pure (d &&& 0x3ffffff)
  let d ← pure (d >>> 26)
  let x ← mul64 v7 0x3d10
  let c ← add64 c x
  dassert (v7 >>> 26 == 0)
  dassert (d >>> 32 == 0)
  dassert (decide (c ≤ 0x800001703FFFC2F7))
  let t7 ← pure (lo26 c)
  let c ← pure (c >>> 26)
  let x ← mul64 v7 0x400
  let c ← add64 c x
  dassert (t7 >>> 26 == 0)
  dassert (c >>> 38 == 0)
  let c ← pure (c + mulw e0 a.n8 + mulw e1 a.n7 + mulw e2 a.n6 + mulw e3 a.n5 + mulw a.n4 a.n4)
  dassert (decide (c ≤ 0x9000007B80000008))
  let d ← pure (d + mulw a.n9 a.n9)
  dassert (d >>> 57 == 0)
  let v8 ← pure (d &&& 0x3ffffff)
  let d ← pure (d >>> 26)
  let x ← mul64 v8 0x3d10
  let c ← add64 c x
  dassert (v8 >>> 26 == 0)
  dassert (d >>> 31 == 0)
  dassert (decide (c ≤ 0x9000016FBFFFC2F8))
  let r3 ← pure t3
  dassert (r3 >>> 26 == 0)
  let r4 ← pure t4
  dassert (r4 >>> 26 == 0)
  let r5 ← pure t5
  dassert (r5 >>> 26 == 0)
  let r6 ← pure t6
  dassert (r6 >>> 26 == 0)
  let r7 ← pure t7
  dassert (r7 >>> 26 == 0)
  let r8 ← pure (lo26 c)
  let c ← pure (c >>> 26)
  let x ← mul64 v8 0x400
  let c ← add64 c x
  dassert (r8 >>> 26 == 0)
  dassert (c >>> 39 == 0)
  let x ← mul64 d 0x3d10
  let x ← add64 x t9.toUInt64
  let c ← add64 c x
  dassert (c >>> 45 == 0)
  let r9 ← pure (lo22 c)
  let c ← pure (c >>> 22)
  let x ← mul64 d 0x4000
  let c ← add64 c x
  dassert (r9 >>> 22 == 0)
  dassert (c >>> 46 == 0)
  let x ← mul64 c 0x3d1
  let d ← add64 x t0.toUInt64
  dassert (d >>> 56 == 0)
  let r0 ← pure (lo26 d)
  let d ← pure (d >>> 26)
  dassert (r0 >>> 26 == 0)
  dassert (d >>> 30 == 0)
  let x ← mul64 c 0x40
  let x ← add64 x t1.toUInt64
  let d ← add64 d x
  dassert (d >>> 53 == 0)
  dassert (decide (d ≤ 0x10000003FFFFBF))
  let r1 ← pure (lo26 d)
  let d ← pure (d >>> 26)
  dassert (r1 >>> 26 == 0)
  dassert (d >>> 27 == 0)
  dassert (decide (d ≤ 0x4000000))
  let d ← add64 d t2.toUInt64
  dassert (d >>> 27 == 0)
  let r2 ← pure d.toUInt32
  dassert (r2 >>> 27 == 0)
  pure ⟨r0, r1, r2, r3, r4, r5, r6, r7, r8, r9⟩

/-- field.rs:1431-1441 `mul_in_place`, `Mul`, `MulAssign` (1717-1747). -/
def mul (a b : FElem) : Exec FElem := do
  dassert (decide (a.magnitude ≤ 8))
  dassert (decide (b.magnitude ≤ 8))
  dassertE (verify a)
  dassertE (verify b)
  let t ← mulInner a.n b.n
  let r : FElem := { n := t, magnitude := 1, normalized := false }
  dassertE (verify r)
  pure r

/-- field.rs:1445-1458 `sqr_in_place`, `sqr` (the source re-verifies the input, not the output). -/
def sqr (a : FElem) : Exec FElem := do
  dassert (decide (a.magnitude ≤ 8))
  dassertE (verify a)
  let t ← sqrInner a.n
  let r : FElem := { n := t, magnitude := 1, normalized := false }
  dassertE (verify a)
  pure r

/-- `for _ in 0..k { x = x.sqr(); }` (field.rs:1474-1622). -/
def sqrN (k : Nat) (x : FElem) : Exec FElem := forN k (fun _ y => sqr y) x

/-- field.rs:1466-1541 `sqrt`. -/
def sqrt (self : FElem) : Exec (FElem × Bool) := do
  let x2 ← sqr self
  let x2 ← mul x2 self
  let x3 ← sqr x2
  let x3 ← mul x3 self
  let x6 ← sqrN 3 x3
  let x6 ← mul x6 x3
  let x9 ← sqrN 3 x6
  let x9 ← mul x9 x3
  let x11 ← sqrN 2 x9
  let x11 ← mul x11 x2
  let x22 ← sqrN 11 x11
  let x22 ← mul x22 x11
  let x44 ← sqrN 22 x22
  let x44 ← mul x44 x22
  let x88 ← sqrN 44 x44
  let x88 ← mul x88 x44
  let x176 ← sqrN 88 x88
  let x176 ← mul x176 x88
  let x220 ← sqrN 44 x176
  let x220 ← mul x220 x44
  let x223 ← sqrN 3 x220
  let x223 ← mul x223 x3
  let t1 ← sqrN 23 x223
  let t1 ← mul t1 x22
  let t1 ← sqrN 6 t1
  let t1 ← mul t1 x2
  let t1 ← sqr t1
  let r ← sqr t1
  let t1 ← sqr r
  let e ← eq t1 self
  pure (r, e)

/-- field.rs:1546-1624 `inv`, `inv_var` (1628-1630). -/
def inv (self : FElem) : Exec FElem := do
  let x2 ← sqr self
  let x2 ← mul x2 self
  let x3 ← sqr x2
  let x3 ← mul x3 self
  let x6 ← sqrN 3 x3
  let x6 ← mul x6 x3
  let x9 ← sqrN 3 x6
  let x9 ← mul x9 x3
  let x11 ← sqrN 2 x9
  let x11 ← mul x11 x2
  let x22 ← sqrN 11 x11
  let x22 ← mul x22 x11
  let x44 ← sqrN 22 x22
  let x44 ← mul x44 x22
  let x88 ← sqrN 44 x44
  let x88 ← mul x88 x44
  let x176 ← sqrN 88 x88
  let x176 ← mul x176 x88
  let x220 ← sqrN 44 x176
  let x220 ← mul x220 x44
  let x223 ← sqrN 3 x220
  let x223 ← mul x223 x3
  let t1 ← sqrN 23 x223
  let t1 ← mul t1 x22
  let t1 ← sqrN 5 t1
  let t1 ← mul t1 self
  let t1 ← sqrN 3 t1
  let t1 ← mul t1 x2
  let t1 ← sqrN 2 t1
  mul self t1

/-- field.rs:1633-1636 `is_quad_var`. -/
def isQuadVar (f : FElem) : Exec Bool := do
  let (_, r) ← sqrt f
  pure r

/-- field.rs:1640-1661 `cmov`: the element `self` after the call. -/
def cmov (f other : FElem) (flag : Bool) : FElem :=
  { n :=
      { n0 := if flag then other.n.n0 else f.n.n0
        n1 := if flag then other.n.n1 else f.n.n1
        n2 := if flag then other.n.n2 else f.n.n2
        n3 := if flag then other.n.n3 else f.n.n3
        n4 := if flag then other.n.n4 else f.n.n4
        n5 := if flag then other.n.n5 else f.n.n5
        n6 := if flag then other.n.n6 else f.n.n6
        n7 := if flag then other.n.n7 else f.n.n7
        n8 := if flag then other.n.n8 else f.n.n8
        n9 := if flag then other.n.n9 else f.n.n9 }
    magnitude := if flag then other.magnitude else f.magnitude
    normalized := if flag then other.normalized else f.normalized }

end FElem

/-- field.rs:1771-1773 `FieldStorage`. -/
structure FieldStorage where
  w0 : UInt32
  w1 : UInt32
  w2 : UInt32
  w3 : UInt32
  w4 : UInt32
  w5 : UInt32
  w6 : UInt32
  w7 : UInt32
  deriving DecidableEq

namespace FieldStorage

/-- field.rs:1775-1779 `Default`. -/
def zero : FieldStorage := ⟨0, 0, 0, 0, 0, 0, 0, 0⟩

/-- field.rs:1782-1793 `new`. -/
def new (d7 d6 d5 d4 d3 d2 d1 d0 : UInt32) : FieldStorage := ⟨d0, d1, d2, d3, d4, d5, d6, d7⟩

/-- field.rs:1795-1804 `cmov`. -/
def cmov (f other : FieldStorage) (flag : Bool) : FieldStorage :=
  { w0 := if flag then other.w0 else f.w0
    w1 := if flag then other.w1 else f.w1
    w2 := if flag then other.w2 else f.w2
    w3 := if flag then other.w3 else f.w3
    w4 := if flag then other.w4 else f.w4
    w5 := if flag then other.w5 else f.w5
    w6 := if flag then other.w6 else f.w6
    w7 := if flag then other.w7 else f.w7 }

/-- field.rs:1807-1827 `From<FieldStorage> for Field`. -/
def toField (a : FieldStorage) : FElem :=
  { n :=
      { n0 := a.w0 &&& 0x3FFFFFF
        n1 := (a.w0 >>> 26) ||| ((a.w1 <<< 6) &&& 0x3FFFFFF)
        n2 := (a.w1 >>> 20) ||| ((a.w2 <<< 12) &&& 0x3FFFFFF)
        n3 := (a.w2 >>> 14) ||| ((a.w3 <<< 18) &&& 0x3FFFFFF)
        n4 := (a.w3 >>> 8) ||| ((a.w4 <<< 24) &&& 0x3FFFFFF)
        n5 := (a.w4 >>> 2) &&& 0x3FFFFFF
        n6 := (a.w4 >>> 28) ||| ((a.w5 <<< 4) &&& 0x3FFFFFF)
        n7 := (a.w5 >>> 22) ||| ((a.w6 <<< 10) &&& 0x3FFFFFF)
        n8 := (a.w6 >>> 16) ||| ((a.w7 <<< 16) &&& 0x3FFFFFF)
        n9 := a.w7 >>> 10 }
    magnitude := 1
    normalized := true }

/-- field.rs:1829-1845 `Into<FieldStorage> for Field`. -/
def ofField (f : FElem) : Exec FieldStorage := do
  dassert f.normalized
  pure
    { w0 := f.n.n0 ||| (f.n.n1 <<< 26)
      w1 := (f.n.n1 >>> 6) ||| (f.n.n2 <<< 20)
      w2 := (f.n.n2 >>> 12) ||| (f.n.n3 <<< 14)
      w3 := (f.n.n3 >>> 18) ||| (f.n.n4 <<< 8)
      w4 := (f.n.n4 >>> 24) ||| (f.n.n5 <<< 2) ||| (f.n.n6 <<< 28)
      w5 := (f.n.n6 >>> 4) ||| (f.n.n7 <<< 22)
      w6 := (f.n.n7 >>> 10) ||| (f.n.n8 <<< 16)
      w7 := (f.n.n8 >>> 16) ||| (f.n.n9 <<< 10) }

end FieldStorage

end Verif
