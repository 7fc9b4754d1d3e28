import Verif.Model.Field

/-!
# Model of `core/src/group.rs`

A `&mut self` method takes the old value of the receiver when some path keeps part of it and
returns the new one.  An `Option<&mut Field>` argument is an `Option FElem` in and out.
-/

namespace Verif

/-- group.rs:3-9 `Affine`. -/
structure Affine where
  x : FElem
  y : FElem
  infinity : Bool
  deriving DecidableEq

/-- group.rs:11-18 `Jacobian`. -/
structure Jacobian where
  x : FElem
  y : FElem
  z : FElem
  infinity : Bool
  deriving DecidableEq

/-- group.rs:20-25 `AffineStorage`. -/
structure AffineStorage where
  x : FieldStorage
  y : FieldStorage
  deriving DecidableEq

/-- group.rs:81 `CURVE_B`. -/
def curveB : UInt32 := 7

namespace Affine

/-- group.rs:27-35 `Default`. -/
def default : Affine := ⟨FElem.zero, FElem.zero, false⟩

/-- group.rs:57-61 `AFFINE_INFINITY`. -/
def infinityPoint : Affine := ⟨FElem.new 0 0 0 0 0 0 0 0, FElem.new 0 0 0 0 0 0 0 0, true⟩

/-- group.rs:83-91 `Affine::new`. -/
def new (x y : FElem) : Affine := ⟨x, y, false⟩

/-- group.rs:70-79 `AFFINE_G`. -/
def g : Affine := new
  (FElem.new 0x79BE667E 0xF9DCBBAC 0x55A06295 0xCE870B07 0x029BFCDB 0x2DCE28D9 0x59F2815B 0x16F81798)
  (FElem.new 0x483ADA77 0x26A3C465 0x5DA4FBFC 0x0E1108A8 0xFD17B448 0xA6855419 0x9C47D08F 0xFB10D4B8)

/-- group.rs:3 the derived `PartialEq`: fields in order, `&&` short-circuiting. -/
def eq (a b : Affine) : Exec Bool := do
  let ex ← FElem.eq a.x b.x
  let ey ← if ex then FElem.eq a.y b.y else pure false
  pure (ey && a.infinity == b.infinity)

/-- group.rs:95-99 `set_xy`. -/
def setXy (x y : FElem) : Affine := ⟨x, y, false⟩

/-- group.rs:105-116 `set_xquad`. -/
def setXquad (x : FElem) : Exec (Affine × Bool) := do
  let x2 ← FElem.sqr x
  let x3 ← FElem.mul x x2
  let c ← FElem.setInt curveB
  let c ← FElem.add c x3
  let v ← FElem.sqrt c
  pure (⟨x, v.1, false⟩, v.2)

/-- group.rs:125-128, the second half of `set_xo_var`. -/
def fixParity (a : Affine) (odd : Bool) : Exec Affine := do
  let y ← FElem.normalizeVar a.y
  let o ← FElem.isOdd y
  if o != odd then do
    let y' ← FElem.neg y 1
    pure { a with y := y' }
  else pure { a with y := y }

/-- group.rs:121-130 `set_xo_var`. -/
def setXoVar (x : FElem) (odd : Bool) : Exec (Affine × Bool) := do
  let s ← setXquad x
  if s.2 then do
    let a ← fixParity s.1 odd
    pure (a, true)
  else pure (s.1, false)

/-- group.rs:138-150 `is_valid_var`. -/
def isValidVar (a : Affine) : Exec Bool :=
  if a.infinity then pure false
  else do
    let y2 ← FElem.sqr a.y
    let x3 ← FElem.sqr a.x
    let x3 ← FElem.mul x3 a.x
    let c ← FElem.setInt curveB
    let x3 ← FElem.add x3 c
    let x3 ← FElem.normalizeWeak x3
    FElem.eqVar y2 x3

/-- group.rs:152-162 `neg_in_place`, `neg`. -/
def neg (a : Affine) : Exec Affine := do
  let y ← FElem.normalizeWeak a.y
  let y ← FElem.neg y 1
  pure { a with y := y }

/-- group.rs:166-177 `set_gej` (`from_gej` 179-183). -/
def setGej (a : Jacobian) : Exec Affine := do
  let z ← FElem.inv a.z
  let z2 ← FElem.sqr z
  let z3 ← FElem.mul z z2
  let x ← FElem.mul a.x z2
  let y ← FElem.mul a.y z3
  let _ ← FElem.setInt 1
  pure ⟨x, y, a.infinity⟩

/-- group.rs:185-199 `set_gej_var`; on the infinite point the coordinates of `self` stay. -/
def setGejVar (self : Affine) (a : Jacobian) : Exec Affine :=
  if a.infinity then pure { self with infinity := true }
  else do
    let z ← FElem.inv a.z
    let z2 ← FElem.sqr z
    let z3 ← FElem.mul z z2
    let x ← FElem.mul a.x z2
    let y ← FElem.mul a.y z3
    let _ ← FElem.setInt 1
    pure ⟨x, y, false⟩

/-- group.rs:201-207 `set_gej_zinv`. -/
def setGejZinv (a : Jacobian) (zi : FElem) : Exec Affine := do
  let zi2 ← FElem.sqr zi
  let zi3 ← FElem.mul zi2 zi
  let x ← FElem.mul a.x zi2
  let y ← FElem.mul a.y zi3
  pure ⟨x, y, a.infinity⟩

/-- group.rs:210-214 `clear`. -/
def clear (a : Affine) : Affine := ⟨FElem.clear a.x, FElem.clear a.y, false⟩

/-- group.rs:686-690 `From<AffineStorage> for Affine`. -/
def ofStorage (a : AffineStorage) : Affine := new (FieldStorage.toField a.x) (FieldStorage.toField a.y)

/-- group.rs:692-699 `Into<AffineStorage> for Affine`. -/
def toStorage (a : Affine) : Exec AffineStorage := do
  dassert (!a.infinity)
  let x ← FElem.normalize a.x
  let y ← FElem.normalize a.y
  let sx ← FieldStorage.ofField x
  let sy ← FieldStorage.ofField y
  pure ⟨sx, sy⟩

end Affine

namespace AffineStorage

/-- group.rs:48-55 `Default`. -/
def default : AffineStorage := ⟨FieldStorage.zero, FieldStorage.zero⟩

/-- group.rs:709-712 `cmov`. -/
def cmov (s a : AffineStorage) (flag : Bool) : AffineStorage := ⟨s.x.cmov a.x flag, s.y.cmov a.y flag⟩

end AffineStorage

/-- `l[i] = v` (e.g. ecmult.rs:38, 282); out of range panics. -/
def setIdx {α : Type} (l : List α) (i : Nat) (v : α) : Exec (List α) := do
  rassert (decide (i < l.length)); pure (l.set i v)

/-- group.rs:227-231 the loop of `set_table_gej_var`, from index `i` down. -/
def setTableLoop (a : List Jacobian) (zr : List FElem) : Nat → FElem → List Affine → Exec (List Affine)
  | 0, _, r => pure r
  | i + 1, zi, r => do
    let z ← idx zr (i + 1)
    let zi ← FElem.mul zi z
    let ai ← idx a i
    let v ← Affine.setGejZinv ai zi
    let r ← setIdx r i v
    setTableLoop a zr i zi r

/-- group.rs:217-233 `set_table_gej_var` (`r.len() - 1` panics on an empty slice in debug). -/
def setTableGejVar (r : List Affine) (a : List Jacobian) (zr : List FElem) : Exec (List Affine) := do
  dassert (decide (r.length = a.length))
  let i ← subNat r.length 1
  if r.isEmpty then pure r
  else do
    let ai ← idx a i
    let zi ← FElem.inv ai.z
    let v ← Affine.setGejZinv ai zi
    let r ← setIdx r i v
    setTableLoop a zr i zi r

/-- `if i != r.len() - 1 { zs *= zr[i] }` (group.rs:249-251). -/
def globalzStep (zr : List FElem) (len i : Nat) (zs : FElem) : Exec FElem :=
  if i != len - 1 then do
    let z ← idx zr i
    FElem.mul zs z
  else pure zs

/-- group.rs:248-254 the loop of `globalz_set_table_gej`, from index `i` down. -/
def globalzLoop (a : List Jacobian) (zr : List FElem) : Nat → FElem → List Affine → Exec (List Affine)
  | 0, _, r => pure r
  | i + 1, zs, r => do
    let zs ← globalzStep zr r.length (i + 1) zs
    let ai ← idx a i
    let v ← Affine.setGejZinv ai zs
    let r ← setIdx r i v
    globalzLoop a zr i zs r

/-- group.rs:235-256 `globalz_set_table_gej`: the new table and the common denominator. -/
def globalzSetTableGej (r : List Affine) (globalz : FElem) (a : List Jacobian) (zr : List FElem) :
    Exec (List Affine × FElem) := do
  dassert (decide (r.length = a.length) && decide (a.length = zr.length))
  let i ← subNat r.length 1
  if r.isEmpty then pure (r, globalz)
  else do
    let ai ← idx a i
    let r ← setIdx r i ⟨ai.x, ai.y, false⟩
    let zs ← idx zr i
    let r ← globalzLoop a zr i zs r
    pure (r, ai.z)

namespace Jacobian

/-- group.rs:37-46 `Default`. -/
def default : Jacobian := ⟨FElem.zero, FElem.zero, FElem.zero, false⟩

/-- group.rs:63-68 `JACOBIAN_INFINITY`. -/
def infinityPoint : Jacobian :=
  ⟨FElem.new 0 0 0 0 0 0 0 0, FElem.new 0 0 0 0 0 0 0 0, FElem.new 0 0 0 0 0 0 0 0, true⟩

/-- group.rs:260-267 `Jacobian::new`. -/
def new (x y : FElem) : Jacobian := ⟨x, y, FElem.new 0 0 0 0 0 0 0 1, false⟩

/-- group.rs:270-275 `set_infinity`. -/
def setInfinity (a : Jacobian) : Jacobian := ⟨FElem.clear a.x, FElem.clear a.y, FElem.clear a.z, true⟩

/-- group.rs:279-284 `set_ge` (`from_ge` 286-290). -/
def setGe (a : Affine) : Exec Jacobian := do
  let z ← FElem.setInt 1
  pure ⟨a.x, a.y, z, a.infinity⟩

/-- group.rs:293-300 `eq_x_var`. -/
def eqXVar (a : Jacobian) (x : FElem) : Exec Bool := do
  dassert (!a.infinity)
  let r ← FElem.sqr a.z
  let r ← FElem.mul r x
  let r2 ← FElem.normalizeWeak a.x
  FElem.eqVar r r2

/-- group.rs:304-317 `neg_in_place`, `neg`. -/
def neg (a : Jacobian) : Exec Jacobian := do
  let y ← FElem.normalizeWeak a.y
  let y ← FElem.neg y 1
  pure { a with y := y }

/-- group.rs:325-332 `has_quad_y_var`. -/
def hasQuadYVar (a : Jacobian) : Exec Bool :=
  if a.infinity then pure false
  else do
    let yz ← FElem.mul a.y a.z
    FElem.isQuadVar yz

/-- `if let Some(rzr) = rzr { rzr.set_int(v) }` (group.rs:347-349, 396-398, 420-422, 543-545, 567-569). -/
def rzrSetInt (rzr : Option FElem) (v : UInt32) : Exec (Option FElem) :=
  match rzr with
  | none => pure none
  | some _ => do let r ← FElem.setInt v; pure (some r)

/-- group.rs:353-357: `*rzr = a.y; rzr.normalize_weak(); rzr.mul_int(2)`. -/
def rzrDouble (rzr : Option FElem) (y : FElem) : Exec (Option FElem) :=
  match rzr with
  | none => pure none
  | some _ => do
    let r ← FElem.normalizeWeak y
    let r ← FElem.mulInt r 2
    pure (some r)

/-- group.rs:359-378, the coordinates of the double of a finite point. -/
def doubleCore (a : Jacobian) : Exec Jacobian := do
  let z ← FElem.mul a.z a.y
  let z ← FElem.mulInt z 2
  let t1 ← FElem.sqr a.x
  let t1 ← FElem.mulInt t1 3
  let t2 ← FElem.sqr t1
  let t3 ← FElem.sqr a.y
  let t3 ← FElem.mulInt t3 2
  let t4 ← FElem.sqr t3
  let t4 ← FElem.mulInt t4 2
  let t3 ← FElem.mul t3 a.x
  let x ← FElem.mulInt t3 4
  let x ← FElem.neg x 4
  let x ← FElem.add x t2
  let t2 ← FElem.neg t2 1
  let t3 ← FElem.mulInt t3 6
  let t3 ← FElem.add t3 t2
  let y ← FElem.mul t1 t3
  let t2 ← FElem.neg t4 2
  let y ← FElem.add y t2
  pure ⟨x, y, z, false⟩

/-- group.rs:344-379 `double_var_in_place`. -/
def doubleVarInPlace (self a : Jacobian) (rzr : Option FElem) : Exec (Jacobian × Option FElem) :=
  if a.infinity then do
    let rzr ← rzrSetInt rzr 1
    pure ({ self with infinity := true }, rzr)
  else do
    let rzr ← rzrDouble rzr a.y
    let r ← doubleCore a
    pure (r, rzr)

/-- group.rs:337-340 `double_nonzero_in_place`. -/
def doubleNonzeroInPlace (self a : Jacobian) (rzr : Option FElem) : Exec (Jacobian × Option FElem) := do
  dassert (!self.infinity)
  doubleVarInPlace self a rzr

/-- group.rs:381-385 `double_var`. -/
def doubleVar (a : Jacobian) (rzr : Option FElem) : Exec (Jacobian × Option FElem) :=
  doubleVarInPlace default a rzr

/-- `if let Some(rzr) = rzr { *rzr = h; }` (group.rs:431-433, 577-579). -/
def rzrSet (rzr : Option FElem) (h : FElem) : Option FElem := rzr.map fun _ => h

/-- The common tail of the three variable-time additions (group.rs:427-446, 574-592, 640-656)
after the degenerate cases: given `u1`, `s1`, `h`, `i` and the new `z`.  In `add_var` the statement
`h *= b.z` comes after `h3 = h * h2`, so `h2` and `h3` use the old `h` there as well. -/
def addTail (u1 s1 h2 h3 i i2 z : FElem) : Exec Jacobian := do
  let t ← FElem.mul u1 h2
  let x ← FElem.mulInt t 2
  let x ← FElem.add x h3
  let x ← FElem.neg x 3
  let x ← FElem.add x i2
  let y ← FElem.neg x 5
  let y ← FElem.add y t
  let y ← FElem.mul y i
  let h3 ← FElem.mul h3 s1
  let h3 ← FElem.neg h3 1
  let y ← FElem.add y h3
  pure ⟨x, y, z, false⟩

/-- The branch for equal x-coordinates (group.rs:417-425, 564-572). -/
def addEqualX (self a : Jacobian) (i : FElem) (rzr : Option FElem) : Exec (Jacobian × Option FElem) := do
  let zi ← FElem.normalizesToZeroVar i
  if zi then doubleVarInPlace { self with infinity := false } a rzr
  else do
    let rzr ← rzrSetInt rzr 0
    pure ({ self with infinity := true }, rzr)

/-- group.rs:403-446 `add_var_in_place` for two finite points. -/
def addVarCore (self a b : Jacobian) (rzr : Option FElem) : Exec (Jacobian × Option FElem) := do
  let z22 ← FElem.sqr b.z
  let z12 ← FElem.sqr a.z
  let u1 ← FElem.mul a.x z22
  let u2 ← FElem.mul b.x z12
  let s1 ← FElem.mul a.y z22
  let s1 ← FElem.mul s1 b.z
  let s2 ← FElem.mul b.y z12
  let s2 ← FElem.mul s2 a.z
  let h ← FElem.neg u1 1
  let h ← FElem.add h u2
  let i ← FElem.neg s1 1
  let i ← FElem.add i s2
  let zh ← FElem.normalizesToZeroVar h
  if zh then addEqualX self a i rzr
  else do
    let i2 ← FElem.sqr i
    let h2 ← FElem.sqr h
    let h3 ← FElem.mul h h2
    let h ← FElem.mul h b.z
    let z ← FElem.mul a.z h
    let r ← addTail u1 s1 h2 h3 i i2 z
    pure (r, rzrSet rzr h)

/-- group.rs:389-447 `add_var_in_place`. -/
def addVarInPlace (self a b : Jacobian) (rzr : Option FElem) : Exec (Jacobian × Option FElem) :=
  if a.infinity then do
    dassert rzr.isNone
    pure (b, rzr)
  else if b.infinity then do
    let rzr ← rzrSetInt rzr 1
    pure (a, rzr)
  else addVarCore self a b rzr

/-- group.rs:449-453 `add_var`. -/
def addVar (a b : Jacobian) (rzr : Option FElem) : Exec (Jacobian × Option FElem) :=
  addVarInPlace default a b rzr

/-- group.rs:549-592 `add_ge_var_in_place` for two finite points. -/
def addGeVarCore (self a : Jacobian) (b : Affine) (rzr : Option FElem) : Exec (Jacobian × Option FElem) := do
  let z12 ← FElem.sqr a.z
  let u1 ← FElem.normalizeWeak a.x
  let u2 ← FElem.mul b.x z12
  let s1 ← FElem.normalizeWeak a.y
  let s2 ← FElem.mul b.y z12
  let s2 ← FElem.mul s2 a.z
  let h ← FElem.neg u1 1
  let h ← FElem.add h u2
  let i ← FElem.neg s1 1
  let i ← FElem.add i s2
  let zh ← FElem.normalizesToZeroVar h
  if zh then addEqualX self a i rzr
  else do
    let i2 ← FElem.sqr i
    let h2 ← FElem.sqr h
    let h3 ← FElem.mul h h2
    let z ← FElem.mul a.z h
    let r ← addTail u1 s1 h2 h3 i i2 z
    pure (r, rzrSet rzr h)

/-- group.rs:536-593 `add_ge_var_in_place`. -/
def addGeVarInPlace (self a : Jacobian) (b : Affine) (rzr : Option FElem) : Exec (Jacobian × Option FElem) :=
  if a.infinity then do
    dassert rzr.isNone
    let r ← setGe b
    pure (r, rzr)
  else if b.infinity then do
    let rzr ← rzrSetInt rzr 1
    pure (a, rzr)
  else addGeVarCore self a b rzr

/-- group.rs:595-599 `add_ge_var`. -/
def addGeVar (a : Jacobian) (b : Affine) (rzr : Option FElem) : Exec (Jacobian × Option FElem) :=
  addGeVarInPlace default a b rzr

/-- group.rs:632-639 the equal-x branch of `add_zinv_var_in_place`. -/
def addEqualXNone (self a : Jacobian) (i : FElem) : Exec Jacobian := do
  let r ← addEqualX self a i none
  pure r.1

/-- group.rs:617-656 `add_zinv_var_in_place` for two finite points. -/
def addZinvVarCore (self a : Jacobian) (b : Affine) (bzinv : FElem) : Exec Jacobian := do
  let az ← FElem.mul a.z bzinv
  let z12 ← FElem.sqr az
  let u1 ← FElem.normalizeWeak a.x
  let u2 ← FElem.mul b.x z12
  let s1 ← FElem.normalizeWeak a.y
  let s2 ← FElem.mul b.y z12
  let s2 ← FElem.mul s2 az
  let h ← FElem.neg u1 1
  let h ← FElem.add h u2
  let i ← FElem.neg s1 1
  let i ← FElem.add i s2
  let zh ← FElem.normalizesToZeroVar h
  if zh then addEqualXNone self a i
  else do
    let i2 ← FElem.sqr i
    let h2 ← FElem.sqr h
    let h3 ← FElem.mul h h2
    let z ← FElem.mul a.z h
    addTail u1 s1 h2 h3 i i2 z

/-- group.rs:603-657 `add_zinv_var_in_place`. -/
def addZinvVarInPlace (self a : Jacobian) (b : Affine) (bzinv : FElem) : Exec Jacobian :=
  if b.infinity then pure a
  else if a.infinity then do
    let bzinv2 ← FElem.sqr bzinv
    let bzinv3 ← FElem.mul bzinv2 bzinv
    let x ← FElem.mul b.x bzinv2
    let y ← FElem.mul b.y bzinv3
    let z ← FElem.setInt 1
    pure ⟨x, y, z, b.infinity⟩
  else addZinvVarCore self a b bzinv

/-- group.rs:659-663 `add_zinv_var`. -/
def addZinvVar (a : Jacobian) (b : Affine) (bzinv : FElem) : Exec Jacobian :=
  addZinvVarInPlace default a b bzinv

/-- group.rs:478: `m.normalizes_to_zero() && rr.normalizes_to_zero()`, short-circuiting. -/
def bothZero (m rr : FElem) : Exec Bool := do
  let a ← FElem.normalizesToZero m
  if a then FElem.normalizesToZero rr else pure false

/-- group.rs:458 `FE1`. -/
def fe1 : FElem := FElem.new 0 0 0 0 0 0 0 1

/-- group.rs:457-522 `add_ge_in_place` (`add_ge` 524-528): nothing of the old `self` is used. -/
def addGe (a : Jacobian) (b : Affine) : Exec Jacobian := do
  dassert (!b.infinity)
  let zz ← FElem.sqr a.z
  let u1 ← FElem.normalizeWeak a.x
  let u2 ← FElem.mul b.x zz
  let s1 ← FElem.normalizeWeak a.y
  let s2 ← FElem.mul b.y zz
  let s2 ← FElem.mul s2 a.z
  let t ← FElem.add u1 u2
  let m ← FElem.add s1 s2
  let rr ← FElem.sqr t
  let mAlt ← FElem.neg u2 1
  let tt ← FElem.mul u1 mAlt
  let rr ← FElem.add rr tt
  let degenerate ← bothZero m rr
  let rrAlt ← FElem.mulInt s1 2
  let mAlt ← FElem.add mAlt u1
  let rrAlt ← pure (rrAlt.cmov rr (!degenerate))
  let mAlt ← pure (mAlt.cmov m (!degenerate))
  let n ← FElem.sqr mAlt
  let q ← FElem.mul n t
  let n ← FElem.sqr n
  let n ← pure (n.cmov m degenerate)
  let t ← FElem.sqr rrAlt
  let z ← FElem.mul a.z mAlt
  let zz0 ← FElem.normalizesToZero z
  let infinity ← pure (zz0 && !a.infinity)
  let z ← FElem.mulInt z 2
  let q ← FElem.neg q 1
  let t ← FElem.add t q
  let t ← FElem.normalizeWeak t
  let x ← pure t
  let t ← FElem.mulInt t 2
  let t ← FElem.add t q
  let t ← FElem.mul t rrAlt
  let t ← FElem.add t n
  let y ← FElem.neg t 3
  let y ← FElem.normalizeWeak y
  let x ← FElem.mulInt x 4
  let y ← FElem.mulInt y 4
  pure ⟨x.cmov b.x a.infinity, y.cmov b.y a.infinity, z.cmov fe1 a.infinity, infinity⟩

/-- group.rs:667-672 `clear`. -/
def clear (a : Jacobian) : Jacobian := ⟨FElem.clear a.x, FElem.clear a.y, FElem.clear a.z, false⟩

/-- group.rs:676-683 `rescale`. -/
def rescale (a : Jacobian) (s : FElem) : Exec Jacobian := do
  FElem.dassertE (do let z ← FElem.isZero s; pure (!z))
  let zz ← FElem.sqr s
  let x ← FElem.mul a.x zz
  let y ← FElem.mul a.y zz
  let y ← FElem.mul y s
  let z ← FElem.mul a.z s
  pure ⟨x, y, z, a.infinity⟩

end Jacobian

end Verif
