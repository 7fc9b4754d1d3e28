import Verif.Model.Der

/-!
Model of src/lib.rs: keys, signatures, messages, signing, verification, recovery, ECDH.

The functions without `_with_context` use a static context; both cargo features produce it with
`ECMultContext::new_boxed` / `ECMultGenContext::new_boxed` (lib.rs:41-60), so the model calls
`newContext` / `newGenContext`.
-/

namespace Verif

/-- `let mut a = [0; n]; a.copy_from_slice(p)` (src/lib.rs:138-139, 426-427, 566-567, 706-707): panics if the lengths differ. -/
def toArr (n : Nat) (p : List UInt8) : Exec (Vector UInt8 n) :=
  if h : p.toArray.size = n then pure ⟨p.toArray, h⟩ else panic

/-- `array_ref!(p, off, 32)` (src/lib.rs:169, 172, 201, 533) of the external crate `arrayref`. -/
def arrayRef32 {n : Nat} (p : Vector UInt8 n) (off : Nat) (h : off + 32 ≤ n) : Vector UInt8 32 :=
  Vector.ofFn fun i => p[off + i.val]

/-- lib.rs:62-64. -/
structure PublicKey where
  pt : Affine
  deriving DecidableEq

/-- lib.rs:66-68. -/
structure SecretKey where
  sc : Scalar
  deriving DecidableEq

/-- lib.rs:70-75. -/
structure Signature where
  r : Scalar
  s : Scalar
  deriving DecidableEq

/-- lib.rs:77-79. -/
structure RecoveryId where
  id : UInt8
  deriving DecidableEq

/-- lib.rs:81-83. -/
structure Message where
  sc : Scalar
  deriving DecidableEq

/-- lib.rs:85-87. -/
structure SharedSecret where
  bytes : List UInt8
  deriving DecidableEq

/-- lib.rs:96-104. -/
inductive PublicKeyFormat
  | compressed
  | full
  | raw
  deriving DecidableEq

open Ecmult Ecdsa

namespace PublicKey

/-- lib.rs:62 `derive(PartialEq)`: equality of the affine points (group.rs:3). -/
def eq (a b : PublicKey) : Exec Bool := Affine.eq a.pt b.pt

/-- lib.rs:107-116. -/
def fromSecretKeyWithContext (seckey : SecretKey) (ctx : GenContext) : Exec PublicKey := do
  let pj ← ecmultGen ctx seckey.sc
  let p ← Affine.setGej pj
  pure ⟨p⟩

/-- lib.rs:119-121. -/
def fromSecretKey (seckey : SecretKey) : Exec PublicKey := do
  let ctx ← newGenContext
  fromSecretKeyWithContext seckey ctx

/-- lib.rs:185-189, 209-213: the final validity check of the parsers. -/
def checkValid (elem : Affine) : Exec (Res PublicKey) :=
  if elem.infinity then pure (.error .invalidPublicKey)
  else do
    let v ← Affine.isValidVar elem
    if v then pure (.ok ⟨elem⟩) else pure (.error .invalidPublicKey)

/-- The test of the hybrid tags (lib.rs:177-181); `&&` short-circuits. -/
def hybridBad (tag : UInt8) (y : FElem) : Exec Bool :=
  if tag == 0x06 || tag == 0x07 then do
    let o ← FElem.isOdd y
    pure (o != (tag == 0x07))
  else pure false

/-- lib.rs:158-190. -/
def parse (p : Vector UInt8 65) : Exec (Res PublicKey) :=
  if !(p[0] == 0x04 || p[0] == 0x06 || p[0] == 0x07) then pure (.error .invalidPublicKey)
  else do
    let x ← FElem.setB32 FElem.zero (arrayRef32 p 1 (by decide))
    if !x.2 then pure (.error .invalidPublicKey)
    else do
      let y ← FElem.setB32 FElem.zero (arrayRef32 p 33 (by decide))
      if !y.2 then pure (.error .invalidPublicKey)
      else do
        let elem := Affine.setXy x.1 y.1
        let bad ← hybridBad p[0] y.1
        if bad then pure (.error .invalidPublicKey) else checkValid elem

/-- lib.rs:192-214.  The success flag of `set_xo_var` is ignored by the source. -/
def parseCompressed (p : Vector UInt8 33) : Exec (Res PublicKey) :=
  if !(p[0] == 0x02 || p[0] == 0x03) then pure (.error .invalidPublicKey)
  else do
    let x ← FElem.setB32 FElem.zero (arrayRef32 p 1 (by decide))
    if !x.2 then pure (.error .invalidPublicKey)
    else do
      let elem ← Affine.setXoVar x.1 (p[0] == 0x03)
      checkValid elem.1

/-- lib.rs:124-134: the format selected by length and request. -/
def selectFormat (len : Nat) (format : Option PublicKeyFormat) : Option PublicKeyFormat :=
  match len, format with
  | 65, none | 65, some .full => some .full
  | 33, none | 33, some .compressed => some .compressed
  | 64, none | 64, some .raw => some .raw
  | _, _ => none

/-- lib.rs:123-156. -/
def parseSlice (p : List UInt8) (format : Option PublicKeyFormat) : Exec (Res PublicKey) :=
  match selectFormat p.length format with
  | none => pure (.error .invalidInputLength)
  | some .full => do
    let a ← toArr 65 p
    parse a
  | some .raw => do
    let a ← toArr 65 (0x04 :: p)
    parse a
  | some .compressed => do
    let a ← toArr 33 p
    parseCompressed a

/-- lib.rs:216-231. -/
def serialize (k : PublicKey) : Exec (Vector UInt8 65) := do
  dassert (!k.pt.infinity)
  let x ← FElem.normalizeVar k.pt.x
  let y ← FElem.normalizeVar k.pt.y
  let bx ← FElem.b32 x
  let by' ← FElem.b32 y
  pure (#v[(0x04 : UInt8)] ++ bx ++ by')

/-- lib.rs:233-251. -/
def serializeCompressed (k : PublicKey) : Exec (Vector UInt8 33) := do
  dassert (!k.pt.infinity)
  let x ← FElem.normalizeVar k.pt.x
  let y ← FElem.normalizeVar k.pt.y
  let bx ← FElem.b32 x
  let o ← FElem.isOdd y
  pure (#v[(if o then 0x03 else 0x02 : UInt8)] ++ bx)

/-- lib.rs:253-269; the first component is `self` afterwards. -/
def tweakAddAssignWithContext (k : PublicKey) (tweak : SecretKey) (ctx : List AffineStorage) :
    Exec (PublicKey × Res Unit) := do
  let a ← Jacobian.setGe k.pt
  let r ← ecmult ctx a (Scalar.fromInt 1) tweak.sc
  if r.infinity then pure (k, .error .tweakOutOfRange)
  else do
    let p ← Affine.setGej r
    pure (⟨p⟩, .ok ())

/-- lib.rs:272-274. -/
def tweakAddAssign (k : PublicKey) (tweak : SecretKey) : Exec (PublicKey × Res Unit) := do
  let ctx ← newContext
  tweakAddAssignWithContext k tweak ctx

/-- lib.rs:276-292. -/
def tweakMulAssignWithContext (k : PublicKey) (tweak : SecretKey) (ctx : List AffineStorage) :
    Exec (PublicKey × Res Unit) :=
  if tweak.sc.isZero then pure (k, .error .tweakOutOfRange)
  else do
    let pt ← Jacobian.setGe k.pt
    let r ← ecmult ctx pt tweak.sc (Scalar.fromInt 0)
    let p ← Affine.setGej r
    pure (⟨p⟩, .ok ())

/-- lib.rs:295-297. -/
def tweakMulAssign (k : PublicKey) (tweak : SecretKey) : Exec (PublicKey × Res Unit) := do
  let ctx ← newContext
  tweakMulAssignWithContext k tweak ctx

/-- The loop of `combine` (lib.rs:303-305). -/
def combineLoop : List PublicKey → Jacobian → Exec Jacobian
  | [], qj => pure qj
  | key :: keys, qj => do
    let qj ← Jacobian.addGe qj key.pt
    combineLoop keys qj

/-- lib.rs:299-313. -/
def combine (keys : List PublicKey) : Exec (Res PublicKey) := do
  let qj ← combineLoop keys (Jacobian.setInfinity Jacobian.default)
  if qj.infinity then pure (.error .invalidPublicKey)
  else do
    let q ← Affine.setGej qj
    pure (.ok ⟨q⟩)

/-- lib.rs:316-320 `Into<Affine>`. -/
def toAffine (k : PublicKey) : Affine := k.pt

/-- lib.rs:322-332 `TryFrom<Affine>`. -/
def tryFrom (value : Affine) : Exec (Res PublicKey) :=
  if value.infinity then pure (.error .invalidAffine)
  else do
    let v ← Affine.isValidVar value
    if !v then pure (.error .invalidAffine) else pure (.ok ⟨value⟩)

end PublicKey

namespace SecretKey

/-- lib.rs:497-507 `TryFrom<Scalar>`. -/
def tryFrom (scalar : Scalar) : Res SecretKey :=
  if scalar.isZero then .error .invalidSecretKey else .ok ⟨scalar⟩

/-- lib.rs:412-419. -/
def parse (p : Vector UInt8 32) : Exec (Res SecretKey) := do
  let elem ← Scalar.setB32 p
  if !elem.2 then pure (tryFrom elem.1) else pure (.error .invalidSecretKey)

/-- lib.rs:421-429. -/
def parseSlice (p : List UInt8) : Exec (Res SecretKey) :=
  if p.length != 32 then pure (.error .invalidInputLength)
  else do
    let a ← toArr 32 p
    parse a

/-- lib.rs:431-440.  `draw` is `rng.fill_bytes` of 32 bytes: it returns the bytes and the next
generator state.  The loop is unbounded in the source; `none` is "more than `fuel` draws". -/
def random {σ : Type} (draw : σ → Vector UInt8 32 × σ) : (fuel : Nat) → σ → Exec (Option (SecretKey × σ))
  | 0, _ => pure none
  | fuel + 1, rng => do
    let r ← parse (draw rng).1
    match r with
    | .ok key => pure (some (key, (draw rng).2))
    | .error _ => random draw fuel (draw rng).2

/-- lib.rs:442-444. -/
def serialize (k : SecretKey) : Vector UInt8 32 := k.sc.b32

/-- lib.rs:446-453; the first component is `self` afterwards. -/
def tweakAddAssign (k tweak : SecretKey) : Exec (SecretKey × Res Unit) := do
  let v ← Scalar.add k.sc tweak.sc
  if v.isZero then pure (k, .error .tweakOutOfRange) else pure (⟨v⟩, .ok ())

/-- lib.rs:455-462. -/
def tweakMulAssign (k tweak : SecretKey) : Exec (SecretKey × Res Unit) :=
  if tweak.sc.isZero then pure (k, .error .tweakOutOfRange)
  else do
    let v ← Scalar.mul k.sc tweak.sc
    pure (⟨v⟩, .ok ())

/-- lib.rs:464-466. -/
def inv (k : SecretKey) : Exec SecretKey := do
  let v ← Scalar.inv k.sc
  pure ⟨v⟩

/-- lib.rs:468-470. -/
def clear (k : SecretKey) : SecretKey := ⟨k.sc.clear⟩

/-- lib.rs:472-474. -/
def isZero (k : SecretKey) : Bool := k.sc.isZero

/-- lib.rs:477-489 `Default`. -/
def default : Exec SecretKey := do
  let elem ← Scalar.setB32 #v[0, 0, 0, 0, 0, 0, 0, 0, 0, 0, 0, 0, 0, 0, 0, 0, 0, 0, 0, 0, 0, 0, 0, 0, 0, 0, 0, 0, 0, 0, 0, 1]
  dassert (!elem.2)
  dassert (!elem.1.isZero)
  pure ⟨elem.1⟩

/-- lib.rs:491-495 `Into<Scalar>`. -/
def toScalar (k : SecretKey) : Scalar := k.sc

/-- lib.rs:509-515 `LowerHex`. -/
def lowerHex (k : SecretKey) : List Char := k.sc.lowerHex

end SecretKey

namespace Signature

/-- lib.rs:528-537. -/
def parseOverflowing (p : Vector UInt8 64) : Exec Signature := do
  let r ← Scalar.setB32 (arrayRef32 p 0 (by decide))
  let s ← Scalar.setB32 (arrayRef32 p 32 (by decide))
  pure ⟨r.1, s.1⟩

/-- lib.rs:541-554. -/
def parseStandard (p : Vector UInt8 64) : Exec (Res Signature) := do
  let r ← Scalar.setB32 (arrayRef32 p 0 (by decide))
  let s ← Scalar.setB32 (arrayRef32 p 32 (by decide))
  if r.2 || s.2 then pure (.error .invalidSignature) else pure (.ok ⟨r.1, s.1⟩)

/-- lib.rs:561-569. -/
def parseOverflowingSlice (p : List UInt8) : Exec (Res Signature) :=
  if p.length != 64 then pure (.error .invalidInputLength)
  else do
    let a ← toArr 64 p
    let s ← parseOverflowing a
    pure (.ok s)

/-- lib.rs:572-580. -/
def parseStandardSlice (p : List UInt8) : Exec (Res Signature) :=
  if p.length != 64 then pure (.error .invalidInputLength)
  else do
    let a ← toArr 64 p
    parseStandard a

/-- lib.rs:583-601, the method calls on the decoder. -/
def parseDerD (W : Nat) : Dec Signature := do
  Decoder.readConstructedSequence W
  let rlen ← Decoder.readLen W
  let rem ← Decoder.remainingLen
  if rlen != rem then Decoder.fail
  else do
    let r ← Decoder.readInteger W
    let s ← Decoder.readInteger W
    let rem ← Decoder.remainingLen
    if rem != 0 then Decoder.fail else pure ⟨r, s⟩

/-- `let mut decoder = Decoder::new(p); ...` (src/lib.rs:584, 608): run decoder calls on a fresh decoder
and keep the result. -/
def runDec {α : Type} (x : Dec α) (p : List UInt8) : Exec (Res α) := do
  let r ← x (Decoder.new p)
  pure r.1

/-- lib.rs:583-601. -/
def parseDer (W : Nat) (p : List UInt8) : Exec (Res Signature) := runDec (parseDerD W) p

/-- lib.rs:607-617, the method calls on the decoder. -/
def parseDerLaxD (W : Nat) : Dec Signature := do
  Decoder.readConstructedSequence W
  let _ ← Decoder.readSeqLenLax W
  let r ← Decoder.readIntegerLax W
  let s ← Decoder.readIntegerLax W
  pure ⟨r, s⟩

/-- lib.rs:607-617. -/
def parseDerLax (W : Nat) (p : List UInt8) : Exec (Res Signature) := runDec (parseDerLaxD W) p

/-- lib.rs:636-640. -/
def normalizeS (sig : Signature) : Exec Signature :=
  if sig.s.isHigh then do
    let s ← Scalar.neg sig.s
    pure { sig with s := s }
  else pure sig

/-- lib.rs:644-649. -/
def serialize (sig : Signature) : Vector UInt8 64 := sig.r.b32 ++ sig.s.b32

/-- lib.rs:654-658 `fill_scalar_with_leading_zero`. -/
def fillScalar (s : Scalar) : List UInt8 := 0 :: s.b32.toList

/-- The loop of `integer_slice` (lib.rs:665-667); the recursion is on `len - 1`. -/
def integerLen (full : List UInt8) : Nat → Exec Nat
  | 0 => pure 1
  | k + 1 => do
    let i ← subNat full.length (k + 2)
    let b0 ← idx full i
    let b1 ← idx full (i + 1)
    if b0 == 0 && decide (b1 < 0x80) then integerLen full k else pure (k + 2)

/-- lib.rs:663-669 `integer_slice`. -/
def integerSlice (full : List UInt8) : Exec (List UInt8) := do
  let len ← integerLen full 32
  slice full (full.length - len) full.length

/-- `l[a..b].copy_from_slice(s)` (src/lib.rs:681, 684). -/
def copyInto (l : List UInt8) (a b : Nat) (s : List UInt8) : Exec (List UInt8) := do
  rassert (decide (a ≤ b) && decide (b ≤ l.length))
  rassert (decide (s.length = b - a))
  pure (l.take a ++ s ++ l.drop b)

/-- lib.rs:676-684, the writes to the slice. -/
def writeDer (r s l : List UInt8) : Exec (List UInt8) := do
  let l ← setIdx l 0 0x30
  let n ← add8 4 (UInt8.ofNat r.length)
  let n ← add8 n (UInt8.ofNat s.length)
  let l ← setIdx l 1 n
  let l ← setIdx l 2 0x02
  let l ← setIdx l 3 (UInt8.ofNat r.length)
  let l ← copyInto l 4 (4 + r.length) r
  let l ← setIdx l (4 + r.length) 0x02
  let l ← setIdx l (5 + r.length) (UInt8.ofNat s.length)
  copyInto l (6 + r.length) (6 + r.length + s.length) s

/-- lib.rs:653-688. -/
def serializeDerArray (sig : Signature) : Exec SignatureArray := do
  let r ← integerSlice (fillScalar sig.r)
  let s ← integerSlice (fillScalar sig.s)
  let ret := SignatureArray.new (6 + r.length + s.length)
  ret.asMut (writeDer r s)

/-- lib.rs:653-688 `serialize_der` and `as_ref` (core/src/der.rs:24-28) of the result. -/
def serializeDer (sig : Signature) : Exec (List UInt8) := do
  let a ← serializeDerArray sig
  a.asRef

end Signature

namespace Message

/-- lib.rs:692-699. -/
def parse (p : Vector UInt8 32) : Exec Message := do
  let m ← Scalar.setB32 p
  pure ⟨m.1⟩

/-- lib.rs:701-709. -/
def parseSlice (p : List UInt8) : Exec (Res Message) :=
  if p.length != 32 then pure (.error .invalidInputLength)
  else do
    let a ← toArr 32 p
    let m ← parse a
    pure (.ok m)

/-- lib.rs:711-713. -/
def serialize (m : Message) : Vector UInt8 32 := m.sc.b32

end Message

namespace RecoveryId

/-- lib.rs:718-724. -/
def parse (p : UInt8) : Res RecoveryId :=
  if p < 4 then .ok ⟨p⟩ else .error .invalidRecoveryId

/-- lib.rs:727-733; `p - 27` cannot underflow there. -/
def parseRpc (p : UInt8) : Res RecoveryId :=
  if p ≥ 27 && decide (p < 27 + 4) then parse (p - 27) else .error .invalidRecoveryId

/-- lib.rs:735-744. -/
def serialize (r : RecoveryId) : UInt8 := r.id

/-- lib.rs:746-750 `Into<i32>`. -/
def toI32 (r : RecoveryId) : Int := r.id.toNat

end RecoveryId

namespace SharedSecret

/-- lib.rs:753-764 and 767-769 (the context is not used by `ecdh_raw`). -/
def new (D : Digest) (pubkey : PublicKey) (seckey : SecretKey) : Exec (Res SharedSecret) := do
  let inner ← ecdhRaw D pubkey.pt seckey.sc
  match inner with
  | some val => pure (.ok ⟨val⟩)
  | none => pure (.error .invalidSecretKey)

end SharedSecret

/-- lib.rs:779-786. -/
def verifyWithContext (message : Message) (signature : Signature) (pubkey : PublicKey) (ctx : List AffineStorage) : Exec Bool :=
  verifyRaw ctx signature.r signature.s pubkey.pt message.sc

/-- lib.rs:790-792. -/
def verify (message : Message) (signature : Signature) (pubkey : PublicKey) : Exec Bool := do
  let ctx ← newContext
  verifyWithContext message signature pubkey ctx

/-- lib.rs:795-804. -/
def recoverWithContext (message : Message) (signature : Signature) (id : RecoveryId) (ctx : List AffineStorage) :
    Exec (Res PublicKey) := do
  let r ← recoverRaw ctx signature.r signature.s id.id message.sc
  match r with
  | .ok a => pure (.ok ⟨a⟩)
  | .error e => pure (.error e)

/-- lib.rs:808-814. -/
def recover (message : Message) (signature : Signature) (id : RecoveryId) : Exec (Res PublicKey) := do
  let ctx ← newContext
  recoverWithContext message signature id ctx

/-- src/lib.rs:826-832, `HmacDRBG<Sha256>` of the external crate `hmac-drbg`: seeding with entropy, nonce and
personalization, and `generate::<U32>(None)`.  Left abstract. -/
structure Drbg where
  State : Type
  new : List UInt8 → List UInt8 → List UInt8 → State
  generate : State → Vector UInt8 32 × State

/-- lib.rs:831-841: the loop of `sign_with_context`.  It is unbounded in the source; `none` is
"more than `fuel` blocks". -/
def signLoop (D : Drbg) (ctx : GenContext) (seckey message : Scalar) :
    (fuel : Nat) → D.State → Exec (Option (Scalar × Scalar × UInt8))
  | 0, _ => pure none
  | fuel + 1, drbg => do
    let nonce ← Scalar.setB32 (D.generate drbg).1
    if !nonce.2 && !nonce.1.isZero then do
      let r ← signRaw ctx seckey message nonce.1
      match r with
      | .ok val => pure (some val)
      | .error _ => signLoop D ctx seckey message fuel (D.generate drbg).2
    else signLoop D ctx seckey message fuel (D.generate drbg).2

/-- lib.rs:818-850. -/
def signWithContext (D : Drbg) (fuel : Nat) (message : Message) (seckey : SecretKey) (ctx : GenContext) :
    Exec (Option (Signature × RecoveryId)) := do
  let drbg := D.new seckey.sc.b32.toList message.sc.b32.toList []
  let result ← signLoop D ctx seckey.sc message.sc fuel drbg
  match result with
  | some (sigr, sigs, recid) => pure (some (⟨sigr, sigs⟩, ⟨recid⟩))
  | none => pure none

/-- lib.rs:857-859. -/
def sign (D : Drbg) (fuel : Nat) (message : Message) (seckey : SecretKey) : Exec (Option (Signature × RecoveryId)) := do
  let ctx ← newGenContext
  signWithContext D fuel message seckey ctx

/-! ## Serde (feature `std`) -/

/-- The engine `BASE64_STANDARD` (src/lib.rs:20) of the external crate `base64`. -/
structure Base64 where
  encode : List UInt8 → String
  decode : String → Option (List UInt8)
  decode_encode : ∀ b, decode (encode b) = some b

/-- What a serializer receives (src/lib.rs:341-344). -/
inductive SerdeValue
  | str (s : String)
  | bytes (b : List UInt8)

/-- What `E::custom` receives (lib.rs:364, 369, 372, 393). -/
inductive SerdeError
  | base64
  | lib (e : Error)
  | wrongType
  deriving DecidableEq

namespace PublicKey

/-- lib.rs:335-346 `Serialize`. -/
def serdeSerialize (B : Base64) (humanReadable : Bool) (k : PublicKey) : Exec SerdeValue := do
  let b ← serialize k
  if humanReadable then pure (.str (B.encode b.toList)) else pure (.bytes b.toList)

/-- lib.rs:365-370: the format chosen by `visit_str`. -/
def visitFormat (len : Nat) : Option PublicKeyFormat :=
  match len with
  | 33 => some .compressed
  | 64 => some .raw
  | 65 => some .full
  | _ => none

/-- `map_err(|_e| E::custom(Error::InvalidPublicKey))` (lib.rs:372, 393). -/
def mapInvalid (r : Res PublicKey) : Except SerdeError PublicKey :=
  match r with
  | .ok k => .ok k
  | .error _ => .error (.lib .invalidPublicKey)

/-- lib.rs:360-373 `visit_str`. -/
def visitStr (B : Base64) (value : String) : Exec (Except SerdeError PublicKey) :=
  match B.decode value with
  | none => pure (.error .base64)
  | some v =>
    match visitFormat v.length with
    | none => pure (.error (.lib .invalidInputLength))
    | some f => do
      let r ← parseSlice v (some f)
      pure (mapInvalid r)

/-- lib.rs:389-394 `visit_bytes`. -/
def visitBytes (value : List UInt8) : Exec (Except SerdeError PublicKey) := do
  let r ← parseSlice value none
  pure (mapInvalid r)

/-- lib.rs:398-409 `Deserialize`: the deserializer hands the value it holds to the visitor chosen
by `is_human_readable`; a value of the other type is rejected by serde. -/
def serdeDeserialize (B : Base64) (humanReadable : Bool) (v : SerdeValue) : Exec (Except SerdeError PublicKey) :=
  match humanReadable, v with
  | true, .str s => visitStr B s
  | false, .bytes b => visitBytes b
  | _, _ => pure (.error .wrongType)

end PublicKey
end Verif
