import Verif.Spec.Api
import Verif.Spec.Der

/-!
# Specification: programs that use the library

A client holds lists of secret keys, public keys, messages, signatures, recovery ids and scalars and calls
the functions of src/lib.rs on them.  `step` runs an operation on the values of the model.  `ideal`
runs it on what these values stand for: integers and points of the curve.  `ideal` calls no
function of the model.

Scalars obtained from the library are among the values, with their arithmetic and the conversions of
src/lib.rs from and to keys, messages and signatures.  `clear` of a secret key or a scalar leaves zero
in its place.  `Careful` excludes one use of a cleared key: the public key of zero is no point of the
group of finite points (C79 and C81 say what it does).  Left out are the limbs of a scalar (`Scalar` is
a public array), which let a client build values outside the ranges.
-/

namespace Verif.Spec

open Classical

/-- The parameters: the random generator of `sign`, the hash of ECDH, base64, the width of `usize`
and the number of blocks after which a search for a nonce or a key counts as endless. -/
structure Env where
  D : Drbg
  H : Digest
  B : Base64
  W : ℕ
  fuel : ℕ

/-- An operation. Numbers are positions in the lists; new objects are appended, and `tweak` and
`normalize` change an object in place. -/
inductive Op
  | secretParse (l : List UInt8)
  | secretDefault
  | secretRandom (blocks : ℕ → Vector UInt8 32)
  | secretTweakAdd (i j : ℕ)
  | secretTweakMul (i j : ℕ)
  | secretInv (i : ℕ)
  | secretSerialize (i : ℕ)
  | publicFromSecret (i : ℕ)
  | publicParse (l : List UInt8) (f : Option PublicKeyFormat)
  | publicSerialize (i : ℕ)
  | publicSerializeCompressed (i : ℕ)
  | publicTweakAdd (i j : ℕ)
  | publicTweakMul (i j : ℕ)
  | publicCombine (is : List ℕ)
  | publicEq (i j : ℕ)
  | publicViaAffine (i : ℕ)
  | publicToSerde (humanReadable : Bool) (i : ℕ)
  | publicOfSerde (humanReadable : Bool) (v : SerdeValue)
  | messageParse (l : List UInt8)
  | messageSerialize (i : ℕ)
  | sigStandard (l : List UInt8)
  | sigOverflowing (l : List UInt8)
  | sigDer (l : List UInt8)
  | sigDerLax (l : List UInt8)
  | sigNormalize (i : ℕ)
  | sigSerialize (i : ℕ)
  | sigSerializeDer (i : ℕ)
  | idParse (b : UInt8)
  | idParseRpc (b : UInt8)
  | idSerialize (i : ℕ)
  | verify (m s k : ℕ)
  | recover (m s i : ℕ)
  | sign (m k : ℕ)
  | ecdh (k i : ℕ)
  | secretEq (i j : ℕ)
  | secretIsZero (i : ℕ)
  | secretHex (i : ℕ)
  | secretToScalar (i : ℕ)
  | secretOfScalar (i : ℕ)
  | messageEq (i j : ℕ)
  | messageToScalar (i : ℕ)
  | messageOfScalar (i : ℕ)
  | sigEq (i j : ℕ)
  | sigToScalars (i : ℕ)
  | sigOfScalars (i j : ℕ)
  | idEq (i j : ℕ)
  | idToI32 (i : ℕ)
  | scalarSetB32 (b : Vector UInt8 32)
  | scalarFromInt (v : UInt32)
  | scalarAdd (i j : ℕ)
  | scalarMul (i j : ℕ)
  | scalarSqr (i : ℕ)
  | scalarNeg (i : ℕ)
  | scalarInv (i : ℕ)
  | scalarB32 (i : ℕ)
  | scalarEq (i j : ℕ)
  | scalarIsZero (i : ℕ)
  | scalarIsHigh (i : ℕ)
  | secretClear (i : ℕ)
  | scalarClear (i : ℕ)

/-- What the client observes. -/
inductive Out
  /-- success without an output -/
  | done
  /-- a position was out of range; nothing was called -/
  | missing
  /-- the search did not end within the fuel -/
  | endless
  | bytes (l : List UInt8)
  | flag (b : Bool)
  | text (l : List Char)
  | number (i : ℤ)
  | failed (e : Error)
  | serde (v : SerdeValue)
  | serdeFailed (e : SerdeError)

/-- The values of the model that a client holds. -/
structure World where
  sk : List SecretKey := []
  pk : List PublicKey := []
  ms : List Message := []
  sig : List Signature := []
  id : List RecoveryId := []
  sc : List Scalar := []

/-- What these values stand for. -/
structure Ideal where
  sk : List ℕ := []
  pk : List Pt := []
  ms : List ℕ := []
  sig : List (ℕ × ℕ) := []
  id : List ℕ := []
  sc : List ℕ := []

/-! ## The model -/

/-- Store the result of a fallible constructor. -/
def store {α : Type} (r : Res α) (w : World) (f : α → World) : Out × World :=
  match r with
  | .ok a => (.done, f a)
  | .error e => (.failed e, w)

/-- The result of a mutator. -/
def outcomeOf : Res Unit → Out
  | .ok _ => .done
  | .error e => .failed e

/-- Run an operation on the values of the model. -/
def step (E : Env) (w : World) : Op → Exec (Out × World)
  | .secretParse l => do
    let r ← SecretKey.parseSlice l
    pure (store r w fun k => { w with sk := w.sk ++ [k] })
  | .secretDefault => do
    let k ← SecretKey.default
    pure (.done, { w with sk := w.sk ++ [k] })
  | .secretRandom blocks => do
    let r ← SecretKey.random (fun i => (blocks i, i + 1)) E.fuel 0
    match r with
    | some k => pure (.done, { w with sk := w.sk ++ [k.1] })
    | none => pure (.endless, w)
  | .secretTweakAdd i j =>
    match w.sk[i]?, w.sk[j]? with
    | some k, some t => do
      let r ← SecretKey.tweakAddAssign k t
      pure (outcomeOf r.2, { w with sk := w.sk.set i r.1 })
    | _, _ => pure (.missing, w)
  | .secretTweakMul i j =>
    match w.sk[i]?, w.sk[j]? with
    | some k, some t => do
      let r ← SecretKey.tweakMulAssign k t
      pure (outcomeOf r.2, { w with sk := w.sk.set i r.1 })
    | _, _ => pure (.missing, w)
  | .secretInv i =>
    match w.sk[i]? with
    | some k => do
      let k' ← SecretKey.inv k
      pure (.done, { w with sk := w.sk ++ [k'] })
    | none => pure (.missing, w)
  | .secretSerialize i =>
    match w.sk[i]? with
    | some k => pure (.bytes (SecretKey.serialize k).toList, w)
    | none => pure (.missing, w)
  | .publicFromSecret i =>
    match w.sk[i]? with
    | some k => do
      let p ← PublicKey.fromSecretKey k
      pure (.done, { w with pk := w.pk ++ [p] })
    | none => pure (.missing, w)
  | .publicParse l f => do
    let r ← PublicKey.parseSlice l f
    pure (store r w fun k => { w with pk := w.pk ++ [k] })
  | .publicSerialize i =>
    match w.pk[i]? with
    | some k => do
      let b ← PublicKey.serialize k
      pure (.bytes b.toList, w)
    | none => pure (.missing, w)
  | .publicSerializeCompressed i =>
    match w.pk[i]? with
    | some k => do
      let b ← PublicKey.serializeCompressed k
      pure (.bytes b.toList, w)
    | none => pure (.missing, w)
  | .publicTweakAdd i j =>
    match w.pk[i]?, w.sk[j]? with
    | some k, some t => do
      let r ← PublicKey.tweakAddAssign k t
      pure (outcomeOf r.2, { w with pk := w.pk.set i r.1 })
    | _, _ => pure (.missing, w)
  | .publicTweakMul i j =>
    match w.pk[i]?, w.sk[j]? with
    | some k, some t => do
      let r ← PublicKey.tweakMulAssign k t
      pure (outcomeOf r.2, { w with pk := w.pk.set i r.1 })
    | _, _ => pure (.missing, w)
  | .publicCombine is => do
    let r ← PublicKey.combine (is.filterMap fun i => w.pk[i]?)
    pure (store r w fun k => { w with pk := w.pk ++ [k] })
  | .publicEq i j =>
    match w.pk[i]?, w.pk[j]? with
    | some k, some k' => do
      let b ← PublicKey.eq k k'
      pure (.flag b, w)
    | _, _ => pure (.missing, w)
  | .publicViaAffine i =>
    match w.pk[i]? with
    | some k => do
      let r ← PublicKey.tryFrom (PublicKey.toAffine k)
      pure (store r w fun k => { w with pk := w.pk ++ [k] })
    | none => pure (.missing, w)
  | .publicToSerde hr i =>
    match w.pk[i]? with
    | some k => do
      let v ← PublicKey.serdeSerialize E.B hr k
      pure (.serde v, w)
    | none => pure (.missing, w)
  | .publicOfSerde hr v => do
    let r ← PublicKey.serdeDeserialize E.B hr v
    match r with
    | .ok k => pure (.done, { w with pk := w.pk ++ [k] })
    | .error e => pure (.serdeFailed e, w)
  | .messageParse l => do
    let r ← Message.parseSlice l
    pure (store r w fun m => { w with ms := w.ms ++ [m] })
  | .messageSerialize i =>
    match w.ms[i]? with
    | some m => pure (.bytes (Message.serialize m).toList, w)
    | none => pure (.missing, w)
  | .sigStandard l => do
    let r ← Signature.parseStandardSlice l
    pure (store r w fun s => { w with sig := w.sig ++ [s] })
  | .sigOverflowing l => do
    let r ← Signature.parseOverflowingSlice l
    pure (store r w fun s => { w with sig := w.sig ++ [s] })
  | .sigDer l => do
    let r ← Signature.parseDer E.W l
    pure (store r w fun s => { w with sig := w.sig ++ [s] })
  | .sigDerLax l => do
    let r ← Signature.parseDerLax E.W l
    pure (store r w fun s => { w with sig := w.sig ++ [s] })
  | .sigNormalize i =>
    match w.sig[i]? with
    | some s => do
      let s' ← Signature.normalizeS s
      pure (.done, { w with sig := w.sig.set i s' })
    | none => pure (.missing, w)
  | .sigSerialize i =>
    match w.sig[i]? with
    | some s => pure (.bytes (Signature.serialize s).toList, w)
    | none => pure (.missing, w)
  | .sigSerializeDer i =>
    match w.sig[i]? with
    | some s => do
      let b ← Signature.serializeDer s
      pure (.bytes b, w)
    | none => pure (.missing, w)
  | .idParse b => pure (store (RecoveryId.parse b) w fun i => { w with id := w.id ++ [i] })
  | .idParseRpc b => pure (store (RecoveryId.parseRpc b) w fun i => { w with id := w.id ++ [i] })
  | .idSerialize i =>
    match w.id[i]? with
    | some r => pure (.bytes [RecoveryId.serialize r], w)
    | none => pure (.missing, w)
  | .verify m s k =>
    match w.ms[m]?, w.sig[s]?, w.pk[k]? with
    | some m, some s, some k => do
      let b ← Verif.verify m s k
      pure (.flag b, w)
    | _, _, _ => pure (.missing, w)
  | .recover m s i =>
    match w.ms[m]?, w.sig[s]?, w.id[i]? with
    | some m, some s, some i => do
      let r ← Verif.recover m s i
      pure (store r w fun k => { w with pk := w.pk ++ [k] })
    | _, _, _ => pure (.missing, w)
  | .sign m k =>
    match w.ms[m]?, w.sk[k]? with
    | some m, some k => do
      let r ← Verif.sign E.D E.fuel m k
      match r with
      | some si => pure (.done, { w with sig := w.sig ++ [si.1], id := w.id ++ [si.2] })
      | none => pure (.endless, w)
    | _, _ => pure (.missing, w)
  | .ecdh k i =>
    match w.pk[k]?, w.sk[i]? with
    | some p, some d => do
      let r ← SharedSecret.new E.H p d
      match r with
      | .ok s => pure (.bytes s.bytes, w)
      | .error e => pure (.failed e, w)
    | _, _ => pure (.missing, w)
  | .secretEq i j =>
    match w.sk[i]?, w.sk[j]? with
    | some k, some k' => pure (.flag (decide (k = k')), w)
    | _, _ => pure (.missing, w)
  | .secretIsZero i =>
    match w.sk[i]? with
    | some k => pure (.flag (SecretKey.isZero k), w)
    | none => pure (.missing, w)
  | .secretHex i =>
    match w.sk[i]? with
    | some k => pure (.text (SecretKey.lowerHex k), w)
    | none => pure (.missing, w)
  | .secretToScalar i =>
    match w.sk[i]? with
    | some k => pure (.done, { w with sc := w.sc ++ [SecretKey.toScalar k] })
    | none => pure (.missing, w)
  | .secretOfScalar i =>
    match w.sc[i]? with
    | some x => pure (store (SecretKey.tryFrom x) w fun k => { w with sk := w.sk ++ [k] })
    | none => pure (.missing, w)
  | .messageEq i j =>
    match w.ms[i]?, w.ms[j]? with
    | some m, some m' => pure (.flag (decide (m = m')), w)
    | _, _ => pure (.missing, w)
  | .messageToScalar i =>
    match w.ms[i]? with
    | some m => pure (.done, { w with sc := w.sc ++ [m.sc] })
    | none => pure (.missing, w)
  | .messageOfScalar i =>
    match w.sc[i]? with
    | some x => pure (.done, { w with ms := w.ms ++ [⟨x⟩] })
    | none => pure (.missing, w)
  | .sigEq i j =>
    match w.sig[i]?, w.sig[j]? with
    | some s, some s' => pure (.flag (decide (s = s')), w)
    | _, _ => pure (.missing, w)
  | .sigToScalars i =>
    match w.sig[i]? with
    | some s => pure (.done, { w with sc := w.sc ++ [s.r] ++ [s.s] })
    | none => pure (.missing, w)
  | .sigOfScalars i j =>
    match w.sc[i]?, w.sc[j]? with
    | some x, some y => pure (.done, { w with sig := w.sig ++ [⟨x, y⟩] })
    | _, _ => pure (.missing, w)
  | .idEq i j =>
    match w.id[i]?, w.id[j]? with
    | some r, some r' => pure (.flag (decide (r = r')), w)
    | _, _ => pure (.missing, w)
  | .idToI32 i =>
    match w.id[i]? with
    | some r => pure (.number (RecoveryId.toI32 r), w)
    | none => pure (.missing, w)
  | .scalarSetB32 b => do
    let r ← Scalar.setB32 b
    pure (.flag r.2, { w with sc := w.sc ++ [r.1] })
  | .scalarFromInt v => pure (.done, { w with sc := w.sc ++ [Scalar.fromInt v] })
  | .scalarAdd i j =>
    match w.sc[i]?, w.sc[j]? with
    | some x, some y => do
      let z ← Scalar.add x y
      pure (.done, { w with sc := w.sc ++ [z] })
    | _, _ => pure (.missing, w)
  | .scalarMul i j =>
    match w.sc[i]?, w.sc[j]? with
    | some x, some y => do
      let z ← Scalar.mul x y
      pure (.done, { w with sc := w.sc ++ [z] })
    | _, _ => pure (.missing, w)
  | .scalarSqr i =>
    match w.sc[i]? with
    | some x => do
      let z ← Scalar.sqr x
      pure (.done, { w with sc := w.sc ++ [z] })
    | none => pure (.missing, w)
  | .scalarNeg i =>
    match w.sc[i]? with
    | some x => do
      let z ← Scalar.neg x
      pure (.done, { w with sc := w.sc ++ [z] })
    | none => pure (.missing, w)
  | .scalarInv i =>
    match w.sc[i]? with
    | some x => do
      let z ← Scalar.inv x
      pure (.done, { w with sc := w.sc ++ [z] })
    | none => pure (.missing, w)
  | .scalarB32 i =>
    match w.sc[i]? with
    | some x => pure (.bytes (Scalar.b32 x).toList, w)
    | none => pure (.missing, w)
  | .scalarEq i j =>
    match w.sc[i]?, w.sc[j]? with
    | some x, some y => pure (.flag (decide (x = y)), w)
    | _, _ => pure (.missing, w)
  | .scalarIsZero i =>
    match w.sc[i]? with
    | some x => pure (.flag (Scalar.isZero x), w)
    | none => pure (.missing, w)
  | .scalarIsHigh i =>
    match w.sc[i]? with
    | some x => pure (.flag (Scalar.isHigh x), w)
    | none => pure (.missing, w)
  | .secretClear i =>
    match w.sk[i]? with
    | some k => pure (.done, { w with sk := w.sk.set i (SecretKey.clear k) })
    | none => pure (.missing, w)
  | .scalarClear i =>
    match w.sc[i]? with
    | some x => pure (.done, { w with sc := w.sc.set i (Scalar.clear x) })
    | none => pure (.missing, w)

/-- Run a program. -/
def run (E : Env) : World → List Op → Exec (List Out × World)
  | w, [] => pure ([], w)
  | w, op :: ops => do
    let r ← step E w op
    let r' ← run E r.2 ops
    pure (r.1 :: r'.1, r'.2)

/-! ## The ideal -/

/-- The coordinates of a finite point. -/
def coords : Pt → Fp × Fp
  | .zero => (0, 0)
  | .some x y _ => (x, y)

/-- The bytes encode the point with coordinates `x`, `y`: 33 bytes compressed, 64 bytes without tag,
otherwise with a tag. -/
def EncodesPoint (l : List UInt8) (x y : Fp) : Prop :=
  if l.length = 33 then l = sec1Compressed x y
  else if l.length = 64 then Encodes65 (4 :: l) x y
  else Encodes65 l x y

/-- The point that the bytes encode. -/
noncomputable def decodePoint (l : List UInt8) : Option Pt :=
  if h : ∃ P x y, IsPt P x y ∧ EncodesPoint l x y then some h.choose else none

/-- Decode a public key of the given format. -/
noncomputable def decodePublic (l : List UInt8) (f : Option PublicKeyFormat) : Res Pt :=
  if Admissible l.length f then
    match decodePoint l with
    | some P => .ok P
    | none => .error .invalidPublicKey
  else .error .invalidInputLength

/-- Decode a public key received from serde. -/
noncomputable def decodeSerde (B : Base64) : Bool → SerdeValue → Except SerdeError Pt
  | true, .str s =>
    match B.decode s with
    | none => .error .base64
    | some l =>
      if l.length = 33 ∨ l.length = 64 ∨ l.length = 65 then
        match decodePoint l with
        | some P => .ok P
        | none => .error (.lib .invalidPublicKey)
      else .error (.lib .invalidInputLength)
  | false, .bytes l =>
    match decodePublic l none with
    | .ok P => .ok P
    | .error _ => .error (.lib .invalidPublicKey)
  | _, _ => .error .wrongType

/-- `(r, s)` is what strict decoding reads from `l`. The second case is the one of C44: a single
INTEGER, read as `s`, with `r = 0`. -/
def StrictDer (l : List UInt8) (r s : ℕ) : Prop :=
  (∃ u v, DerSignature u v l ∧ u < 2 ^ 256 ∧ 0 < v ∧ v < 2 ^ 256 ∧ r = component u ∧ s = component v) ∨
  (∃ L k j v, DerLen L k ∧ 33 ≤ k ∧ k ≤ j.length ∧ DerInteger v j ∧ 0 < v ∧ v < 2 ^ 256 ∧
    DerTlv 0x30 (0x02 :: (L ++ j)) l ∧ r = 0 ∧ s = component v)

/-- `(r, s)` is what lax decoding reads from `l`. -/
def LaxDer (W : ℕ) (l : List UInt8) (r s : ℕ) : Prop :=
  ∃ hd x y z, LaxHeader hd ∧ l = hd ++ x ∧ LaxRead (2 ^ (W - 8)) x r y ∧ LaxRead (2 ^ (W - 8)) y s z

/-- A pair with the given property. -/
noncomputable def pick (P : ℕ → ℕ → Prop) : Res (ℕ × ℕ) :=
  if h : ∃ r s, P r s then .ok (h.choose, h.choose_spec.choose) else .error .invalidSignature

/-- The DER encoding of a pair. -/
noncomputable def encodeDer (r s : ℕ) : List UInt8 :=
  if h : ∃ b, DerSignature r s b then h.choose else []

/-- The block that `sign` draws as candidate number `i` for a nonce. -/
def candidate (D : Drbg) (d m i : ℕ) : Vector UInt8 32 := blockAt D.generate (D.new (beBytes 32 d) (beBytes 32 m) []) i

/-- The candidate is a nonce that gives a signature. -/
def UsableCandidate (D : Drbg) (d m i : ℕ) : Prop :=
  InRange (candidate D d m i) ∧ UsableNonce d m (beNat (candidate D d m i).toList)

/-- The signature of `m` under `d` with the nonce `k`, and its recovery id. -/
def signature (d m k : ℕ) : (ℕ × ℕ) × ℕ :=
  let (x, y) := coords (k • G)
  let r := x.val % n
  let s := (((m : ZMod n) + r * d) / k).val
  if s < (n - 1) / 2 then ((r, s), 2 * (x.val / n) + y.val % 2)
  else ((r, n - s), 2 * (x.val / n) + (y.val + 1) % 2)

/-- The number of the first candidate, of `fuel` many, with the property. -/
noncomputable def firstOf (P : ℕ → Prop) (fuel : ℕ) : Option ℕ :=
  if h : ∃ i < fuel, P i ∧ ∀ j < i, ¬ P j then some h.choose else none

/-- The recovered public key. -/
noncomputable def recovered (m r s id : ℕ) : Res Pt :=
  if h : ∃ R, (r : ZMod n) ≠ 0 ∧ (s : ZMod n) ≠ 0 ∧ IsRecoveryPoint r id R ∧ recoveredKey m r s R ≠ 0 then
    .ok (recoveredKey m r s h.choose)
  else .error .invalidSignature

/-- The eight 32-bit words of an integer in hex, from the lowest to the highest (see C48). -/
def hexWords (v : ℕ) : List Char := (List.range 8).flatMap fun i => hexOf (beBytes 4 (v / 2 ^ (32 * i)))

/-- Store the result of a fallible constructor. -/
def keep {α : Type} (r : Res α) (a : Ideal) (f : α → Ideal) : Out × Ideal :=
  match r with
  | .ok v => (.done, f v)
  | .error e => (.failed e, a)

/-- Run an operation on integers and points. -/
noncomputable def ideal (E : Env) (a : Ideal) : Op → Out × Ideal
  | .secretParse l =>
    if l.length ≠ 32 then (.failed .invalidInputLength, a)
    else if 0 < beNat l ∧ beNat l < n then (.done, { a with sk := a.sk ++ [beNat l] })
    else (.failed .invalidSecretKey, a)
  | .secretDefault => (.done, { a with sk := a.sk ++ [1] })
  | .secretRandom blocks =>
    match firstOf (fun i => InRange (blocks i)) E.fuel with
    | some i => (.done, { a with sk := a.sk ++ [beNat (blocks i).toList] })
    | none => (.endless, a)
  | .secretTweakAdd i j =>
    match a.sk[i]?, a.sk[j]? with
    | some d, some t =>
      if (d + t) % n = 0 then (.failed .tweakOutOfRange, a) else (.done, { a with sk := a.sk.set i ((d + t) % n) })
    | _, _ => (.missing, a)
  | .secretTweakMul i j =>
    match a.sk[i]?, a.sk[j]? with
    | some d, some t =>
      if t = 0 then (.failed .tweakOutOfRange, a) else (.done, { a with sk := a.sk.set i (d * t % n) })
    | _, _ => (.missing, a)
  | .secretInv i =>
    match a.sk[i]? with
    | some d => (.done, { a with sk := a.sk ++ [((d : ZMod n)⁻¹).val] })
    | none => (.missing, a)
  | .secretSerialize i =>
    match a.sk[i]? with
    | some d => (.bytes (beBytes 32 d), a)
    | none => (.missing, a)
  | .publicFromSecret i =>
    match a.sk[i]? with
    | some d => (.done, { a with pk := a.pk ++ [d • G] })
    | none => (.missing, a)
  | .publicParse l f => keep (decodePublic l f) a fun P => { a with pk := a.pk ++ [P] }
  | .publicSerialize i =>
    match a.pk[i]? with
    | some P => (.bytes (sec1Full (coords P).1 (coords P).2), a)
    | none => (.missing, a)
  | .publicSerializeCompressed i =>
    match a.pk[i]? with
    | some P => (.bytes (sec1Compressed (coords P).1 (coords P).2), a)
    | none => (.missing, a)
  | .publicTweakAdd i j =>
    match a.pk[i]?, a.sk[j]? with
    | some P, some t =>
      if P + t • G = 0 then (.failed .tweakOutOfRange, a) else (.done, { a with pk := a.pk.set i (P + t • G) })
    | _, _ => (.missing, a)
  | .publicTweakMul i j =>
    match a.pk[i]?, a.sk[j]? with
    | some P, some t =>
      if t = 0 then (.failed .tweakOutOfRange, a) else (.done, { a with pk := a.pk.set i (t • P) })
    | _, _ => (.missing, a)
  | .publicCombine is =>
    let P := (is.filterMap fun i => a.pk[i]?).sum
    if P = 0 then (.failed .invalidPublicKey, a) else (.done, { a with pk := a.pk ++ [P] })
  | .publicEq i j =>
    match a.pk[i]?, a.pk[j]? with
    | some P, some Q => (.flag (decide (P = Q)), a)
    | _, _ => (.missing, a)
  | .publicViaAffine i =>
    match a.pk[i]? with
    | some P => (.done, { a with pk := a.pk ++ [P] })
    | none => (.missing, a)
  | .publicToSerde hr i =>
    match a.pk[i]? with
    | some P =>
      let b := sec1Full (coords P).1 (coords P).2
      (.serde (if hr then .str (E.B.encode b) else .bytes b), a)
    | none => (.missing, a)
  | .publicOfSerde hr v =>
    match decodeSerde E.B hr v with
    | .ok P => (.done, { a with pk := a.pk ++ [P] })
    | .error e => (.serdeFailed e, a)
  | .messageParse l =>
    if l.length ≠ 32 then (.failed .invalidInputLength, a)
    else (.done, { a with ms := a.ms ++ [beNat l % n] })
  | .messageSerialize i =>
    match a.ms[i]? with
    | some m => (.bytes (beBytes 32 m), a)
    | none => (.missing, a)
  | .sigStandard l =>
    if l.length ≠ 64 then (.failed .invalidInputLength, a)
    else if beNat (l.take 32) < n ∧ beNat (l.drop 32) < n then
      (.done, { a with sig := a.sig ++ [(beNat (l.take 32), beNat (l.drop 32))] })
    else (.failed .invalidSignature, a)
  | .sigOverflowing l =>
    if l.length ≠ 64 then (.failed .invalidInputLength, a)
    else (.done, { a with sig := a.sig ++ [(beNat (l.take 32) % n, beNat (l.drop 32) % n)] })
  | .sigDer l => keep (pick (StrictDer l)) a fun s => { a with sig := a.sig ++ [s] }
  | .sigDerLax l => keep (pick (LaxDer E.W l)) a fun s => { a with sig := a.sig ++ [s] }
  | .sigNormalize i =>
    match a.sig[i]? with
    | some s => (.done, { a with sig := a.sig.set i (s.1, if (n - 1) / 2 ≤ s.2 then n - s.2 else s.2) })
    | none => (.missing, a)
  | .sigSerialize i =>
    match a.sig[i]? with
    | some s => (.bytes (beBytes 32 s.1 ++ beBytes 32 s.2), a)
    | none => (.missing, a)
  | .sigSerializeDer i =>
    match a.sig[i]? with
    | some s => (.bytes (encodeDer s.1 s.2), a)
    | none => (.missing, a)
  | .idParse b =>
    if b.toNat < 4 then (.done, { a with id := a.id ++ [b.toNat] }) else (.failed .invalidRecoveryId, a)
  | .idParseRpc b =>
    if 27 ≤ b.toNat ∧ b.toNat < 31 then (.done, { a with id := a.id ++ [b.toNat - 27] })
    else (.failed .invalidRecoveryId, a)
  | .idSerialize i =>
    match a.id[i]? with
    | some r => (.bytes [UInt8.ofNat r], a)
    | none => (.missing, a)
  | .verify m s k =>
    match a.ms[m]?, a.sig[s]?, a.pk[k]? with
    | some m, some s, some Q => (.flag (decide (EcdsaValid m s.1 s.2 Q)), a)
    | _, _, _ => (.missing, a)
  | .recover m s i =>
    match a.ms[m]?, a.sig[s]?, a.id[i]? with
    | some m, some s, some i => keep (recovered m s.1 s.2 i) a fun Q => { a with pk := a.pk ++ [Q] }
    | _, _, _ => (.missing, a)
  | .sign m k =>
    match a.ms[m]?, a.sk[k]? with
    | some m, some d =>
      match firstOf (UsableCandidate E.D d m) E.fuel with
      | some i =>
        let s := signature d m (beNat (candidate E.D d m i).toList)
        (.done, { a with sig := a.sig ++ [s.1], id := a.id ++ [s.2] })
      | none => (.endless, a)
    | _, _ => (.missing, a)
  | .ecdh k i =>
    match a.pk[k]?, a.sk[i]? with
    | some P, some d =>
      if d = 0 then (.failed .invalidSecretKey, a)
      else (.bytes (E.H.finalize (E.H.update E.H.init (sec1Compressed (coords (d • P)).1 (coords (d • P)).2))), a)
    | _, _ => (.missing, a)
  | .secretEq i j =>
    match a.sk[i]?, a.sk[j]? with
    | some d, some d' => (.flag (decide (d = d')), a)
    | _, _ => (.missing, a)
  | .secretIsZero i =>
    match a.sk[i]? with
    | some d => (.flag (decide (d = 0)), a)
    | none => (.missing, a)
  | .secretHex i =>
    match a.sk[i]? with
    | some d => (.text (hexWords d), a)
    | none => (.missing, a)
  | .secretToScalar i =>
    match a.sk[i]? with
    | some d => (.done, { a with sc := a.sc ++ [d] })
    | none => (.missing, a)
  | .secretOfScalar i =>
    match a.sc[i]? with
    | some v => if v = 0 then (.failed .invalidSecretKey, a) else (.done, { a with sk := a.sk ++ [v] })
    | none => (.missing, a)
  | .messageEq i j =>
    match a.ms[i]?, a.ms[j]? with
    | some m, some m' => (.flag (decide (m = m')), a)
    | _, _ => (.missing, a)
  | .messageToScalar i =>
    match a.ms[i]? with
    | some m => (.done, { a with sc := a.sc ++ [m] })
    | none => (.missing, a)
  | .messageOfScalar i =>
    match a.sc[i]? with
    | some v => (.done, { a with ms := a.ms ++ [v] })
    | none => (.missing, a)
  | .sigEq i j =>
    match a.sig[i]?, a.sig[j]? with
    | some s, some s' => (.flag (decide (s = s')), a)
    | _, _ => (.missing, a)
  | .sigToScalars i =>
    match a.sig[i]? with
    | some s => (.done, { a with sc := a.sc ++ [s.1] ++ [s.2] })
    | none => (.missing, a)
  | .sigOfScalars i j =>
    match a.sc[i]?, a.sc[j]? with
    | some u, some v => (.done, { a with sig := a.sig ++ [(u, v)] })
    | _, _ => (.missing, a)
  | .idEq i j =>
    match a.id[i]?, a.id[j]? with
    | some r, some r' => (.flag (decide (r = r')), a)
    | _, _ => (.missing, a)
  | .idToI32 i =>
    match a.id[i]? with
    | some r => (.number r, a)
    | none => (.missing, a)
  | .scalarSetB32 b => (.flag (decide (n ≤ beNat b.toList)), { a with sc := a.sc ++ [beNat b.toList % n] })
  | .scalarFromInt v => (.done, { a with sc := a.sc ++ [v.toNat] })
  | .scalarAdd i j =>
    match a.sc[i]?, a.sc[j]? with
    | some u, some v => (.done, { a with sc := a.sc ++ [(u + v) % n] })
    | _, _ => (.missing, a)
  | .scalarMul i j =>
    match a.sc[i]?, a.sc[j]? with
    | some u, some v => (.done, { a with sc := a.sc ++ [u * v % n] })
    | _, _ => (.missing, a)
  | .scalarSqr i =>
    match a.sc[i]? with
    | some u => (.done, { a with sc := a.sc ++ [u ^ 2 % n] })
    | none => (.missing, a)
  | .scalarNeg i =>
    match a.sc[i]? with
    | some u => (.done, { a with sc := a.sc ++ [(n - u) % n] })
    | none => (.missing, a)
  | .scalarInv i =>
    match a.sc[i]? with
    | some u => (.done, { a with sc := a.sc ++ [((u : ZMod n)⁻¹).val] })
    | none => (.missing, a)
  | .scalarB32 i =>
    match a.sc[i]? with
    | some u => (.bytes (beBytes 32 u), a)
    | none => (.missing, a)
  | .scalarEq i j =>
    match a.sc[i]?, a.sc[j]? with
    | some u, some v => (.flag (decide (u = v)), a)
    | _, _ => (.missing, a)
  | .scalarIsZero i =>
    match a.sc[i]? with
    | some u => (.flag (decide (u = 0)), a)
    | none => (.missing, a)
  | .scalarIsHigh i =>
    match a.sc[i]? with
    | some u => (.flag (decide ((n - 1) / 2 ≤ u)), a)
    | none => (.missing, a)
  | .secretClear i =>
    match a.sk[i]? with
    | some _ => (.done, { a with sk := a.sk.set i 0 })
    | none => (.missing, a)
  | .scalarClear i =>
    match a.sc[i]? with
    | some _ => (.done, { a with sc := a.sc.set i 0 })
    | none => (.missing, a)

/-- Run a program on integers and points. -/
noncomputable def idealRun (E : Env) : Ideal → List Op → List Out × Ideal
  | a, [] => ([], a)
  | a, op :: ops =>
    let r := ideal E a op
    let r' := idealRun E r.2 ops
    (r.1 :: r'.1, r'.2)

/-- A debug build does not panic: a DER input is shorter than `2^(W-8)` bytes (C41) and no
candidate for a nonce has a point with x coordinate `≥ n` (C28). -/
def Harmless (E : Env) (a : Ideal) : Op → Prop
  | .sigDer l => l.length < 2 ^ (E.W - 8)
  | .sign m k => ∀ m' ∈ a.ms[m]?, ∀ d ∈ a.sk[k]?, ∀ i < E.fuel,
      InRange (candidate E.D d m' i) → NoOverflow (beNat (candidate E.D d m' i).toList)
  | _ => True

/-- Every operation of the program is harmless when it is reached. -/
def HarmlessRun (E : Env) : Ideal → List Op → Prop
  | _, [] => True
  | a, op :: ops => Harmless E a op ∧ HarmlessRun E (ideal E a op).2 ops

/-- The operation is not the derivation of a public key from a secret key that was cleared. -/
def Careful (a : Ideal) : Op → Prop
  | .publicFromSecret i => a.sk[i]? ≠ some 0
  | _ => True

/-- Every operation of the program is careful when it is reached. -/
def CarefulRun (E : Env) : Ideal → List Op → Prop
  | _, [] => True
  | a, op :: ops => Careful a op ∧ CarefulRun E (ideal E a op).2 ops

/-- The operation is not `clear` of a secret key. -/
def NoClear : Op → Prop
  | .secretClear _ => False
  | _ => True

/-- The inputs of the DER decoders fit in memory. -/
def Sized (W : ℕ) : Op → Prop
  | .sigDer l | .sigDerLax l => l.length < 2 ^ (W - 1)
  | _ => True

/-- The world consists of valid values that stand for the integers and points of the ideal. -/
structure Denotes (w : World) (a : Ideal) : Prop where
  sk : List.Forall₂ (fun k d => secretInt k < n ∧ secretInt k = d) w.sk a.sk
  pk : List.Forall₂ IsKey w.pk a.pk
  ms : List.Forall₂ (fun m v => m.sc.val < n ∧ m.sc.val = v) w.ms a.ms
  sig : List.Forall₂ (fun s v => Canonical s ∧ (s.r.val, s.s.val) = v) w.sig a.sig
  id : List.Forall₂ (fun i v => i.id.toNat < 4 ∧ i.id.toNat = v) w.id a.id
  sc : List.Forall₂ (fun x v => x.val < n ∧ x.val = v) w.sc a.sc

end Verif.Spec
