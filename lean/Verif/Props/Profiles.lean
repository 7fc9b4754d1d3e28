import Verif.Proofs.Agree

/-!
# Debug and release builds (C70)

No hypothesis on any argument: keys, scalars, field elements and tables may be invalid.
-/

namespace Verif.Props
open Verif Ecmult Ecdsa

/-- If a debug build returns, a release build returns the same. -/
def Faithful {α : Type} (x : Exec α) : Prop := ∀ a, x .debug = some a → x .release = some a

theorem faithful {α : Type} (x : Exec α) [h : Agrees x] : Faithful x := h.out

/-- C70, secret keys. -/
theorem C70_secret {σ : Type} (k t : SecretKey) (b : Vector UInt8 32) (l : List UInt8) (draw : σ → Vector UInt8 32 × σ) (fuel : Nat) (s : σ) :
    Faithful (SecretKey.parse b) ∧ Faithful (SecretKey.parseSlice l) ∧ Faithful (SecretKey.random draw fuel s) ∧
    Faithful SecretKey.default ∧ Faithful (SecretKey.tweakAddAssign k t) ∧ Faithful (SecretKey.tweakMulAssign k t) ∧
    Faithful (SecretKey.inv k) :=
  ⟨faithful _, faithful _, faithful _, faithful _, faithful _, faithful _, faithful _⟩

/-- C70, public keys. -/
theorem C70_public (k k' : PublicKey) (keys : List PublicKey) (t : SecretKey) (b : Vector UInt8 65) (c : Vector UInt8 33)
    (l : List UInt8) (f : Option PublicKeyFormat) (a : Affine) (D : Digest) (B : Base64) (hr : Bool) (v : SerdeValue)
    (ctx : List AffineStorage) (gctx : GenContext) :
    Faithful (PublicKey.fromSecretKey t) ∧ Faithful (PublicKey.fromSecretKeyWithContext t gctx) ∧
    Faithful (PublicKey.parse b) ∧ Faithful (PublicKey.parseCompressed c) ∧ Faithful (PublicKey.parseSlice l f) ∧
    Faithful (PublicKey.serialize k) ∧ Faithful (PublicKey.serializeCompressed k) ∧ Faithful (PublicKey.eq k k') ∧
    Faithful (PublicKey.tweakAddAssign k t) ∧ Faithful (PublicKey.tweakAddAssignWithContext k t ctx) ∧
    Faithful (PublicKey.tweakMulAssign k t) ∧ Faithful (PublicKey.tweakMulAssignWithContext k t ctx) ∧
    Faithful (PublicKey.combine keys) ∧ Faithful (PublicKey.tryFrom a) ∧ Faithful (SharedSecret.new D k t) ∧
    Faithful (PublicKey.serdeSerialize B hr k) ∧ Faithful (PublicKey.serdeDeserialize B hr v) :=
  ⟨faithful _, faithful _, faithful _, faithful _, faithful _, faithful _, faithful _, faithful _, faithful _, faithful _,
    faithful _, faithful _, faithful _, faithful _, faithful _, faithful _, faithful _⟩

/-- C70, signatures and messages. `W` is the width of `usize`. -/
theorem C70_signature (m : Message) (sig : Signature) (id : RecoveryId) (pk : PublicKey) (sk : SecretKey) (D : Drbg) (fuel : Nat)
    (W : Nat) (l : List UInt8) (b32 : Vector UInt8 32) (b64 : Vector UInt8 64) (ctx : List AffineStorage) (gctx : GenContext) :
    Faithful (Message.parse b32) ∧ Faithful (Message.parseSlice l) ∧
    Faithful (Signature.parseStandard b64) ∧ Faithful (Signature.parseStandardSlice l) ∧
    Faithful (Signature.parseOverflowing b64) ∧ Faithful (Signature.parseOverflowingSlice l) ∧
    Faithful (Signature.parseDer W l) ∧ Faithful (Signature.parseDerLax W l) ∧
    Faithful (Signature.serializeDer sig) ∧ Faithful (Signature.normalizeS sig) ∧
    Faithful (verify m sig pk) ∧ Faithful (verifyWithContext m sig pk ctx) ∧
    Faithful (recover m sig id) ∧ Faithful (recoverWithContext m sig id ctx) ∧
    Faithful (sign D fuel m sk) ∧ Faithful (signWithContext D fuel m sk gctx) :=
  ⟨faithful _, faithful _, faithful _, faithful _, faithful _, faithful _, faithful _, faithful _, faithful _, faithful _,
    faithful _, faithful _, faithful _, faithful _, faithful _, faithful _⟩

/-- C70, the core crate. -/
theorem C70_core (a b : Scalar) (f g : FElem) (m c : UInt32) (P Q : Affine) (J K : Jacobian) (rzr : Option FElem) (tbl : List AffineStorage)
    (gctx : GenContext) (wnaf : List Int) (len w : Nat) (b32 : Vector UInt8 32) (flag : Bool) :
    Faithful (Scalar.add a b) ∧ Faithful (Scalar.mul a b) ∧ Faithful (Scalar.neg a) ∧ Faithful (Scalar.inv a) ∧
    Faithful (FElem.add f g) ∧ Faithful (FElem.mul f g) ∧ Faithful (FElem.sqr f) ∧ Faithful (FElem.neg f m) ∧
    Faithful (FElem.mulInt f c) ∧ Faithful (FElem.normalize f) ∧ Faithful (FElem.inv f) ∧ Faithful (FElem.sqrt f) ∧
    Faithful (FElem.setB32 f b32) ∧ Faithful (FElem.b32 f) ∧ Faithful (FElem.eq f g) ∧ Faithful (FElem.cmpVar f g) ∧
    Faithful (Affine.setGej J) ∧ Faithful (Affine.setXoVar f flag) ∧ Faithful (Affine.isValidVar P) ∧ Faithful (Affine.eq P Q) ∧
    Faithful (Jacobian.addVar J K rzr) ∧ Faithful (Jacobian.addGeVar J P rzr) ∧ Faithful (Jacobian.addGe J P) ∧
    Faithful (Jacobian.doubleVar J rzr) ∧ Faithful (Jacobian.addZinvVar J P f) ∧
    Faithful (ecmultWnaf len a w) ∧ Faithful (ecmultWnafConst wnaf a w) ∧
    Faithful (ecmult tbl J a b) ∧ Faithful (ecmultConst P a) ∧ Faithful (ecmultGen gctx a) ∧
    Faithful newContext ∧ Faithful newGenContext :=
  ⟨faithful _, faithful _, faithful _, faithful _, faithful _, faithful _, faithful _, faithful _, faithful _, faithful _,
    faithful _, faithful _, faithful _, faithful _, faithful _, faithful _, faithful _, faithful _, faithful _, faithful _,
    faithful _, faithful _, faithful _, faithful _, faithful _, faithful _, faithful _, faithful _, faithful _, faithful _,
    faithful _, faithful _⟩

/-- C70. The scalars of the core crate. -/
theorem C70_scalar :
    (∀ a b, Faithful (Scalar.add a b)) ∧ (∀ a b c, Faithful (Scalar.addMul a b c)) ∧ (∀ a b c, Faithful (Scalar.bits a b c)) ∧
    (∀ a b c, Faithful (Scalar.bitsVar a b c)) ∧ (∀ a b c, Faithful (Scalar.caddBit a b c)) ∧ (∀ a b, Faithful (Scalar.carryStep a b)) ∧
    (∀ a b, Faithful (Scalar.condNeg a b)) ∧ (∀ a b c d e, Faithful (Scalar.condNegStep a b c d e)) ∧ (∀ a, Faithful (Scalar.extract a)) ∧
    (∀ a, Faithful (Scalar.extractFast a)) ∧ (∀ a, Faithful (Scalar.inv a)) ∧ (∀ a b, Faithful (Scalar.limb a b)) ∧
    (∀ a b, Faithful (Scalar.mul a b)) ∧ (∀ a b, Faithful (Scalar.mul512 a b)) ∧ (∀ a b c, Faithful (Scalar.muladd a b c)) ∧
    (∀ a b c, Faithful (Scalar.muladd2 a b c)) ∧ (∀ a b c, Faithful (Scalar.muladdFast a b c)) ∧ (∀ a, Faithful (Scalar.neg a)) ∧
    (∀ a b, Faithful (Scalar.reduce a b)) ∧ (∀ a, Faithful (Scalar.reduce512 a)) ∧ (∀ a, Faithful (Scalar.reduce512a a)) ∧
    (∀ a, Faithful (Scalar.reduce512b a)) ∧ (∀ a, Faithful (Scalar.reduce512c a)) ∧ (∀ a, Faithful (Scalar.setB32 a)) ∧
    (∀ a b, Faithful (Scalar.shrInt a b)) ∧ (∀ a b c, Faithful (Scalar.shrStep a b c)) ∧ (∀ a, Faithful (Scalar.sqr a)) ∧
    (∀ a, Faithful (Scalar.sqr512 a)) ∧ (∀ a b, Faithful (Scalar.sqrN a b)) ∧ (∀ a b, Faithful (Scalar.sumadd a b)) ∧
    (∀ a b, Faithful (Scalar.sumaddFast a b)) :=
  ⟨fun _ _ => faithful _, fun _ _ _ => faithful _, fun _ _ _ => faithful _, fun _ _ _ => faithful _, fun _ _ _ => faithful _,
   fun _ _ => faithful _, fun _ _ => faithful _, fun _ _ _ _ _ => faithful _, fun _ => faithful _, fun _ => faithful _, fun _ => faithful _,
   fun _ _ => faithful _, fun _ _ => faithful _, fun _ _ => faithful _, fun _ _ _ => faithful _, fun _ _ _ => faithful _,
   fun _ _ _ => faithful _, fun _ => faithful _, fun _ _ => faithful _, fun _ => faithful _, fun _ => faithful _, fun _ => faithful _,
   fun _ => faithful _, fun _ => faithful _, fun _ _ => faithful _, fun _ _ _ => faithful _, fun _ => faithful _, fun _ => faithful _,
   fun _ _ => faithful _, fun _ _ => faithful _, fun _ _ => faithful _⟩

/-- C70. Field elements. -/
theorem C70_field :
    (∀ a b, Faithful (FElem.add a b)) ∧ (∀ a, Faithful (FElem.b32 a)) ∧ (∀ a, Faithful (FElem.carry a)) ∧ (∀ a b, Faithful (FElem.cmpVar a b)) ∧
    (∀ a, Faithful (FElem.dassertE a)) ∧ (∀ a b, Faithful (FElem.eq a b)) ∧ (∀ a b, Faithful (FElem.eqVar a b)) ∧
    (∀ a, Faithful (FElem.finalX a)) ∧ (∀ a, Faithful (FElem.fromInt a)) ∧ (∀ a, Faithful (FElem.inv a)) ∧ (∀ a, Faithful (FElem.isOdd a)) ∧
    (∀ a, Faithful (FElem.isOverflow a)) ∧ (∀ a, Faithful (FElem.isQuadVar a)) ∧ (∀ a, Faithful (FElem.isZero a)) ∧
    (∀ a b c, Faithful (FElem.leMul a b c)) ∧ (∀ a, Faithful (FElem.lowSum a)) ∧ (∀ a b, Faithful (FElem.mul a b)) ∧
    (∀ a b, Faithful (FElem.mulInner a b)) ∧ (∀ a b, Faithful (FElem.mulInt a b)) ∧ (∀ a b, Faithful (FElem.neg a b)) ∧
    (∀ a b c, Faithful (FElem.negLimb a b c)) ∧ (∀ a, Faithful (FElem.normalize a)) ∧ (∀ a, Faithful (FElem.normalizeVar a)) ∧
    (∀ a, Faithful (FElem.normalizeWeak a)) ∧ (∀ a, Faithful (FElem.normalizesToZero a)) ∧ (∀ a, Faithful (FElem.normalizesToZeroVar a)) ∧
    (∀ a, Faithful (FElem.pass a)) ∧ (∀ a b, Faithful (FElem.setB32 a b)) ∧ (∀ a, Faithful (FElem.setInt a)) ∧ (∀ a, Faithful (FElem.sqr a)) ∧
    (∀ a, Faithful (FElem.sqrInner a)) ∧ (∀ a b, Faithful (FElem.sqrN a b)) ∧ (∀ a, Faithful (FElem.sqrt a)) ∧
    (∀ a b, Faithful (FElem.varTail a b)) ∧ (∀ a, Faithful (FElem.verify a)) ∧ (∀ a, Faithful (FieldStorage.ofField a)) :=
  ⟨fun _ _ => faithful _, fun _ => faithful _, fun _ => faithful _, fun _ _ => faithful _, fun _ => faithful _, fun _ _ => faithful _,
   fun _ _ => faithful _, fun _ => faithful _, fun _ => faithful _, fun _ => faithful _, fun _ => faithful _, fun _ => faithful _,
   fun _ => faithful _, fun _ => faithful _, fun _ _ _ => faithful _, fun _ => faithful _, fun _ _ => faithful _, fun _ _ => faithful _,
   fun _ _ => faithful _, fun _ _ => faithful _, fun _ _ _ => faithful _, fun _ => faithful _, fun _ => faithful _, fun _ => faithful _,
   fun _ => faithful _, fun _ => faithful _, fun _ => faithful _, fun _ _ => faithful _, fun _ => faithful _, fun _ => faithful _,
   fun _ => faithful _, fun _ _ => faithful _, fun _ => faithful _, fun _ _ => faithful _, fun _ => faithful _, fun _ => faithful _⟩

/-- C70. Points. -/
theorem C70_group :
    (∀ a b, Faithful (Affine.eq a b)) ∧ (∀ a b, Faithful (Affine.fixParity a b)) ∧ (∀ a, Faithful (Affine.isValidVar a)) ∧
    (∀ a, Faithful (Affine.neg a)) ∧ (∀ a, Faithful (Affine.setGej a)) ∧ (∀ a b, Faithful (Affine.setGejVar a b)) ∧
    (∀ a b, Faithful (Affine.setGejZinv a b)) ∧ (∀ a b, Faithful (Affine.setXoVar a b)) ∧ (∀ a, Faithful (Affine.setXquad a)) ∧
    (∀ a, Faithful (Affine.toStorage a)) ∧ (∀ a b c d, Faithful (Jacobian.addEqualX a b c d)) ∧
    (∀ a b c, Faithful (Jacobian.addEqualXNone a b c)) ∧ (∀ a b, Faithful (Jacobian.addGe a b)) ∧ (∀ a b c, Faithful (Jacobian.addGeVar a b c)) ∧
    (∀ a b c d, Faithful (Jacobian.addGeVarCore a b c d)) ∧ (∀ a b c d, Faithful (Jacobian.addGeVarInPlace a b c d)) ∧
    (∀ a b c d e f g, Faithful (Jacobian.addTail a b c d e f g)) ∧ (∀ a b c, Faithful (Jacobian.addVar a b c)) ∧
    (∀ a b c d, Faithful (Jacobian.addVarCore a b c d)) ∧ (∀ a b c d, Faithful (Jacobian.addVarInPlace a b c d)) ∧
    (∀ a b c, Faithful (Jacobian.addZinvVar a b c)) ∧ (∀ a b c d, Faithful (Jacobian.addZinvVarCore a b c d)) ∧
    (∀ a b c d, Faithful (Jacobian.addZinvVarInPlace a b c d)) ∧ (∀ a b, Faithful (Jacobian.bothZero a b)) ∧
    (∀ a, Faithful (Jacobian.doubleCore a)) ∧ (∀ a b c, Faithful (Jacobian.doubleNonzeroInPlace a b c)) ∧
    (∀ a b, Faithful (Jacobian.doubleVar a b)) ∧ (∀ a b c, Faithful (Jacobian.doubleVarInPlace a b c)) ∧
    (∀ a b, Faithful (Jacobian.eqXVar a b)) ∧ (∀ a, Faithful (Jacobian.hasQuadYVar a)) ∧ (∀ a, Faithful (Jacobian.neg a)) ∧
    (∀ a b, Faithful (Jacobian.rescale a b)) ∧ (∀ a b, Faithful (Jacobian.rzrDouble a b)) ∧ (∀ a b, Faithful (Jacobian.rzrSetInt a b)) ∧
    (∀ a, Faithful (Jacobian.setGe a)) ∧ (∀ a b c d e, Faithful (globalzLoop a b c d e)) ∧ (∀ a b c d, Faithful (globalzSetTableGej a b c d)) ∧
    (∀ a b c d, Faithful (globalzStep a b c d)) ∧ (∀ a b c, Faithful (setTableGejVar a b c)) ∧
    (∀ a b c d e, Faithful (setTableLoop a b c d e)) :=
  ⟨fun _ _ => faithful _, fun _ _ => faithful _, fun _ => faithful _, fun _ => faithful _, fun _ => faithful _, fun _ _ => faithful _,
   fun _ _ => faithful _, fun _ _ => faithful _, fun _ => faithful _, fun _ => faithful _, fun _ _ _ _ => faithful _, fun _ _ _ => faithful _,
   fun _ _ => faithful _, fun _ _ _ => faithful _, fun _ _ _ _ => faithful _, fun _ _ _ _ => faithful _, fun _ _ _ _ _ _ _ => faithful _,
   fun _ _ _ => faithful _, fun _ _ _ _ => faithful _, fun _ _ _ _ => faithful _, fun _ _ _ => faithful _, fun _ _ _ _ => faithful _,
   fun _ _ _ _ => faithful _, fun _ _ => faithful _, fun _ => faithful _, fun _ _ _ => faithful _, fun _ _ => faithful _,
   fun _ _ _ => faithful _, fun _ _ => faithful _, fun _ => faithful _, fun _ => faithful _, fun _ _ => faithful _, fun _ _ => faithful _,
   fun _ _ => faithful _, fun _ => faithful _, fun _ _ _ _ _ => faithful _, fun _ _ _ _ => faithful _, fun _ _ _ _ => faithful _,
   fun _ _ _ => faithful _, fun _ _ _ _ _ => faithful _⟩

/-- C70. Multiplication and contexts. -/
theorem C70_ecmult :
    (∀ a b c, Faithful (Ecmult.bitsZero a b c)) ∧ (∀ a b c, Faithful (Ecmult.cmovLoop a b c)) ∧ (∀ a b c, Faithful (Ecmult.constCorrect a b c)) ∧
    (∀ a b, Faithful (Ecmult.constDouble a b)) ∧ (∀ a b c d, Faithful (Ecmult.constStep a b c d)) ∧ (∀ a b, Faithful (Ecmult.digitCheck a b)) ∧
    (∀ a b c d, Faithful (Ecmult.ecmult a b c d)) ∧ (∀ a b c d e, Faithful (Ecmult.ecmultAddA a b c d e)) ∧
    (∀ a b c d e f, Faithful (Ecmult.ecmultAddG a b c d e f)) ∧ (∀ a b, Faithful (Ecmult.ecmultConst a b)) ∧
    (∀ a b, Faithful (Ecmult.ecmultFinish a b)) ∧ (∀ a b, Faithful (Ecmult.ecmultGen a b)) ∧
    (∀ a b c d e f g h i, Faithful (Ecmult.ecmultStep a b c d e f g h i)) ∧ (∀ a b c, Faithful (Ecmult.ecmultWnaf a b c)) ∧
    (∀ a b c, Faithful (Ecmult.ecmultWnafConst a b c)) ∧ (∀ a b c, Faithful (Ecmult.genSelect a b c)) ∧
    (∀ a b c d, Faithful (Ecmult.genStep a b c d)) ∧ (∀ a, Faithful (Ecmult.invAllVar a)) ∧ (∀ a b c, Faithful (Ecmult.invBackward a b c)) ∧
    (∀ a b c, Faithful (Ecmult.invForward a b c)) ∧ Faithful Ecmult.newContext ∧ Faithful Ecmult.newGenContext ∧
    (∀ a b c, Faithful (Ecmult.oddMultiplesTable a b c)) ∧ (∀ a, Faithful (Ecmult.oddMultiplesTableGlobalz a)) ∧
    (∀ a b, Faithful (Ecmult.oddMultiplesTableStorageVar a b)) ∧ (∀ a b c, Faithful (Ecmult.oddStep a b c)) ∧
    (∀ a b c, Faithful (Ecmult.precFix a b c)) ∧ (∀ a b c d, Faithful (Ecmult.precInner a b c d)) ∧
    (∀ a b c, Faithful (Ecmult.precOuter a b c)) ∧ (∀ a, Faithful (Ecmult.setAllGejVar a)) ∧ (∀ a b c d, Faithful (Ecmult.setAllStep a b c d)) ∧
    (∀ a b c, Faithful (Ecmult.tableGetGe a b c)) ∧ (∀ a b c d, Faithful (Ecmult.tableGetGeConst a b c d)) ∧
    (∀ a b c, Faithful (Ecmult.tableGetGeStorage a b c)) ∧ (∀ a, Faithful (Ecmult.weakTable a)) ∧
    (∀ a b c d, Faithful (Ecmult.wnafConstStep a b c d)) ∧ (∀ a b c d, Faithful (Ecmult.wnafDigit a b c d)) ∧
    (∀ a b c d e, Faithful (Ecmult.wnafLoop a b c d e)) ∧ (∀ a, Faithful (Ecmult.wnafSign a)) ∧ (∀ a b c d, Faithful (Ecmult.wnafStep a b c d)) ∧
    (∀ a, Faithful (i32 a)) :=
  ⟨fun _ _ _ => faithful _, fun _ _ _ => faithful _, fun _ _ _ => faithful _, fun _ _ => faithful _, fun _ _ _ _ => faithful _,
   fun _ _ => faithful _, fun _ _ _ _ => faithful _, fun _ _ _ _ _ => faithful _, fun _ _ _ _ _ _ => faithful _, fun _ _ => faithful _,
   fun _ _ => faithful _, fun _ _ => faithful _, fun _ _ _ _ _ _ _ _ _ => faithful _, fun _ _ _ => faithful _, fun _ _ _ => faithful _,
   fun _ _ _ => faithful _, fun _ _ _ _ => faithful _, fun _ => faithful _, fun _ _ _ => faithful _, fun _ _ _ => faithful _, faithful _,
   faithful _, fun _ _ _ => faithful _, fun _ => faithful _, fun _ _ => faithful _, fun _ _ _ => faithful _, fun _ _ _ => faithful _,
   fun _ _ _ _ => faithful _, fun _ _ _ => faithful _, fun _ => faithful _, fun _ _ _ _ => faithful _, fun _ _ _ => faithful _,
   fun _ _ _ _ => faithful _, fun _ _ _ => faithful _, fun _ => faithful _, fun _ _ _ _ => faithful _, fun _ _ _ _ => faithful _,
   fun _ _ _ _ _ => faithful _, fun _ => faithful _, fun _ _ _ _ => faithful _, fun _ => faithful _⟩

/-- C70. The functions of `core/src/ecdsa.rs` and `core/src/ecdh.rs`. -/
theorem C70_ecdsa :
    (∀ a b c, Faithful (Ecdsa.ecdhRaw a b c)) ∧ (∀ a b c d e, Faithful (Ecdsa.recoverRaw a b c d e)) ∧
    (∀ a b c d e, Faithful (Ecdsa.recoverTail a b c d e)) ∧ (∀ a b, Faithful (Ecdsa.recoverX a b)) ∧
    (∀ a b c d, Faithful (Ecdsa.signRaw a b c d)) ∧ (∀ a b c, Faithful (Ecdsa.signTail a b c)) ∧
    (∀ a b c d e, Faithful (Ecdsa.verifyRaw a b c d e)) ∧ (∀ a b, Faithful (Ecdsa.verifySecond a b)) ∧
    (∀ a b, Faithful (Ecdsa.verifyTail a b)) :=
  ⟨fun _ _ _ => faithful _, fun _ _ _ _ _ => faithful _, fun _ _ _ _ _ => faithful _, fun _ _ => faithful _, fun _ _ _ _ => faithful _,
   fun _ _ _ => faithful _, fun _ _ _ _ _ => faithful _, fun _ _ => faithful _, fun _ _ => faithful _⟩

/-- C70. The DER decoder. -/
theorem C70_decoder :
    (∀ a b c z, Faithful (Decoder.badLead a b c z)) ∧ (∀ a b c z, Faithful (Decoder.finishInt a b c z)) ∧
    (∀ a b z, Faithful (Decoder.peek a b z)) ∧ (∀ a b z, Faithful (Decoder.peekSlice a b z)) ∧ (∀ a z, Faithful (Decoder.read a z)) ∧
    (∀ a z, Faithful (Decoder.readConstructedSequence a z)) ∧ (∀ a z, Faithful (Decoder.readInteger a z)) ∧
    (∀ a z, Faithful (Decoder.readIntegerLax a z)) ∧ (∀ a z, Faithful (Decoder.readLen a z)) ∧ (∀ a z, Faithful (Decoder.readLenLax a z)) ∧
    (∀ a z, Faithful (Decoder.readLenLaxEnd a z)) ∧ (∀ a b z, Faithful (Decoder.readLenLaxLong a b z)) ∧
    (∀ a b c z, Faithful (Decoder.readLenLaxLoop a b c z)) ∧ (∀ a b z, Faithful (Decoder.readLenLong a b z)) ∧
    (∀ a b c z, Faithful (Decoder.readLenLoop a b c z)) ∧ (∀ a z, Faithful (Decoder.readSeqLenLax a z)) ∧
    (∀ z, Faithful (Decoder.remainingLen z)) ∧ (∀ a b z, Faithful (Decoder.skip a b z)) ∧ (∀ a b z, Faithful (Decoder.skipZeros a b z)) ∧
    (∀ a b z, Faithful (Decoder.skipZerosLax a b z)) ∧ (∀ a b c, Faithful (Decoder.outside a b c)) ∧ (∀ a b, Faithful (Decoder.padB32 a b)) ∧
    (∀ a, Faithful (SignatureArray.asRef a)) ∧ (∀ a b c, Faithful (addU a b c)) ∧ (∀ a b c, Faithful (slice a b c)) :=
  ⟨fun a b c z => (AgreesD.out (x := (Decoder.badLead a b c)) z).out, fun a b c z => (AgreesD.out (x := (Decoder.finishInt a b c)) z).out,
   fun a b z => (AgreesD.out (x := (Decoder.peek a b)) z).out, fun a b z => (AgreesD.out (x := (Decoder.peekSlice a b)) z).out,
   fun a z => (AgreesD.out (x := (Decoder.read a)) z).out, fun a z => (AgreesD.out (x := (Decoder.readConstructedSequence a)) z).out,
   fun a z => (AgreesD.out (x := (Decoder.readInteger a)) z).out, fun a z => (AgreesD.out (x := (Decoder.readIntegerLax a)) z).out,
   fun a z => (AgreesD.out (x := (Decoder.readLen a)) z).out, fun a z => (AgreesD.out (x := (Decoder.readLenLax a)) z).out,
   fun a z => (AgreesD.out (x := (Decoder.readLenLaxEnd a)) z).out, fun a b z => (AgreesD.out (x := (Decoder.readLenLaxLong a b)) z).out,
   fun a b c z => (AgreesD.out (x := (Decoder.readLenLaxLoop a b c)) z).out,
   fun a b z => (AgreesD.out (x := (Decoder.readLenLong a b)) z).out, fun a b c z => (AgreesD.out (x := (Decoder.readLenLoop a b c)) z).out,
   fun a z => (AgreesD.out (x := (Decoder.readSeqLenLax a)) z).out, fun z => (AgreesD.out (x := Decoder.remainingLen) z).out,
   fun a b z => (AgreesD.out (x := (Decoder.skip a b)) z).out, fun a b z => (AgreesD.out (x := (Decoder.skipZeros a b)) z).out,
   fun a b z => (AgreesD.out (x := (Decoder.skipZerosLax a b)) z).out, fun _ _ _ => faithful _, fun _ _ => faithful _, fun _ => faithful _,
   fun _ _ _ => faithful _, fun _ _ _ => faithful _⟩

/-- C70. The build script. -/
theorem C70_build :
    (∀ a b, Faithful (StaticContext.genRow a b)) ∧ Faithful StaticContext.generateEcmult ∧ Faithful StaticContext.generateGenmult :=
  ⟨fun _ _ => faithful _, faithful _, faithful _⟩

/-- The premise is met and is not vacuous in general: an addition that overflows in a debug build does
not return there. -/
example : add32 1 2 .debug = some 3 ∧ add32 0xFFFFFFFF 1 .debug = none ∧ add32 0xFFFFFFFF 1 .release = some 0 := by decide

end Verif.Props
