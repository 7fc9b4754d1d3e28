import Verif.Proofs.Total
import Verif.Props.Safety

/-!
# Release builds never panic (C78)

No hypothesis on what the objects hold: limbs, flags and coordinates are arbitrary, so the statements cover
objects built from the public fields of `Signature`, `Message`, `Affine` and `Scalar`, cleared secret keys
and public keys derived from them.  The lengths of the tables are those of the array types in the source.
-/

namespace Verif.Props
open Verif Spec Ecmult Ecdsa Signature

/-- The release build returns. -/
def Returns {α : Type} (x : Exec α) : Prop := ∃ a, x .release = some a

theorem returns {α : Type} (x : Exec α) [h : Total x] : Returns x := h.out

theorem returns_of {α : Type} {x : Exec α} (h : Total x) : Returns x := h.out

theorem total_newContext {α : Type} {f : List AffineStorage → Exec α} (h : ∀ ctx, ctx.length = 16384 → Total (f ctx)) : Total (newContext >>= f) :=
  ((rel_of_runs newContext_runs).bind fun ctx hc => (h ctx hc.1).rel).total

theorem total_newGenContext {α : Type} {f : GenContext → Exec α} (h : ∀ ctx, GenShape ctx.prec → Total (f ctx)) : Total (newGenContext >>= f) := by
  refine ((rel_of_runs newGenContext_runs).bind fun ctx hc => (h ctx ⟨hc.1.rows, fun row hr => ?_⟩).rel).total
  obtain ⟨j, hj, rfl⟩ := List.getElem_of_mem hr
  exact hc.1.cols j hj

/-- C78, secret keys with any limbs. -/
theorem C78_secret (k t : SecretKey) :
    Returns (SecretKey.tweakAddAssign k t) ∧ Returns (SecretKey.tweakMulAssign k t) ∧ Returns (SecretKey.inv k) := by
  have h1 : Total (SecretKey.tweakAddAssign k t) := by unfold SecretKey.tweakAddAssign; total
  have h2 : Total (SecretKey.tweakMulAssign k t) := by unfold SecretKey.tweakMulAssign; total
  have h3 : Total (SecretKey.inv k) := by unfold SecretKey.inv; total
  exact ⟨h1.out, h2.out, h3.out⟩

theorem total_fromSecret {ctx : GenContext} (h : GenShape ctx.prec) (t : SecretKey) : Total (PublicKey.fromSecretKeyWithContext t ctx) := by
  have := total_ecmultGen h
  unfold PublicKey.fromSecretKeyWithContext; total

theorem total_tweakAdd {ctx : List AffineStorage} (h : ctx.length = 16384) (k : PublicKey) (t : SecretKey) :
    Total (PublicKey.tweakAddAssignWithContext k t ctx) := by
  have := total_ecmult h
  unfold PublicKey.tweakAddAssignWithContext; total

theorem total_tweakMul {ctx : List AffineStorage} (h : ctx.length = 16384) (k : PublicKey) (t : SecretKey) :
    Total (PublicKey.tweakMulAssignWithContext k t ctx) := by
  have := total_ecmult h
  unfold PublicKey.tweakMulAssignWithContext; total

theorem total_combineLoop (keys : List PublicKey) (q : Jacobian) : Total (PublicKey.combineLoop keys q) := by
  induction keys generalizing q with
  | nil => unfold PublicKey.combineLoop; infer_instance
  | cons k keys ih => unfold PublicKey.combineLoop; exact total_bind inferInstance fun _ => ih _

instance total_serialize (k : PublicKey) : Total (PublicKey.serialize k) := by unfold PublicKey.serialize; total

/-- C78, public keys with any coordinates, limbs and flags. -/
theorem C78_public (k k' : PublicKey) (keys : List PublicKey) (t : SecretKey) (a : Affine) (D : Digest) (B : Base64) (hr : Bool)
    (ctx : List AffineStorage) (gctx : GenContext) (hc : ctx.length = 16384) (hg : GenShape gctx.prec) :
    Returns (PublicKey.fromSecretKey t) ∧ Returns (PublicKey.fromSecretKeyWithContext t gctx) ∧
    Returns (PublicKey.serialize k) ∧ Returns (PublicKey.serializeCompressed k) ∧ Returns (PublicKey.eq k k') ∧
    Returns (PublicKey.tweakAddAssign k t) ∧ Returns (PublicKey.tweakAddAssignWithContext k t ctx) ∧
    Returns (PublicKey.tweakMulAssign k t) ∧ Returns (PublicKey.tweakMulAssignWithContext k t ctx) ∧
    Returns (PublicKey.combine keys) ∧ Returns (PublicKey.tryFrom a) ∧ Returns (SharedSecret.new D k t) ∧
    Returns (PublicKey.serdeSerialize B hr k) := by
  refine ⟨?_, returns_of (total_fromSecret hg t), returns _, ?_, ?_, ?_, returns_of (total_tweakAdd hc k t), ?_,
    returns_of (total_tweakMul hc k t), ?_, ?_, ?_, ?_⟩
  · unfold PublicKey.fromSecretKey; exact returns_of (total_newGenContext fun _ h => total_fromSecret h t)
  · unfold PublicKey.serializeCompressed; exact returns_of (by total)
  · unfold PublicKey.eq; exact returns _
  · unfold PublicKey.tweakAddAssign; exact returns_of (total_newContext fun _ h => total_tweakAdd h k t)
  · unfold PublicKey.tweakMulAssign; exact returns_of (total_newContext fun _ h => total_tweakMul h k t)
  · unfold PublicKey.combine; exact returns_of (total_bind (total_combineLoop _ _) fun _ => by total)
  · unfold PublicKey.tryFrom; exact returns_of (by total)
  · unfold SharedSecret.new; exact returns_of (by total)
  · unfold PublicKey.serdeSerialize; exact returns_of (by total)

theorem total_signLoop (D : Drbg) {ctx : GenContext} (h : GenShape ctx.prec) (k m : Scalar) (fuel : Nat) (s : D.State) :
    Total (signLoop D ctx k m fuel s) := by
  induction fuel generalizing s with
  | zero => unfold signLoop; infer_instance
  | succ fuel ih =>
    have := total_signRaw h
    unfold signLoop; total

theorem total_sign (D : Drbg) (fuel : Nat) {ctx : GenContext} (h : GenShape ctx.prec) (m : Message) (k : SecretKey) :
    Total (signWithContext D fuel m k ctx) := by
  have := total_signLoop D h
  unfold signWithContext; total

/-- C78, signatures, messages and recovery ids with any contents. -/
theorem C78_signature (m : Message) (sig : Signature) (id : RecoveryId) (pk : PublicKey) (sk : SecretKey) (D : Drbg) (fuel : ℕ)
    (ctx : List AffineStorage) (gctx : GenContext) (hc : ctx.length = 16384) (hg : GenShape gctx.prec) :
    Returns (verify m sig pk) ∧ Returns (verifyWithContext m sig pk ctx) ∧ Returns (recover m sig id) ∧
    Returns (recoverWithContext m sig id ctx) ∧ Returns (sign D fuel m sk) ∧ Returns (signWithContext D fuel m sk gctx) ∧
    Returns (serializeDer sig) ∧ Returns (normalizeS sig) := by
  have hr : ∀ {ctx : List AffineStorage}, ctx.length = 16384 → Total (recoverWithContext m sig id ctx) := by
    intro ctx hc
    have := total_recoverRaw hc
    unfold recoverWithContext; total
  refine ⟨?_, returns_of (total_verifyRaw hc _ _ _ _), ?_, returns_of (hr hc), ?_, returns_of (total_sign D fuel hg m sk), ?_, ?_⟩
  · unfold verify; exact returns_of (total_newContext fun _ h => total_verifyRaw h _ _ _ _)
  · unfold recover; exact returns_of (total_newContext fun _ h => hr h)
  · unfold sign; exact returns_of (total_newGenContext fun _ h => total_sign D fuel h m sk)
  · exact returns_of (total_of_runs (serializeDer_runs sig))
  · unfold normalizeS; exact returns_of (by total)

/-- C78, the parsers of signatures on every slice (`W` is the width of `usize`). -/
theorem C78_der (W : ℕ) (b : List UInt8) (hb : IsSlice W b) : Returns (parseDer W b) ∧ Returns (parseDerLax W b) := by
  obtain ⟨⟨o, h⟩, ⟨o', h', _⟩⟩ := C41_no_panic_partial W b hb
  exact ⟨⟨o', h'⟩, ⟨o, by rw [h]; rfl⟩⟩

/-- C78, the core crate: scalars, field elements and points with any limbs, magnitudes and flags. -/
theorem C78_core (a b : Scalar) (f g : FElem) (m c : UInt32) (P Q : Affine) (J K : Jacobian) (rzr : Option FElem)
    (ctx : List AffineStorage) (gctx : GenContext) (b32 : Vector UInt8 32) (flag : Bool) (k o : ℕ)
    (hc : ctx.length = 16384) (hg : GenShape gctx.prec) (ho : o < 256) :
    Returns (Scalar.add a b) ∧ Returns (Scalar.mul a b) ∧ Returns (Scalar.sqr a) ∧ Returns (Scalar.neg a) ∧ Returns (Scalar.inv a) ∧
    Returns (Scalar.condNeg a flag) ∧ Returns (Scalar.caddBit a k flag) ∧ Returns (Scalar.shrInt a k) ∧ Returns (Scalar.bits a o k) ∧
    Returns (FElem.add f g) ∧ Returns (FElem.mul f g) ∧ Returns (FElem.sqr f) ∧ Returns (FElem.neg f m) ∧
    Returns (FElem.mulInt f c) ∧ Returns (FElem.normalize f) ∧ Returns (FElem.normalizeWeak f) ∧ Returns (FElem.normalizeVar f) ∧
    Returns (FElem.normalizesToZero f) ∧ Returns (FElem.normalizesToZeroVar f) ∧ Returns (FElem.inv f) ∧ Returns (FElem.sqrt f) ∧
    Returns (FElem.setB32 f b32) ∧ Returns (FElem.b32 f) ∧ Returns (FElem.eq f g) ∧ Returns (FElem.cmpVar f g) ∧
    Returns (Affine.setGej J) ∧ Returns (Affine.setXoVar f flag) ∧ Returns (Affine.isValidVar P) ∧ Returns (Affine.eq P Q) ∧
    Returns (Jacobian.addVar J K rzr) ∧ Returns (Jacobian.addGeVar J P rzr) ∧ Returns (Jacobian.addGe J P) ∧
    Returns (Jacobian.doubleVar J rzr) ∧ Returns (Jacobian.addZinvVar J P f) ∧
    Returns (ecmult ctx J a b) ∧ Returns (ecmultConst P a) ∧ Returns (ecmultGen gctx a) :=
  ⟨returns _, returns _, returns _, returns _, returns _, returns _, returns _, returns _, returns_of (total_bits a ho), returns _,
    returns _, returns _, returns _, returns _, returns _, returns _, returns _, returns _, returns _, returns _, returns _, returns _,
    returns _, returns _, returns _, returns _, returns _, returns _, returns _, returns _, returns _, returns _, returns _, returns _,
    returns_of (total_ecmult hc J a b), returns _, returns_of (total_ecmultGen hg a)⟩

/-- The hypotheses on tables are met by the static ones, and debug builds do panic on such objects: the key
at infinity cannot be serialized there. -/
example : (∃ ctx, newContext = pure ctx ∧ ctx.length = 16384) ∧ (∃ g, newGenContext = pure g ∧ GenShape g.prec) ∧
    ∃ k : PublicKey, PublicKey.serialize k .debug = none ∧ Returns (PublicKey.serialize k) := by
  refine ⟨?_, ?_, ⟨⟨FElem.zero, FElem.zero, true⟩⟩, rfl, returns _⟩
  · obtain ⟨c, h, hc⟩ := newContext_runs; exact ⟨c, h, hc.1⟩
  · obtain ⟨c, h, hc, _⟩ := newGenContext_runs
    refine ⟨c, h, hc.rows, fun row hr => ?_⟩
    obtain ⟨j, hj, rfl⟩ := List.getElem_of_mem hr
    exact hc.cols j hj

end Verif.Props
