import Verif.Model.Lib
import Verif.Model.StaticContext

/-! A debug build that does not panic computes what a release build computes: every function of the model. -/

namespace Verif

/-- If the debug build returns, the release build returns the same value. -/
class Agrees {α : Type} (x : Exec α) : Prop where
  out : ∀ a, x .debug = some a → x .release = some a

instance agrees_pure {α : Type} (a : α) : Agrees (pure a : Exec α) := ⟨fun _ h => h⟩

instance agrees_panic {α : Type} : Agrees (panic : Exec α) := ⟨fun _ h => h⟩

theorem agrees_bind {α β : Type} {x : Exec α} {f : α → Exec β} (hx : Agrees x) (hf : ∀ a, Agrees (f a)) : Agrees (x >>= f) := by
  refine ⟨fun b h => ?_⟩
  have h : (x .debug).bind (fun a => f a .debug) = some b := h
  obtain ⟨a, ha, hb⟩ := Option.bind_eq_some_iff.1 h
  show (x .release).bind (fun a => f a .release) = some b
  rw [hx.out a ha]
  exact (hf a).out b hb

instance (c : Bool) : Agrees (dassert c) := ⟨fun _ _ => rfl⟩
instance (c : Bool) : Agrees (rassert c) := ⟨fun _ h => h⟩

theorem agrees_loop {σ : Type} {n : Nat} {f : Nat → σ → Exec σ} {s : σ} (h : ∀ i s, Agrees (f i s)) : Agrees (forN n f s) := by
  induction n generalizing s with
  | zero => exact agrees_pure s
  | succ n ih => exact agrees_bind ih fun _ => h _ _

theorem agrees_loopRev {σ : Type} {n : Nat} {f : Nat → σ → Exec σ} {s : σ} (h : ∀ i s, Agrees (f i s)) : Agrees (Ecmult.forRev n f s) := by
  induction n generalizing s with
  | zero => exact agrees_pure s
  | succ n ih => exact agrees_bind (h _ _) fun _ => ih

theorem agrees_tabulate {α : Type} {n : Nat} {f : Nat → Exec α} (h : ∀ i, Agrees (f i)) : Agrees (tabulate n f) :=
  agrees_loop fun _ _ => agrees_bind (h _) fun _ => agrees_pure _

/-- Walks through the body of a definition. -/
macro "agree" : tactic => `(tactic| repeat' first | infer_instance | assumption | (with_reducible refine agrees_loop ?_) | (with_reducible refine agrees_loopRev ?_) | (with_reducible refine agrees_tabulate ?_) | (with_reducible refine agrees_bind ?_ ?_) | intro _ | split | dsimp only)

instance (a b : UInt32) : Agrees (add32 a b) := by unfold add32; agree
instance (a b : UInt32) : Agrees (sub32 a b) := by unfold sub32; agree
instance (a b : UInt32) : Agrees (mul32 a b) := by unfold mul32; agree
instance (a : UInt32) (k : Nat) : Agrees (shl32 a k) := by unfold shl32; agree
instance (a : UInt32) (k : Nat) : Agrees (shr32 a k) := by unfold shr32; agree
instance (a b : UInt64) : Agrees (add64 a b) := by unfold add64; agree
instance (a b : UInt64) : Agrees (mul64 a b) := by unfold mul64; agree
instance (a b : UInt8) : Agrees (add8 a b) := by unfold add8; agree
instance (a b : Nat) : Agrees (subNat a b) := by unfold subNat; agree
instance (x : UInt8) : Agrees (choiceFrom x) := by unfold choiceFrom; agree
instance {α : Type} (l : List α) (i : Nat) : Agrees (idx l i) := by unfold idx; agree

/-- The same for the methods of the decoder. -/
class AgreesD {α : Type} (x : Dec α) : Prop where
  out : ∀ d, Agrees (x d)

instance agreesD_pure {α : Type} (a : α) : AgreesD (pure a : Dec α) := ⟨fun d => agrees_pure (Except.ok a, d)⟩
instance agreesD_get : AgreesD (get : Dec Decoder) := ⟨fun d => agrees_pure (Except.ok d, d)⟩
instance agreesD_set (d : Decoder) : AgreesD (set d : Dec Unit) := ⟨fun _ => agrees_pure (Except.ok (), d)⟩
instance agreesD_throw {α : Type} (e : Error) : AgreesD (throw e : Dec α) := ⟨fun d => agrees_pure (Except.error e, d)⟩

theorem agreesD_bind {α β : Type} {x : Dec α} {f : α → Dec β} (hx : AgreesD x) (hf : ∀ a, AgreesD (f a)) : AgreesD (x >>= f) := by
  refine ⟨fun d => ?_⟩
  refine agrees_bind (hx.out d) fun r => ?_
  obtain ⟨e | v, d'⟩ := r
  · exact agrees_pure _
  · exact (hf v).out d'

theorem agrees_of_eq {α : Type} {x y : Exec α} (h : x = y) (hy : Agrees y) : Agrees x := h ▸ hy

theorem agreesD_lift {α : Type} {x : Exec α} (hx : Agrees x) : AgreesD (x : Dec α) := by
  refine ⟨fun d => ?_⟩
  refine agrees_of_eq (y := x >>= fun a => pure (Except.ok a, d)) ?_ (agrees_bind hx fun _ => agrees_pure _)
  funext π
  show ((x π).bind _).bind _ = (x π).bind _
  cases x π <;> rfl

/-- The same for decoder methods. -/
macro "agreeD" : tactic => `(tactic| repeat' first | infer_instance | assumption | (refine agreesD_lift ?_; infer_instance) | refine agreesD_bind ?_ ?_ | intro _ | split | dsimp only)

instance Scalar.limb_agrees (a : Scalar) (i : Nat) : Agrees (Scalar.limb a i) := by unfold Scalar.limb; agree
instance Scalar.bits_agrees (a : Scalar) (offset : Nat) (count : Nat) : Agrees (Scalar.bits a offset count) := by unfold Scalar.bits; agree
instance Scalar.bitsVar_agrees (a : Scalar) (offset : Nat) (count : Nat) : Agrees (Scalar.bitsVar a offset count) := by unfold Scalar.bitsVar; agree
instance Scalar.carryStep_agrees (t : UInt64) (x : UInt64) : Agrees (Scalar.carryStep t x) := by unfold Scalar.carryStep; agree
instance Scalar.addMul_agrees (x : UInt32) (o : UInt64) (c : UInt32) : Agrees (Scalar.addMul x o c) := by unfold Scalar.addMul; agree
instance Scalar.reduce_agrees (a : Scalar) (overflow : Bool) : Agrees (Scalar.reduce a overflow) := by unfold Scalar.reduce; agree
instance Scalar.caddBit_agrees (a : Scalar) (bit : Nat) (flag : Bool) : Agrees (Scalar.caddBit a bit flag) := by unfold Scalar.caddBit; agree
instance Scalar.setB32_agrees (b : Vector UInt8 32) : Agrees (Scalar.setB32 b) := by unfold Scalar.setB32; agree
instance Scalar.condNegStep_agrees (t : UInt64) (nonzero : UInt64) (mask : UInt32) (d : UInt32) (nlimb : UInt32) : Agrees (Scalar.condNegStep t nonzero mask d nlimb) := by unfold Scalar.condNegStep; agree
instance Scalar.condNeg_agrees (a : Scalar) (flag : Bool) : Agrees (Scalar.condNeg a flag) := by unfold Scalar.condNeg; agree
instance Scalar.muladd_agrees (c : Scalar.Acc) (a : UInt32) (b : UInt32) : Agrees (Scalar.muladd c a b) := by unfold Scalar.muladd; agree
instance Scalar.muladdFast_agrees (c : Scalar.Acc) (a : UInt32) (b : UInt32) : Agrees (Scalar.muladdFast c a b) := by unfold Scalar.muladdFast; agree
instance Scalar.muladd2_agrees (c : Scalar.Acc) (a : UInt32) (b : UInt32) : Agrees (Scalar.muladd2 c a b) := by unfold Scalar.muladd2; agree
instance Scalar.sumadd_agrees (c : Scalar.Acc) (a : UInt32) : Agrees (Scalar.sumadd c a) := by unfold Scalar.sumadd; agree
instance Scalar.sumaddFast_agrees (c : Scalar.Acc) (a : UInt32) : Agrees (Scalar.sumaddFast c a) := by unfold Scalar.sumaddFast; agree
instance Scalar.extract_agrees (c : Scalar.Acc) : Agrees (Scalar.extract c) := by unfold Scalar.extract; agree
instance Scalar.extractFast_agrees (c : Scalar.Acc) : Agrees (Scalar.extractFast c) := by unfold Scalar.extractFast; agree
instance Scalar.reduce512a_agrees (l : Scalar.Limbs16) : Agrees (Scalar.reduce512a l) := by unfold Scalar.reduce512a; agree
instance Scalar.reduce512b_agrees (m : Scalar.Limbs13) : Agrees (Scalar.reduce512b m) := by unfold Scalar.reduce512b; agree
instance Scalar.reduce512c_agrees (p : Scalar.Limbs9) : Agrees (Scalar.reduce512c p) := by unfold Scalar.reduce512c; agree
instance Scalar.reduce512_agrees (l : Scalar.Limbs16) : Agrees (Scalar.reduce512 l) := by unfold Scalar.reduce512; agree
instance Scalar.mul512_agrees (a : Scalar) (b : Scalar) : Agrees (Scalar.mul512 a b) := by unfold Scalar.mul512; agree
instance Scalar.sqr512_agrees (a : Scalar) : Agrees (Scalar.sqr512 a) := by unfold Scalar.sqr512; agree
instance Scalar.mul_agrees (a : Scalar) (b : Scalar) : Agrees (Scalar.mul a b) := by unfold Scalar.mul; agree
instance Scalar.sqr_agrees (a : Scalar) : Agrees (Scalar.sqr a) := by unfold Scalar.sqr; agree
instance Scalar.shrStep_agrees (lo : UInt32) (hi : UInt32) (n : Nat) : Agrees (Scalar.shrStep lo hi n) := by unfold Scalar.shrStep; agree
instance Scalar.shrInt_agrees (a : Scalar) (n : Nat) : Agrees (Scalar.shrInt a n) := by unfold Scalar.shrInt; agree
instance Scalar.sqrN_agrees (k : Nat) (t : Scalar) : Agrees (Scalar.sqrN k t) := by unfold Scalar.sqrN; agree
instance Scalar.inv_agrees (x : Scalar) : Agrees (Scalar.inv x) := by unfold Scalar.inv; agree
instance Scalar.add_agrees (a : Scalar) (b : Scalar) : Agrees (Scalar.add a b) := by unfold Scalar.add; agree
instance Scalar.neg_agrees (a : Scalar) : Agrees (Scalar.neg a) := by unfold Scalar.neg; agree
instance FElem.dassertE_agrees (x : Exec Bool) : Agrees (FElem.dassertE x) := ⟨fun _ _ => rfl⟩
theorem FElem.andThen_agrees {r : Bool} {x : Exec Bool} (h : Agrees x) : Agrees (FElem.andThen r x) := by unfold FElem.andThen; agree
instance FElem.leMul_agrees (x : UInt32) (c : UInt32) (m : UInt32) : Agrees (FElem.leMul x c m) := by unfold FElem.leMul; agree
instance FElem.lowSum_agrees (t : Limbs10) : Agrees (FElem.lowSum t) := by unfold FElem.lowSum; agree
instance FElem.verify_agrees (f : FElem) : Agrees (FElem.verify f) := by
  unfold FElem.verify
  repeat' first | infer_instance | refine FElem.andThen_agrees ?_ | refine agrees_bind ?_ ?_ | intro _ | split
instance FElem.carry_agrees (t : Limbs10) : Agrees (FElem.carry t) := by unfold FElem.carry; agree
instance FElem.pass_agrees (t : Limbs10) : Agrees (FElem.pass t) := by unfold FElem.pass; agree
instance FElem.finalX_agrees (t : Limbs10) : Agrees (FElem.finalX t) := by unfold FElem.finalX; agree
instance FElem.normalize_agrees (f : FElem) : Agrees (FElem.normalize f) := by unfold FElem.normalize; agree
instance FElem.normalizeWeak_agrees (f : FElem) : Agrees (FElem.normalizeWeak f) := by unfold FElem.normalizeWeak; agree
instance FElem.varTail_agrees (t : Limbs10) (x : UInt32) : Agrees (FElem.varTail t x) := by unfold FElem.varTail; agree
instance FElem.normalizeVar_agrees (f : FElem) : Agrees (FElem.normalizeVar f) := by unfold FElem.normalizeVar; agree
instance FElem.normalizesToZero_agrees (f : FElem) : Agrees (FElem.normalizesToZero f) := by unfold FElem.normalizesToZero; agree
instance FElem.normalizesToZeroVar_agrees (f : FElem) : Agrees (FElem.normalizesToZeroVar f) := by unfold FElem.normalizesToZeroVar; agree
instance FElem.setInt_agrees (a : UInt32) : Agrees (FElem.setInt a) := by unfold FElem.setInt; agree
instance FElem.fromInt_agrees (a : UInt32) : Agrees (FElem.fromInt a) := by unfold FElem.fromInt; agree
instance FElem.isZero_agrees (f : FElem) : Agrees (FElem.isZero f) := by unfold FElem.isZero; agree
instance FElem.isOdd_agrees (f : FElem) : Agrees (FElem.isOdd f) := by unfold FElem.isOdd; agree
instance FElem.isOverflow_agrees (t : Limbs10) : Agrees (FElem.isOverflow t) := by unfold FElem.isOverflow; agree
instance FElem.setB32_agrees (f : FElem) (b : Vector UInt8 32) : Agrees (FElem.setB32 f b) := by unfold FElem.setB32; agree
instance FElem.b32_agrees (f : FElem) : Agrees (FElem.b32 f) := by unfold FElem.b32; agree
instance FElem.negLimb_agrees (c : UInt32) (m : UInt32) (x : UInt32) : Agrees (FElem.negLimb c m x) := by unfold FElem.negLimb; agree
instance FElem.neg_agrees (other : FElem) (m : UInt32) : Agrees (FElem.neg other m) := by unfold FElem.neg; agree
instance FElem.mulInt_agrees (f : FElem) (a : UInt32) : Agrees (FElem.mulInt f a) := by unfold FElem.mulInt; agree
instance FElem.add_agrees (f : FElem) (g : FElem) : Agrees (FElem.add f g) := by unfold FElem.add; agree
instance FElem.cmpVar_agrees (f : FElem) (g : FElem) : Agrees (FElem.cmpVar f g) := by unfold FElem.cmpVar; agree
instance FElem.eqVar_agrees (f : FElem) (g : FElem) : Agrees (FElem.eqVar f g) := by unfold FElem.eqVar; agree
instance FElem.eq_agrees (f : FElem) (g : FElem) : Agrees (FElem.eq f g) := by unfold FElem.eq; agree
instance FElem.mulInner_agrees (a : Limbs10) (b : Limbs10) : Agrees (FElem.mulInner a b) := by unfold FElem.mulInner; agree
instance FElem.sqrInner_agrees (a : Limbs10) : Agrees (FElem.sqrInner a) := by unfold FElem.sqrInner; agree
instance FElem.mul_agrees (a : FElem) (b : FElem) : Agrees (FElem.mul a b) := by unfold FElem.mul; agree
instance FElem.sqr_agrees (a : FElem) : Agrees (FElem.sqr a) := by unfold FElem.sqr; agree
instance FElem.sqrN_agrees (k : Nat) (x : FElem) : Agrees (FElem.sqrN k x) := by unfold FElem.sqrN; agree
instance FElem.sqrt_agrees (self : FElem) : Agrees (FElem.sqrt self) := by unfold FElem.sqrt; agree
instance FElem.inv_agrees (self : FElem) : Agrees (FElem.inv self) := by unfold FElem.inv; agree
instance FElem.isQuadVar_agrees (f : FElem) : Agrees (FElem.isQuadVar f) := by unfold FElem.isQuadVar; agree
instance FieldStorage.ofField_agrees (f : FElem) : Agrees (FieldStorage.ofField f) := by unfold FieldStorage.ofField; agree
instance Affine.eq_agrees (a : Affine) (b : Affine) : Agrees (Affine.eq a b) := by unfold Affine.eq; agree
instance Affine.setXquad_agrees (x : FElem) : Agrees (Affine.setXquad x) := by unfold Affine.setXquad; agree
instance Affine.fixParity_agrees (a : Affine) (odd : Bool) : Agrees (Affine.fixParity a odd) := by unfold Affine.fixParity; agree
instance Affine.setXoVar_agrees (x : FElem) (odd : Bool) : Agrees (Affine.setXoVar x odd) := by unfold Affine.setXoVar; agree
instance Affine.isValidVar_agrees (a : Affine) : Agrees (Affine.isValidVar a) := by unfold Affine.isValidVar; agree
instance Affine.neg_agrees (a : Affine) : Agrees (Affine.neg a) := by unfold Affine.neg; agree
instance Affine.setGej_agrees (a : Jacobian) : Agrees (Affine.setGej a) := by unfold Affine.setGej; agree
instance Affine.setGejVar_agrees (self : Affine) (a : Jacobian) : Agrees (Affine.setGejVar self a) := by unfold Affine.setGejVar; agree
instance Affine.setGejZinv_agrees (a : Jacobian) (zi : FElem) : Agrees (Affine.setGejZinv a zi) := by unfold Affine.setGejZinv; agree
instance Affine.toStorage_agrees (a : Affine) : Agrees (Affine.toStorage a) := by unfold Affine.toStorage; agree
instance setIdx_agrees {α : Type} (l : List α) (i : Nat) (v : α) : Agrees (setIdx l i v) := by unfold setIdx; agree
instance setTableLoop_agrees (a : List Jacobian) (zr : List FElem) (i : Nat) (zi : FElem) (r : List Affine) :
    Agrees (setTableLoop a zr i zi r) := by
  induction i generalizing zi r with
  | zero => unfold setTableLoop; agree
  | succ i ih => unfold setTableLoop; agree
instance setTableGejVar_agrees (r : List Affine) (a : List Jacobian) (zr : List FElem) : Agrees (setTableGejVar r a zr) := by unfold setTableGejVar; agree
instance globalzStep_agrees (zr : List FElem) (len : Nat) (i : Nat) (zs : FElem) : Agrees (globalzStep zr len i zs) := by unfold globalzStep; agree
instance globalzLoop_agrees (a : List Jacobian) (zr : List FElem) (i : Nat) (zs : FElem) (r : List Affine) :
    Agrees (globalzLoop a zr i zs r) := by
  induction i generalizing zs r with
  | zero => unfold globalzLoop; agree
  | succ i ih => unfold globalzLoop; agree
instance globalzSetTableGej_agrees (r : List Affine) (g : FElem) (a : List Jacobian) (zr : List FElem) : Agrees (globalzSetTableGej r g a zr) := by unfold globalzSetTableGej; agree
instance Jacobian.setGe_agrees (a : Affine) : Agrees (Jacobian.setGe a) := by unfold Jacobian.setGe; agree
instance Jacobian.eqXVar_agrees (a : Jacobian) (x : FElem) : Agrees (Jacobian.eqXVar a x) := by unfold Jacobian.eqXVar; agree
instance Jacobian.neg_agrees (a : Jacobian) : Agrees (Jacobian.neg a) := by unfold Jacobian.neg; agree
instance Jacobian.hasQuadYVar_agrees (a : Jacobian) : Agrees (Jacobian.hasQuadYVar a) := by unfold Jacobian.hasQuadYVar; agree
instance Jacobian.rzrSetInt_agrees (rzr : Option FElem) (v : UInt32) : Agrees (Jacobian.rzrSetInt rzr v) := by unfold Jacobian.rzrSetInt; agree
instance Jacobian.rzrDouble_agrees (rzr : Option FElem) (y : FElem) : Agrees (Jacobian.rzrDouble rzr y) := by unfold Jacobian.rzrDouble; agree
instance Jacobian.doubleCore_agrees (a : Jacobian) : Agrees (Jacobian.doubleCore a) := by unfold Jacobian.doubleCore; agree
instance Jacobian.doubleVarInPlace_agrees (self : Jacobian) (a : Jacobian) (rzr : Option FElem) : Agrees (Jacobian.doubleVarInPlace self a rzr) := by unfold Jacobian.doubleVarInPlace; agree
instance Jacobian.doubleNonzeroInPlace_agrees (self : Jacobian) (a : Jacobian) (rzr : Option FElem) : Agrees (Jacobian.doubleNonzeroInPlace self a rzr) := by unfold Jacobian.doubleNonzeroInPlace; agree
instance Jacobian.doubleVar_agrees (a : Jacobian) (rzr : Option FElem) : Agrees (Jacobian.doubleVar a rzr) := by unfold Jacobian.doubleVar; agree
instance Jacobian.addTail_agrees (u1 : FElem) (s1 : FElem) (h2 : FElem) (h3 : FElem) (i : FElem) (i2 : FElem) (z : FElem) : Agrees (Jacobian.addTail u1 s1 h2 h3 i i2 z) := by unfold Jacobian.addTail; agree
instance Jacobian.addEqualX_agrees (self : Jacobian) (a : Jacobian) (i : FElem) (rzr : Option FElem) : Agrees (Jacobian.addEqualX self a i rzr) := by unfold Jacobian.addEqualX; agree
instance Jacobian.addVarCore_agrees (self : Jacobian) (a : Jacobian) (b : Jacobian) (rzr : Option FElem) : Agrees (Jacobian.addVarCore self a b rzr) := by unfold Jacobian.addVarCore; agree
instance Jacobian.addVarInPlace_agrees (self : Jacobian) (a : Jacobian) (b : Jacobian) (rzr : Option FElem) : Agrees (Jacobian.addVarInPlace self a b rzr) := by unfold Jacobian.addVarInPlace; agree
instance Jacobian.addVar_agrees (a : Jacobian) (b : Jacobian) (rzr : Option FElem) : Agrees (Jacobian.addVar a b rzr) := by unfold Jacobian.addVar; agree
instance Jacobian.addGeVarCore_agrees (self : Jacobian) (a : Jacobian) (b : Affine) (rzr : Option FElem) : Agrees (Jacobian.addGeVarCore self a b rzr) := by unfold Jacobian.addGeVarCore; agree
instance Jacobian.addGeVarInPlace_agrees (self : Jacobian) (a : Jacobian) (b : Affine) (rzr : Option FElem) : Agrees (Jacobian.addGeVarInPlace self a b rzr) := by unfold Jacobian.addGeVarInPlace; agree
instance Jacobian.addGeVar_agrees (a : Jacobian) (b : Affine) (rzr : Option FElem) : Agrees (Jacobian.addGeVar a b rzr) := by unfold Jacobian.addGeVar; agree
instance Jacobian.addEqualXNone_agrees (self : Jacobian) (a : Jacobian) (i : FElem) : Agrees (Jacobian.addEqualXNone self a i) := by unfold Jacobian.addEqualXNone; agree
instance Jacobian.addZinvVarCore_agrees (self : Jacobian) (a : Jacobian) (b : Affine) (bzinv : FElem) : Agrees (Jacobian.addZinvVarCore self a b bzinv) := by unfold Jacobian.addZinvVarCore; agree
instance Jacobian.addZinvVarInPlace_agrees (self : Jacobian) (a : Jacobian) (b : Affine) (bzinv : FElem) : Agrees (Jacobian.addZinvVarInPlace self a b bzinv) := by unfold Jacobian.addZinvVarInPlace; agree
instance Jacobian.addZinvVar_agrees (a : Jacobian) (b : Affine) (bzinv : FElem) : Agrees (Jacobian.addZinvVar a b bzinv) := by unfold Jacobian.addZinvVar; agree
instance Jacobian.bothZero_agrees (m : FElem) (rr : FElem) : Agrees (Jacobian.bothZero m rr) := by unfold Jacobian.bothZero; agree
instance Jacobian.addGe_agrees (a : Jacobian) (b : Affine) : Agrees (Jacobian.addGe a b) := by unfold Jacobian.addGe; agree
instance Jacobian.rescale_agrees (a : Jacobian) (s : FElem) : Agrees (Jacobian.rescale a s) := by unfold Jacobian.rescale; agree
instance i32_agrees (x : Int) : Agrees (i32 x) := by unfold i32; agree
instance Ecmult.oddStep_agrees (dGe : Affine) (k : Nat) (s : List Jacobian × List FElem) : Agrees (Ecmult.oddStep dGe k s) := by unfold Ecmult.oddStep; agree
instance Ecmult.oddMultiplesTable_agrees (prej : List Jacobian) (zr : List FElem) (a : Jacobian) : Agrees (Ecmult.oddMultiplesTable prej zr a) := by unfold Ecmult.oddMultiplesTable; agree
instance Ecmult.oddMultiplesTableStorageVar_agrees (len : Nat) (a : Jacobian) : Agrees (Ecmult.oddMultiplesTableStorageVar len a) := by unfold Ecmult.oddMultiplesTableStorageVar; agree
instance Ecmult.newContext_agrees : Agrees (Ecmult.newContext) := by unfold Ecmult.newContext; agree
instance Ecmult.invForward_agrees (fields : List FElem) (k : Nat) (ret : List FElem) : Agrees (Ecmult.invForward fields k ret) := by unfold Ecmult.invForward; agree
instance Ecmult.invBackward_agrees (fields : List FElem) (k : Nat) (s : List FElem × FElem) : Agrees (Ecmult.invBackward fields k s) := by unfold Ecmult.invBackward; agree
instance Ecmult.invAllVar_agrees (fields : List FElem) : Agrees (Ecmult.invAllVar fields) := by unfold Ecmult.invAllVar; agree
instance Ecmult.setAllStep_agrees (a : List Jacobian) (azi : List FElem) (i : Nat) (s : List Affine × Nat) : Agrees (Ecmult.setAllStep a azi i s) := by unfold Ecmult.setAllStep; agree
instance Ecmult.setAllGejVar_agrees (a : List Jacobian) : Agrees (Ecmult.setAllGejVar a) := by unfold Ecmult.setAllGejVar; agree
instance Ecmult.precInner_agrees (gbase : Jacobian) (j : Nat) (k : Nat) (precj : List Jacobian) : Agrees (Ecmult.precInner gbase j k precj) := by unfold Ecmult.precInner; agree
instance Ecmult.precFix_agrees (numsGej : Jacobian) (j : Nat) (numsbase : Jacobian) : Agrees (Ecmult.precFix numsGej j numsbase) := by unfold Ecmult.precFix; agree
instance Ecmult.precOuter_agrees (numsGej : Jacobian) (j : Nat) (s : List Jacobian × Jacobian × Jacobian) : Agrees (Ecmult.precOuter numsGej j s) := by unfold Ecmult.precOuter; agree
instance Ecmult.newGenContext_agrees : Agrees (Ecmult.newGenContext) := by unfold Ecmult.newGenContext; agree
instance Ecmult.oddMultiplesTableGlobalz_agrees (a : Jacobian) : Agrees (Ecmult.oddMultiplesTableGlobalz a) := by unfold Ecmult.oddMultiplesTableGlobalz; agree
instance Ecmult.digitCheck_agrees (n : Int) (w : Nat) : Agrees (Ecmult.digitCheck n w) := by unfold Ecmult.digitCheck; agree
instance Ecmult.tableGetGe_agrees (pre : List Affine) (n : Int) (w : Nat) : Agrees (Ecmult.tableGetGe pre n w) := by unfold Ecmult.tableGetGe; agree
instance Ecmult.cmovLoop_agrees (pre : List Affine) (idxN : Nat) (r : Affine) : Agrees (Ecmult.cmovLoop pre idxN r) := by unfold Ecmult.cmovLoop; agree
instance Ecmult.tableGetGeConst_agrees (r : Affine) (pre : List Affine) (n : Int) (w : Nat) : Agrees (Ecmult.tableGetGeConst r pre n w) := by unfold Ecmult.tableGetGeConst; agree
instance Ecmult.tableGetGeStorage_agrees (pre : List AffineStorage) (n : Int) (w : Nat) : Agrees (Ecmult.tableGetGeStorage pre n w) := by unfold Ecmult.tableGetGeStorage; agree
instance Ecmult.bitsZero_agrees (s : Scalar) (fuel bit : Nat) : Agrees (Ecmult.bitsZero s fuel bit) := by
  induction fuel generalizing bit with
  | zero => unfold Ecmult.bitsZero; agree
  | succ i ih => unfold Ecmult.bitsZero; agree
instance Ecmult.wnafDigit_agrees (s : Scalar) (w : Nat) (sign : Int) (st : Ecmult.WnafState) : Agrees (Ecmult.wnafDigit s w sign st) := by unfold Ecmult.wnafDigit; agree
instance Ecmult.wnafStep_agrees (s : Scalar) (w : Nat) (sign : Int) (st : Ecmult.WnafState) : Agrees (Ecmult.wnafStep s w sign st) := by unfold Ecmult.wnafStep; agree
instance Ecmult.wnafLoop_agrees (s : Scalar) (w : Nat) (sign : Int) (fuel : Nat) (st : Ecmult.WnafState) :
    Agrees (Ecmult.wnafLoop s w sign fuel st) := by
  induction fuel generalizing st with
  | zero => unfold Ecmult.wnafLoop; agree
  | succ i ih => unfold Ecmult.wnafLoop; agree
instance Ecmult.wnafSign_agrees (a : Scalar) : Agrees (Ecmult.wnafSign a) := by unfold Ecmult.wnafSign; agree
instance Ecmult.ecmultWnaf_agrees (len : Nat) (a : Scalar) (w : Nat) : Agrees (Ecmult.ecmultWnaf len a w) := by unfold Ecmult.ecmultWnaf; agree
instance Ecmult.wnafConstStep_agrees (w : Nat) (globalSign : Int) (word : Nat) (st : Ecmult.WnafConstState) : Agrees (Ecmult.wnafConstStep w globalSign word st) := by unfold Ecmult.wnafConstStep; agree
instance Ecmult.ecmultWnafConst_agrees (wnaf : List Int) (a : Scalar) (w : Nat) : Agrees (Ecmult.ecmultWnafConst wnaf a w) := by unfold Ecmult.ecmultWnafConst; agree
instance Ecmult.ecmultAddA_agrees (preA : List Affine) (n : Int) (i : Int) (bitsNa : Int) (r : Jacobian) : Agrees (Ecmult.ecmultAddA preA n i bitsNa r) := by unfold Ecmult.ecmultAddA; agree
instance Ecmult.ecmultAddG_agrees (preG : List AffineStorage) (z : FElem) (n : Int) (i : Int) (bitsNg : Int) (r : Jacobian) : Agrees (Ecmult.ecmultAddG preG z n i bitsNg r) := by unfold Ecmult.ecmultAddG; agree
instance Ecmult.ecmultStep_agrees (preG : List AffineStorage) (preA : List Affine) (z : FElem) (wnafNa : List Int) (wnafNg : List Int) (bitsNa : Int) (bitsNg : Int) (i : Nat) (r : Jacobian) : Agrees (Ecmult.ecmultStep preG preA z wnafNa wnafNg bitsNa bitsNg i r) := by unfold Ecmult.ecmultStep; agree

instance Ecmult.ecmultFinish_agrees (r : Jacobian) (z : FElem) : Agrees (Ecmult.ecmultFinish r z) := by unfold Ecmult.ecmultFinish; agree
instance Ecmult.ecmult_agrees (preG : List AffineStorage) (a : Jacobian) (na : Scalar) (ng : Scalar) : Agrees (Ecmult.ecmult preG a na ng) := by unfold Ecmult.ecmult; agree
instance Ecmult.constDouble_agrees (i : Nat) (r : Jacobian) : Agrees (Ecmult.constDouble i r) := by unfold Ecmult.constDouble; agree
instance Ecmult.constStep_agrees (preA : List Affine) (wnaf : List Int) (i : Nat) (s : Jacobian × Affine) : Agrees (Ecmult.constStep preA wnaf i s) := by unfold Ecmult.constStep; agree
instance Ecmult.weakTable_agrees (preA : List Affine) : Agrees (Ecmult.weakTable preA) := by unfold Ecmult.weakTable; agree
instance Ecmult.constCorrect_agrees (a : Affine) (skew : Int) (r : Jacobian) : Agrees (Ecmult.constCorrect a skew r) := by unfold Ecmult.constCorrect; agree
instance Ecmult.ecmultConst_agrees (a : Affine) (scalar : Scalar) : Agrees (Ecmult.ecmultConst a scalar) := by unfold Ecmult.ecmultConst; agree
instance Ecmult.genSelect_agrees (row : List AffineStorage) (bits : UInt32) (adds : AffineStorage) : Agrees (Ecmult.genSelect row bits adds) := by unfold Ecmult.genSelect; agree
instance Ecmult.genStep_agrees (ctx : Ecmult.GenContext) (gnb : Scalar) (j : Nat) (s : Jacobian × AffineStorage) : Agrees (Ecmult.genStep ctx gnb j s) := by unfold Ecmult.genStep; agree
instance Ecmult.ecmultGen_agrees (ctx : Ecmult.GenContext) (gn : Scalar) : Agrees (Ecmult.ecmultGen ctx gn) := by unfold Ecmult.ecmultGen; agree
instance Ecdsa.verifySecond_agrees (pr : Jacobian) (xr : FElem) : Agrees (Ecdsa.verifySecond pr xr) := by unfold Ecdsa.verifySecond; agree
instance Ecdsa.verifyTail_agrees (sigr : Scalar) (pr : Jacobian) : Agrees (Ecdsa.verifyTail sigr pr) := by unfold Ecdsa.verifyTail; agree
instance Ecdsa.verifyRaw_agrees (ctx : List AffineStorage) (sigr : Scalar) (sigs : Scalar) (pubkey : Affine) (message : Scalar) : Agrees (Ecdsa.verifyRaw ctx sigr sigs pubkey message) := by unfold Ecdsa.verifyRaw; agree
instance Ecdsa.recoverX_agrees (recId : UInt8) (fx : FElem) : Agrees (Ecdsa.recoverX recId fx) := by unfold Ecdsa.recoverX; agree
instance Ecdsa.recoverTail_agrees (ctx : List AffineStorage) (sigr : Scalar) (sigs : Scalar) (message : Scalar) (x : Affine) : Agrees (Ecdsa.recoverTail ctx sigr sigs message x) := by unfold Ecdsa.recoverTail; agree
instance Ecdsa.recoverRaw_agrees (ctx : List AffineStorage) (sigr : Scalar) (sigs : Scalar) (recId : UInt8) (message : Scalar) : Agrees (Ecdsa.recoverRaw ctx sigr sigs recId message) := by unfold Ecdsa.recoverRaw; agree
instance Ecdsa.signTail_agrees (sigr : Scalar) (sigs : Scalar) (recid : UInt8) : Agrees (Ecdsa.signTail sigr sigs recid) := by unfold Ecdsa.signTail; agree
instance Ecdsa.signRaw_agrees (ctx : Ecmult.GenContext) (seckey : Scalar) (message : Scalar) (nonce : Scalar) : Agrees (Ecdsa.signRaw ctx seckey message nonce) := by unfold Ecdsa.signRaw; agree
instance Ecdsa.ecdhRaw_agrees (D : Digest) (point : Affine) (scalar : Scalar) : Agrees (Ecdsa.ecdhRaw D point scalar) := by unfold Ecdsa.ecdhRaw; agree
instance addU_agrees (W : Nat) (a : Nat) (b : Nat) : Agrees (addU W a b) := by unfold addU; agree
instance slice_agrees (v : List UInt8) (a : Nat) (b : Nat) : Agrees (slice v a b) := by unfold slice; agree
instance Decoder.fail_agrees {α : Type} : AgreesD (Decoder.fail (α := α)) := agreesD_throw _
instance Decoder.remainingLen_agrees : AgreesD (Decoder.remainingLen) := by unfold Decoder.remainingLen; agreeD
instance Decoder.read_agrees (W : Nat) : AgreesD (Decoder.read W) := by unfold Decoder.read; agreeD
instance Decoder.peek_agrees (W : Nat) (forward : Nat) : AgreesD (Decoder.peek W forward) := by unfold Decoder.peek; agreeD
instance Decoder.outside_agrees (W : Nat) (d : Decoder) (len : Nat) : Agrees (Decoder.outside W d len) := by unfold Decoder.outside; agree
instance Decoder.peekSlice_agrees (W : Nat) (len : Nat) : AgreesD (Decoder.peekSlice W len) := by unfold Decoder.peekSlice; agreeD
instance Decoder.skip_agrees (W : Nat) (len : Nat) : AgreesD (Decoder.skip W len) := by unfold Decoder.skip; agreeD
instance Decoder.readConstructedSequence_agrees (W : Nat) : AgreesD (Decoder.readConstructedSequence W) := by unfold Decoder.readConstructedSequence; agreeD
instance Decoder.readLenLoop_agrees (W k ret : Nat) : AgreesD (Decoder.readLenLoop W k ret) := by
  induction k generalizing ret with
  | zero => unfold Decoder.readLenLoop; agreeD
  | succ i ih => unfold Decoder.readLenLoop; agreeD
instance Decoder.readLenLong_agrees (W : Nat) (b1 : UInt8) : AgreesD (Decoder.readLenLong W b1) := by unfold Decoder.readLenLong; agreeD
instance Decoder.readLen_agrees (W : Nat) : AgreesD (Decoder.readLen W) := by unfold Decoder.readLen; agreeD
instance Decoder.badLead_agrees (W : Nat) (c : UInt8) (rlen : Nat) : AgreesD (Decoder.badLead W c rlen) := by unfold Decoder.badLead; agreeD
instance Decoder.skipZeros_agrees (W k : Nat) : AgreesD (Decoder.skipZeros W k) := by
  induction k with
  | zero => unfold Decoder.skipZeros; agreeD
  | succ i ih => unfold Decoder.skipZeros; agreeD
instance Decoder.padB32_agrees (rlen : Nat) (s : List UInt8) : Agrees (Decoder.padB32 rlen s) := by unfold Decoder.padB32; agree
instance Decoder.finishInt_agrees (W : Nat) (overflow : Bool) (rlen : Nat) : AgreesD (Decoder.finishInt W overflow rlen) := by unfold Decoder.finishInt; agreeD
instance Decoder.readInteger_agrees (W : Nat) : AgreesD (Decoder.readInteger W) := by unfold Decoder.readInteger; agreeD
instance Decoder.readSeqLenLax_agrees (W : Nat) : AgreesD (Decoder.readSeqLenLax W) := by unfold Decoder.readSeqLenLax; agreeD
instance Decoder.skipZerosLax_agrees (W k : Nat) : AgreesD (Decoder.skipZerosLax W k) := by
  induction k with
  | zero => unfold Decoder.skipZerosLax; agreeD
  | succ i ih => unfold Decoder.skipZerosLax; agreeD
instance Decoder.readLenLaxLoop_agrees (W k ret : Nat) : AgreesD (Decoder.readLenLaxLoop W k ret) := by
  induction k generalizing ret with
  | zero => unfold Decoder.readLenLaxLoop; agreeD
  | succ i ih => unfold Decoder.readLenLaxLoop; agreeD
instance Decoder.readLenLaxLong_agrees (W : Nat) (len : UInt8) : AgreesD (Decoder.readLenLaxLong W len) := by unfold Decoder.readLenLaxLong; agreeD
instance Decoder.readLenLaxEnd_agrees (ret : Nat) : AgreesD (Decoder.readLenLaxEnd ret) := by unfold Decoder.readLenLaxEnd; agreeD
instance Decoder.readLenLax_agrees (W : Nat) : AgreesD (Decoder.readLenLax W) := by unfold Decoder.readLenLax; agreeD
instance Decoder.readIntegerLax_agrees (W : Nat) : AgreesD (Decoder.readIntegerLax W) := by unfold Decoder.readIntegerLax; agreeD
instance toArr_agrees (n : Nat) (p : List UInt8) : Agrees (toArr n p) := by unfold toArr; agree
instance PublicKey.eq_agrees (a : PublicKey) (b : PublicKey) : Agrees (PublicKey.eq a b) := by unfold PublicKey.eq; agree
instance PublicKey.fromSecretKeyWithContext_agrees (seckey : SecretKey) (ctx : Ecmult.GenContext) : Agrees (PublicKey.fromSecretKeyWithContext seckey ctx) := by unfold PublicKey.fromSecretKeyWithContext; agree
instance PublicKey.fromSecretKey_agrees (seckey : SecretKey) : Agrees (PublicKey.fromSecretKey seckey) := by unfold PublicKey.fromSecretKey; agree
instance PublicKey.checkValid_agrees (elem : Affine) : Agrees (PublicKey.checkValid elem) := by unfold PublicKey.checkValid; agree
instance PublicKey.hybridBad_agrees (tag : UInt8) (y : FElem) : Agrees (PublicKey.hybridBad tag y) := by unfold PublicKey.hybridBad; agree
instance PublicKey.parse_agrees (p : Vector UInt8 65) : Agrees (PublicKey.parse p) := by unfold PublicKey.parse; agree
instance PublicKey.parseCompressed_agrees (p : Vector UInt8 33) : Agrees (PublicKey.parseCompressed p) := by unfold PublicKey.parseCompressed; agree
instance PublicKey.parseSlice_agrees (p : List UInt8) (format : Option PublicKeyFormat) : Agrees (PublicKey.parseSlice p format) := by unfold PublicKey.parseSlice; agree
instance PublicKey.serialize_agrees (k : PublicKey) : Agrees (PublicKey.serialize k) := by unfold PublicKey.serialize; agree
instance PublicKey.serializeCompressed_agrees (k : PublicKey) : Agrees (PublicKey.serializeCompressed k) := by unfold PublicKey.serializeCompressed; agree
instance PublicKey.tweakAddAssignWithContext_agrees (k : PublicKey) (tweak : SecretKey) (ctx : List AffineStorage) : Agrees (PublicKey.tweakAddAssignWithContext k tweak ctx) := by unfold PublicKey.tweakAddAssignWithContext; agree
instance PublicKey.tweakAddAssign_agrees (k : PublicKey) (tweak : SecretKey) : Agrees (PublicKey.tweakAddAssign k tweak) := by unfold PublicKey.tweakAddAssign; agree
instance PublicKey.tweakMulAssignWithContext_agrees (k : PublicKey) (tweak : SecretKey) (ctx : List AffineStorage) : Agrees (PublicKey.tweakMulAssignWithContext k tweak ctx) := by unfold PublicKey.tweakMulAssignWithContext; agree
instance PublicKey.tweakMulAssign_agrees (k : PublicKey) (tweak : SecretKey) : Agrees (PublicKey.tweakMulAssign k tweak) := by unfold PublicKey.tweakMulAssign; agree
instance PublicKey.combineLoop_agrees (l : List PublicKey) (j : Jacobian) : Agrees (PublicKey.combineLoop l j) := by
  induction l generalizing j with
  | nil => unfold PublicKey.combineLoop; agree
  | cons k l ih => unfold PublicKey.combineLoop; agree
instance PublicKey.combine_agrees (keys : List PublicKey) : Agrees (PublicKey.combine keys) := by unfold PublicKey.combine; agree
instance PublicKey.tryFrom_agrees (value : Affine) : Agrees (PublicKey.tryFrom value) := by unfold PublicKey.tryFrom; agree
instance SecretKey.parse_agrees (p : Vector UInt8 32) : Agrees (SecretKey.parse p) := by unfold SecretKey.parse; agree
instance SecretKey.parseSlice_agrees (p : List UInt8) : Agrees (SecretKey.parseSlice p) := by unfold SecretKey.parseSlice; agree
instance SecretKey.random_agrees {σ : Type} (draw : σ → Vector UInt8 32 × σ) (fuel : Nat) (s : σ) : Agrees (SecretKey.random draw fuel s) := by
  induction fuel generalizing s with
  | zero => unfold SecretKey.random; agree
  | succ i ih => unfold SecretKey.random; agree
instance SecretKey.tweakAddAssign_agrees (k : SecretKey) (tweak : SecretKey) : Agrees (SecretKey.tweakAddAssign k tweak) := by unfold SecretKey.tweakAddAssign; agree
instance SecretKey.tweakMulAssign_agrees (k : SecretKey) (tweak : SecretKey) : Agrees (SecretKey.tweakMulAssign k tweak) := by unfold SecretKey.tweakMulAssign; agree
instance SecretKey.inv_agrees (k : SecretKey) : Agrees (SecretKey.inv k) := by unfold SecretKey.inv; agree
instance SecretKey.default_agrees : Agrees (SecretKey.default) := by unfold SecretKey.default; agree
instance Signature.parseOverflowing_agrees (p : Vector UInt8 64) : Agrees (Signature.parseOverflowing p) := by unfold Signature.parseOverflowing; agree
instance Signature.parseStandard_agrees (p : Vector UInt8 64) : Agrees (Signature.parseStandard p) := by unfold Signature.parseStandard; agree
instance Signature.parseOverflowingSlice_agrees (p : List UInt8) : Agrees (Signature.parseOverflowingSlice p) := by unfold Signature.parseOverflowingSlice; agree
instance Signature.parseStandardSlice_agrees (p : List UInt8) : Agrees (Signature.parseStandardSlice p) := by unfold Signature.parseStandardSlice; agree
instance Signature.parseDerD_agrees (W : Nat) : AgreesD (Signature.parseDerD W) := by unfold Signature.parseDerD; agreeD
instance Signature.runDec_agrees {α : Type} (x : Dec α) [h : AgreesD x] (p : List UInt8) : Agrees (Signature.runDec x p) := by
  unfold Signature.runDec
  exact agrees_bind (h.out _) fun r => agrees_pure _
instance Signature.parseDer_agrees (W : Nat) (p : List UInt8) : Agrees (Signature.parseDer W p) := by unfold Signature.parseDer; agree
instance Signature.parseDerLaxD_agrees (W : Nat) : AgreesD (Signature.parseDerLaxD W) := by unfold Signature.parseDerLaxD; agreeD
instance Signature.parseDerLax_agrees (W : Nat) (p : List UInt8) : Agrees (Signature.parseDerLax W p) := by unfold Signature.parseDerLax; agree
instance Signature.normalizeS_agrees (sig : Signature) : Agrees (Signature.normalizeS sig) := by unfold Signature.normalizeS; agree
instance Signature.integerLen_agrees (full : List UInt8) (k : Nat) : Agrees (Signature.integerLen full k) := by
  induction k with
  | zero => unfold Signature.integerLen; agree
  | succ i ih => unfold Signature.integerLen; agree
instance Signature.integerSlice_agrees (full : List UInt8) : Agrees (Signature.integerSlice full) := by unfold Signature.integerSlice; agree
instance Signature.copyInto_agrees (l : List UInt8) (a : Nat) (b : Nat) (s : List UInt8) : Agrees (Signature.copyInto l a b s) := by unfold Signature.copyInto; agree
instance SignatureArray.asRef_agrees (a : SignatureArray) : Agrees (SignatureArray.asRef a) := by unfold SignatureArray.asRef; agree
instance SignatureArray.asMut_agrees (a : SignatureArray) (f : List UInt8 → Exec (List UInt8)) [h : ∀ l, Agrees (f l)] : Agrees (SignatureArray.asMut a f) := by
  unfold SignatureArray.asMut
  refine agrees_bind inferInstance fun l => agrees_bind (h l) fun l' => ?_
  dsimp only
  split <;> infer_instance
instance Signature.writeDer_agrees (r s l : List UInt8) : Agrees (Signature.writeDer r s l) := by unfold Signature.writeDer; agree
instance Signature.serializeDerArray_agrees (sig : Signature) : Agrees (Signature.serializeDerArray sig) := by unfold Signature.serializeDerArray; agree
instance Signature.serializeDer_agrees (sig : Signature) : Agrees (Signature.serializeDer sig) := by unfold Signature.serializeDer; agree
instance Message.parse_agrees (p : Vector UInt8 32) : Agrees (Message.parse p) := by unfold Message.parse; agree
instance Message.parseSlice_agrees (p : List UInt8) : Agrees (Message.parseSlice p) := by unfold Message.parseSlice; agree
instance SharedSecret.new_agrees (D : Digest) (pubkey : PublicKey) (seckey : SecretKey) : Agrees (SharedSecret.new D pubkey seckey) := by unfold SharedSecret.new; agree
instance verifyWithContext_agrees (message : Message) (signature : Signature) (pubkey : PublicKey) (ctx : List AffineStorage) : Agrees (verifyWithContext message signature pubkey ctx) := by unfold verifyWithContext; agree
instance verify_agrees (message : Message) (signature : Signature) (pubkey : PublicKey) : Agrees (verify message signature pubkey) := by unfold verify; agree
instance recoverWithContext_agrees (message : Message) (signature : Signature) (id : RecoveryId) (ctx : List AffineStorage) : Agrees (recoverWithContext message signature id ctx) := by unfold recoverWithContext; agree
instance recover_agrees (message : Message) (signature : Signature) (id : RecoveryId) : Agrees (recover message signature id) := by unfold recover; agree
instance signLoop_agrees (D : Drbg) (ctx : Ecmult.GenContext) (seckey message : Scalar) (fuel : Nat) (s : D.State) :
    Agrees (signLoop D ctx seckey message fuel s) := by
  induction fuel generalizing s with
  | zero => unfold signLoop; agree
  | succ i ih => unfold signLoop; agree
instance signWithContext_agrees (D : Drbg) (fuel : Nat) (message : Message) (seckey : SecretKey) (ctx : Ecmult.GenContext) : Agrees (signWithContext D fuel message seckey ctx) := by unfold signWithContext; agree
instance sign_agrees (D : Drbg) (fuel : Nat) (message : Message) (seckey : SecretKey) : Agrees (sign D fuel message seckey) := by unfold sign; agree
instance PublicKey.serdeSerialize_agrees (B : Base64) (humanReadable : Bool) (k : PublicKey) : Agrees (PublicKey.serdeSerialize B humanReadable k) := by unfold PublicKey.serdeSerialize; agree
instance PublicKey.visitStr_agrees (B : Base64) (value : String) : Agrees (PublicKey.visitStr B value) := by unfold PublicKey.visitStr; agree
instance PublicKey.visitBytes_agrees (value : List UInt8) : Agrees (PublicKey.visitBytes value) := by unfold PublicKey.visitBytes; agree
instance PublicKey.serdeDeserialize_agrees (B : Base64) (humanReadable : Bool) (v : SerdeValue) : Agrees (PublicKey.serdeDeserialize B humanReadable v) := by unfold PublicKey.serdeDeserialize; agree
instance StaticContext.generateEcmult_agrees : Agrees (StaticContext.generateEcmult) := by unfold StaticContext.generateEcmult; agree
instance StaticContext.genRow_agrees (prec : List (List AffineStorage)) (j : Nat) : Agrees (StaticContext.genRow prec j) := by unfold StaticContext.genRow; agree
instance StaticContext.generateGenmult_agrees : Agrees (StaticContext.generateGenmult) := by unfold StaticContext.generateGenmult; agree

end Verif
