import Verif.Model.Lib
import Verif.Model.StaticContext
import Verif.Proofs.ScalarMul
import Verif.Proofs.ScalarInv
import Verif.Proofs.ScalarBits
import Verif.Proofs.Wnaf

/-! In a release build the functions of the model return, whatever their arguments hold. -/

namespace Verif

/-- The release build returns a value with the property `P`. -/
def Rel {α : Type} (x : Exec α) (P : α → Prop) : Prop := ∃ a, x .release = some a ∧ P a

/-- The release build returns. -/
class Total {α : Type} (x : Exec α) : Prop where
  out : ∃ a, x .release = some a

theorem Rel.bind {α β : Type} {x : Exec α} {f : α → Exec β} {P : α → Prop} {Q : β → Prop} (hx : Rel x P)
    (hf : ∀ a, P a → Rel (f a) Q) : Rel (x >>= f) Q := by
  obtain ⟨a, ha, hp⟩ := hx
  obtain ⟨b, hb, hq⟩ := hf a hp
  refine ⟨b, ?_, hq⟩
  show (x .release).bind (fun a => f a .release) = some b
  rw [ha]; exact hb

theorem Rel.mono {α : Type} {x : Exec α} {P Q : α → Prop} (h : Rel x P) (hpq : ∀ a, P a → Q a) : Rel x Q := by
  obtain ⟨a, ha, hp⟩ := h
  exact ⟨a, ha, hpq a hp⟩

theorem rel_pure {α : Type} {a : α} {P : α → Prop} (h : P a) : Rel (pure a) P := ⟨a, rfl, h⟩

theorem Rel.total {α : Type} {x : Exec α} {P : α → Prop} (h : Rel x P) : Total x := ⟨h.imp fun _ h => h.1⟩

theorem Total.rel {α : Type} {x : Exec α} (h : Total x) : Rel x fun _ => True := h.out.imp fun _ h => ⟨h, trivial⟩

theorem rel_of_runs {α : Type} {x : Exec α} {P : α → Prop} (h : Runs x P) : Rel x P := by
  obtain ⟨a, e, hp⟩ := h
  exact ⟨a, by rw [e]; rfl, hp⟩

theorem total_of_runs {α : Type} {x : Exec α} {P : α → Prop} (h : Runs x P) : Total x := (rel_of_runs h).total

/-- Sequencing when nothing need be known of the intermediate value. -/
theorem rel_seq {α β : Type} {x : Exec α} {f : α → Exec β} {Q : β → Prop} (hx : Total x) (hf : ∀ a, Rel (f a) Q) : Rel (x >>= f) Q :=
  hx.rel.bind fun a _ => hf a

instance total_pure {α : Type} (a : α) : Total (pure a : Exec α) := ⟨a, rfl⟩

theorem total_bind {α β : Type} {x : Exec α} {f : α → Exec β} (hx : Total x) (hf : ∀ a, Total (f a)) : Total (x >>= f) :=
  (rel_seq hx fun a => (hf a).rel).total

instance (c : Bool) : Total (dassert c) := ⟨(), rfl⟩

theorem rel_loop {σ : Type} {n : Nat} {f : Nat → σ → Exec σ} {s : σ} (P : Nat → σ → Prop) (h0 : P 0 s)
    (h : ∀ i s, i < n → P i s → Rel (f i s) (P (i + 1))) : Rel (forN n f s) (P n) := by
  induction n with
  | zero => exact rel_pure h0
  | succ n ih => exact (ih fun i s hi hp => h i s (by omega) hp).bind fun s hs => h n s (by omega) hs

theorem rel_loopRev {σ : Type} {n : Nat} {f : Nat → σ → Exec σ} {s : σ} (P : σ → Prop) (h0 : P s)
    (h : ∀ i s, i < n → P s → Rel (f i s) P) : Rel (Ecmult.forRev n f s) P := by
  induction n generalizing s with
  | zero => exact rel_pure h0
  | succ n ih => exact (h n s (by omega) h0).bind fun s hs => ih hs fun i s hi hp => h i s (by omega) hp

theorem total_loop {σ : Type} {n : Nat} {f : Nat → σ → Exec σ} {s : σ} (h : ∀ i s, Total (f i s)) : Total (forN n f s) :=
  (rel_loop (fun _ _ => True) trivial fun i s _ _ => (h i s).rel).total

theorem rel_tabulate {α : Type} {n : Nat} {f : Nat → Exec α} (h : ∀ i, i < n → Total (f i)) :
    Rel (tabulate n f) fun l => l.length = n := by
  unfold tabulate
  refine rel_loop (fun i (l : List α) => l.length = i) rfl fun i s hi hs => rel_seq (h i hi) fun _ => rel_pure ?_
  rw [List.length_append, hs]; rfl

theorem rel_idx {α : Type} {l : List α} {i : Nat} (h : i < l.length) : Rel (idx l i) fun a => a ∈ l := by
  unfold idx
  rw [List.getElem?_eq_getElem h]
  exact rel_pure (List.getElem_mem h)

theorem rel_setIdx {α : Type} {l : List α} {i : Nat} (v : α) (h : i < l.length) : Rel (setIdx l i v) fun r => r = l.set i v := by
  rw [setIdx_pure v h]; exact rel_pure rfl

/-- Walks through the body of a definition. -/
macro "total" : tactic => `(tactic| repeat' first | infer_instance | assumption | (with_reducible refine total_loop ?_) | (with_reducible refine total_bind ?_ ?_) | intro _ | split | dsimp only)

instance (a b : UInt32) : Total (add32 a b) := by unfold add32; total
instance (a b : UInt32) : Total (sub32 a b) := by unfold sub32; total
instance (a b : UInt32) : Total (mul32 a b) := by unfold mul32; total
instance (a : UInt32) (k : Nat) : Total (shl32 a k) := by unfold shl32; total
instance (a : UInt32) (k : Nat) : Total (shr32 a k) := by unfold shr32; total
instance (a b : UInt64) : Total (add64 a b) := by unfold add64; total
instance (a b : UInt64) : Total (mul64 a b) := by unfold mul64; total
instance (a b : UInt8) : Total (add8 a b) := by unfold add8; total
instance (a b : Nat) : Total (subNat a b) := by unfold subNat; total
instance (x : Int) : Total (i32 x) := by unfold i32; total



instance Scalar.carryStep_total (t : UInt64) (x : UInt64) : Total (Scalar.carryStep t x) := by unfold Scalar.carryStep; total
instance Scalar.addMul_total (x : UInt32) (o : UInt64) (c : UInt32) : Total (Scalar.addMul x o c) := by unfold Scalar.addMul; total
instance Scalar.reduce_total (a : Scalar) (overflow : Bool) : Total (Scalar.reduce a overflow) := by unfold Scalar.reduce; total
instance Scalar.caddBit_total (a : Scalar) (bit : Nat) (flag : Bool) : Total (Scalar.caddBit a bit flag) := by unfold Scalar.caddBit; total
instance Scalar.setB32_total (b : Vector UInt8 32) : Total (Scalar.setB32 b) := by unfold Scalar.setB32; total
instance Scalar.condNegStep_total (t : UInt64) (nonzero : UInt64) (mask : UInt32) (d : UInt32) (nlimb : UInt32) : Total (Scalar.condNegStep t nonzero mask d nlimb) := by unfold Scalar.condNegStep; total
instance Scalar.condNeg_total (a : Scalar) (flag : Bool) : Total (Scalar.condNeg a flag) := by unfold Scalar.condNeg; total
instance Scalar.muladd_total (c : Scalar.Acc) (a : UInt32) (b : UInt32) : Total (Scalar.muladd c a b) := by unfold Scalar.muladd; total
instance Scalar.muladdFast_total (c : Scalar.Acc) (a : UInt32) (b : UInt32) : Total (Scalar.muladdFast c a b) := by unfold Scalar.muladdFast; total
instance Scalar.muladd2_total (c : Scalar.Acc) (a : UInt32) (b : UInt32) : Total (Scalar.muladd2 c a b) := by unfold Scalar.muladd2; total
instance Scalar.sumadd_total (c : Scalar.Acc) (a : UInt32) : Total (Scalar.sumadd c a) := by unfold Scalar.sumadd; total
instance Scalar.sumaddFast_total (c : Scalar.Acc) (a : UInt32) : Total (Scalar.sumaddFast c a) := by unfold Scalar.sumaddFast; total
instance Scalar.extract_total (c : Scalar.Acc) : Total (Scalar.extract c) := by unfold Scalar.extract; total
instance Scalar.extractFast_total (c : Scalar.Acc) : Total (Scalar.extractFast c) := by unfold Scalar.extractFast; total
instance Scalar.mul_total (a : Scalar) (b : Scalar) : Total (Scalar.mul a b) := total_of_runs (Scalar.mul_runs a b)
instance Scalar.sqr_total (a : Scalar) : Total (Scalar.sqr a) := total_of_runs (Scalar.sqr_runs a)
instance Scalar.shrStep_total (lo : UInt32) (hi : UInt32) (n : Nat) : Total (Scalar.shrStep lo hi n) := by unfold Scalar.shrStep; total
instance Scalar.shrInt_total (a : Scalar) (n : Nat) : Total (Scalar.shrInt a n) := by unfold Scalar.shrInt; total
instance Scalar.sqrN_total (k : Nat) (t : Scalar) : Total (Scalar.sqrN k t) := by unfold Scalar.sqrN; total
instance Scalar.inv_total (x : Scalar) : Total (Scalar.inv x) := by unfold Scalar.inv; total
instance Scalar.add_total (a : Scalar) (b : Scalar) : Total (Scalar.add a b) := total_of_runs (Scalar.add_any a b)
instance Scalar.neg_total (a : Scalar) : Total (Scalar.neg a) := by unfold Scalar.neg; total
instance FElem.dassertE_total (x : Exec Bool) : Total (FElem.dassertE x) := ⟨(), rfl⟩
theorem FElem.andThen_total {r : Bool} {x : Exec Bool} (h : Total x) : Total (FElem.andThen r x) := by unfold FElem.andThen; total
instance FElem.leMul_total (x : UInt32) (c : UInt32) (m : UInt32) : Total (FElem.leMul x c m) := by unfold FElem.leMul; total
instance FElem.lowSum_total (t : Limbs10) : Total (FElem.lowSum t) := by unfold FElem.lowSum; total
instance FElem.verify_total (f : FElem) : Total (FElem.verify f) := by
  unfold FElem.verify
  repeat' first | infer_instance | refine FElem.andThen_total ?_ | refine total_bind ?_ ?_ | intro _ | split
instance FElem.carry_total (t : Limbs10) : Total (FElem.carry t) := by unfold FElem.carry; total
instance FElem.pass_total (t : Limbs10) : Total (FElem.pass t) := by unfold FElem.pass; total
instance FElem.finalX_total (t : Limbs10) : Total (FElem.finalX t) := by unfold FElem.finalX; total
instance FElem.normalize_total (f : FElem) : Total (FElem.normalize f) := by unfold FElem.normalize; total
instance FElem.normalizeWeak_total (f : FElem) : Total (FElem.normalizeWeak f) := by unfold FElem.normalizeWeak; total
instance FElem.varTail_total (t : Limbs10) (x : UInt32) : Total (FElem.varTail t x) := by unfold FElem.varTail; total
instance FElem.normalizeVar_total (f : FElem) : Total (FElem.normalizeVar f) := by unfold FElem.normalizeVar; total
instance FElem.normalizesToZero_total (f : FElem) : Total (FElem.normalizesToZero f) := by unfold FElem.normalizesToZero; total
instance FElem.normalizesToZeroVar_total (f : FElem) : Total (FElem.normalizesToZeroVar f) := by unfold FElem.normalizesToZeroVar; total
instance FElem.setInt_total (a : UInt32) : Total (FElem.setInt a) := by unfold FElem.setInt; total
instance FElem.fromInt_total (a : UInt32) : Total (FElem.fromInt a) := by unfold FElem.fromInt; total
instance FElem.isZero_total (f : FElem) : Total (FElem.isZero f) := by unfold FElem.isZero; total
instance FElem.isOdd_total (f : FElem) : Total (FElem.isOdd f) := by unfold FElem.isOdd; total
instance FElem.isOverflow_total (t : Limbs10) : Total (FElem.isOverflow t) := by unfold FElem.isOverflow; total
instance FElem.setB32_total (f : FElem) (b : Vector UInt8 32) : Total (FElem.setB32 f b) := by unfold FElem.setB32; total
instance FElem.b32_total (f : FElem) : Total (FElem.b32 f) := by unfold FElem.b32; total
instance FElem.negLimb_total (c : UInt32) (m : UInt32) (x : UInt32) : Total (FElem.negLimb c m x) := by unfold FElem.negLimb; total
instance FElem.neg_total (other : FElem) (m : UInt32) : Total (FElem.neg other m) := by unfold FElem.neg; total
instance FElem.mulInt_total (f : FElem) (a : UInt32) : Total (FElem.mulInt f a) := by unfold FElem.mulInt; total
instance FElem.add_total (f : FElem) (g : FElem) : Total (FElem.add f g) := by unfold FElem.add; total
instance FElem.cmpVar_total (f : FElem) (g : FElem) : Total (FElem.cmpVar f g) := by unfold FElem.cmpVar; total
instance FElem.eqVar_total (f : FElem) (g : FElem) : Total (FElem.eqVar f g) := by unfold FElem.eqVar; total
instance FElem.eq_total (f : FElem) (g : FElem) : Total (FElem.eq f g) := by unfold FElem.eq; total
instance FElem.mulInner_total (a : Limbs10) (b : Limbs10) : Total (FElem.mulInner a b) := by unfold FElem.mulInner; total
instance FElem.sqrInner_total (a : Limbs10) : Total (FElem.sqrInner a) := by unfold FElem.sqrInner; total
instance FElem.mul_total (a : FElem) (b : FElem) : Total (FElem.mul a b) := by unfold FElem.mul; total
instance FElem.sqr_total (a : FElem) : Total (FElem.sqr a) := by unfold FElem.sqr; total
instance FElem.sqrN_total (k : Nat) (x : FElem) : Total (FElem.sqrN k x) := by unfold FElem.sqrN; total
instance FElem.sqrt_total (self : FElem) : Total (FElem.sqrt self) := by unfold FElem.sqrt; total
instance FElem.inv_total (self : FElem) : Total (FElem.inv self) := by unfold FElem.inv; total
instance FElem.isQuadVar_total (f : FElem) : Total (FElem.isQuadVar f) := by unfold FElem.isQuadVar; total
instance FieldStorage.ofField_total (f : FElem) : Total (FieldStorage.ofField f) := by unfold FieldStorage.ofField; total
instance Affine.eq_total (a : Affine) (b : Affine) : Total (Affine.eq a b) := by unfold Affine.eq; total
instance Affine.setXquad_total (x : FElem) : Total (Affine.setXquad x) := by unfold Affine.setXquad; total
instance Affine.fixParity_total (a : Affine) (odd : Bool) : Total (Affine.fixParity a odd) := by unfold Affine.fixParity; total
instance Affine.setXoVar_total (x : FElem) (odd : Bool) : Total (Affine.setXoVar x odd) := by unfold Affine.setXoVar; total
instance Affine.isValidVar_total (a : Affine) : Total (Affine.isValidVar a) := by unfold Affine.isValidVar; total
instance Affine.neg_total (a : Affine) : Total (Affine.neg a) := by unfold Affine.neg; total
instance Affine.setGej_total (a : Jacobian) : Total (Affine.setGej a) := by unfold Affine.setGej; total
instance Affine.setGejVar_total (self : Affine) (a : Jacobian) : Total (Affine.setGejVar self a) := by unfold Affine.setGejVar; total
instance Affine.setGejZinv_total (a : Jacobian) (zi : FElem) : Total (Affine.setGejZinv a zi) := by unfold Affine.setGejZinv; total
instance Affine.toStorage_total (a : Affine) : Total (Affine.toStorage a) := by unfold Affine.toStorage; total
theorem total_setTableLoop {a : List Jacobian} {zr : List FElem} {i : Nat} {zi : FElem} {r : List Affine} (ha : i < a.length) (hz : i < zr.length)
    (hr : i < r.length) : Rel (setTableLoop a zr i zi r) fun t => t.length = r.length := by
  induction i generalizing zi r with
  | zero => exact rel_pure rfl
  | succ i ih =>
    unfold setTableLoop
    refine rel_seq (rel_idx hz).total fun _ => rel_seq inferInstance fun _ => rel_seq (rel_idx (by omega)).total fun _ => rel_seq inferInstance fun _ => ?_
    refine (rel_setIdx _ (by omega)).bind fun t ht => ?_
    refine (ih (by omega) (by omega) (by rw [ht, List.length_set]; omega)).mono fun t' ht' => ?_
    rw [ht', ht, List.length_set]

theorem total_setTable {r : List Affine} {a : List Jacobian} {zr : List FElem} (h1 : 0 < r.length) (h2 : a.length = r.length) (h3 : zr.length = r.length) :
    Rel (setTableGejVar r a zr) fun t => t.length = r.length := by
  unfold setTableGejVar
  refine rel_seq inferInstance fun _ => ?_
  rw [subNat_pure (by omega), pure_bind, if_neg (by cases r with | nil => exact absurd h1 (by decide) | cons => simp)]
  refine rel_seq (rel_idx (by omega)).total fun _ => rel_seq inferInstance fun _ => rel_seq inferInstance fun _ => ?_
  refine (rel_setIdx _ (by omega)).bind fun t ht => ?_
  refine (total_setTableLoop (by omega) (by omega) (by rw [ht, List.length_set]; omega)).mono fun t' ht' => ?_
  rw [ht', ht, List.length_set]

theorem total_globalzLoop {a : List Jacobian} {zr : List FElem} {i : Nat} {zs : FElem} {r : List Affine} (ha : i < a.length) (hz : i < zr.length)
    (hr : i < r.length) : Rel (globalzLoop a zr i zs r) fun t => t.length = r.length := by
  induction i generalizing zs r with
  | zero => exact rel_pure rfl
  | succ i ih =>
    unfold globalzLoop
    have hstep : Total (globalzStep zr r.length (i + 1) zs) := by
      unfold globalzStep
      split
      · exact total_bind (rel_idx hz).total fun _ => inferInstance
      · infer_instance
    refine rel_seq hstep fun _ => rel_seq (rel_idx (by omega)).total fun _ => rel_seq inferInstance fun _ => ?_
    refine (rel_setIdx _ (by omega)).bind fun t ht => ?_
    refine (ih (by omega) (by omega) (by rw [ht, List.length_set]; omega)).mono fun t' ht' => ?_
    rw [ht', ht, List.length_set]

theorem total_globalz {r : List Affine} {g : FElem} {a : List Jacobian} {zr : List FElem} (h1 : 0 < r.length) (h2 : a.length = r.length)
    (h3 : zr.length = r.length) : Rel (globalzSetTableGej r g a zr) fun t => t.1.length = r.length := by
  unfold globalzSetTableGej
  refine rel_seq inferInstance fun _ => ?_
  rw [subNat_pure (by omega), pure_bind, if_neg (by cases r with | nil => exact absurd h1 (by decide) | cons => simp)]
  refine rel_seq (rel_idx (by omega)).total fun _ => ?_
  refine (rel_setIdx _ (by omega)).bind fun t ht => ?_
  refine rel_seq (rel_idx (by omega)).total fun _ => ?_
  refine (total_globalzLoop (by omega) (by omega) (by rw [ht, List.length_set]; omega)).bind fun t' ht' => rel_pure ?_
  show t'.length = r.length
  rw [ht', ht, List.length_set]

instance Jacobian.setGe_total (a : Affine) : Total (Jacobian.setGe a) := by unfold Jacobian.setGe; total
instance Jacobian.eqXVar_total (a : Jacobian) (x : FElem) : Total (Jacobian.eqXVar a x) := by unfold Jacobian.eqXVar; total
instance Jacobian.neg_total (a : Jacobian) : Total (Jacobian.neg a) := by unfold Jacobian.neg; total
instance Jacobian.hasQuadYVar_total (a : Jacobian) : Total (Jacobian.hasQuadYVar a) := by unfold Jacobian.hasQuadYVar; total
instance Jacobian.rzrSetInt_total (rzr : Option FElem) (v : UInt32) : Total (Jacobian.rzrSetInt rzr v) := by unfold Jacobian.rzrSetInt; total
instance Jacobian.rzrDouble_total (rzr : Option FElem) (y : FElem) : Total (Jacobian.rzrDouble rzr y) := by unfold Jacobian.rzrDouble; total
instance Jacobian.doubleCore_total (a : Jacobian) : Total (Jacobian.doubleCore a) := by unfold Jacobian.doubleCore; total
instance Jacobian.doubleVarInPlace_total (self : Jacobian) (a : Jacobian) (rzr : Option FElem) : Total (Jacobian.doubleVarInPlace self a rzr) := by unfold Jacobian.doubleVarInPlace; total
instance Jacobian.doubleNonzeroInPlace_total (self : Jacobian) (a : Jacobian) (rzr : Option FElem) : Total (Jacobian.doubleNonzeroInPlace self a rzr) := by unfold Jacobian.doubleNonzeroInPlace; total
instance Jacobian.doubleVar_total (a : Jacobian) (rzr : Option FElem) : Total (Jacobian.doubleVar a rzr) := by unfold Jacobian.doubleVar; total
instance Jacobian.addTail_total (u1 : FElem) (s1 : FElem) (h2 : FElem) (h3 : FElem) (i : FElem) (i2 : FElem) (z : FElem) : Total (Jacobian.addTail u1 s1 h2 h3 i i2 z) := by unfold Jacobian.addTail; total
instance Jacobian.addEqualX_total (self : Jacobian) (a : Jacobian) (i : FElem) (rzr : Option FElem) : Total (Jacobian.addEqualX self a i rzr) := by unfold Jacobian.addEqualX; total
instance Jacobian.addVarCore_total (self : Jacobian) (a : Jacobian) (b : Jacobian) (rzr : Option FElem) : Total (Jacobian.addVarCore self a b rzr) := by unfold Jacobian.addVarCore; total
instance Jacobian.addVarInPlace_total (self : Jacobian) (a : Jacobian) (b : Jacobian) (rzr : Option FElem) : Total (Jacobian.addVarInPlace self a b rzr) := by unfold Jacobian.addVarInPlace; total
instance Jacobian.addVar_total (a : Jacobian) (b : Jacobian) (rzr : Option FElem) : Total (Jacobian.addVar a b rzr) := by unfold Jacobian.addVar; total
instance Jacobian.addGeVarCore_total (self : Jacobian) (a : Jacobian) (b : Affine) (rzr : Option FElem) : Total (Jacobian.addGeVarCore self a b rzr) := by unfold Jacobian.addGeVarCore; total
instance Jacobian.addGeVarInPlace_total (self : Jacobian) (a : Jacobian) (b : Affine) (rzr : Option FElem) : Total (Jacobian.addGeVarInPlace self a b rzr) := by unfold Jacobian.addGeVarInPlace; total
instance Jacobian.addGeVar_total (a : Jacobian) (b : Affine) (rzr : Option FElem) : Total (Jacobian.addGeVar a b rzr) := by unfold Jacobian.addGeVar; total
instance Jacobian.addEqualXNone_total (self : Jacobian) (a : Jacobian) (i : FElem) : Total (Jacobian.addEqualXNone self a i) := by unfold Jacobian.addEqualXNone; total
instance Jacobian.addZinvVarCore_total (self : Jacobian) (a : Jacobian) (b : Affine) (bzinv : FElem) : Total (Jacobian.addZinvVarCore self a b bzinv) := by unfold Jacobian.addZinvVarCore; total
instance Jacobian.addZinvVarInPlace_total (self : Jacobian) (a : Jacobian) (b : Affine) (bzinv : FElem) : Total (Jacobian.addZinvVarInPlace self a b bzinv) := by unfold Jacobian.addZinvVarInPlace; total
instance Jacobian.addZinvVar_total (a : Jacobian) (b : Affine) (bzinv : FElem) : Total (Jacobian.addZinvVar a b bzinv) := by unfold Jacobian.addZinvVar; total
instance Jacobian.bothZero_total (m : FElem) (rr : FElem) : Total (Jacobian.bothZero m rr) := by unfold Jacobian.bothZero; total
instance Jacobian.addGe_total (a : Jacobian) (b : Affine) : Total (Jacobian.addGe a b) := by unfold Jacobian.addGe; total
instance Jacobian.rescale_total (a : Jacobian) (s : FElem) : Total (Jacobian.rescale a s) := by unfold Jacobian.rescale; total

namespace Ecmult

theorem total_oddTable {prej : List Jacobian} {zr : List FElem} {a : Jacobian} (h1 : 0 < prej.length) (h2 : zr.length = prej.length) :
    Rel (oddMultiplesTable prej zr a) fun s => s.1.length = prej.length ∧ s.2.length = prej.length := by
  unfold oddMultiplesTable
  refine rel_seq inferInstance fun _ => rel_seq inferInstance fun _ => rel_seq inferInstance fun _ => rel_seq inferInstance fun d => ?_
  refine rel_seq inferInstance fun aGe => ?_
  refine (rel_setIdx _ h1).bind fun p hp => (rel_setIdx _ (by omega)).bind fun z hz => ?_
  have hp' : p.length = prej.length := by rw [hp, List.length_set]
  have hz' : z.length = prej.length := by rw [hz, List.length_set, h2]
  refine (rel_loop (fun _ s => s.1.length = prej.length ∧ s.2.length = prej.length) ⟨hp', hz'⟩ ?_).bind fun s hs => ?_
  · intro k s hk hs
    unfold oddStep
    refine rel_seq (rel_idx (by omega)).total fun _ => rel_seq (rel_idx (by omega)).total fun _ => rel_seq inferInstance fun _ => ?_
    refine (rel_setIdx _ (by omega)).bind fun p1 hp1 => (rel_setIdx _ (by omega)).bind fun z1 hz1 => rel_pure ?_
    exact ⟨by rw [hp1, List.length_set, hs.1], by rw [hz1, List.length_set, hs.2]⟩
  · refine rel_seq (rel_idx (by omega)).total fun _ => rel_seq inferInstance fun _ => ?_
    refine (rel_setIdx _ (by omega)).bind fun p1 hp1 => rel_pure ?_
    exact ⟨by rw [hp1, List.length_set, hs.1], hs.2⟩

theorem total_globalzTable (a : Jacobian) : Rel (oddMultiplesTableGlobalz a) fun s => s.1.length = 8 := by
  unfold oddMultiplesTableGlobalz
  refine (total_oddTable (by decide) rfl).bind fun s hs => ?_
  exact (total_globalz (by decide) hs.1 hs.2).mono fun t ht => ht

instance digitCheck_total (n : Int) (w : Nat) : Total (digitCheck n w) := by unfold digitCheck; total

/-- A digit that may be looked up in a table of `m` odd multiples. -/
def DigitOk (m : Nat) (d : Int) : Prop := -(2 * m) < d ∧ d < 2 * m

theorem total_tableGetGe {pre : List Affine} {n : Int} {w m : Nat} (hm : pre.length = m) (h : DigitOk m n) (h0 : n ≠ 0) : Total (tableGetGe pre n w) := by
  unfold DigitOk at h
  unfold tableGetGe
  refine total_bind inferInstance fun _ => ?_
  split
  · exact (rel_idx (by omega)).total
  · exact total_bind (rel_idx (by omega)).total fun _ => inferInstance

theorem total_tableGetGeStorage {pre : List AffineStorage} {n : Int} {w m : Nat} (hm : pre.length = m) (h : DigitOk m n) (h0 : n ≠ 0) :
    Total (tableGetGeStorage pre n w) := by
  unfold DigitOk at h
  unfold tableGetGeStorage
  refine total_bind inferInstance fun _ => ?_
  split
  · exact total_bind (rel_idx (by omega)).total fun _ => inferInstance
  · exact total_bind (rel_idx (by omega)).total fun _ => inferInstance

instance cmovLoop_total (pre : List Affine) (idxN : Nat) (r : Affine) : Total (cmovLoop pre idxN r) := by
  unfold cmovLoop
  exact (rel_loop (fun _ _ => True) trivial fun i s hi _ => rel_seq (rel_idx hi).total fun _ => rel_pure trivial).total

instance tableGetGeConst_total (r : Affine) (pre : List Affine) (n : Int) (w : Nat) : Total (tableGetGeConst r pre n w) := by unfold tableGetGeConst; total

theorem total_bits (a : Scalar) {o c : Nat} (h : o < 256) : Total (Scalar.bits a o c) := by
  unfold Scalar.bits
  refine total_bind inferInstance fun _ => total_bind inferInstance fun _ => total_bind ?_ fun _ => by total
  have : o >>> 5 < 8 := by rw [Nat.shiftRight_eq_div_pow]; omega
  obtain ⟨v, hv, _⟩ := Scalar.limb_pure a this
  rw [hv]; infer_instance

/-- What the loop of `ecmult_wnaf` keeps, whatever the scalar. -/
structure WnafSafe (L w : Nat) (st : WnafState) : Prop where
  len : st.wnaf.length = L
  bit : st.bit ≤ L
  carry : st.carry = 0 ∨ st.carry = 1
  set : st.lastSetBit < st.bit
  setLo : -1 ≤ st.lastSetBit
  dig : ∀ d ∈ st.wnaf, DigitOk (2 ^ (w - 2)) d

theorem wnafDigit_rel {s : Scalar} {L w : Nat} {sign : Int} {st : WnafState} (hL : L ≤ 256) (hw : 2 ≤ w) (hw' : w ≤ 30)
    (hsign : sign = 1 ∨ sign = -1) (h : WnafSafe L w st) (hb : st.bit < L) (hne : ((s.val / 2 ^ st.bit % 2 : Nat) : Int) ≠ st.carry) :
    Rel (wnafDigit s w sign st) fun r => WnafSafe L w r ∧ st.bit < r.bit := by
  unfold wnafDigit
  dsimp only
  rw [Nat.mod_eq_of_lt (show w < 32 by omega), Nat.mod_eq_of_lt (show w - 1 < 32 by omega)]
  generalize hnow : (if w > st.wnaf.length - st.bit then st.wnaf.length - st.bit else w) = now
  rw [h.len] at hnow
  have n1 : 1 ≤ now := by split at hnow <;> omega
  have n2 : now ≤ w := by split at hnow <;> omega
  have n3 : st.bit + now ≤ L := by split at hnow <;> omega
  refine (rel_of_runs (Scalar.bitsVar_runs s n1 (by omega) (by omega))).bind fun b hbv => ?_
  have hx : ((b.toNat : Nat) : Int) < 2 ^ now := by
    rw [hbv]; exact_mod_cast Nat.mod_lt _ (by positivity)
  have hx2 : ((b.toNat : Nat) : Int) % 2 ≠ st.carry := by
    rw [hbv]
    intro e
    apply hne
    rw [← e]
    have : s.val / 2 ^ st.bit % 2 ^ now % 2 = s.val / 2 ^ st.bit % 2 := by
      rw [Nat.mod_mod_of_dvd]; exact dvd_pow_self 2 (by omega)
    exact_mod_cast this.symm
  obtain ⟨c', e, hc', ho, hlo, hhi, _, _, hp0, hp1⟩ := wnaf_word hw n1 n2 (by positivity) hx h.carry hx2
  have p30 := pow_bound30 hw'
  have p29 := pow_bound30 (w := w - 1) (by omega)
  have hc30 : c' * 2 ^ w ≤ 1073741824 := by rcases hc' with rfl | rfl <;> omega
  have hc0 : 0 ≤ c' * 2 ^ w := by rcases hc' with rfl | rfl <;> positivity
  rw [i32_pure (by omega) (by omega), pure_bind, e, wrap32_eq (by omega) (by omega), i32_pure (by omega) (by omega), pure_bind]
  generalize (b.toNat : Int) + st.carry - c' * 2 ^ w = word at *
  rw [i32_pure (by rcases hsign with rfl | rfl <;> omega) (by rcases hsign with rfl | rfl <;> omega), pure_bind,
    setIdx_pure _ (by rw [h.len]; exact hb), pure_bind]
  have hp : (2 : Int) ^ (w - 1) = 2 * ((2 ^ (w - 2) : Nat) : Int) := by
    push_cast; rw [← pow_succ']; congr 1; omega
  refine rel_pure ⟨⟨by simpa using h.len, n3, hc', by dsimp only; omega, by dsimp only; omega, fun d hd => ?_⟩, by dsimp only; omega⟩
  rcases List.mem_or_eq_of_mem_set hd with hd | rfl
  · exact h.dig d hd
  · unfold DigitOk
    rcases hsign with rfl | rfl <;> constructor <;> omega

theorem wnafStep_rel {s : Scalar} {L w : Nat} {sign : Int} {st : WnafState} (hL : L ≤ 256) (hw : 2 ≤ w) (hw' : w ≤ 30)
    (hsign : sign = 1 ∨ sign = -1) (h : WnafSafe L w st) (hb : st.bit < L) :
    Rel (wnafStep s w sign st) fun r => WnafSafe L w r ∧ st.bit < r.bit := by
  unfold wnafStep
  refine (rel_of_runs (Scalar.bits_runs s (by norm_num) (by norm_num) (by omega) (by omega))).bind fun b hbv => ?_
  rw [pow_one] at hbv
  split
  · refine rel_pure ⟨⟨h.len, hb, h.carry, ?_, h.setLo, h.dig⟩, by dsimp only; omega⟩
    have := h.set
    dsimp only; omega
  · rename_i hne
    exact wnafDigit_rel hL hw hw' hsign h hb (by rw [← hbv]; simpa using hne)

theorem wnafLoop_rel {s : Scalar} {L w : Nat} {sign : Int} (hL : L ≤ 256) (hw : 2 ≤ w) (hw' : w ≤ 30) (hsign : sign = 1 ∨ sign = -1) :
    ∀ (fuel : Nat) (st : WnafState), WnafSafe L w st → L ≤ st.bit + fuel → Rel (wnafLoop s w sign fuel st) (WnafSafe L w)
  | 0, st, h, hf => by
    unfold wnafLoop
    rw [if_neg (by rw [h.len]; omega)]
    exact rel_pure h
  | fuel + 1, st, h, hf => by
    unfold wnafLoop
    split
    · rename_i hb
      rw [h.len] at hb
      exact (wnafStep_rel hL hw hw' hsign h hb).bind fun r hr => wnafLoop_rel hL hw hw' hsign fuel r hr.1 (by omega)
    · exact rel_pure h

theorem wnafSign_rel (a : Scalar) : Rel (wnafSign a) fun r => r.2 = 1 ∨ r.2 = -1 := by
  unfold wnafSign
  refine rel_seq (total_bits a (by norm_num)) fun _ => ?_
  split
  · exact rel_seq inferInstance fun _ => rel_pure (Or.inr rfl)
  · exact rel_pure (Or.inl rfl)

theorem ecmultWnaf_rel (a : Scalar) {w : Nat} (hw : 2 ≤ w) (hw' : w ≤ 30) :
    Rel (ecmultWnaf 256 a w) fun r => r.1.length = 256 ∧ 0 ≤ r.2 ∧ r.2 ≤ 256 ∧ ∀ d ∈ r.1, DigitOk (2 ^ (w - 2)) d := by
  unfold ecmultWnaf
  refine rel_seq inferInstance fun _ => rel_seq inferInstance fun _ => (wnafSign_rel a).bind fun s hs => ?_
  refine (wnafLoop_rel le_rfl hw hw' hs 256 _ ⟨List.length_replicate, by norm_num, Or.inl rfl, by norm_num, le_rfl, fun d hd => ?_⟩ (by norm_num)).bind fun st h => ?_
  · rw [List.eq_of_mem_replicate hd]
    have : 0 < 2 ^ (w - 2) := by positivity
    unfold DigitOk
    constructor <;> omega
  · refine rel_seq inferInstance fun _ => rel_seq inferInstance fun _ => ?_
    have h1 := h.set
    have h2 := h.setLo
    have h3 := h.bit
    rw [i32_pure (by omega) (by omega), pure_bind]
    exact rel_pure ⟨h.len, by dsimp only; omega, by dsimp only; omega, h.dig⟩

instance ecmultFinish_total (r : Jacobian) (z : FElem) : Total (ecmultFinish r z) := by unfold ecmultFinish; total

theorem total_ecmult {preG : List AffineStorage} (hG : preG.length = 16384) (a : Jacobian) (na ng : Scalar) : Total (ecmult preG a na ng) := by
  unfold ecmult
  refine Rel.total (P := fun _ => True) ?_
  refine (ecmultWnaf_rel na (by decide) (by decide)).bind fun wa ha => (total_globalzTable a).bind fun t ht => ?_
  refine (ecmultWnaf_rel ng (by decide) (by decide)).bind fun wg hg => ?_
  refine rel_seq ?_ fun _ => Total.rel inferInstance
  refine (rel_loopRev (fun _ => True) trivial fun i r hi _ => ?_).total
  have hi : i < 256 := by
    split at hi <;> omega
  unfold ecmultStep
  refine rel_seq inferInstance fun _ => (rel_idx (by omega)).bind fun d hd => rel_seq ?_ fun _ => (rel_idx (by omega)).bind fun d' hd' => Total.rel ?_
  · unfold ecmultAddA
    split
    · rename_i hc
      exact total_bind (total_tableGetGe ht (ha.2.2.2 d hd) hc.2) fun _ => total_bind inferInstance fun _ => inferInstance
    · infer_instance
  · unfold ecmultAddG
    split
    · rename_i hc
      exact total_bind (total_tableGetGeStorage hG (hg.2.2.2 d' hd') hc.2) fun _ => inferInstance
    · infer_instance

theorem total_wnafConst {wnaf : List Int} (hl : wnaf.length = 65) (a : Scalar) : Rel (ecmultWnafConst wnaf a 4) fun r => r.1.length = 65 := by
  unfold ecmultWnafConst
  refine rel_seq inferInstance fun _ => rel_seq inferInstance fun _ => rel_seq inferInstance fun _ => rel_seq inferInstance fun r => ?_
  rw [rassert_true (by decide), pure_bind]
  refine (rel_loop (fun _ st => st.wnaf.length = 65) hl fun i st hi hst => ?_).bind fun st hst => ?_
  · unfold wnafConstStep
    refine rel_seq inferInstance fun _ => rel_seq inferInstance fun _ => rel_seq inferInstance fun _ => rel_seq inferInstance fun _ => ?_
    have hi : i < 64 := hi
    refine (rel_setIdx _ (by omega)).bind fun t ht => rel_pure ?_
    show t.length = 65
    rw [ht, List.length_set, hst]
  · refine rel_seq inferInstance fun _ => (rel_setIdx _ (by rw [hst]; decide)).bind fun t ht => rel_seq inferInstance fun _ => rel_pure ?_
    show t.length = 65
    rw [ht, List.length_set, hst]

instance constDouble_total (i : Nat) (r : Jacobian) : Total (constDouble i r) := by unfold constDouble; total

theorem total_weakTable {preA : List Affine} (h : preA.length = 8) : Rel (weakTable preA) fun t => t.length = 8 := by
  unfold weakTable
  refine rel_tabulate fun i hi => ?_
  exact total_bind (rel_idx (by rw [h]; exact hi)).total fun _ => total_bind inferInstance fun _ => inferInstance

instance constCorrect_total (a : Affine) (skew : Int) (r : Jacobian) : Total (constCorrect a skew r) := by unfold constCorrect; total

instance ecmultConst_total (a : Affine) (scalar : Scalar) : Total (ecmultConst a scalar) := by
  unfold ecmultConst
  refine Rel.total (P := fun _ => True) ?_
  refine (total_wnafConst (by decide) scalar).bind fun w hw => rel_seq inferInstance fun r => (total_globalzTable r).bind fun t ht => ?_
  refine (total_weakTable ht).bind fun preA hp => rel_seq (rel_idx (by rw [hw]; decide)).total fun i => rel_seq inferInstance fun _ => ?_
  refine rel_seq inferInstance fun _ => rel_seq inferInstance fun _ => rel_seq ?_ fun _ => Total.rel (by total)
  refine (rel_loopRev (fun _ => True) trivial fun i r hi _ => ?_).total
  have hi : i < 65 := hi.trans (by decide)
  unfold constStep
  refine rel_seq (total_loop fun _ _ => inferInstance) fun _ => rel_seq (rel_idx (by omega)).total fun _ => Total.rel (by total)

/-- A table of the shape that `ECMultGenContext` has by its type. -/
def GenShape (prec : List (List AffineStorage)) : Prop := prec.length = 64 ∧ ∀ row ∈ prec, row.length = 16

theorem total_ecmultGen {ctx : GenContext} (h : GenShape ctx.prec) (gn : Scalar) : Total (ecmultGen ctx gn) := by
  unfold ecmultGen
  refine total_bind inferInstance fun gnb => total_bind ?_ fun _ => inferInstance
  refine (rel_loop (fun _ _ => True) trivial fun j s hj _ => ?_).total
  unfold genStep
  refine rel_seq (total_bits gnb (by omega)) fun _ => (rel_idx (by rw [h.1]; exact hj)).bind fun row hrow => ?_
  have hlen := h.2 row hrow
  refine rel_seq ?_ fun _ => Total.rel (by total)
  unfold genSelect
  exact (rel_loop (fun _ _ => True) trivial fun i s hi _ => rel_seq (rel_idx (by omega)).total fun _ => rel_pure trivial).total

end Ecmult

namespace Ecdsa
open Ecmult

instance verifySecond_total (pr : Jacobian) (xr : FElem) : Total (verifySecond pr xr) := by unfold verifySecond; total
instance verifyTail_total (sigr : Scalar) (pr : Jacobian) : Total (verifyTail sigr pr) := by unfold verifyTail; total
instance recoverX_total (recId : UInt8) (fx : FElem) : Total (recoverX recId fx) := by unfold recoverX; total
instance signTail_total (sigr sigs : Scalar) (recid : UInt8) : Total (signTail sigr sigs recid) := by unfold signTail; total
instance ecdhRaw_total (D : Digest) (point : Affine) (scalar : Scalar) : Total (ecdhRaw D point scalar) := by unfold ecdhRaw; total

theorem total_verifyRaw {ctx : List AffineStorage} (h : ctx.length = 16384) (sigr sigs : Scalar) (pubkey : Affine) (message : Scalar) :
    Total (verifyRaw ctx sigr sigs pubkey message) := by
  have := total_ecmult h
  unfold verifyRaw; total

theorem total_recoverTail {ctx : List AffineStorage} (h : ctx.length = 16384) (sigr sigs message : Scalar) (x : Affine) :
    Total (recoverTail ctx sigr sigs message x) := by
  have := total_ecmult h
  unfold recoverTail; total

theorem total_recoverRaw {ctx : List AffineStorage} (h : ctx.length = 16384) (sigr sigs : Scalar) (recId : UInt8) (message : Scalar) :
    Total (recoverRaw ctx sigr sigs recId message) := by
  have := total_recoverTail h
  unfold recoverRaw; total

theorem total_signRaw {ctx : GenContext} (h : GenShape ctx.prec) (seckey message nonce : Scalar) : Total (signRaw ctx seckey message nonce) := by
  have := total_ecmultGen h
  unfold signRaw; total

end Ecdsa

end Verif
