import Verif.Model.Ecdsa
import Verif.Proofs.EcdsaAlg
import Verif.Proofs.Points
import Verif.Proofs.Ecmult
import Verif.Proofs.Gen

/-! Verification, recovery, signing and key agreement on scalars and points. -/

namespace Verif
open Spec

/-! Canonical scalars as residues. -/

/-- The scalar is the canonical representative of `z`. -/
def Sc (a : Scalar) (z : ZMod n) : Prop := a.val = z.val

theorem sc_of {a : Scalar} (h : a.val < n) : Sc a (a.val : ZMod n) := by
  unfold Sc; rw [ZMod.val_natCast_of_lt h]

theorem Sc.lt {a : Scalar} {z : ZMod n} (h : Sc a z) : a.val < n := by
  rw [h]; exact ZMod.val_lt z

theorem Sc.cast {a : Scalar} {z : ZMod n} (h : Sc a z) : (a.val : ZMod n) = z := by
  rw [h]; exact ZMod.natCast_zmod_val z

theorem sc_of_cast {a : Scalar} {z : ZMod n} (h : a.val < n) (e : (a.val : ZMod n) = z) : Sc a z := by
  rw [← e]; exact sc_of h

theorem Sc.zero_iff {a : Scalar} {z : ZMod n} (h : Sc a z) : a.isZero = true ↔ z = 0 := by
  rw [Scalar.isZero_iff, h, ZMod.val_eq_zero]

theorem sc_mod {a : Scalar} {v : ℕ} (h : a.val = v % n) : Sc a (v : ZMod n) := by
  unfold Sc; rw [h, ZMod.val_natCast]

/-- The scalar, canonical or not, is a representative of `z`. -/
def Rs (a : Scalar) (z : ZMod n) : Prop := (a.val : ZMod n) = z

theorem rs_mul {a b : Scalar} {y z : ZMod n} (ha : Rs a y) (hb : Rs b z) : Runs (Scalar.mul a b) (fun r => Sc r (y * z)) :=
  (Scalar.mul_runs a b).mono fun r hr => by
    have := sc_mod hr
    rwa [Nat.cast_mul, ha, hb] at this

theorem rs_inv {a : Scalar} {z : ZMod n} (ha : Rs a z) : Runs (Scalar.inv a) (fun r => Sc r z⁻¹) := by
  obtain ⟨r, hr, h1, h2⟩ := Scalar.inv_val (a := a)
  exact ⟨r, hr, sc_of_cast h1 (by rw [h2, ha])⟩

theorem rs_add {a b : Scalar} {y z : ZMod n} (ha : Sc a y) (hb : Rs b z) : Runs (Scalar.add a b) (fun r => Rs r (y + z)) :=
  (Scalar.add_any a b).mono fun r hr => by
    have h1 := ha.lt
    have h2 := b.val_lt
    rw [← ha.cast, ← show ((b.val : ℕ) : ZMod n) = z from hb, ← Nat.cast_add]
    show ((r.val : ℕ) : ZMod n) = _
    rw [ZMod.natCast_eq_natCast_iff', hr]
    split
    · rw [Nat.mod_eq_of_lt (show a.val + b.val < 2 ^ 256 by unfold n at *; omega)]
    · rw [Nat.mod_eq_of_lt (show a.val + b.val - n < 2 ^ 256 by omega), ← Nat.mod_eq_sub_mod (by omega)]

theorem Sc.rs {a : Scalar} {z : ZMod n} (h : Sc a z) : Rs a z := h.cast

theorem sc_mul {a b : Scalar} {y z : ZMod n} (ha : Sc a y) (hb : Sc b z) : Runs (Scalar.mul a b) (fun r => Sc r (y * z)) :=
  (Scalar.mul_runs a b).mono fun r hr => by
    have := sc_mod hr
    rwa [Nat.cast_mul, ha.cast, hb.cast] at this

theorem sc_add {a b : Scalar} {y z : ZMod n} (ha : Sc a y) (hb : Sc b z) : Runs (Scalar.add a b) (fun r => Sc r (y + z)) :=
  (Scalar.add_runs ha.lt hb.lt).mono fun r hr => by
    have := sc_mod hr
    rwa [Nat.cast_add, ha.cast, hb.cast] at this

theorem sc_neg {a : Scalar} {z : ZMod n} (ha : Sc a z) : Runs (Scalar.neg a) (fun r => Sc r (-z)) :=
  (Scalar.neg_runs ha.lt).mono fun r hr => by
    have := sc_mod hr
    rwa [Nat.cast_sub ha.lt.le, ha.cast, ZMod.natCast_self, zero_sub] at this

theorem sc_inv {a : Scalar} {z : ZMod n} (ha : Sc a z) : Runs (Scalar.inv a) (fun r => Sc r z⁻¹) := by
  obtain ⟨r, hr, h1, h2⟩ := Scalar.inv_val (a := a)
  exact ⟨r, hr, sc_of_cast h1 (by rw [h2, ha.cast])⟩

namespace Ecdsa
open Ecmult FElem

theorem pMinusOrder_feN : FeN pMinusOrder ((432420386565659656852420866390673177326 : ℕ) : Fp) := feN_const (by decide +kernel)

theorem p_sub_n : p - Spec.n = 432420386565659656852420866390673177326 := by decide +kernel

theorem orderAsFe_feN : FeN orderAsFe ((Spec.n : ℕ) : Fp) := feN_const (by decide +kernel)

theorem pmo_val : ((432420386565659656852420866390673177326 : ℕ) : Fp).val = p - Spec.n := by
  rw [p_sub_n]; exact ZMod.val_natCast_of_lt (by decide +kernel)

theorem r_val {r : ℕ} (h : r < p) : ((r : ℕ) : Fp).val = r := ZMod.val_natCast_of_lt h

/-- Loading a scalar below `p` as a field element. -/
theorem setB32_scalar {a : Scalar} (h : a.val < p) :
    Runs (FElem.setB32 FElem.zero a.b32) (fun r => r.2 = true ∧ FeN r.1 ((a.val : ℕ) : Fp) ∧ r.1.magnitude = 1) := by
  refine (FElem.setB32_runs FElem.zero a.b32).mono fun r hr => ?_
  rw [Scalar.beNat_b32, decide_eq_true h] at hr
  exact ⟨hr.1, hr.2 hr.1⟩

theorem verifySecond_runs {pr : Jacobian} {P : Pt} {xr : FElem} {r : ℕ} (hP : Jac pr P) (h0 : P ≠ 0) (hr : r < p) (hx : FeN xr ((r : ℕ) : Fp)) :
    Runs (verifySecond pr xr) (fun b => b = true ↔ r < p - Spec.n ∧ ∃ y, IsPt P ((r + Spec.n : ℕ) : Fp) y) := by
  unfold verifySecond
  refine Runs.bind (cmpVar_runs hx pMinusOrder_feN) fun c hc => ?_
  rw [r_val hr, pmo_val] at hc
  by_cases hlt : r < p - Spec.n
  · have : c = .lt := by rw [hc]; exact Nat.compare_eq_lt.2 hlt
    rw [this, if_neg (by decide)]
    refine Runs.bind (fe_add hx.fe orderAsFe_feN.fe (by norm_num)) fun xr' hx' => ?_
    refine (Jacobian.eqXVar_runs hP (hP.inf_false h0) hx'.1 (by norm_num)).mono fun b hb => ?_
    rw [hb, Nat.cast_add]
    exact ⟨fun h => ⟨hlt, h⟩, fun h => h.2⟩
  · have : c ≠ .lt := by rw [hc]; exact fun e => hlt (Nat.compare_eq_lt.1 e)
    rw [if_pos (by simpa using this)]
    exact runs_pure (by simp [hlt])

/-- The comparison at the end of `verify_raw`: the x coordinate of `P` is `r`, or `r + n` if that is below `p`. -/
theorem verifyTail_runs {pr : Jacobian} {P : Pt} {sigr : Scalar} (hP : Jac pr P) (hr : sigr.val < p) :
    Runs (verifyTail sigr pr) (fun b => b = true ↔ XMatches P sigr.val) := by
  unfold verifyTail
  by_cases h0 : P = 0
  · rw [if_pos (hP.inf_iff.2 h0)]
    refine runs_pure ?_
    simp only [Bool.false_eq_true, false_iff]
    rintro ⟨x, y, h, _⟩
    exact h.ne_zero h0
  rw [hP.inf_false h0, if_neg (by decide)]
  refine Runs.bind (setB32_scalar hr) fun xr hx => ?_
  refine Runs.bind (Jacobian.eqXVar_runs hP (hP.inf_false h0) hx.2.1.fe (by norm_num)) fun e he => ?_
  have key : XMatches P sigr.val ↔
      (∃ y, IsPt P ((sigr.val : ℕ) : Fp) y) ∨ (sigr.val < p - Spec.n ∧ ∃ y, IsPt P ((sigr.val + Spec.n : ℕ) : Fp) y) := by
    rw [xMatches_iff, Nat.mod_eq_of_lt hr]
  rw [key]
  cases e with
  | true => rw [if_pos rfl]; exact runs_pure (by simp [he.1 rfl])
  | false =>
    rw [if_neg (by decide)]
    refine (verifySecond_runs hP h0 hr hx.2.1).mono fun b hb => ?_
    rw [hb]
    have : ¬ ∃ y, IsPt P ((sigr.val : ℕ) : Fp) y := fun h => by simpa using he.2 h
    exact ⟨Or.inr, fun h => h.resolve_left this⟩

/-- `verify_raw` up to the final comparison, for arbitrary limbs. -/
theorem verifyRaw_head {ctx : List AffineStorage} {sigr sigs m : Scalar} {q : Affine} {Q : Pt} (hG : StoTable 16384 G ctx)
    (hq : Aff q Q) (hQ : Q ≠ 0) (h0 : sigr.val ≠ 0) (h1 : sigs.val ≠ 0) :
    ∃ pr, verifyRaw ctx sigr sigs q m = verifyTail sigr pr ∧
      Jac pr (((m.val : ZMod Spec.n) / (sigs.val : ZMod Spec.n)).val • G + ((sigr.val : ZMod Spec.n) / (sigs.val : ZMod Spec.n)).val • Q) := by
  unfold verifyRaw
  rw [if_neg (by rw [Bool.or_eq_true, Scalar.isZero_iff, Scalar.isZero_iff]; tauto)]
  obtain ⟨sn, e1, hsn⟩ := rs_inv (a := sigs) rfl
  obtain ⟨u1, e2, hu1⟩ := rs_mul hsn.rs (b := m) rfl
  obtain ⟨u2, e3, hu2⟩ := rs_mul hsn.rs (b := sigr) rfl
  obtain ⟨qj, e4, hqj⟩ := Jacobian.setGe_runs hq
  obtain ⟨pr, e5, hpr⟩ := ecmult_runs hG hqj.1 hQ hu2.lt hu1.lt
  refine ⟨pr, by rw [e1, pure_bind, e2, pure_bind, e3, pure_bind, e4, pure_bind, e5, pure_bind], ?_⟩
  rwa [hu1, hu2, add_comm, mul_comm _ (m.val : ZMod Spec.n), mul_comm _ (sigr.val : ZMod Spec.n), ← div_eq_mul_inv, ← div_eq_mul_inv] at hpr

theorem verifyRaw_zero {ctx : List AffineStorage} {sigr sigs m : Scalar} {q : Affine} (h : sigr.val = 0 ∨ sigs.val = 0) :
    verifyRaw ctx sigr sigs q m = pure false := by
  unfold verifyRaw
  rw [if_pos (by rw [Bool.or_eq_true, Scalar.isZero_iff, Scalar.isZero_iff]; exact h)]

theorem verifyRaw_runs {ctx : List AffineStorage} {sigr sigs m : Scalar} {q : Affine} {Q : Pt} {r s z : ZMod Spec.n} (hG : StoTable 16384 G ctx)
    (hr : Sc sigr r) (hs : Sc sigs s) (hm : Rs m z) (hq : Aff q Q) (hQ : Q ≠ 0) :
    Runs (verifyRaw ctx sigr sigs q m) (fun b => b = true ↔ EcdsaValid z r s Q) := by
  unfold EcdsaValid
  by_cases h0 : r = 0 ∨ s = 0
  · rw [verifyRaw_zero (by rw [hr, hs, ZMod.val_eq_zero, ZMod.val_eq_zero]; exact h0)]
    exact runs_pure (by simp only [Bool.false_eq_true, false_iff]; tauto)
  push Not at h0
  obtain ⟨pr, e, hpr⟩ := verifyRaw_head (sigr := sigr) (sigs := sigs) (m := m) hG hq hQ (by rw [hr, ne_eq, ZMod.val_eq_zero]; exact h0.1)
    (by rw [hs, ne_eq, ZMod.val_eq_zero]; exact h0.2)
  rw [e]
  refine (verifyTail_runs hpr (hr.lt.trans n_lt_p)).mono fun b hb => ?_
  rw [hr.cast, hs.cast, show ((m.val : ℕ) : ZMod Spec.n) = z from hm] at hb
  rw [hb, xMatches_mod hr.lt, hr.cast]
  exact ⟨fun h => ⟨h0.1, h0.2, h⟩, fun h => h.2.2⟩

/-! Recovery. -/

theorem id_bits : ∀ id : UInt8, id < 4 → (decide (id &&& 2 > 0) = decide (id.toNat / 2 = 1)) ∧ (decide (id &&& 1 > 0) = decide (id.toNat % 2 = 1)) ∧ id.toNat / 2 ≤ 1 := by
  intro id h
  have h' : id.toNat < 4 := by simpa [UInt8.lt_iff_toNat_lt] using h
  have : id = 0 ∨ id = 1 ∨ id = 2 ∨ id = 3 := by
    have e : id = UInt8.ofNat id.toNat := (UInt8.ofNat_toNat).symm
    rw [e]
    generalize id.toNat = v at *
    rcases v with _ | _ | _ | _ | v
    · simp
    · simp
    · simp
    · simp
    · omega
  rcases this with rfl | rfl | rfl | rfl <;> decide

theorem recoverX_runs {id : UInt8} {fx : FElem} {r : ℕ} (hid : id < 4) (hr : r < p) (hx : FeN fx ((r : ℕ) : Fp)) :
    Runs (recoverX id fx) (fun o => (o = none ∧ p ≤ r + Spec.n * (id.toNat / 2)) ∨
      ∃ f, o = some f ∧ r + Spec.n * (id.toNat / 2) < p ∧ Fe f 2 ((r + Spec.n * (id.toNat / 2) : ℕ) : Fp)) := by
  obtain ⟨h1, _, h3⟩ := id_bits id hid
  have hnp := n_lt_p
  unfold recoverX
  by_cases hb : id.toNat / 2 = 1
  · rw [if_pos (of_decide_eq_true (by rw [h1]; exact decide_eq_true hb)), hb, mul_one]
    refine Runs.bind (cmpVar_runs hx pMinusOrder_feN) fun c hc => ?_
    rw [r_val hr, pmo_val] at hc
    by_cases hlt : r < p - Spec.n
    · have : c = .lt := by rw [hc]; exact Nat.compare_eq_lt.2 hlt
      rw [this, if_neg (by decide)]
      refine Runs.bind (fe_add hx.fe orderAsFe_feN.fe (by norm_num)) fun xr' hx' => runs_pure (Or.inr ⟨_, rfl, by omega, ?_⟩)
      rw [Nat.cast_add]; exact hx'.1
    · have : c ≠ .lt := by rw [hc]; exact fun e => hlt (Nat.compare_eq_lt.1 e)
      rw [if_pos (by simpa using this)]
      exact runs_pure (Or.inl ⟨rfl, by omega⟩)
  · have hb0 : id.toNat / 2 = 0 := by omega
    rw [if_neg (fun h => by rw [decide_eq_true h, eq_comm, decide_eq_true_eq] at h1; exact hb h1), hb0, mul_zero, add_zero]
    exact runs_pure (Or.inr ⟨_, rfl, hr, hx.fe.mono (by norm_num)⟩)

theorem recoverTail_runs {ctx : List AffineStorage} {sigr sigs m : Scalar} {x : Affine} {R : Pt} {r s z : ZMod Spec.n} (hG : StoTable 16384 G ctx)
    (hr : Rs sigr r) (hs : Rs sigs s) (hm : Rs m z) (hx : Aff x R) (hR : R ≠ 0) :
    Runs (recoverTail ctx sigr sigs m x) (fun o => (o = .error .invalidSignature ∧ recoveredKey z r s R = 0) ∨
      ∃ a, o = .ok a ∧ Aff a (recoveredKey z r s R) ∧ recoveredKey z r s R ≠ 0) := by
  unfold recoverTail
  refine Runs.bind (Jacobian.setGe_runs hx) fun xj hxj => ?_
  refine Runs.bind (rs_inv hr) fun rn hrn => ?_
  refine Runs.bind (rs_mul hrn.rs hm) fun u1 hu1 => ?_
  refine Runs.bind (sc_neg hu1) fun u1' hu1' => ?_
  refine Runs.bind (rs_mul hrn.rs hs) fun u2 hu2 => ?_
  refine Runs.bind (ecmult_runs hG hxj.1 hR hu2.lt hu1'.lt) fun qj hqj => ?_
  have e : u2.val • R + u1'.val • G = recoveredKey z r s R := by
    unfold recoveredKey
    rw [hu2, hu1', zs_neg, mul_comm r⁻¹, mul_comm r⁻¹, ← div_eq_mul_inv, ← div_eq_mul_inv, sub_eq_add_neg]
  rw [e] at hqj
  refine Runs.bind (Affine.setGejVar_runs hqj ⟨FElem.zero_fe.ok (by norm_num), FElem.zero_fe.ok (by norm_num)⟩) fun k hk => ?_
  by_cases h0 : recoveredKey z r s R = 0
  · rw [if_pos (hk.1.inf_iff.2 h0)]
    exact runs_pure (Or.inl ⟨rfl, h0⟩)
  · rw [hk.1.inf_false h0, if_neg (by decide)]
    exact runs_pure (Or.inr ⟨_, rfl, hk.1, h0⟩)

theorem recoverRaw_any {ctx : List AffineStorage} {sigr sigs m : Scalar} {id : UInt8} {r s z : ZMod Spec.n} (hG : StoTable 16384 G ctx)
    (hr : Rs sigr r) (hs : Rs sigs s) (hm : Rs m z) (hrp : sigr.val < p) (hid : id < 4) :
    Runs (recoverRaw ctx sigr sigs id m) (fun o =>
      (o = .error .invalidSignature ∧ ¬ (sigr.val ≠ 0 ∧ sigs.val ≠ 0 ∧ ∃ R, IsRecoveryPoint sigr.val id.toNat R ∧ recoveredKey z r s R ≠ 0)) ∨
      ∃ a R, o = .ok a ∧ sigr.val ≠ 0 ∧ sigs.val ≠ 0 ∧ IsRecoveryPoint sigr.val id.toNat R ∧ recoveredKey z r s R ≠ 0 ∧ Aff a (recoveredKey z r s R)) := by
  unfold recoverRaw
  refine runs_dassert (decide_eq_true hid) ?_
  by_cases h0 : sigr.val = 0 ∨ sigs.val = 0
  · rw [if_pos (by rw [Bool.or_eq_true, Scalar.isZero_iff, Scalar.isZero_iff]; exact h0)]
    exact runs_pure (Or.inl ⟨rfl, by tauto⟩)
  rw [if_neg (by rw [Bool.or_eq_true, Scalar.isZero_iff, Scalar.isZero_iff]; exact h0)]
  push Not at h0
  refine Runs.bind (setB32_scalar hrp) fun fx hfx => ?_
  refine runs_dassert hfx.1 ?_
  refine Runs.bind (recoverX_runs hid hrp hfx.2.1) fun o ho => ?_
  rcases ho with ⟨rfl, hge⟩ | ⟨f, rfl, hlt, hf⟩
  · refine runs_pure (Or.inl ⟨rfl, ?_⟩)
    rintro ⟨_, _, R, ⟨x, y, _, hx, _⟩, _⟩
    have := ZMod.val_lt x
    omega
  dsimp only
  obtain ⟨_, h2, _⟩ := id_bits id hid
  rw [h2]
  generalize hv : sigr.val + Spec.n * (id.toNat / 2) = v at *
  refine Runs.bind (Affine.setXoVar_runs (hf.mono (by norm_num)) _) fun x hx => ?_
  obtain ⟨e1, e2, e3, e4, e5⟩ := hx
  by_cases hsq : IsSquare (((v : ℕ) : Fp) ^ 3 + 7)
  · rw [e4.2 hsq, if_neg (by decide)]
    obtain ⟨e6, e7⟩ := e5 hsq
    obtain ⟨R, hR⟩ := isPt_of_eqn e6
    have hxa : Aff x.1 R := aff_of_isPt e2 (by rw [e1]; exact hf) e3 (by norm_num) (by norm_num) hR
    have hrec : IsRecoveryPoint sigr.val id.toNat R := by
      refine ⟨_, _, hR, ?_, ?_⟩
      · rw [hv]; exact ZMod.val_natCast_of_lt hlt
      · rw [decide_eq_true_eq] at e7; omega
    refine (recoverTail_runs hG hr hs hm hxa hR.ne_zero).mono fun o ho => ?_
    rcases ho with ⟨rfl, hz⟩ | ⟨a, rfl, ha, hne⟩
    · refine Or.inl ⟨rfl, ?_⟩
      rintro ⟨_, _, R', hR', hne⟩
      rw [recoveryPoint_unique hR' hrec] at hne
      exact hne hz
    · exact Or.inr ⟨a, R, rfl, h0.1, h0.2, hrec, hne, ha⟩
  · have hx2 : x.2 = false := by
      by_contra hc
      exact hsq (e4.1 (by simpa using hc))
    rw [hx2, if_pos (by decide)]
    refine runs_pure (Or.inl ⟨rfl, ?_⟩)
    rintro ⟨_, _, R, ⟨x', y', hP, hx', _⟩, _⟩
    apply hsq
    rw [hv] at hx'
    have : x' = ((v : ℕ) : Fp) := by rw [← hx', ZMod.natCast_zmod_val]
    subst this
    exact ⟨y', by rw [← hP.eqn, sq]⟩

theorem recoverRaw_runs {ctx : List AffineStorage} {sigr sigs m : Scalar} {id : UInt8} {r s z : ZMod Spec.n} (hG : StoTable 16384 G ctx)
    (hr : Sc sigr r) (hs : Sc sigs s) (hm : Rs m z) (hid : id < 4) :
    Runs (recoverRaw ctx sigr sigs id m) (fun o =>
      (o = .error .invalidSignature ∧ ¬ (r ≠ 0 ∧ s ≠ 0 ∧ ∃ R, IsRecoveryPoint sigr.val id.toNat R ∧ recoveredKey z r s R ≠ 0)) ∨
      ∃ a R, o = .ok a ∧ r ≠ 0 ∧ s ≠ 0 ∧ IsRecoveryPoint sigr.val id.toNat R ∧ recoveredKey z r s R ≠ 0 ∧ Aff a (recoveredKey z r s R)) := by
  refine (recoverRaw_any hG hr.rs hs.rs hm (hr.lt.trans n_lt_p) hid).mono fun o ho => ?_
  rwa [show sigr.val ≠ 0 ↔ r ≠ 0 by rw [hr, ne_eq, ZMod.val_eq_zero], show sigs.val ≠ 0 ↔ s ≠ 0 by rw [hs, ne_eq, ZMod.val_eq_zero]] at ho

/-! Signing. -/

/-- The computation returns `a` with `P a`, except that in the debug profile it panics if `c` is false. -/
def RunsIf {α : Type} (c : Bool) (x : Exec α) (P : α → Prop) : Prop := ∃ a, x = (dassert c >>= fun _ => pure a) ∧ P a

theorem RunsIf.pre {α β : Type} {c : Bool} {x : Exec α} {f : α → Exec β} {P : α → Prop} {Q : β → Prop} (hx : Runs x P)
    (hf : ∀ a, P a → RunsIf c (f a) Q) : RunsIf c (x >>= f) Q := by
  obtain ⟨a, rfl, ha⟩ := hx
  rw [pure_bind]; exact hf a ha

theorem RunsIf.check {β : Type} {c : Bool} {f : Unit → Exec β} {Q : β → Prop} (hf : Runs (f ()) Q) : RunsIf c (dassert c >>= f) Q := by
  obtain ⟨a, e, ha⟩ := hf
  refine ⟨a, ?_, ha⟩
  congr 1; funext _; exact e

theorem dassert_two {β : Type} {a b c : Bool} (h : c = (a && b)) (f : Unit → Exec β) :
    (dassert a >>= fun _ => dassert b >>= f) = dassert c >>= f := by
  subst h
  funext p
  cases p <;> cases a <;> cases b <;> rfl

theorem RunsIf.release {α : Type} {c : Bool} {x : Exec α} {P : α → Prop} (h : RunsIf c x P) : ∃ a, x .release = some a ∧ P a := by
  obtain ⟨a, rfl, ha⟩ := h; exact ⟨a, rfl, ha⟩

theorem RunsIf.runs {α : Type} {c : Bool} {x : Exec α} {P : α → Prop} (h : RunsIf c x P) (hc : c = true) : Runs x P := by
  obtain ⟨a, rfl, ha⟩ := h; exact ⟨a, by rw [dassert_true hc, pure_bind], ha⟩

theorem RunsIf.debug {α : Type} {c : Bool} {x : Exec α} {P : α → Prop} (h : RunsIf c x P) (hc : c = false) : x .debug = none := by
  obtain ⟨a, rfl, ha⟩ := h; subst hc; rfl

/-- Any value the computation returns, in whatever profile, satisfies `P`. -/
theorem RunsIf.of_some {α : Type} {c : Bool} {x : Exec α} {P : α → Prop} (h : RunsIf c x P) {π : Profile} {a : α} (e : x π = some a) : P a := by
  cases c with
  | true =>
    obtain ⟨b, rfl, hb⟩ := h.runs rfl
    have : b = a := by simpa [pure, ReaderT.pure] using e
    rw [← this]; exact hb
  | false =>
    cases π with
    | debug => rw [h.debug rfl] at e; exact absurd e (by simp)
    | release =>
      obtain ⟨b, hb, hb'⟩ := h.release
      rw [hb] at e
      have : b = a := by simpa using e
      rw [← this]; exact hb'

/-- What `sign_raw` returns: `(r, s, id)` with the sign of `s` chosen by `is_high`, or an error if `s` is zero. -/
def SignResult (d m : ZMod Spec.n) (k : ZMod Spec.n) (x y : Fp) (o : Res (Scalar × Scalar × UInt8)) : Prop :=
  let s₀ := (m + ((x.val % Spec.n : ℕ) : ZMod Spec.n) * d) / k
  (s₀ = 0 ∧ o = .error .invalidMessage) ∨
  (s₀ ≠ 0 ∧ ∃ r s id, o = .ok (r, s, id) ∧ r.val = x.val % Spec.n ∧
    ((s₀.val < (Spec.n - 1) / 2 ∧ s.val = s₀.val ∧ id.toNat = 2 * (x.val / Spec.n) + y.val % 2) ∨
     ((Spec.n - 1) / 2 ≤ s₀.val ∧ s.val = (-s₀).val ∧ id.toNat = 2 * (x.val / Spec.n) + (y.val + 1) % 2)))

theorem recid_nat (o q : Bool) : (((if o then 2 else 0) ||| (if q then 1 else 0) : UInt8)).toNat = 2 * (if o then 1 else 0) + (if q then 1 else 0) := by
  revert o q; decide

theorem recid_flip (o q : Bool) : ((((if o then 2 else 0) ||| (if q then 1 else 0) : UInt8)) ^^^ 1).toNat = 2 * (if o then 1 else 0) + (if q then 0 else 1) := by
  revert o q; decide

theorem signTail_runs {sigr sigs : Scalar} {s : ZMod Spec.n} (hs : Sc sigs s) (recid : UInt8) :
    Runs (signTail sigr sigs recid) (fun o => (s = 0 ∧ o = .error .invalidMessage) ∨
      (s ≠ 0 ∧ s.val < (Spec.n - 1) / 2 ∧ o = .ok (sigr, sigs, recid)) ∨
      (s ≠ 0 ∧ (Spec.n - 1) / 2 ≤ s.val ∧ ∃ s', Sc s' (-s) ∧ o = .ok (sigr, s', recid ^^^ 1))) := by
  unfold signTail
  by_cases h0 : s = 0
  · rw [if_pos (hs.zero_iff.2 h0)]; exact runs_pure (Or.inl ⟨h0, rfl⟩)
  rw [if_neg (fun h => h0 (hs.zero_iff.1 h))]
  by_cases hh : (Spec.n - 1) / 2 ≤ s.val
  · rw [if_pos ((Scalar.isHigh_iff _).2 (by rw [hs]; exact hh))]
    exact Runs.bind (sc_neg hs) fun s' hs' => runs_pure (Or.inr (Or.inr ⟨h0, hh, s', hs', rfl⟩))
  · rw [if_neg (fun h => hh (by rw [← hs]; exact (Scalar.isHigh_iff _).1 h))]
    exact runs_pure (Or.inr (Or.inl ⟨h0, by omega, rfl⟩))

theorem signRaw_runs {ctx : GenContext} {seckey message nonce : Scalar} {d m k : ZMod Spec.n} {x y : Fp} (hc : GenTable ctx.prec) (hb : ctx.blind = genBlind)
    (hi : ctx.initial = genInitial) (hd : Rs seckey d) (hm : Rs message m) (hk : Rs nonce k) (hP : IsPt (k.val • G) x y) :
    RunsIf (decide (x.val < Spec.n)) (signRaw ctx seckey message nonce) (SignResult d m k x y) := by
  unfold signRaw
  refine RunsIf.pre (ecmultGen_runs hc hb hi) fun rp hrp => ?_
  rw [← zs_cast, show ((nonce.val : ℕ) : ZMod Spec.n) = k from hk] at hrp
  refine RunsIf.pre (Affine.setGej_runs hrp) fun r ⟨hr, _, hrx, hry⟩ => ?_
  have hrP := (hr.isPt (hr.inf_false hP.ne_zero)).inj hP
  refine RunsIf.pre (fe_normalize hrx (by norm_num)) fun fx ⟨hfx, _⟩ => ?_
  refine RunsIf.pre (fe_normalize hry (by norm_num)) fun fy ⟨hfy, _⟩ => ?_
  rw [hrP.1] at hfx
  rw [hrP.2] at hfy
  refine RunsIf.pre (b32_runs hfx) fun b hb => ?_
  refine RunsIf.pre (Scalar.setB32_runs b) fun sr ⟨hs1, hs2⟩ => ?_
  have hxlt := ZMod.val_lt x
  have hx32 : beNat b.toList = x.val := by
    rw [hb, beNat_beBytes, Nat.mod_eq_of_lt (hxlt.trans (by decide +kernel))]
  rw [hx32] at hs1 hs2
  have hn0 : x.val ≠ 0 := by
    rw [ne_eq, ZMod.val_eq_zero]; exact hP.x_ne
  rw [dassert_two (c := decide (x.val < Spec.n))]
  swap
  · rw [hs1]
    by_cases hlt : x.val < Spec.n
    · have : sr.1.isZero = false := by
        by_contra hc
        have := (Scalar.isZero_iff _).1 (by simpa using hc : sr.1.isZero = true)
        rw [hs2, Nat.mod_eq_of_lt hlt] at this
        exact hn0 this
      simp [this, hlt]
    · simp only [hlt, not_lt.1 hlt, decide_true, decide_false, Bool.not_true, Bool.and_false]
  refine RunsIf.check ?_
  refine Runs.bind (isOdd_runs hfy) fun odd hodd => ?_
  have hsr := sc_mod hs2
  refine Runs.bind (rs_mul hsr.rs hd) fun n1 hn1 => ?_
  refine Runs.bind (rs_add hn1 hm) fun n2 hn2 => ?_
  refine Runs.bind (rs_inv hk) fun ki hki => ?_
  refine Runs.bind (rs_mul hki.rs hn2) fun sigs hsigs => ?_
  have hcast : ((x.val : ℕ) : ZMod Spec.n) = ((x.val % Spec.n : ℕ) : ZMod Spec.n) := (ZMod.natCast_mod _ _).symm
  have es : k⁻¹ * (((x.val : ℕ) : ZMod Spec.n) * d + m) = (m + ((x.val % Spec.n : ℕ) : ZMod Spec.n) * d) / k := by
    rw [hcast, div_eq_mul_inv, mul_comm, add_comm]
  rw [es] at hsigs
  refine (signTail_runs hsigs _).mono fun o ho => ?_
  unfold SignResult
  dsimp only
  have hdiv : x.val / Spec.n = if sr.2 then 1 else 0 := by
    rw [hs1]
    by_cases hlt : Spec.n ≤ x.val
    · rw [if_pos (decide_eq_true hlt)]
      have := p_lt_two_n
      exact Nat.div_eq_of_lt_le (by omega) (by omega)
    · rw [if_neg (by simpa using hlt)]
      exact Nat.div_eq_of_lt (not_le.1 hlt)
  have hpar : y.val % 2 = if odd then 1 else 0 := by
    rw [hodd]; by_cases h : y.val % 2 = 1
    · rw [if_pos (decide_eq_true h), h]
    · rw [if_neg (by simpa using h)]; omega
  have hpar' : (y.val + 1) % 2 = if odd then 0 else 1 := by
    rw [hodd]; by_cases h : y.val % 2 = 1
    · rw [if_pos (decide_eq_true h)]; omega
    · rw [if_neg (by simpa using h)]; omega
  rw [hdiv, hpar, hpar']
  rcases ho with h | ⟨h0, hlo, rfl⟩ | ⟨h0, hhi, s', hs', rfl⟩
  · exact Or.inl h
  · exact Or.inr ⟨h0, _, _, _, rfl, hs2, Or.inl ⟨hlo, hsigs, recid_nat _ _⟩⟩
  · exact Or.inr ⟨h0, _, _, _, rfl, hs2, Or.inr ⟨hhi, hs', recid_flip _ _⟩⟩

theorem SignResult.isSig {d m k : ZMod Spec.n} {x y : Fp} {r s : Scalar} {id : UInt8} (hP : IsPt (k.val • G) x y)
    (h : SignResult d m k x y (.ok (r, s, id))) : IsSignature d m k r.val s.val id.toNat := by
  rcases h with ⟨_, h⟩ | ⟨h0, r', s', id', e, hr, h⟩
  · exact absurd h (by simp)
  · simp only [Except.ok.injEq, Prod.mk.injEq] at e
    obtain ⟨rfl, rfl, rfl⟩ := e
    refine ⟨x, y, hP, hr, ?_, ?_⟩
    · rw [hr]; exact h0
    · rw [hr]
      rcases h with ⟨_, h⟩ | ⟨_, h⟩
      · exact Or.inl h
      · exact Or.inr h

/-! Key agreement. -/

theorem ecdhRaw_runs {D : Digest} {a : Affine} {A : Pt} {s : Scalar} {k : ZMod Spec.n} (ha : Aff a A) (hA : A ≠ 0) (hs : Sc s k) :
    Runs (ecdhRaw D a s) (fun o => (k = 0 ∧ o = none) ∨ (k ≠ 0 ∧ ∃ x y, IsPt (k.val • A) x y ∧ o = some (D.finalize (D.update D.init (sec1Compressed x y))))) := by
  unfold ecdhRaw
  by_cases h0 : k = 0
  · rw [if_pos (hs.zero_iff.2 h0)]; exact runs_pure (Or.inl ⟨h0, rfl⟩)
  rw [if_neg (fun h => h0 (hs.zero_iff.1 h))]
  have hne : k.val • A ≠ 0 := fun h => h0 ((zs_eq_zero hA).1 h)
  refine Runs.bind (ecmultConst_runs ha hA hs.lt) fun res hres => ?_
  rw [hs] at hres
  refine Runs.bind (Affine.setGej_runs hres) fun r ⟨hr, _, hrx, hry⟩ => ?_
  have hrP := hr.isPt (hr.inf_false hne)
  refine Runs.bind (fe_normalize hrx (by norm_num)) fun fx ⟨hfx, _⟩ => ?_
  refine Runs.bind (fe_normalize hry (by norm_num)) fun fy ⟨hfy, _⟩ => ?_
  refine Runs.bind (b32_runs hfx) fun b hb => ?_
  refine Runs.bind (isOdd_runs hfy) fun odd hodd => ?_
  refine runs_pure (Or.inr ⟨h0, _, _, hrP, ?_⟩)
  rw [D.update_append, hb]
  unfold sec1Compressed
  congr 4
  rw [List.singleton_append]
  congr 1
  rw [hodd]
  by_cases h : r.y.v.val % 2 = 1
  · rw [if_pos (decide_eq_true h), if_pos h]; rfl
  · rw [if_neg (by simpa using h), if_neg h]; rfl

end Ecdsa
end Verif
