import Verif.Proofs.Ecdsa
import Verif.Proofs.Flags

/-! Verification and recovery with a signature component at least `p`, which only arises from limbs
set by the caller. -/

namespace Verif
open Spec

theorem exec_bind {α β : Type} (x : Exec α) (f : α → Exec β) (π : Profile) : (x >>= f) π = (x π).bind fun a => f a π := rfl

namespace FElem

theorem leMul_zero (x c : UInt32) : leMul x c 0 = pure (decide (x ≤ 0)) := by
  unfold leMul
  rw [show mul32 c 0 = pure 0 by
    unfold mul32; funext π; cases π <;> simp <;> rfl, pure_bind]

theorem andThen_pure (r b : Bool) : andThen r (pure b) = pure (r && b) := by
  cases r <;> rfl

/-- `verify` rejects an element whose flags say zero magnitude, if its limbs are not all zero. -/
theorem verify_zero_mag {f : FElem} (hm : f.magnitude = 0) (hn : f.normalized = true) (h0 : f.n.val ≠ 0) : verify f = pure false := by
  unfold verify
  have e : mul32 (if f.normalized then 1 else 2) f.magnitude = pure 0 := by
    rw [hm, hn]; unfold mul32; funext π; cases π <;> simp <;> rfl
  rw [e, pure_bind]
  simp only [leMul_zero, andThen_pure, pure_bind, hn, hm, if_true]
  have key : (decide (f.n.n0 ≤ 0) && decide (f.n.n1 ≤ 0) && decide (f.n.n2 ≤ 0) && decide (f.n.n3 ≤ 0) && decide (f.n.n4 ≤ 0) &&
      decide (f.n.n5 ≤ 0) && decide (f.n.n6 ≤ 0) && decide (f.n.n7 ≤ 0) && decide (f.n.n8 ≤ 0) && decide (f.n.n9 ≤ 0)) = false := by
    by_contra hc
    apply h0
    simp only [Bool.not_eq_false, Bool.and_eq_true, decide_eq_true_eq, UInt32.le_iff_toNat_le, UInt32.toNat_zero] at hc
    unfold Limbs10.val; omega
  simp only [Bool.true_and, key, Bool.false_and, Bool.false_eq_true, if_false]

theorem mul_panics {a b : FElem} (h : verify b = pure false) : mul a b .debug = none := by
  unfold mul
  by_cases h1 : decide (a.magnitude ≤ 8) = true
  swap
  · rw [Bool.not_eq_true] at h1; rw [h1]; rfl
  by_cases h2 : decide (b.magnitude ≤ 8) = true
  swap
  · rw [Bool.not_eq_true] at h2; rw [h1, h2]; rfl
  rw [h1, h2]
  show (dassertE (verify a) >>= fun _ => dassertE (verify b) >>= _) .debug = none
  rw [h]
  show (dassertE (verify a) .debug).bind _ = none
  cases dassertE (verify a) .debug <;> rfl

end FElem

namespace Ecdsa
open Ecmult FElem

theorem eqXVar_panics {pr : Jacobian} {x : FElem} (h : FElem.verify x = pure false) : Jacobian.eqXVar pr x .debug = none := by
  unfold Jacobian.eqXVar
  show ((dassert (!pr.infinity) .debug).bind fun _ => (FElem.sqr pr.z .debug).bind fun r => (FElem.mul r x .debug).bind _) = none
  cases dassert (!pr.infinity) .debug with
  | none => rfl
  | some _ =>
    cases FElem.sqr pr.z .debug with
    | none => rfl
    | some r =>
      show (FElem.mul r x .debug).bind _ = none
      rw [FElem.mul_panics h]; rfl

/-- In a release build only the limbs of the element matter. -/
theorem eqXVar_release (pr : Jacobian) (x y : FElem) (h : x.n = y.n) : Jacobian.eqXVar pr x .release = Jacobian.eqXVar pr y .release := by
  have e : ∀ r, FElem.mul r x .release = FElem.mul r y .release := fun r => by rw [mul_release, mul_release, h]
  unfold Jacobian.eqXVar
  generalize FElem.sqr pr.z = q
  simp only [exec_bind, e]

/-- The end of `verify_raw` with `r ≥ p`: a debug build panics and a release build compares modulo `p`. -/
theorem verifyTail_big {pr : Jacobian} {P : Pt} {sigr : Scalar} (hP : Jac pr P) (h0 : P ≠ 0) (hr : p ≤ sigr.val) :
    verifyTail sigr pr .debug = none ∧ ∃ b, verifyTail sigr pr .release = some b ∧ (b = true ↔ XMatches P sigr.val) := by
  unfold verifyTail
  rw [hP.inf_false h0, if_neg (by decide)]
  obtain ⟨xr, e, h1, _, h2⟩ := FElem.setB32_any FElem.zero sigr.b32
  rw [Scalar.beNat_b32] at h1 h2
  obtain ⟨t, ht, hlb, hv⟩ := h2 (by rw [h1, decide_eq_false_iff_not]; omega)
  rw [e, pure_bind, ht]
  obtain ⟨x₀, hx₀⟩ : ∃ x₀ : FElem, x₀ = { FElem.zero with n := t } := ⟨_, rfl⟩
  rw [← hx₀]
  have hxn : x₀.n = t := by rw [hx₀]
  have hz : FElem.verify x₀ = pure false := verify_zero_mag (by rw [hx₀]; rfl) (by rw [hx₀]; rfl) (by rw [hxn, hv]; exact Nat.ne_of_gt (lt_of_lt_of_le (by decide +kernel) hr))
  have hfe : Fe { n := t, magnitude := 1, normalized := false } 1 ((sigr.val : ℕ) : Fp) := by
    refine ⟨⟨?_, (by decide : (1 : UInt32).toNat ≤ 32), fun h => by simp at h⟩, (by decide : (1 : UInt32).toNat ≤ 1), ?_⟩
    · obtain ⟨l0, l1, l2, l3, l4, l5, l6, l7, l8, l9⟩ := hlb
      refine ⟨l0.trans ?_, l1.trans ?_, l2.trans ?_, l3.trans ?_, l4.trans ?_, l5.trans ?_, l6.trans ?_, l7.trans ?_, l8.trans ?_, l9.trans ?_⟩ <;> first | exact (by decide : 67108863 ≤ 134217726 * (1 : UInt32).toNat) | exact (by decide : 4194303 ≤ 8388606 * (1 : UInt32).toNat)
    · show ((t.val : ℕ) : Fp) = _
      rw [hv]
  obtain ⟨c, hc, hc'⟩ := Jacobian.eqXVar_runs hP (hP.inf_false h0) hfe (by norm_num)
  constructor
  · rw [exec_bind, eqXVar_panics hz]; rfl
  · have er : Jacobian.eqXVar pr x₀ .release = some c := by
      rw [eqXVar_release pr _ { n := t, magnitude := 1, normalized := false } hxn, hc]; rfl
    have key : XMatches P sigr.val ↔ c = true := by
      rw [hc', xMatches_iff, ZMod.natCast_mod]
      exact ⟨fun h => h.resolve_right fun h => by omega, Or.inl⟩
    rw [exec_bind, er, key]
    cases c with
    | true => exact ⟨true, rfl, Iff.rfl⟩
    | false =>
      refine ⟨false, ?_, Iff.rfl⟩
      show verifySecond pr x₀ .release = some false
      have hcmp : FElem.cmpVar x₀ pMinusOrder .release = some .gt := by
        show some (cmpLoop (limbsRev x₀.n) (limbsRev pMinusOrder.n)) = _
        rw [hxn, cmpLoop_spec _ _ hlb pMinusOrder_feN.lb, hv, show pMinusOrder.n.val = p - Spec.n by decide +kernel, Nat.compare_eq_gt.2]
        have : 0 < Spec.n := by decide +kernel
        have : 0 < p := by decide +kernel
        omega
      unfold verifySecond
      rw [exec_bind, hcmp]; rfl

/-- `recover_raw` with `r ≥ p` panics in a debug build. -/
theorem recoverRaw_panics {ctx : List AffineStorage} {sigr sigs m : Scalar} {id : UInt8} (hr : p ≤ sigr.val) (hs : sigs.val ≠ 0) :
    recoverRaw ctx sigr sigs id m .debug = none := by
  unfold recoverRaw
  obtain ⟨xr, e, h1, _⟩ := FElem.setB32_any FElem.zero sigr.b32
  rw [Scalar.beNat_b32] at h1
  have h1' : xr.2 = false := by rw [h1, decide_eq_false_iff_not]; omega
  have hr0 : sigr.val ≠ 0 := Nat.ne_of_gt (lt_of_lt_of_le (by decide +kernel) hr)
  rw [if_neg (by rw [Bool.or_eq_true, Scalar.isZero_iff, Scalar.isZero_iff]; tauto), e, pure_bind, h1']
  show (dassert (decide (id < 4)) .debug).bind _ = none
  cases dassert (decide (id < 4)) .debug <;> rfl

/-- The statements of `recover_raw` after the choice of the x coordinate (core/src/ecdsa.rs:76-102). -/
def recoverEnd (ctx : List AffineStorage) (sigr sigs m : Scalar) (id : UInt8) (fx : Option FElem) : Exec (Res Affine) :=
  match fx with
  | none => pure (.error .invalidSignature)
  | some fx => do
    let x ← Affine.setXoVar fx (decide (id &&& 1 > 0))
    if !x.2 then pure (.error .invalidSignature)
    else recoverTail ctx sigr sigs m x.1

theorem exact_recoverEnd {ctx : List AffineStorage} {sigr sigs m : Scalar} {id : UInt8} :
    ∀ x x', Agree x x' → recoverEnd ctx sigr sigs m id x .release = recoverEnd ctx sigr sigs m id x' .release := by
  refine elim_opt rfl fun x x' _ => ?_
  unfold recoverEnd
  dsimp only
  refine exact_bind inferInstance ?_
  refine elim_prod fun a a' h => elim_plain fun b => ?_
  dsimp only
  split
  · rfl
  · exact exact_recoverTail h

/-- `recover_raw` with `r ≥ p` in a release build: the x coordinate is `r - p`, and bit 1 of the id is an error. -/
theorem recoverRaw_big {ctx : List AffineStorage} {sigr sigs m : Scalar} {id : UInt8} {r s z : ZMod Spec.n} (hG : StoTable 16384 G ctx)
    (hr : Rs sigr r) (hs : Rs sigs s) (hm : Rs m z) (hrp : p ≤ sigr.val) (hs0 : sigs.val ≠ 0) (hid : id < 4) :
    ∃ o, recoverRaw ctx sigr sigs id m .release = some o ∧
      ((o = .error .invalidSignature ∧ ¬ (id.toNat / 2 = 0 ∧ ∃ R, IsRecoveryPoint (sigr.val - p) id.toNat R ∧ recoveredKey z r s R ≠ 0)) ∨
      ∃ a R, o = .ok a ∧ id.toNat / 2 = 0 ∧ IsRecoveryPoint (sigr.val - p) id.toNat R ∧ recoveredKey z r s R ≠ 0 ∧ Aff a (recoveredKey z r s R)) := by
  have hr0 : sigr.val ≠ 0 := Nat.ne_of_gt (lt_of_lt_of_le (by decide +kernel) hrp)
  have hlt : sigr.val - p < p := by
    have := sigr.val_lt
    have : (2 : ℕ) ^ 256 < 2 * p := by decide +kernel
    omega
  have hcast : ((sigr.val : ℕ) : Fp) = ((sigr.val - p : ℕ) : Fp) := by
    conv_lhs => rw [show sigr.val = sigr.val - p + p by omega, Nat.cast_add, ZMod.natCast_self, add_zero]
  obtain ⟨xr, e, h1, _, h2⟩ := FElem.setB32_any FElem.zero sigr.b32
  rw [Scalar.beNat_b32] at h1 h2
  obtain ⟨t, ht, hlb, hv⟩ := h2 (by rw [h1, decide_eq_false_iff_not]; omega)
  obtain ⟨x₁, hx₁⟩ : ∃ x₁ : FElem, x₁ = { n := t, magnitude := 1, normalized := false } := ⟨_, rfl⟩
  have hxn : x₁.n = t := by rw [hx₁]
  have hag : Agree xr.1 x₁ := ⟨by rw [ht, hx₁]; rfl⟩
  have hfe : Fe x₁ 1 ((sigr.val - p : ℕ) : Fp) := by
    subst hx₁
    refine ⟨⟨?_, (by decide : (1 : UInt32).toNat ≤ 32), fun h => by simp at h⟩, (by decide : (1 : UInt32).toNat ≤ 1), ?_⟩
    · obtain ⟨l0, l1, l2, l3, l4, l5, l6, l7, l8, l9⟩ := hlb
      refine ⟨l0.trans ?_, l1.trans ?_, l2.trans ?_, l3.trans ?_, l4.trans ?_, l5.trans ?_, l6.trans ?_, l7.trans ?_, l8.trans ?_, l9.trans ?_⟩ <;> first | exact (by decide : 67108863 ≤ 134217726 * (1 : UInt32).toNat) | exact (by decide : 4194303 ≤ 8388606 * (1 : UInt32).toNat)
    · show ((t.val : ℕ) : Fp) = _
      rw [hv, hcast]
  clear hx₁
  obtain ⟨b1, b2, b3⟩ := id_bits id hid
  have hrel : recoverRaw ctx sigr sigs id m .release = (recoverX id x₁ >>= recoverEnd ctx sigr sigs m id) .release := by
    unfold recoverRaw
    rw [if_neg (by rw [Bool.or_eq_true, Scalar.isZero_iff, Scalar.isZero_iff]; exact fun h => h.elim hr0 hs0), e, pure_bind]
    refine (exact_seq (y := pure ()) (g := fun _ => recoverX id xr.1 >>= recoverEnd ctx sigr sigs m id) rfl fun _ => ?_).trans ?_
    · exact exact_seq (x := dassert xr.2) (y := pure ()) (g := fun _ => recoverX id xr.1 >>= recoverEnd ctx sigr sigs m id) rfl fun _ => rfl
    · rw [pure_bind]
      exact exact_bind inferInstance exact_recoverEnd
  rw [hrel]
  by_cases hb : id.toNat / 2 = 1
  · refine ⟨.error .invalidSignature, ?_, Or.inl ⟨rfl, by omega⟩⟩
    have hcmp : FElem.cmpVar x₁ pMinusOrder .release = some .gt := by
      show some (cmpLoop (limbsRev x₁.n) (limbsRev pMinusOrder.n)) = _
      rw [hxn, cmpLoop_spec _ _ hlb pMinusOrder_feN.lb, hv, show pMinusOrder.n.val = p - Spec.n by decide +kernel, Nat.compare_eq_gt.2]
      have : 0 < Spec.n := by decide +kernel
      have : 0 < p := by decide +kernel
      omega
    have hX : recoverX id x₁ .release = some none := by
      unfold recoverX
      rw [if_pos (of_decide_eq_true (by rw [b1]; exact decide_eq_true hb)), exec_bind, hcmp, Option.bind_some, if_pos (by decide)]; rfl
    rw [exec_bind, hX]; rfl
  have hb0 : id.toNat / 2 = 0 := by
    have : id.toNat < 4 := hid
    omega
  have hX : recoverX id x₁ = pure (some x₁) := by
    unfold recoverX
    rw [if_neg (fun h => by rw [decide_eq_true h, eq_comm, decide_eq_true_eq] at b1; exact hb b1)]
  rw [hX, pure_bind]
  unfold recoverEnd
  dsimp only
  rw [b2]
  obtain ⟨x, ex, e1, e2, e3, e4, e5⟩ := Affine.setXoVar_runs (hfe.mono (by norm_num : 1 ≤ 8)) (decide (id.toNat % 2 = 1))
  rw [ex, pure_bind]
  by_cases hsq : IsSquare (((sigr.val - p : ℕ) : Fp) ^ 3 + 7)
  · rw [e4.2 hsq, if_neg (by decide)]
    obtain ⟨e6, e7⟩ := e5 hsq
    obtain ⟨R, hR⟩ := isPt_of_eqn e6
    have hxa : Aff x.1 R := aff_of_isPt e2 (by rw [e1]; exact hfe) e3 (by norm_num) (by norm_num) hR
    have hrec : IsRecoveryPoint (sigr.val - p) id.toNat R := by
      refine ⟨_, _, hR, ?_, ?_⟩
      · rw [hb0, mul_zero, add_zero]; exact ZMod.val_natCast_of_lt hlt
      · rw [decide_eq_true_eq] at e7; omega
    obtain ⟨o, eo, ho⟩ := recoverTail_runs hG hr hs hm hxa hR.ne_zero
    refine ⟨o, by rw [eo]; rfl, ?_⟩
    rcases ho with ⟨rfl, hz⟩ | ⟨a, rfl, ha, hne⟩
    · refine Or.inl ⟨rfl, ?_⟩
      rintro ⟨_, R', hR', hne⟩
      rw [recoveryPoint_unique hR' hrec] at hne
      exact hne hz
    · exact Or.inr ⟨a, R, rfl, hb0, hrec, hne, ha⟩
  · have hx2 : x.2 = false := by
      by_contra hc
      exact hsq (e4.1 (by simpa using hc))
    rw [hx2, if_pos (by decide)]
    refine ⟨.error .invalidSignature, rfl, Or.inl ⟨rfl, ?_⟩⟩
    rintro ⟨_, R, ⟨x', y', hP, hx', _⟩, _⟩
    apply hsq
    rw [hb0, mul_zero, add_zero] at hx'
    have : x' = ((sigr.val - p : ℕ) : Fp) := by rw [← hx', ZMod.natCast_zmod_val]
    subst this
    exact ⟨y', by rw [← hP.eqn, sq]⟩

end Ecdsa
end Verif
