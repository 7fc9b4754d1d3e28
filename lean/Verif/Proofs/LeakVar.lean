import Verif.Model.LeakVar
import Verif.Proofs.Leak

/-! The observations of the variable-time multiplication determine its scalar. -/

namespace Verif

open Spec Leak

/-! ## The values are those of the model -/

theorem SecretKey.tryFromL_value (s : Scalar) : value (SecretKey.tryFromL s) = pure (SecretKey.tryFrom s) := by
  unfold SecretKey.tryFromL SecretKey.tryFrom
  simp only [value_bind, value_branch, pure_bind, value_ite, value_pure]
  split <;> rfl

theorem SecretKey.parseL_value (b : Vector UInt8 32) : value (SecretKey.parseL b) = SecretKey.parse b := by
  unfold SecretKey.parseL SecretKey.parse
  simp only [value_bind, value_lift, value_branch, pure_bind, value_ite, value_pure, SecretKey.tryFromL_value]

theorem SecretKey.tweakAddAssignL_value (k t : SecretKey) : value (SecretKey.tweakAddAssignL k t) = SecretKey.tweakAddAssign k t := by
  unfold SecretKey.tweakAddAssignL SecretKey.tweakAddAssign
  simp only [value_bind, value_lift, value_branch, pure_bind, value_ite, value_pure]

theorem SecretKey.tweakMulAssignL_value (k t : SecretKey) : value (SecretKey.tweakMulAssignL k t) = SecretKey.tweakMulAssign k t := by
  unfold SecretKey.tweakMulAssignL SecretKey.tweakMulAssign
  simp only [value_bind, value_lift, value_branch, pure_bind, value_ite, value_pure]

theorem SecretKey.invL_value (k : SecretKey) : value (SecretKey.invL k) = SecretKey.inv k := by
  unfold SecretKey.invL SecretKey.inv
  simp only [value_bind, value_lift, value_pure]

theorem FElem.normalizesToZeroVarL_value (f : FElem) : value (FElem.normalizesToZeroVarL f) = FElem.normalizesToZeroVar f := by
  unfold FElem.normalizesToZeroVarL FElem.normalizesToZeroVar
  simp only [value_bind, value_lift, value_branch, pure_bind, value_ite, value_pure]

namespace Jacobian

theorem doubleVarL_value (s a : Jacobian) : value (doubleVarL s a) = (do let r ← doubleVarInPlace s a none; pure r.1) := by
  unfold doubleVarL doubleVarInPlace
  simp only [value_bind, value_lift, value_branch, pure_bind, value_ite, value_pure]
  split <;> simp [rzrSetInt, rzrDouble]

theorem addEqualXL_value (s a : Jacobian) (i : FElem) : value (addEqualXL s a i) = (do let r ← addEqualX s a i none; pure r.1) := by
  unfold addEqualXL addEqualX
  simp only [value_bind, value_branch, pure_bind, value_ite, value_pure, FElem.normalizesToZeroVarL_value, doubleVarL_value, bind_assoc]
  congr 1; funext z
  split <;> simp [rzrSetInt]

theorem addGeVarL_value (a : Jacobian) (b : Affine) : value (addGeVarL a b) = (do let r ← addGeVar a b none; pure r.1) := by
  unfold addGeVarL addGeVar addGeVarInPlace addGeVarCore
  simp only [value_bind, value_lift, value_branch, pure_bind, value_ite, value_pure, FElem.normalizesToZeroVarL_value, addEqualXL_value]
  split
  · simp [dassert_true]
  split
  · simp [rzrSetInt]
  simp only [bind_assoc]
  iterate 11 refine bind_congr fun _ => ?_
  split
  · rfl
  · simp only [bind_assoc, pure_bind, bind_pure]

theorem addZinvVarL_value (a : Jacobian) (b : Affine) (z : FElem) : value (addZinvVarL a b z) = addZinvVar a b z := by
  unfold addZinvVarL addZinvVar addZinvVarInPlace addZinvVarCore addEqualXNone
  simp only [value_bind, value_lift, value_branch, pure_bind, value_ite, value_pure, FElem.normalizesToZeroVarL_value, addEqualXL_value]

end Jacobian

namespace Ecmult

theorem tableGetGeL_value (pre : List Affine) (d : ℤ) (w : ℕ) : value (tableGetGeL pre d w) = tableGetGe pre d w := by
  unfold tableGetGeL tableGetGe
  simp only [value_bind, value_lift, value_branch, pure_bind, value_ite, value_read, decide_eq_true_eq]

theorem tableGetGeStorageL_value (pre : List AffineStorage) (d : ℤ) (w : ℕ) : value (tableGetGeStorageL pre d w) = tableGetGeStorage pre d w := by
  unfold tableGetGeStorageL tableGetGeStorage
  simp only [value_bind, value_lift, value_branch, pure_bind, value_ite, value_read, value_pure, decide_eq_true_eq]

theorem bitsVarTouch_value (i k : ℕ) : value (bitsVarTouch i k) = pure () := by
  unfold bitsVarTouch
  simp only [value_bind, value_branch, pure_bind, value_ite, value_pure, value_emit, ite_self]

theorem wnafDigitL_value (s : Scalar) (w : ℕ) (g : ℤ) (st : WnafState) : value (wnafDigitL s w g st) = wnafDigit s w g st := by
  unfold wnafDigitL wnafDigit
  simp only [value_bind, value_lift, pure_bind, value_pure, value_emit, bitsVarTouch_value]

theorem wnafStepL_value (s : Scalar) (w : ℕ) (g : ℤ) (st : WnafState) : value (wnafStepL s w g st) = wnafStep s w g st := by
  unfold wnafStepL wnafStep
  simp only [value_bind, value_lift, value_branch, pure_bind, value_ite, value_pure, value_emit, wnafDigitL_value]

theorem wnafLoopL_value (s : Scalar) (w : ℕ) (g : ℤ) : ∀ (fuel : ℕ) (st : WnafState), value (wnafLoopL s w g fuel st) = wnafLoop s w g fuel st
  | 0, st => by
    unfold wnafLoopL wnafLoop
    simp only [value_bind, value_branch, pure_bind, value_ite, value_pure, value_lift, decide_eq_true_eq]
  | fuel + 1, st => by
    unfold wnafLoopL wnafLoop
    simp only [value_bind, value_branch, pure_bind, value_ite, value_pure, decide_eq_true_eq, wnafStepL_value, wnafLoopL_value s w g fuel]

theorem wnafSignL_value (a : Scalar) : value (wnafSignL a) = wnafSign a := by
  unfold wnafSignL wnafSign
  simp only [value_bind, value_lift, value_branch, pure_bind, value_ite, value_pure, decide_eq_true_eq]

theorem ecmultWnafL_value (len : ℕ) (a : Scalar) (w : ℕ) : value (ecmultWnafL len a w) = ecmultWnaf len a w := by
  unfold ecmultWnafL ecmultWnaf
  simp only [value_bind, value_lift, value_pure, wnafSignL_value, wnafLoopL_value]

theorem digitTestL_value (d i b : ℤ) : value (digitTestL d i b) = pure (decide (i < b ∧ d ≠ 0)) := by
  unfold digitTestL
  simp only [value_bind, value_branch, pure_bind, value_ite, value_pure, decide_eq_true_eq]
  split <;> simp [*]

theorem ecmultAddAL_value (pre : List Affine) (d i b : ℤ) (r : Jacobian) : value (ecmultAddAL pre d i b r) = ecmultAddA pre d i b r := by
  unfold ecmultAddAL ecmultAddA
  simp only [value_bind, digitTestL_value, pure_bind, value_ite, value_pure, decide_eq_true_eq, tableGetGeL_value, Jacobian.addGeVarL_value]

theorem ecmultAddGL_value (pre : List AffineStorage) (z : FElem) (d i b : ℤ) (r : Jacobian) :
    value (ecmultAddGL pre z d i b r) = ecmultAddG pre z d i b r := by
  unfold ecmultAddGL ecmultAddG
  simp only [value_bind, digitTestL_value, pure_bind, value_ite, value_pure, decide_eq_true_eq, tableGetGeStorageL_value, Jacobian.addZinvVarL_value]

theorem ecmultStepL_value (preG : List AffineStorage) (preA : List Affine) (z : FElem) (wa wg : List ℤ) (ba bg : ℤ) (i : ℕ) (r : Jacobian) :
    value (ecmultStepL preG preA z wa wg ba bg i r) = ecmultStep preG preA z wa wg ba bg i r := by
  unfold ecmultStepL ecmultStep Jacobian.doubleVar
  simp only [value_bind, Jacobian.doubleVarL_value, value_read, ecmultAddAL_value, ecmultAddGL_value, bind_assoc, pure_bind]

theorem forRevL_value {σ : Type} (f : ℕ → σ → Leak σ) : ∀ (n : ℕ) (s : σ),
    value (forRevL f n s) = forRev n (fun i s => value (f i s)) s
  | 0, s => by unfold forRevL forRev; simp only [value_bind, value_branch, pure_bind, value_pure]
  | n + 1, s => by
    unfold forRevL forRev
    simp only [value_bind, value_branch, pure_bind, forRevL_value f n]

theorem ecmultL_value (preG : List AffineStorage) (a : Jacobian) (na ng : Scalar) : value (ecmultL preG a na ng) = ecmult preG a na ng := by
  unfold ecmultL ecmult ecmultFinish
  simp only [value_bind, value_lift, value_branch, pure_bind, value_ite, value_pure, ecmultWnafL_value, forRevL_value, ecmultStepL_value, decide_eq_true_eq]

end Ecmult

theorem PublicKey.tweakAddAssignL_value (k : PublicKey) (t : SecretKey) : value (PublicKey.tweakAddAssignL k t) = PublicKey.tweakAddAssign k t := by
  unfold PublicKey.tweakAddAssignL PublicKey.tweakAddAssign PublicKey.tweakAddAssignWithContext
  simp only [value_bind, value_lift, value_branch, pure_bind, value_ite, value_pure, Ecmult.ecmultL_value]

theorem PublicKey.tweakMulAssignL_value (k : PublicKey) (t : SecretKey) : value (PublicKey.tweakMulAssignL k t) = PublicKey.tweakMulAssign k t := by
  unfold PublicKey.tweakMulAssignL PublicKey.tweakMulAssign PublicKey.tweakMulAssignWithContext
  simp only [value_bind, value_lift, value_branch, pure_bind, value_ite, value_pure, Ecmult.ecmultL_value]


/-! ## Two computations with the same observations -/

namespace Leak

/-- If the observations of `x` and `x'`, followed by anything, agree, then the values are related by `R` and what follows agrees. -/
def Det {α : Type} (x x' : Leak α) (R : α → α → Prop) : Prop :=
  ∀ π a t a' t' u u', x.run π = some (a, t) → x'.run π = some (a', t') → t ++ u = t' ++ u' → R a a' ∧ u = u'

theorem run_bind {α β : Type} {x : Leak α} {f : α → Leak β} {π : Profile} {b : β} {t : List Event} (h : (x >>= f).run π = some (b, t)) :
    ∃ a t1 t2, x.run π = some (a, t1) ∧ (f a).run π = some (b, t2) ∧ t = t1 ++ t2 := by
  have h' : (x.run π).bind (fun a => ((f a.1).run π).bind fun b => some (b.1, a.2 ++ b.2)) = some (b, t) := h
  obtain ⟨⟨a, t1⟩, h1, h'⟩ := Option.bind_eq_some_iff.1 h'
  obtain ⟨⟨b', t2⟩, h2, h'⟩ := Option.bind_eq_some_iff.1 h'
  simp only [Option.some.injEq, Prod.mk.injEq] at h'
  obtain ⟨rfl, rfl⟩ := h'
  exact ⟨a, t1, t2, h1, h2, rfl⟩

theorem run_value {α : Type} {x : Leak α} {P : α → Prop} (h : Runs (value x) P) {π : Profile} {a : α} {t : List Event}
    (e : x.run π = some (a, t)) : P a := by
  obtain ⟨b, hb, hP⟩ := h
  have hv : (x.run π).bind (fun a => some a.1) = some b := congrFun hb π
  rw [e] at hv
  cases hv; exact hP

theorem Det.bind {α β : Type} {x x' : Leak α} {f f' : α → Leak β} {R : α → α → Prop} {S : β → β → Prop} (hx : Det x x' R)
    (hf : ∀ a a', R a a' → Det (f a) (f' a') S) : Det (x >>= f) (x' >>= f') S := by
  intro π b t b' t' u u' h h' e
  obtain ⟨a, t1, t2, h1, h2, rfl⟩ := run_bind h
  obtain ⟨a', t1', t2', h1', h2', rfl⟩ := run_bind h'
  rw [List.append_assoc, List.append_assoc] at e
  obtain ⟨hR, e⟩ := hx π a t1 a' t1' _ _ h1 h1' e
  exact hf a a' hR π b t2 b' t2' u u' h2 h2' e

theorem Det.refl {α : Type} (x : Leak α) : Det x x Eq := by
  intro π a t a' t' u u' h h' e
  rw [h] at h'
  cases h'
  exact ⟨rfl, List.append_cancel_left e⟩

theorem Det.mono {α : Type} {x x' : Leak α} {R S : α → α → Prop} (h : Det x x' R) (hS : ∀ a a', R a a' → S a a') : Det x x' S := by
  intro π a t a' t' u u' h1 h2 e
  obtain ⟨hR, e⟩ := h π a t a' t' u u' h1 h2 e
  exact ⟨hS _ _ hR, e⟩

theorem Det.runs {α : Type} {x x' : Leak α} {R : α → α → Prop} {P P' : α → Prop} (h : Det x x' R) (hP : Runs (value x) P) (hP' : Runs (value x') P') :
    Det x x' fun a a' => R a a' ∧ P a ∧ P' a' := by
  intro π a t a' t' u u' h1 h2 e
  obtain ⟨hR, e⟩ := h π a t a' t' u u' h1 h2 e
  exact ⟨⟨hR, run_value hP h1, run_value hP' h2⟩, e⟩

theorem Det.pure {α : Type} {a a' : α} {R : α → α → Prop} (h : R a a') : Det (Pure.pure a : Leak α) (Pure.pure a') R := by
  intro π b t b' t' u u' h1 h2 e
  cases h1; cases h2
  exact ⟨h, e⟩

theorem Det.lift {α : Type} (x x' : Exec α) : Det (Leak.lift x) (Leak.lift x') fun a a' => ∃ π, x π = some a ∧ x' π = some a' := by
  intro π a t a' t' u u' h h' e
  have h : (x π).bind (fun a => some (a, ([] : List Event))) = some (a, t) := h
  have h' : (x' π).bind (fun a => some (a, ([] : List Event))) = some (a', t') := h'
  obtain ⟨b, h1, h⟩ := Option.bind_eq_some_iff.1 h
  obtain ⟨b', h1', h'⟩ := Option.bind_eq_some_iff.1 h'
  cases h; cases h'
  exact ⟨⟨π, h1, h1'⟩, e⟩

/-- A step without observations whose values do not matter. -/
theorem Det.skip {α : Type} (x x' : Exec α) : Det (Leak.lift x) (Leak.lift x') fun _ _ => True :=
  (Det.lift x x').mono fun _ _ _ => trivial

theorem Det.emit (e e' : Event) : Det (Leak.emit e) (Leak.emit e') fun _ _ => e = e' := by
  intro π a t a' t' u u' h h' q
  cases h; cases h'
  have q : e :: u = e' :: u' := q
  exact List.cons.inj q

theorem Det.branch (c c' : Bool) : Det (Leak.branch c) (Leak.branch c') fun a a' => a = c ∧ a' = c' ∧ c = c' := by
  intro π a t a' t' u u' h h' q
  cases h; cases h'
  have q : Event.branch c :: u = Event.branch c' :: u' := q
  obtain ⟨q1, q2⟩ := List.cons.inj q
  cases q1
  exact ⟨⟨rfl, rfl, rfl⟩, q2⟩

theorem Det.read {α : Type} (l l' : List α) (i i' : ℕ) : Det (Leak.read l i) (Leak.read l' i') fun a a' => i = i' ∧ l[i]? = some a ∧ l'[i']? = some a' := by
  refine (Det.emit _ _).bind fun _ _ h => ?_
  have idx_some : ∀ (l : List α) (i : ℕ) (a : α) (π : Profile), idx l i π = some a → l[i]? = some a := by
    intro l i a π h
    unfold idx at h
    cases hl : l[i]? with
    | none => rw [hl] at h; cases h
    | some b => rw [hl] at h; cases h; rfl
  refine (Det.lift _ _).mono fun a a' ⟨π, h1, h2⟩ => ⟨by cases h; rfl, idx_some _ _ _ _ h1, idx_some _ _ _ _ h2⟩

end Leak

namespace Ecmult

theorem det_wnafDigitL (s s' : Scalar) (w : ℕ) (g g' : ℤ) {st st' : WnafState} (h1 : st.bit = st'.bit) (h2 : st.wnaf.length = st'.wnaf.length) :
    Det (wnafDigitL s w g st) (wnafDigitL s' w g' st') fun a a' => a.bit = a'.bit ∧ a.wnaf.length = a'.wnaf.length ∧ a.lastSetBit = a'.lastSetBit := by
  unfold wnafDigitL
  rw [← h1, ← h2]
  refine (Det.refl _).bind fun _ _ _ => ?_
  refine (Det.skip _ _).bind fun _ _ _ => ?_
  refine (Det.skip _ _).bind fun _ _ _ => ?_
  refine (Det.skip _ _).bind fun _ _ _ => ?_
  refine (Det.skip _ _).bind fun _ _ _ => ?_
  refine (Det.emit _ _).bind fun _ _ _ => ?_
  refine (Det.lift _ _).bind fun x x' ⟨π, e, e'⟩ => Det.pure ⟨rfl, ?_, rfl⟩
  have len : ∀ (l r : List ℤ) (i : ℕ) (v : ℤ), setIdx l i v π = some r → r.length = l.length := by
    intro l r i v h
    unfold setIdx at h
    by_cases hi : i < l.length
    · rw [decide_eq_true hi, rassert_true rfl, pure_bind] at h
      cases h; simp
    · rw [decide_eq_false hi] at h
      cases h
  show x.length = x'.length
  rw [len _ _ _ _ e, len _ _ _ _ e', h2]

theorem det_wnafLoopL (s s' : Scalar) (w : ℕ) (g g' : ℤ) : ∀ (fuel : ℕ) {st st' : WnafState}, st.bit = st'.bit → st.wnaf.length = st'.wnaf.length →
    st.lastSetBit = st'.lastSetBit →
    Det (wnafLoopL s w g fuel st) (wnafLoopL s' w g' fuel st') fun a a' => a.lastSetBit = a'.lastSetBit
  | 0, st, st', h1, h2, h3 => by
    unfold wnafLoopL
    refine (Det.branch _ _).bind fun c c' ⟨e, e', _⟩ => ?_
    rw [e, e', ← h1, ← h2]
    split
    · exact (Det.lift _ _).mono fun _ _ ⟨_, h, _⟩ => by cases h
    · exact Det.pure h3
  | fuel + 1, st, st', h1, h2, h3 => by
    unfold wnafLoopL
    refine (Det.branch _ _).bind fun c c' ⟨e, e', _⟩ => ?_
    rw [e, e', ← h1, ← h2]
    split
    · dsimp only
      refine Det.bind (R := fun a a' => a.bit = a'.bit ∧ a.wnaf.length = a'.wnaf.length ∧ a.lastSetBit = a'.lastSetBit) ?_ fun a a' ⟨q1, q2, q3⟩ =>
        det_wnafLoopL s s' w g g' fuel q1 q2 q3
      unfold wnafStepL
      refine (Det.emit _ _).bind fun _ _ _ => (Det.skip _ _).bind fun b b' _ => (Det.branch _ _).bind fun c c' ⟨_, _, e⟩ => ?_
      subst_vars
      rw [e]
      split
      · exact Det.pure ⟨by show st.bit + 1 = st'.bit + 1; rw [h1], h2, h3⟩
      · exact det_wnafDigitL s s' w g g' h1 h2
    · exact Det.pure h3

theorem det_ecmultWnafL (len : ℕ) (a a' : Scalar) (w : ℕ) : Det (ecmultWnafL len a w) (ecmultWnafL len a' w) fun r r' => r.2 = r'.2 := by
  unfold ecmultWnafL
  refine (Det.skip _ _).bind fun _ _ _ => (Det.skip _ _).bind fun _ _ _ => ?_
  refine Det.bind (R := fun _ _ => True) ?_ fun s s' _ => ?_
  · unfold wnafSignL
    refine (Det.skip _ _).bind fun _ _ _ => (Det.branch _ _).bind fun c c' ⟨e1, e2, e⟩ => ?_
    rw [e1, e2, e]
    split
    · exact (Det.skip _ _).bind fun _ _ _ => Det.pure trivial
    · exact Det.pure trivial
  refine (det_wnafLoopL s.1 s'.1 w s.2 s'.2 len rfl rfl rfl).bind fun st st' h => ?_
  refine (Det.skip _ _).bind fun _ _ _ => (Det.skip _ _).bind fun _ _ _ => ?_
  rw [h]
  exact (Det.refl (Leak.lift (i32 (st'.lastSetBit + 1)))).bind fun r r' e => Det.pure e

/-- What is known of a digit. -/
def IsDigit (d : ℤ) : Prop := d ≠ 0 → d % 2 = 1

theorem digit_eq {d d' : ℤ} (h : IsDigit d) (h' : IsDigit d') (h0 : d ≠ 0) (h0' : d' ≠ 0) (hs : decide (d > 0) = decide (d' > 0))
    (hi : if d > 0 then ((d - 1) / 2).toNat = ((d' - 1) / 2).toNat else ((-d - 1) / 2).toNat = ((-d' - 1) / 2).toNat) : d = d' := by
  have a := h h0
  have a' := h' h0'
  have hs : d > 0 ↔ d' > 0 := by simpa using hs
  split at hi
  · have := hs.1 (by assumption); omega
  · have : ¬ d' > 0 := fun q => by have := hs.2 q; contradiction
    omega

theorem det_tableGetGeL (pre : List Affine) (w : ℕ) {d d' : ℤ} (h : IsDigit d) (h' : IsDigit d') (h0 : d ≠ 0) (h0' : d' ≠ 0) :
    Det (tableGetGeL pre d w) (tableGetGeL pre d' w) fun a a' => a = a' ∧ d = d' := by
  unfold tableGetGeL
  refine (Det.skip _ _).bind fun _ _ _ => (Det.branch _ _).bind fun c c' ⟨e1, e2, e⟩ => ?_
  rw [e1, e2, ← e]
  by_cases hd : d > 0
  · rw [if_pos (by simpa using hd), if_pos (by simpa using hd)]
    refine (Det.read _ _ _ _).mono fun a a' ⟨q1, q2, q3⟩ => ?_
    obtain rfl := digit_eq h h' h0 h0' e (by rw [if_pos hd]; exact q1)
    rw [q2] at q3; cases q3
    exact ⟨rfl, rfl⟩
  · rw [if_neg (by simpa using hd), if_neg (by simpa using hd)]
    refine (Det.read _ _ _ _).bind fun a a' ⟨q1, q2, q3⟩ => ?_
    obtain rfl := digit_eq h h' h0 h0' e (by rw [if_neg hd]; exact q1)
    rw [q2] at q3; cases q3
    exact (Det.refl _).mono fun _ _ e => ⟨e, rfl⟩

theorem det_tableGetGeStorageL (pre : List AffineStorage) (w : ℕ) {d d' : ℤ} (h : IsDigit d) (h' : IsDigit d') (h0 : d ≠ 0) (h0' : d' ≠ 0) :
    Det (tableGetGeStorageL pre d w) (tableGetGeStorageL pre d' w) fun a a' => a = a' ∧ d = d' := by
  unfold tableGetGeStorageL
  refine (Det.skip _ _).bind fun _ _ _ => (Det.branch _ _).bind fun c c' ⟨e1, e2, e⟩ => ?_
  rw [e1, e2, ← e]
  by_cases hd : d > 0
  · rw [if_pos (by simpa using hd), if_pos (by simpa using hd)]
    refine (Det.read _ _ _ _).bind fun a a' ⟨q1, q2, q3⟩ => ?_
    obtain rfl := digit_eq h h' h0 h0' e (by rw [if_pos hd]; exact q1)
    rw [q2] at q3; cases q3
    exact Det.pure ⟨rfl, rfl⟩
  · rw [if_neg (by simpa using hd), if_neg (by simpa using hd)]
    refine (Det.read _ _ _ _).bind fun a a' ⟨q1, q2, q3⟩ => ?_
    obtain rfl := digit_eq h h' h0 h0' e (by rw [if_neg hd]; exact q1)
    rw [q2] at q3; cases q3
    exact (Det.refl _).mono fun _ _ e => ⟨e, rfl⟩

theorem det_digitTestL (d d' i b : ℤ) : Det (digitTestL d i b) (digitTestL d' i b) fun a a' => a = a' ∧ (a = true → d ≠ 0 ∧ d' ≠ 0) ∧ (a = false → i < b → d = d') := by
  unfold digitTestL
  refine (Det.branch _ _).bind fun c c' ⟨e1, e2, _⟩ => ?_
  rw [e1, e2]
  by_cases hi : i < b
  · rw [if_pos (by simpa using hi), if_pos (by simpa using hi)]
    refine (Det.branch _ _).mono fun a a' ⟨h1, h2, h3⟩ => ?_
    refine ⟨by rw [h1, h2, h3], fun ha => ?_, fun ha _ => ?_⟩
    · have hd := h1.symm.trans ha
      exact ⟨by simpa using hd, by rw [h3] at hd; simpa using hd⟩
    · have hd := h1.symm.trans ha
      have hd' := hd
      rw [h3] at hd'
      have q1 : d = 0 := by simpa using hd
      have q2 : d' = 0 := by simpa using hd'
      rw [q1, q2]
  · rw [if_neg (by simpa using hi), if_neg (by simpa using hi)]
    exact Det.pure ⟨rfl, fun h => absurd h (by decide), fun _ h => absurd h hi⟩

theorem det_ecmultAddAL (pre : List Affine) {d d' : ℤ} (i b : ℤ) (r : Jacobian) (h : IsDigit d) (h' : IsDigit d') :
    Det (ecmultAddAL pre d i b r) (ecmultAddAL pre d' i b r) fun a a' => a = a' ∧ (i < b → d = d') := by
  unfold ecmultAddAL
  refine (det_digitTestL d d' i b).bind fun c c' ⟨e, h1, h2⟩ => ?_
  rw [← e]
  cases c with
  | true =>
    obtain ⟨h0, h0'⟩ := h1 rfl
    refine (det_tableGetGeL pre windowA h h' h0 h0').bind fun a a' ⟨e1, e2⟩ => ?_
    rw [e1]
    exact (Det.refl _).mono fun _ _ e => ⟨e, fun _ => e2⟩
  | false => exact Det.pure ⟨rfl, h2 rfl⟩

theorem det_ecmultAddGL (pre : List AffineStorage) (z : FElem) {d d' : ℤ} (i b : ℤ) (r : Jacobian) (h : IsDigit d) (h' : IsDigit d') :
    Det (ecmultAddGL pre z d i b r) (ecmultAddGL pre z d' i b r) fun a a' => a = a' ∧ (i < b → d = d') := by
  unfold ecmultAddGL
  refine (det_digitTestL d d' i b).bind fun c c' ⟨e, h1, h2⟩ => ?_
  rw [← e]
  cases c with
  | true =>
    obtain ⟨h0, h0'⟩ := h1 rfl
    refine (det_tableGetGeStorageL pre windowG h h' h0 h0').bind fun a a' ⟨e1, e2⟩ => ?_
    rw [e1]
    exact (Det.refl _).mono fun _ _ e => ⟨e, fun _ => e2⟩
  | false => exact Det.pure ⟨rfl, h2 rfl⟩

theorem det_forRevL {σ : Type} {f f' : ℕ → σ → Leak σ} {Q : ℕ → Prop} (h : ∀ i s, Det (f i s) (f' i s) fun a a' => a = a' ∧ Q i) :
    ∀ (m : ℕ) (s : σ), Det (forRevL f m s) (forRevL f' m s) fun a a' => a = a' ∧ ∀ i < m, Q i
  | 0, s => by
    unfold forRevL
    exact (Det.branch _ _).bind fun _ _ _ => Det.pure ⟨rfl, fun i hi => absurd hi (by omega)⟩
  | m + 1, s => by
    unfold forRevL
    refine (Det.branch _ _).bind fun _ _ _ => (h m s).bind fun a a' ⟨e, q⟩ => ?_
    rw [← e]
    refine (det_forRevL h m a).mono fun b b' ⟨e, r⟩ => ⟨e, fun i hi => ?_⟩
    rcases Nat.lt_succ_iff_lt_or_eq.1 hi with hi | rfl
    · exact r i hi
    · exact q

theorem det_ecmultStepL (preG : List AffineStorage) (preA : List Affine) (z : FElem) {wa wg wa' wg' : List ℤ} (ba bg : ℤ)
    (ha : ∀ d ∈ wa, IsDigit d) (hg : ∀ d ∈ wg, IsDigit d) (ha' : ∀ d ∈ wa', IsDigit d) (hg' : ∀ d ∈ wg', IsDigit d) (i : ℕ) (r : Jacobian) :
    Det (ecmultStepL preG preA z wa wg ba bg i r) (ecmultStepL preG preA z wa' wg' ba bg i r)
      fun a a' => a = a' ∧ ((i : ℤ) < ba → wa[i]? = wa'[i]?) ∧ ((i : ℤ) < bg → wg[i]? = wg'[i]?) := by
  unfold ecmultStepL
  refine (Det.refl _).bind fun r r' e => ?_
  rw [← e]
  refine (Det.read _ _ _ _).bind fun d d' ⟨_, q, q'⟩ => ?_
  refine (det_ecmultAddAL preA i ba r (ha d (List.mem_of_getElem? q)) (ha' d' (List.mem_of_getElem? q'))).bind fun r r' ⟨e, qa⟩ => ?_
  rw [← e]
  refine (Det.read _ _ _ _).bind fun x x' ⟨_, p, p'⟩ => ?_
  refine (det_ecmultAddGL preG z i bg r (hg x (List.mem_of_getElem? p)) (hg' x' (List.mem_of_getElem? p'))).mono fun r r' ⟨e, qg⟩ => ⟨e, fun h => ?_, fun h => ?_⟩
  · rw [q, q', qa h]
  · rw [p, p', qg h]

theorem wnaf_ext {w : ℕ} {v v' : ℤ} {r r' : List ℤ × ℤ} (h : Wnaf 256 w v r) (h' : Wnaf 256 w v' r') (e : r.2 = r'.2)
    (q : ∀ i : ℕ, (i : ℤ) < r.2 → r.1[i]? = r'.1[i]?) : v = v' := by
  have : r.1 = r'.1 := by
    refine List.ext_getElem (h.len.trans h'.len.symm) fun i hi hi' => ?_
    by_cases hr : r.2 ≤ i
    · rw [h.zero i hi hr, h'.zero i hi' (by omega)]
    · have := q i (by omega)
      rw [List.getElem?_eq_getElem hi, List.getElem?_eq_getElem hi'] at this
      exact Option.some.inj this
  rw [← h.sum, ← h'.sum, this]

theorem signedVal_inj {a b : ℕ} (ha : a < n) (hb : b < n) (h : signedVal a = signedVal b) : a = b := by
  have c : ∀ a, ((signedVal a : ℤ) : ZMod n) = (a : ZMod n) := by
    intro a
    unfold signedVal
    split <;> simp
  have := c a
  rw [h, c b] at this
  have := congrArg ZMod.val this
  rwa [ZMod.val_natCast_of_lt ha, ZMod.val_natCast_of_lt hb, eq_comm] at this

theorem Wnaf.isDigit {w : ℕ} {v : ℤ} {r : List ℤ × ℤ} (h : Wnaf 256 w v r) : ∀ d ∈ r.1, IsDigit d := by
  intro d hd h0
  obtain ⟨i, hi, rfl⟩ := List.mem_iff_getElem.1 hd
  exact (h.dig i hi h0).1

theorem det_ecmultL (preG : List AffineStorage) (a : Jacobian) {na ng na' ng' : Scalar} (h1 : na.val < n) (h2 : ng.val < n) (h3 : na'.val < n) (h4 : ng'.val < n) :
    Det (ecmultL preG a na ng) (ecmultL preG a na' ng') fun r r' => r = r' ∧ na = na' ∧ ng = ng' := by
  have ru : ∀ {s : Scalar} {w : ℕ}, s.val < n → 2 ≤ w → w ≤ 30 → Runs (value (ecmultWnafL 256 s w)) fun r => Wnaf 256 w (signedVal s.val) r := by
    intro s w hs hw hw'
    rw [ecmultWnafL_value]
    exact ecmultWnaf_runs hs hw hw' le_rfl (Or.inl rfl)
  unfold ecmultL
  refine ((det_ecmultWnafL 256 na na' windowA).runs (ru h1 (by decide) (by decide)) (ru h3 (by decide) (by decide))).bind fun wa wa' ⟨ea, ra, ra'⟩ => ?_
  refine (Det.refl _).bind fun t t' et => ?_
  rw [← et]
  refine ((det_ecmultWnafL 256 ng ng' windowG).runs (ru h2 (by decide) (by decide)) (ru h4 (by decide) (by decide))).bind fun wg wg' ⟨eg, rg, rg'⟩ => ?_
  rw [← ea, ← eg]
  refine (Det.branch _ _).bind fun c c' ⟨e1, e2, _⟩ => ?_
  rw [e2, ← e1]
  refine (det_forRevL (det_ecmultStepL preG t.1 t.2 wa.2 wg.2 ra.isDigit rg.isDigit ra'.isDigit rg'.isDigit) _ _).bind fun r r' ⟨er, q⟩ => ?_
  have hm : ∀ i : ℕ, (i : ℤ) < wa.2 ∨ (i : ℤ) < wg.2 → i < (if c then wg.2 else wa.2).toNat := by
    intro i hi
    have hc : c = decide (wg.2 > wa.2) := e1
    subst hc
    by_cases hc : wg.2 > wa.2
    · rw [if_pos (by simpa using hc)]; omega
    · rw [if_neg (by simpa using hc)]; omega
  have qa : na = na' := Scalar.val_inj (signedVal_inj h1 h3 (wnaf_ext ra ra' ea fun i hi => (q i (hm i (Or.inl hi))).1 hi))
  have qg : ng = ng' := Scalar.val_inj (signedVal_inj h2 h4 (wnaf_ext rg rg' eg fun i hi => (q i (hm i (Or.inr hi))).2 hi))
  rw [← er]
  exact (Det.refl _).mono fun _ _ e => ⟨e, qa, qg⟩

end Ecmult

theorem PublicKey.det_tweakMulAssignL (k : PublicKey) {t t' : SecretKey} (h : t.sc.val < n) (h' : t'.sc.val < n) :
    Det (PublicKey.tweakMulAssignL k t) (PublicKey.tweakMulAssignL k t') fun r r' => r = r' ∧ t = t' := by
  unfold PublicKey.tweakMulAssignL
  refine (Det.refl _).bind fun ctx ctx' e => ?_
  rw [← e]
  refine (Det.branch _ _).bind fun c c' ⟨e1, e2, e⟩ => ?_
  rw [e1, e2, ← e]
  cases hz : t.sc.isZero with
  | true =>
    refine Det.pure ⟨rfl, ?_⟩
    have q := (Scalar.isZero_iff _).1 hz
    have q' := (Scalar.isZero_iff _).1 (e.symm.trans hz)
    cases t; cases t'
    exact congrArg _ (Scalar.val_inj (q.trans q'.symm))
  | false =>
    refine (Det.refl _).bind fun a a' e => ?_
    rw [← e]
    refine (Ecmult.det_ecmultL ctx a h (by decide +kernel) h' (by decide +kernel)).bind fun r r' ⟨e, q, _⟩ => ?_
    rw [← e]
    refine (Det.refl _).mono fun _ _ e => ⟨e, ?_⟩
    cases t; cases t'
    exact congrArg _ q

theorem PublicKey.det_tweakAddAssignL (k : PublicKey) {t t' : SecretKey} (h : t.sc.val < n) (h' : t'.sc.val < n) :
    Det (PublicKey.tweakAddAssignL k t) (PublicKey.tweakAddAssignL k t') fun r r' => r = r' ∧ t = t' := by
  unfold PublicKey.tweakAddAssignL
  refine (Det.refl _).bind fun ctx ctx' e => ?_
  rw [← e]
  refine (Det.refl _).bind fun a a' e => ?_
  rw [← e]
  refine (Ecmult.det_ecmultL ctx a (by decide +kernel) h (by decide +kernel) h').bind fun r r' ⟨e, _, q⟩ => ?_
  rw [← e]
  refine (Det.refl _).mono fun _ _ e => ⟨e, ?_⟩
  cases t; cases t'
  exact congrArg _ q

end Verif
