import Verif.Proofs.LeakVar
import Verif.Props.Leak

/-!
# Observations of the operations on secret keys and of the tweaks of public keys

Statements about the model of `Verif/Model/LeakVar.lean`.  The operations of `SecretKey` reveal the outcome
only.  The tweaks of `PublicKey` are computed by the variable-time `ecmult` and reveal the whole tweak.
-/

namespace Verif.Props

open Spec Leak
open FElem hiding n

/-- The traced functions compute what the functions of the model compute, on all inputs and in both builds. -/
theorem C95_values (b : Vector UInt8 32) (k t : SecretKey) :
    (SecretKey.parseL b).value = SecretKey.parse b ∧
    (SecretKey.tweakAddAssignL k t).value = SecretKey.tweakAddAssign k t ∧
    (SecretKey.tweakMulAssignL k t).value = SecretKey.tweakMulAssign k t ∧
    (SecretKey.invL k).value = SecretKey.inv k :=
  ⟨SecretKey.parseL_value _, SecretKey.tweakAddAssignL_value _ _, SecretKey.tweakMulAssignL_value _ _, SecretKey.invL_value _⟩

theorem run_of_runsL {α : Type} {x : Leak α} {P : α → Prop} {t : List Event} {y : Exec α} (h : RunsL x P t) (e : x.value = y) :
    ∃ r, y = pure r ∧ x.run = pure (r, t) := by
  obtain ⟨r, hr, _⟩ := h
  refine ⟨r, ?_, hr⟩
  rw [← e]
  show (x.run >>= fun a => pure a.1) = _
  rw [hr, pure_bind]

/-- C95: the observations of `SecretKey::parse` tell whether the 32 bytes are at least `n`, zero, or a key, and no more. -/
theorem C95_parse : ∃ over zero good : List Event, ∀ b : Vector UInt8 32, ∃ r, SecretKey.parse b = pure r ∧
    (SecretKey.parseL b).run = pure (r, if n ≤ beNat b.toList then over else if beNat b.toList = 0 then zero else good) := by
  refine ⟨[.branch false], [.branch true, .branch true], [.branch true, .branch false], fun b => run_of_runsL (P := fun _ => True) ?_ (SecretKey.parseL_value b)⟩
  unfold SecretKey.parseL
  refine RunsL.bind_lift (Scalar.setB32_runs b) fun e ⟨h1, h2⟩ => ?_
  by_cases h : n ≤ beNat b.toList
  · rw [if_pos h, h1, decide_eq_true h]
    exact (RunsL.branch _).bind fun c hc => by subst hc; exact RunsL.pure trivial
  · rw [if_neg h, h1, decide_eq_false h]
    rw [Nat.mod_eq_of_lt (by omega)] at h2
    have hz : e.1.isZero = decide (beNat b.toList = 0) := by
      rw [Bool.eq_iff_iff, Scalar.isZero_iff, h2, decide_eq_true_iff]
    rw [show (if beNat b.toList = 0 then [Event.branch true, .branch true] else [.branch true, .branch false])
      = [Event.branch true] ++ [Event.branch (decide (beNat b.toList = 0))] by
        by_cases h0 : beNat b.toList = 0
        · rw [if_pos h0, decide_eq_true h0]; rfl
        · rw [if_neg h0, decide_eq_false h0]; rfl]
    refine (RunsL.branch _).bind fun c hc => ?_
    subst hc
    show RunsL (SecretKey.tryFromL e.1) _ _
    unfold SecretKey.tryFromL
    rw [hz]
    exact ((RunsL.branch _).bind (u := []) fun z hz => by split <;> exact RunsL.pure trivial).cast (by simp)

/-- C95: the observations of `SecretKey::tweak_add_assign` tell whether the sum is zero, and no more. -/
theorem C95_tweak_add : ∃ zero good : List Event, ∀ k t : SecretKey, secretInt k < n → secretInt t < n →
    ∃ r, SecretKey.tweakAddAssign k t = pure r ∧
      (SecretKey.tweakAddAssignL k t).run = pure (r, if (secretInt k + secretInt t) % n = 0 then zero else good) := by
  refine ⟨[.branch true], [.branch false], fun k t hk ht => run_of_runsL (P := fun _ => True) ?_ (SecretKey.tweakAddAssignL_value k t)⟩
  unfold SecretKey.tweakAddAssignL
  refine RunsL.bind_lift (Scalar.add_runs hk ht) fun e h => ?_
  have hz : e.isZero = decide ((secretInt k + secretInt t) % n = 0) := by
    rw [Bool.eq_iff_iff, Scalar.isZero_iff, h, decide_eq_true_iff]; rfl
  rw [hz]
  refine ((RunsL.branch _).bind (u := []) fun z hz => ?_).cast ?_
  · split <;> exact RunsL.pure trivial
  · by_cases h0 : (secretInt k + secretInt t) % n = 0
    · rw [if_pos h0, decide_eq_true h0]; rfl
    · rw [if_neg h0, decide_eq_false h0]; rfl

/-- C95: the observations of `SecretKey::tweak_mul_assign` tell whether the tweak is zero, and no more. -/
theorem C95_tweak_mul : ∃ zero good : List Event, ∀ k t : SecretKey, ∃ r, SecretKey.tweakMulAssign k t = pure r ∧
    (SecretKey.tweakMulAssignL k t).run = pure (r, if secretInt t = 0 then zero else good) := by
  refine ⟨[.branch true], [.branch false], fun k t => run_of_runsL (P := fun _ => True) ?_ (SecretKey.tweakMulAssignL_value k t)⟩
  unfold SecretKey.tweakMulAssignL
  have hz : t.sc.isZero = decide (secretInt t = 0) := by
    rw [Bool.eq_iff_iff, Scalar.isZero_iff, decide_eq_true_iff]; rfl
  rw [hz]
  refine ((RunsL.branch _).bind (u := []) fun z hz => ?_).cast ?_
  · split
    · exact RunsL.pure trivial
    · exact RunsL.bind_lift (Scalar.mul_runs _ _) fun _ _ => RunsL.pure trivial
  · by_cases h0 : secretInt t = 0
    · rw [if_pos h0, decide_eq_true h0]; rfl
    · rw [if_neg h0, decide_eq_false h0]; rfl

/-- C95: the observations of `SecretKey::inv` are always the same. -/
theorem C95_inv : ∃ t : List Event, ∀ k : SecretKey, ∃ r, SecretKey.inv k = pure r ∧ (SecretKey.invL k).run = pure (r, t) := by
  refine ⟨[], fun k => run_of_runsL (P := fun _ => True) ?_ (SecretKey.invL_value k)⟩
  unfold SecretKey.invL
  exact RunsL.bind_lift (Scalar.inv_runs _) fun _ _ => RunsL.pure trivial

/-- The three outcomes of `parse` and both outcomes of the tweaks occur. -/
example : n ≤ beNat (Vector.replicate 32 (255 : UInt8)).toList ∧ beNat (Vector.replicate 32 (0 : UInt8)).toList = 0 ∧
    InRange (Vector.replicate 32 1) ∧
    ∃ k t : SecretKey, ValidSecret k ∧ ValidSecret t ∧ (secretInt k + secretInt t) % n = 0 ∧ (secretInt k + secretInt k) % n ≠ 0 := by
  refine ⟨by decide +kernel, by decide +kernel, by unfold InRange; decide +kernel, ⟨Scalar.fromInt 1⟩,
    ⟨⟨0xd0364140, 0xbfd25e8c, 0xaf48a03b, 0xbaaedce6, 0xfffffffe, 0xffffffff, 0xffffffff, 0xffffffff⟩⟩, ?_⟩
  unfold ValidSecret secretInt
  decide +kernel

/-! ## The tweaks of public keys -/

/-- The traced functions compute what the functions of the model compute, on all inputs and in both builds. -/
theorem C96_values (g : List AffineStorage) (a : Jacobian) (s m : Scalar) (k : PublicKey) (t : SecretKey) :
    (Ecmult.ecmultL g a s m).value = Ecmult.ecmult g a s m ∧
    (PublicKey.tweakAddAssignL k t).value = PublicKey.tweakAddAssign k t ∧
    (PublicKey.tweakMulAssignL k t).value = PublicKey.tweakMulAssign k t :=
  ⟨Ecmult.ecmultL_value _ _ _ _, PublicKey.tweakAddAssignL_value _ _, PublicKey.tweakMulAssignL_value _ _⟩

theorem secretKey_eq {t t' : SecretKey} : t = t' ↔ secretInt t = secretInt t' := by
  refine ⟨fun h => by rw [h], fun h => ?_⟩
  cases t; cases t'
  exact congrArg _ (Scalar.val_inj h)

theorem det_inj {α : Type} {x x' : Leak α} {R : α → α → Prop} (h : Det x x' R) {π : Profile} {a a' : α} {t : List Event}
    (e : x.run π = some (a, t)) (e' : x'.run π = some (a', t)) : R a a' :=
  (h π a t a' t [] [] e e' rfl).1

/-- C96: if two runs of `ecmult` on the same point look the same, both pairs of factors are equal. -/
theorem C96_ecmult (g : List AffineStorage) (a r r' : Jacobian) (s m s' m' : Scalar) (π : Profile) (o : List Event)
    (hs : s.val < n) (hm : m.val < n) (hs' : s'.val < n) (hm' : m'.val < n)
    (h : (Ecmult.ecmultL g a s m).run π = some (r, o)) (h' : (Ecmult.ecmultL g a s' m').run π = some (r', o)) :
    s.val = s'.val ∧ m.val = m'.val := by
  obtain ⟨_, rfl, rfl⟩ := det_inj (Ecmult.det_ecmultL g a hs hm hs' hm') h h'
  exact ⟨rfl, rfl⟩

/-- C96: if two runs of `PublicKey::tweak_add_assign` on the same key look the same, the tweaks are equal. -/
theorem C96_tweak_add (k : PublicKey) (t t' : SecretKey) (r r' : PublicKey × Res Unit) (π : Profile) (o : List Event)
    (ht : secretInt t < n) (ht' : secretInt t' < n)
    (h : (PublicKey.tweakAddAssignL k t).run π = some (r, o)) (h' : (PublicKey.tweakAddAssignL k t').run π = some (r', o)) :
    secretInt t = secretInt t' :=
  secretKey_eq.1 (det_inj (PublicKey.det_tweakAddAssignL k ht ht') h h').2

/-- C96: if two runs of `PublicKey::tweak_mul_assign` on the same key look the same, the tweaks are equal. -/
theorem C96_tweak_mul (k : PublicKey) (t t' : SecretKey) (r r' : PublicKey × Res Unit) (π : Profile) (o : List Event)
    (ht : secretInt t < n) (ht' : secretInt t' < n)
    (h : (PublicKey.tweakMulAssignL k t).run π = some (r, o)) (h' : (PublicKey.tweakMulAssignL k t').run π = some (r', o)) :
    secretInt t = secretInt t' :=
  secretKey_eq.1 (det_inj (PublicKey.det_tweakMulAssignL k ht ht') h h').2

theorem exists_run {α : Type} {x : Leak α} {y : Exec α} {r : α} (h : x.value = y) (e : y = pure r) (π : Profile) : ∃ t, x.run π = some (r, t) := by
  have hv : (x.run π).bind (fun a => some a.1) = some r := congrFun (h.trans e) π
  obtain ⟨⟨a, t⟩, h1, h2⟩ := Option.bind_eq_some_iff.1 hv
  cases h2
  exact ⟨t, h1⟩

/-- C96: for a valid public key both tweaks return for every tweak, so the observations determine the tweak: there is a
function from observations to integers that recovers it. -/
theorem C96_recover (k : PublicKey) (hk : ValidKey k) (π : Profile) : ∃ add mul : List Event → ℕ, ∀ t : SecretKey, ValidSecret t →
    (∃ r o, PublicKey.tweakAddAssign k t = pure r ∧ (PublicKey.tweakAddAssignL k t).run π = some (r, o) ∧ add o = secretInt t) ∧
    (∃ r o, PublicKey.tweakMulAssign k t = pure r ∧ (PublicKey.tweakMulAssignL k t).run π = some (r, o) ∧ mul o = secretInt t) := by
  classical
  obtain ⟨P, hP⟩ := hk
  have inv : ∀ f : SecretKey → Leak (PublicKey × Res Unit),
      (∀ t t' r r' o, secretInt t < n → secretInt t' < n → (f t).run π = some (r, o) → (f t').run π = some (r', o) → secretInt t = secretInt t') →
      ∃ g : List Event → ℕ, ∀ t r o, secretInt t < n → (f t).run π = some (r, o) → g o = secretInt t := by
    intro f hf
    refine ⟨fun o => if h : ∃ t r, secretInt t < n ∧ (f t).run π = some (r, o) then secretInt h.choose else 0, fun t r o ht h => ?_⟩
    have hex : ∃ t r, secretInt t < n ∧ (f t).run π = some (r, o) := ⟨t, r, ht, h⟩
    dsimp only
    rw [dif_pos hex]
    obtain ⟨r', h1, h2⟩ := hex.choose_spec
    exact hf _ _ _ _ o h1 ht h2 h
  obtain ⟨add, hadd⟩ := inv (PublicKey.tweakAddAssignL k) fun t t' r r' o h1 h2 => C96_tweak_add k t t' r r' π o h1 h2
  obtain ⟨mul, hmul⟩ := inv (PublicKey.tweakMulAssignL k) fun t t' r r' o h1 h2 => C96_tweak_mul k t t' r r' π o h1 h2
  refine ⟨add, mul, fun t ht => ⟨?_, ?_⟩⟩
  · have : ∃ r, PublicKey.tweakAddAssign k t = pure r := by
      obtain ⟨h1, h2⟩ := C30_public_tweak_add k P t hP ht.2
      by_cases h : P + secretInt t • G = 0
      · exact ⟨_, h1 h⟩
      · obtain ⟨k', h3, _⟩ := h2 h
        exact ⟨_, h3⟩
    obtain ⟨r, hr⟩ := this
    obtain ⟨o, ho⟩ := exists_run (PublicKey.tweakAddAssignL_value k t) hr π
    exact ⟨r, o, hr, ho, hadd t r o ht.2 ho⟩
  · obtain ⟨k', hr, _⟩ := (C31_public_tweak_mul k P t hP ht.2).2 ht.1.ne'
    obtain ⟨o, ho⟩ := exists_run (PublicKey.tweakMulAssignL_value k t) hr π
    exact ⟨_, o, hr, ho, hmul t _ o ht.2 ho⟩

/-- A valid key and two valid tweaks: the observations differ. -/
example : ∃ (k : PublicKey) (t t' : SecretKey), ValidKey k ∧ ValidSecret t ∧ ValidSecret t' ∧ secretInt t ≠ secretInt t' ∧
    ∀ π, ∃ r r' o o', (PublicKey.tweakMulAssignL k t).run π = some (r, o) ∧ (PublicKey.tweakMulAssignL k t').run π = some (r', o') ∧ o ≠ o' := by
  have hv : ∀ i : UInt32, i = 1 ∨ i = 2 → ValidSecret ⟨Scalar.fromInt i⟩ := by
    intro i hi
    unfold ValidSecret
    rcases hi with rfl | rfl <;> decide +kernel
  obtain ⟨k, _, hk, _⟩ := C18_from_secret_key ⟨Scalar.fromInt 1⟩ (by unfold secretInt; decide +kernel)
  refine ⟨k, ⟨Scalar.fromInt 1⟩, ⟨Scalar.fromInt 2⟩, ⟨_, hk⟩, hv 1 (Or.inl rfl), hv 2 (Or.inr rfl), by unfold secretInt; decide +kernel, fun π => ?_⟩
  obtain ⟨_, mul, h⟩ := C96_recover k ⟨_, hk⟩ π
  obtain ⟨r, o, _, h1, e1⟩ := (h _ (hv 1 (Or.inl rfl))).2
  obtain ⟨r', o', _, h2, e2⟩ := (h _ (hv 2 (Or.inr rfl))).2
  refine ⟨r, r', o, o', h1, h2, fun e => ?_⟩
  rw [e, e2] at e1
  exact absurd e1 (by unfold secretInt; decide +kernel)

end Verif.Props
