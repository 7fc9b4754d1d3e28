import Verif.Spec.Api
import Verif.Proofs.Keys

/-! The signing loop. -/

namespace Verif

open Spec Ecmult Ecdsa

open scoped Classical in
/-- `RunsIf` with a proposition as the condition. -/
def RunsWhen {α : Type} (c : Prop) (x : Exec α) (P : α → Prop) : Prop := RunsIf (decide c) x P

namespace RunsWhen
open scoped Classical
variable {α : Type} {c c' : Prop} {x : Exec α} {P Q : α → Prop}

theorem mono (h : RunsWhen c x P) (hP : ∀ a, P a → Q a) : RunsWhen c x Q := by
  obtain ⟨a, e, ha⟩ := h; exact ⟨a, e, hP a ha⟩

theorem congr (h : RunsWhen c x P) (hc : c ↔ c') : RunsWhen c' x P := by
  rw [← propext hc]; exact h

theorem release (h : RunsWhen c x P) : ∃ a, x .release = some a ∧ P a := RunsIf.release h

theorem runs (h : RunsWhen c x P) (hc : c) : Runs x P := RunsIf.runs h (decide_eq_true hc)

theorem debug (h : RunsWhen c x P) (hc : ¬ c) : x .debug = none := RunsIf.debug h (decide_eq_false hc)

theorem of_some (h : RunsWhen c x P) {π : Profile} {a : α} (e : x π = some a) : P a := RunsIf.of_some h e

theorem of_runs (h : Runs x P) (hc : c) : RunsWhen c x P := by
  obtain ⟨a, rfl, ha⟩ := h
  exact ⟨a, by rw [dassert_true (decide_eq_true hc), pure_bind], ha⟩

theorem of_runsIf {b : Bool} (h : RunsIf b x P) (hb : b = true ↔ c) : RunsWhen c x P := by
  unfold RunsWhen
  have : @decide c (Classical.propDecidable c) = b := by
    rw [Bool.eq_iff_iff, decide_eq_true_iff]; exact hb.symm
  rw [this]; exact h

theorem bind {β : Type} {f : α → Exec β} {R : β → Prop} (h : RunsWhen c x P) (hf : ∀ a, P a → RunsWhen c' (f a) R) :
    RunsWhen (c ∧ c') (x >>= f) R := by
  obtain ⟨a, rfl, ha⟩ := h
  obtain ⟨b, e, hb⟩ := hf a ha
  refine ⟨b, ?_, hb⟩
  have : ((dassert (decide c) >>= fun _ => pure a) >>= f) = dassert (decide c) >>= fun _ => f a := by
    rw [bind_assoc]; simp only [pure_bind]
  rw [this, e]
  apply dassert_two
  rw [Bool.decide_and]

end RunsWhen

theorem runsWhen_bind {α β : Type} {c : Prop} {x : Exec α} {P : α → Prop} {f : α → Exec β} {R : β → Prop} (h : Runs x P)
    (hf : ∀ a, P a → RunsWhen c (f a) R) : RunsWhen c (x >>= f) R := by
  obtain ⟨a, rfl, ha⟩ := h
  rw [pure_bind]; exact hf a ha

/-- A block of the generator the loop accepts: its value is in range and gives a nonzero `s`. -/
def Acceptable (d m : ZMod n) (b : Vector UInt8 32) : Prop := InRange b ∧ UsableNonce d m (beNat b.toList)

theorem smul_ne_zero_of_inRange {b : Vector UInt8 32} (h : InRange b) : beNat b.toList • G ≠ 0 := by
  rw [ne_eq, smul_eq_zero_iff G_ne_zero]
  exact fun hd => absurd (Nat.le_of_dvd h.1 hd) (by have := h.2; omega)

theorem cast_ne_zero_of_inRange {b : Vector UInt8 32} (h : InRange b) : ((beNat b.toList : ℕ) : ZMod n) ≠ 0 := by
  rw [ne_eq, ZMod.natCast_eq_zero_iff]
  exact fun hd => absurd (Nat.le_of_dvd h.1 hd) (by have := h.2; omega)

section
variable {D : Drbg} {ctx : GenContext} {seckey message : Scalar} {d m : ZMod n}

/-- A block out of range is skipped. -/
theorem signLoop_skip {fuel : ℕ} {st : D.State} (h : ¬ InRange (D.generate st).1) :
    signLoop D ctx seckey message (fuel + 1) st = signLoop D ctx seckey message fuel (D.generate st).2 := by
  obtain ⟨⟨a, o⟩, hr, h1, h2⟩ := Scalar.setB32_runs (D.generate st).1
  dsimp only at h1 h2
  rw [signLoop, hr, pure_bind]
  dsimp only
  rw [if_neg]
  intro hc
  simp only [Bool.and_eq_true, Bool.not_eq_true'] at hc
  apply h
  rw [hc.1] at h1
  have hlt := of_decide_eq_false h1.symm
  have hz : ¬ a.isZero = true := by rw [hc.2]; simp
  rw [Scalar.isZero_iff, h2, Nat.mod_eq_of_lt (by omega)] at hz
  exact ⟨Nat.pos_of_ne_zero hz, by omega⟩

/-- One step on a block in range. -/
theorem signLoop_step (hc : GenTable ctx.prec) (hb : ctx.blind = genBlind) (hi : ctx.initial = genInitial)
    (hd : Rs seckey d) (hm : Rs message m) {fuel : ℕ} {st : D.State} (h : InRange (D.generate st).1) {x y : Fp}
    (hP : IsPt (beNat (D.generate st).1.toList • G) x y) :
    ∃ o, SignResult d m (beNat (D.generate st).1.toList : ZMod n) x y o ∧
      ∀ (Q : Option (Scalar × Scalar × UInt8) → Prop) (c : Prop),
        (match o with
          | .ok v => Q (some v) ∧ c
          | .error _ => RunsWhen c (signLoop D ctx seckey message fuel (D.generate st).2) Q) →
        RunsWhen (NoOverflow (beNat (D.generate st).1.toList) ∧ c) (signLoop D ctx seckey message (fuel + 1) st) Q := by
  obtain ⟨⟨a, ov⟩, hr, h1, h2⟩ := Scalar.setB32_runs (D.generate st).1
  dsimp only at h1 h2
  rw [Nat.mod_eq_of_lt h.2] at h2
  have hk : Sc a (beNat (D.generate st).1.toList : ZMod n) := by
    have := sc_of (a := a) (by rw [h2]; exact h.2)
    rwa [h2] at this
  have hov : ov = false := by rw [h1]; exact decide_eq_false (by have := h.2; omega)
  have hz : a.isZero = false := by
    rw [Bool.eq_false_iff, ne_eq, Scalar.isZero_iff, h2]; have := h.1; omega
  have hrun := signRaw_runs hc hb hi hd hm hk.rs (x := x) (y := y) (by rw [zs_cast]; exact hP)
  obtain ⟨o, ho, hres⟩ := RunsWhen.of_runsIf (c := NoOverflow (beNat (D.generate st).1.toList)) hrun (by
    rw [decide_eq_true_iff]
    constructor
    · intro hx x' y' hP'
      rw [← (hP.inj hP').1]; exact hx
    · intro hn; exact hn x y hP)
  refine ⟨o, hres, fun Q c hQ => ?_⟩
  have hstep : signLoop D ctx seckey message (fuel + 1) st = signRaw ctx seckey message a >>= fun r =>
      match r with
      | .ok val => pure (some val)
      | .error _ => signLoop D ctx seckey message fuel (D.generate st).2 := by
    rw [signLoop, hr, pure_bind]
    dsimp only
    rw [hov, hz]
    rfl
  rw [hstep]
  refine RunsWhen.bind (P := fun o' => o' = o) ⟨o, ho, rfl⟩ ?_
  intro o' ho'
  rw [ho']
  cases o with
  | ok v => exact RunsWhen.of_runs (runs_pure hQ.1) hQ.2
  | error e => exact hQ

theorem signResult_ok {k : ZMod n} {x y : Fp} {o : Res (Scalar × Scalar × UInt8)} (hk : k ≠ 0) (h : SignResult d m k x y o)
    (hu : m + (x.val : ZMod n) * d ≠ 0) :
    ∃ r s id, o = .ok (r, s, id) ∧ NonceSignature d m k x y r.val s.val id.toNat := by
  have e : (m + ((x.val % n : ℕ) : ZMod n) * d) / k ≠ 0 := by
    rw [ZMod.natCast_mod]; exact div_ne_zero hu hk
  rcases h with ⟨h0, _⟩ | ⟨_, r, s, id, ho, hr, h⟩
  · exact absurd h0 e
  · refine ⟨r, s, id, ho, hr, ?_⟩
    rw [hr]
    dsimp only
    rcases h with ⟨h1, h2, h3⟩ | ⟨h1, h2, h3⟩
    · rw [if_pos h1]; exact ⟨h2, h3⟩
    · rw [if_neg (by omega)]
      refine ⟨?_, h3⟩
      rw [h2]
      have : NeZero ((m + ((x.val % n : ℕ) : ZMod n) * d) / k) := ⟨e⟩
      exact ZMod.val_neg_of_ne_zero _

theorem signResult_err {k : ZMod n} {x y : Fp} {o : Res (Scalar × Scalar × UInt8)} (hk : k ≠ 0) (h : SignResult d m k x y o)
    (hu : m + (x.val : ZMod n) * d = 0) : o = .error .invalidMessage := by
  rcases h with ⟨_, h⟩ | ⟨h0, _⟩
  · exact h
  · exfalso
    apply h0
    rw [ZMod.natCast_mod, hu, zero_div]

/-- The loop stops at the first acceptable block. -/
theorem signLoop_found (hc : GenTable ctx.prec) (hb : ctx.blind = genBlind) (hi : ctx.initial = genInitial)
    (hd : Rs seckey d) (hm : Rs message m) (fuel : ℕ) : ∀ (st : D.State) (i : ℕ), i < fuel →
    Acceptable d m (blockAt D.generate st i) → (∀ j < i, ¬ Acceptable d m (blockAt D.generate st j)) →
    RunsWhen (∀ j ≤ i, InRange (blockAt D.generate st j) → NoOverflow (beNat (blockAt D.generate st j).toList))
      (signLoop D ctx seckey message fuel st) (fun o => ∃ x y r s id, o = some (r, s, id) ∧
        IsPt (beNat (blockAt D.generate st i).toList • G) x y ∧
        NonceSignature d m (beNat (blockAt D.generate st i).toList : ZMod n) x y r.val s.val id.toNat) := by
  induction fuel with
  | zero => intro st i hi; omega
  | succ fuel ih =>
    intro st i hlt hacc hmin
    by_cases hr : InRange (D.generate st).1
    · obtain ⟨x, y, hP⟩ := Spec.IsPt.of_ne_zero (smul_ne_zero_of_inRange hr)
      obtain ⟨o, ho, hstep⟩ := signLoop_step hc hb hi hd hm (fuel := fuel) hr hP
      cases i with
      | zero =>
        obtain ⟨_, x', y', hP', hu⟩ := hacc
        obtain ⟨rfl, rfl⟩ := hP.inj hP'
        obtain ⟨r, s, id, rfl, hsig⟩ := signResult_ok (cast_ne_zero_of_inRange hr) ho hu
        refine (hstep _ True ⟨⟨x, y, r, s, id, rfl, hP, hsig⟩, trivial⟩).congr ?_
        constructor
        · rintro ⟨h, _⟩ j hj _
          have : j = 0 := by omega
          subst this; exact h
        · intro h; exact ⟨h 0 le_rfl hr, trivial⟩
      | succ i =>
        have hu : m + (x.val : ZMod n) * d = 0 := by
          by_contra hu
          exact hmin 0 (by omega) ⟨hr, x, y, hP, hu⟩
        have := signResult_err (cast_ne_zero_of_inRange hr) ho hu
        subst this
        refine (hstep _ _ (ih (D.generate st).2 i (by omega) hacc fun j hj => hmin (j + 1) (by omega))).congr ?_
        constructor
        · rintro ⟨h1, h2⟩ j hj
          cases j with
          | zero => exact fun _ => h1
          | succ j => exact h2 j (by omega)
        · intro h
          exact ⟨h 0 (by omega) hr, fun j hj => h (j + 1) (by omega)⟩
    · rw [signLoop_skip hr]
      cases i with
      | zero => exact absurd hacc.1 hr
      | succ i =>
        refine (ih (D.generate st).2 i (by omega) hacc fun j hj => hmin (j + 1) (by omega)).congr ?_
        constructor
        · intro h2 j hj
          cases j with
          | zero => exact fun h => absurd h hr
          | succ j => exact h2 j (by omega)
        · intro h j hj
          exact h (j + 1) (by omega)

/-- Without an acceptable block the loop does not stop. -/
theorem signLoop_none (hc : GenTable ctx.prec) (hb : ctx.blind = genBlind) (hi : ctx.initial = genInitial)
    (hd : Rs seckey d) (hm : Rs message m) (fuel : ℕ) : ∀ (st : D.State),
    (∀ j < fuel, ¬ Acceptable d m (blockAt D.generate st j)) →
    RunsWhen (∀ j < fuel, InRange (blockAt D.generate st j) → NoOverflow (beNat (blockAt D.generate st j).toList))
      (signLoop D ctx seckey message fuel st) (fun o => o = none) := by
  induction fuel with
  | zero => intro st _; exact RunsWhen.of_runs (runs_pure rfl) (by intro j hj; omega)
  | succ fuel ih =>
    intro st hno
    by_cases hr : InRange (D.generate st).1
    · obtain ⟨x, y, hP⟩ := Spec.IsPt.of_ne_zero (smul_ne_zero_of_inRange hr)
      obtain ⟨o, ho, hstep⟩ := signLoop_step hc hb hi hd hm (fuel := fuel) hr hP
      have hu : m + (x.val : ZMod n) * d = 0 := by
        by_contra hu
        exact hno 0 (by omega) ⟨hr, x, y, hP, hu⟩
      have := signResult_err (cast_ne_zero_of_inRange hr) ho hu
      subst this
      refine (hstep _ _ (ih (D.generate st).2 fun j hj => hno (j + 1) (by omega))).congr ?_
      constructor
      · rintro ⟨h1, h2⟩ j hj
        cases j with
        | zero => exact fun _ => h1
        | succ j => exact h2 j (by omega)
      · intro h
        exact ⟨h 0 (by omega) hr, fun j hj => h (j + 1) (by omega)⟩
    · rw [signLoop_skip hr]
      refine (ih (D.generate st).2 fun j hj => hno (j + 1) (by omega)).congr ?_
      constructor
      · intro h2 j hj
        cases j with
        | zero => exact fun h => absurd h hr
        | succ j => exact h2 j (by omega)
      · intro h j hj
        exact h (j + 1) (by omega)

end

/-- The state in which the generator starts. -/
def signSeed (D : Drbg) (m : Message) (sk : SecretKey) : D.State :=
  D.new (SecretKey.serialize sk).toList (Message.serialize m).toList []

section
variable {D : Drbg} {m : Message} {sk : SecretKey}

theorem sign_found {fuel i : ℕ} (hi : i < fuel)
    (hacc : Acceptable (sk.sc.val : ZMod n) (m.sc.val : ZMod n) (blockAt D.generate (signSeed D m sk) i))
    (hmin : ∀ j < i, ¬ Acceptable (sk.sc.val : ZMod n) (m.sc.val : ZMod n) (blockAt D.generate (signSeed D m sk) j)) :
    RunsWhen (∀ j ≤ i, InRange (blockAt D.generate (signSeed D m sk) j) → NoOverflow (beNat (blockAt D.generate (signSeed D m sk) j).toList))
      (sign D fuel m sk) (fun o => ∃ x y sig id, o = some (sig, id) ∧
        IsPt (beNat (blockAt D.generate (signSeed D m sk) i).toList • G) x y ∧
        NonceSignature sk.sc.val m.sc.val (beNat (blockAt D.generate (signSeed D m sk) i).toList) x y sig.r.val sig.s.val id.id.toNat) := by
  unfold sign
  refine runsWhen_bind newGenContext_runs fun ctx hctx => ?_
  unfold signWithContext
  have := RunsWhen.bind (c' := True) (signLoop_found (D := D) hctx.1 hctx.2.1 hctx.2.2 rfl rfl fuel (signSeed D m sk) i hi hacc hmin)
    (f := fun result => match result with
      | some (sigr, sigs, recid) => pure (some ((⟨sigr, sigs⟩ : Signature), (⟨recid⟩ : RecoveryId)))
      | none => pure none)
    (R := fun o => ∃ x y sig id, o = some (sig, id) ∧
        IsPt (beNat (blockAt D.generate (signSeed D m sk) i).toList • G) x y ∧
        NonceSignature sk.sc.val m.sc.val (beNat (blockAt D.generate (signSeed D m sk) i).toList) x y sig.r.val sig.s.val id.id.toNat) (by
      rintro _ ⟨x, y, r, s, id, rfl, hP, hs⟩
      exact RunsWhen.of_runs (runs_pure ⟨x, y, ⟨r, s⟩, ⟨id⟩, rfl, hP, hs⟩) trivial)
  exact this.congr (by rw [and_true])

theorem sign_none {fuel : ℕ}
    (hno : ∀ j < fuel, ¬ Acceptable (sk.sc.val : ZMod n) (m.sc.val : ZMod n) (blockAt D.generate (signSeed D m sk) j)) :
    RunsWhen (∀ j < fuel, InRange (blockAt D.generate (signSeed D m sk) j) → NoOverflow (beNat (blockAt D.generate (signSeed D m sk) j).toList))
      (sign D fuel m sk) (fun o => o = none) := by
  unfold sign
  refine runsWhen_bind newGenContext_runs fun ctx hctx => ?_
  unfold signWithContext
  have := RunsWhen.bind (c' := True) (signLoop_none (D := D) hctx.1 hctx.2.1 hctx.2.2 rfl rfl fuel (signSeed D m sk) hno)
    (f := fun result => match result with
      | some (sigr, sigs, recid) => pure (some ((⟨sigr, sigs⟩ : Signature), (⟨recid⟩ : RecoveryId)))
      | none => pure none)
    (R := fun o => o = none) (by
      rintro _ rfl
      exact RunsWhen.of_runs (runs_pure rfl) trivial)
  exact this.congr (by rw [and_true])

/-- Whatever profile: a returned signature comes from the first acceptable block. -/
theorem sign_some {fuel : ℕ} {π : Profile} {sig : Signature} {id : RecoveryId}
    (h : sign D fuel m sk π = some (some (sig, id))) :
    ∃ i < fuel, Acceptable (sk.sc.val : ZMod n) (m.sc.val : ZMod n) (blockAt D.generate (signSeed D m sk) i) ∧
      (∀ j < i, ¬ Acceptable (sk.sc.val : ZMod n) (m.sc.val : ZMod n) (blockAt D.generate (signSeed D m sk) j)) ∧
      ∃ x y, IsPt (beNat (blockAt D.generate (signSeed D m sk) i).toList • G) x y ∧
        NonceSignature sk.sc.val m.sc.val (beNat (blockAt D.generate (signSeed D m sk) i).toList) x y sig.r.val sig.s.val id.id.toNat := by
  by_cases hex : ∃ i < fuel, Acceptable (sk.sc.val : ZMod n) (m.sc.val : ZMod n) (blockAt D.generate (signSeed D m sk) i)
  · classical
    have hf := Nat.find_spec hex
    have hmin : ∀ j < Nat.find hex, ¬ Acceptable (sk.sc.val : ZMod n) (m.sc.val : ZMod n) (blockAt D.generate (signSeed D m sk) j) :=
      fun j hj hc => Nat.find_min hex hj ⟨by omega, hc⟩
    refine ⟨_, hf.1, hf.2, hmin, ?_⟩
    obtain ⟨x, y, sig', id', e, hP, hs⟩ := (sign_found hf.1 hf.2 hmin).of_some h
    simp only [Option.some.injEq, Prod.mk.injEq] at e
    obtain ⟨rfl, rfl⟩ := e
    exact ⟨x, y, hP, hs⟩
  · push Not at hex
    have := (sign_none hex).of_some h
    cases this

end

/-- The computed signature is a signature. -/
theorem NonceSignature.isSig {d m k : ZMod n} {x y : Fp} {r s id : ℕ} (hP : IsPt (k.val • G) x y) (hk : k ≠ 0)
    (hu : m + (x.val : ZMod n) * d ≠ 0) (h : NonceSignature d m k x y r s id) : IsSignature d m k r s id := by
  obtain ⟨hr, h⟩ := h
  have e : (m + (r : ZMod n) * d) / k ≠ 0 := by
    rw [hr, ZMod.natCast_mod]; exact div_ne_zero hu hk
  refine ⟨x, y, hP, hr, e, ?_⟩
  dsimp only at h
  split at h
  · exact Or.inl h
  · refine Or.inr ⟨?_, h.2⟩
    have : NeZero ((m + (r : ZMod n) * d) / k) := ⟨e⟩
    rw [h.1, ZMod.val_neg_of_ne_zero]

end Verif
