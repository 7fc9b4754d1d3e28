import Verif.Model.Leak
import Verif.Proofs.Gen
import Verif.Proofs.Ecmult
import Verif.Proofs.Endo

/-! Rules for computations with observations, and the observations of `add_ge`. -/

namespace Verif

open Spec
open FElem hiding n

namespace Leak

theorem value_pure {α : Type} (a : α) : value (pure a : Leak α) = pure a := by
  show (do let a ← (pure (a, []) : Exec (α × List Event)); pure a.1 : Exec α) = _
  rw [pure_bind]

theorem value_bind {α β : Type} (x : Leak α) (f : α → Leak β) : value (x >>= f) = value x >>= fun a => value (f a) := by
  show ((do
    let a ← x.run
    let b ← (f a.1).run
    pure (b.1, a.2 ++ b.2) : Exec _) >>= fun a => pure a.1) = (x.run >>= fun a => pure a.1) >>= fun a => value (f a)
  rw [bind_assoc, bind_assoc]
  congr 1; funext a
  rw [bind_assoc, pure_bind]
  show _ = (f a.1).run >>= fun a => pure a.1
  rfl

theorem value_lift {α : Type} (x : Exec α) : value (lift x) = x := by
  show ((x >>= fun a => pure (a, [])) >>= fun a => pure a.1 : Exec α) = x
  rw [bind_assoc]
  simp only [pure_bind, bind_pure]

theorem value_emit (e : Event) : value (emit e) = pure () := by
  show (do let a ← (pure ((), [e]) : Exec (Unit × List Event)); pure a.1 : Exec _) = _
  rw [pure_bind]

theorem value_branch (c : Bool) : value (branch c) = pure c := by
  show (do let a ← (pure (c, [.branch c]) : Exec (Bool × List Event)); pure a.1 : Exec _) = _
  rw [pure_bind]

theorem value_read {α : Type} (l : List α) (i : ℕ) : value (read l i) = idx l i := by
  unfold read; rw [value_bind, value_emit, pure_bind, value_lift]

theorem value_forN {σ : Type} (f : ℕ → σ → Leak σ) : ∀ (n : ℕ) (s : σ),
    value (Leak.forN n f s) = Verif.forN n (fun i s => value (f i s)) s
  | 0, s => value_pure s
  | n + 1, s => by
    rw [Leak.forN, value_bind, value_forN f n]; rfl

theorem value_forRev {σ : Type} (f : ℕ → σ → Leak σ) : ∀ (n : ℕ) (s : σ),
    value (Leak.forRev n f s) = Ecmult.forRev n (fun i s => value (f i s)) s
  | 0, s => value_pure s
  | n + 1, s => by
    rw [Leak.forRev, value_bind]; unfold Ecmult.forRev
    congr 1; funext a; exact value_forRev f n a

theorem value_ite {α : Type} {c : Prop} [Decidable c] (x y : Leak α) : value (if c then x else y) = if c then value x else value y := by
  split <;> rfl

/-- The computation returns in both profiles, with observations `t`, a value that satisfies `P`. -/
def RunsL {α : Type} (x : Leak α) (P : α → Prop) (t : List Event) : Prop := ∃ a, x.run = pure (a, t) ∧ P a

/-- Whenever the computation returns, its observations are `t`. -/
def TraceIs {α : Type} (x : Leak α) (t : List Event) : Prop := ∀ π a t', x.run π = some (a, t') → t' = t

theorem RunsL.bind {α β : Type} {x : Leak α} {f : α → Leak β} {P : α → Prop} {Q : β → Prop} {t u : List Event}
    (hx : RunsL x P t) (hf : ∀ a, P a → RunsL (f a) Q u) : RunsL (x >>= f) Q (t ++ u) := by
  obtain ⟨a, rfl, ha⟩ := hx
  obtain ⟨b, hb, hQ⟩ := hf a ha
  refine ⟨b, ?_, hQ⟩
  show ((pure (a, t) : Exec (α × List Event)) >>= fun a => (f a.1).run >>= fun b => pure (b.1, a.2 ++ b.2)) = _
  rw [pure_bind]
  dsimp only
  rw [hb, pure_bind]

theorem RunsL.lift {α : Type} {x : Exec α} {P : α → Prop} (h : Runs x P) : RunsL (Leak.lift x) P [] := by
  obtain ⟨a, rfl, ha⟩ := h
  refine ⟨a, ?_, ha⟩
  show ((pure a : Exec α) >>= fun a => pure (a, ([] : List Event))) = _
  rw [pure_bind]

theorem RunsL.bind_lift {α β : Type} {x : Exec α} {f : α → Leak β} {P : α → Prop} {Q : β → Prop} {t : List Event}
    (hx : Runs x P) (hf : ∀ a, P a → RunsL (f a) Q t) : RunsL (Leak.lift x >>= f) Q t :=
  (RunsL.lift hx).bind hf

theorem RunsL.pure {α : Type} {a : α} {P : α → Prop} (h : P a) : RunsL (Pure.pure a : Leak α) P [] := ⟨a, rfl, h⟩

theorem RunsL.emit (e : Event) : RunsL (Leak.emit e) (fun _ => True) [e] := ⟨(), rfl, trivial⟩

theorem RunsL.branch (c : Bool) : RunsL (Leak.branch c) (fun r => r = c) [.branch c] := ⟨c, rfl, rfl⟩

theorem RunsL.read {α : Type} {l : List α} {i : ℕ} (h : i < l.length) : RunsL (Leak.read l i) (fun r => r = l[i]) [.read i] := by
  refine (RunsL.emit (.read i)).bind (u := []) fun _ _ => RunsL.lift ?_
  rw [idx_pure h]; exact runs_pure rfl

theorem RunsL.mono {α : Type} {x : Leak α} {P Q : α → Prop} {t : List Event} (hx : RunsL x P t) (h : ∀ a, P a → Q a) : RunsL x Q t := by
  obtain ⟨a, e, ha⟩ := hx; exact ⟨a, e, h a ha⟩

theorem RunsL.cast {α : Type} {x : Leak α} {P : α → Prop} {t u : List Event} (hx : RunsL x P t) (h : t = u) : RunsL x P u := h ▸ hx

theorem RunsL.traceIs {α : Type} {x : Leak α} {P : α → Prop} {t : List Event} (hx : RunsL x P t) : TraceIs x t := by
  obtain ⟨a, rfl, _⟩ := hx
  intro π b t' h
  have : some (a, t) = some (b, t') := h
  simp at this; exact this.2.symm

theorem RunsL.value {α : Type} {x : Leak α} {P : α → Prop} {t : List Event} (hx : RunsL x P t) : Runs (Leak.value x) P := by
  obtain ⟨a, rfl, h⟩ := hx
  refine ⟨a, ?_, h⟩
  show ((Pure.pure (a, t) : Exec (α × List Event)) >>= fun a => Pure.pure a.1) = _
  rw [pure_bind]

theorem runsL_of {α : Type} {x : Leak α} {P : α → Prop} {t : List Event} (h : Runs (Leak.value x) P) (ht : TraceIs x t) : RunsL x P t := by
  obtain ⟨a, e, ha⟩ := h
  refine ⟨a, ?_, ha⟩
  funext π
  have hv := congrFun e π
  have hv' : (x.run π).bind (fun a => some a.1) = some a := hv
  rcases hx : x.run π with _ | ⟨b, t'⟩
  · rw [hx] at hv'; simp at hv'
  · rw [hx] at hv'
    have := ht π b t' hx
    simp at hv'; subst this hv'; rfl

theorem TraceIs.bind {α β : Type} {x : Leak α} {f : α → Leak β} {t u : List Event} (hx : TraceIs x t) (hf : ∀ a, TraceIs (f a) u) :
    TraceIs (x >>= f) (t ++ u) := by
  intro π b t' h
  have h' : (x.run π).bind (fun a => ((f a.1).run π).bind fun b => some (b.1, a.2 ++ b.2)) = some (b, t') := h
  rcases e : x.run π with _ | ⟨a, s⟩
  · rw [e] at h'; simp at h'
  · rw [e] at h'
    simp only [Option.bind_some] at h'
    rcases e2 : (f a).run π with _ | ⟨c, s2⟩
    · rw [e2] at h'; simp at h'
    · rw [e2] at h'
      simp at h'
      rw [← h'.2, hx π a s e, hf a π c s2 e2]

theorem traceIs_pure {α : Type} (a : α) : TraceIs (Pure.pure a : Leak α) [] := (RunsL.pure (P := fun _ => True) trivial).traceIs

theorem traceIs_emit (e : Event) : TraceIs (Leak.emit e) [e] := (RunsL.emit e).traceIs

theorem traceIs_lift {α : Type} (x : Exec α) : TraceIs (Leak.lift x) [] := by
  intro π a t' h
  have h' : (x π).bind (fun a => some (a, ([] : List Event))) = some (a, t') := h
  rcases e : x π with _ | b
  · rw [e] at h'; simp at h'
  · rw [e] at h'; simp at h'; exact h'.2

theorem TraceIs.bind_lift {α β : Type} {x : Exec α} {f : α → Leak β} {t : List Event} (hf : ∀ a, TraceIs (f a) t) :
    TraceIs (Leak.lift x >>= f) t := (traceIs_lift x).bind hf

theorem TraceIs.bind_runs {α β : Type} {x : Exec α} {f : α → Leak β} {P : α → Prop} {t : List Event} (hx : Runs x P) (hf : ∀ a, P a → TraceIs (f a) t) :
    TraceIs (Leak.lift x >>= f) t := by
  obtain ⟨a, rfl, ha⟩ := hx
  intro π b t' h
  refine hf a ha π b t' ?_
  have h' : ((f a).run π).bind (fun b => some (b.1, [] ++ b.2)) = some (b, t') := h
  rcases e2 : (f a).run π with _ | ⟨c, s2⟩
  · rw [e2] at h'; simp at h'
  · rw [e2] at h'; simp at h'; rw [← h'.1, ← h'.2]

theorem TraceIs.bind_runsL {α β : Type} {x : Leak α} {f : α → Leak β} {P : α → Prop} {t u : List Event} (hx : RunsL x P t)
    (hf : ∀ a, P a → TraceIs (f a) u) : TraceIs (x >>= f) (t ++ u) := by
  obtain ⟨a, rfl, ha⟩ := hx
  intro π b t' h
  have h' : ((f a).run π).bind (fun b => some (b.1, t ++ b.2)) = some (b, t') := h
  rcases e2 : (f a).run π with _ | ⟨c, s2⟩
  · rw [e2] at h'; simp at h'
  · rw [e2] at h'; simp at h'; rw [← h'.2, hf a ha π c s2 e2]

theorem traceIs_read {α : Type} (l : List α) (i : ℕ) : TraceIs (Leak.read l i) [.read i] :=
  (traceIs_emit _).bind (u := []) fun _ => traceIs_lift _

/-- The observations of a loop that counts up. -/
def upTrace (t : ℕ → List Event) : ℕ → List Event
  | 0 => []
  | n + 1 => upTrace t n ++ t n

/-- The observations of a loop that counts down. -/
def downTrace (t : ℕ → List Event) : ℕ → List Event
  | 0 => []
  | n + 1 => t n ++ downTrace t n

theorem traceIs_forN {σ : Type} {f : ℕ → σ → Leak σ} {t : ℕ → List Event} (h : ∀ i s, TraceIs (f i s) (t i)) :
    ∀ (n : ℕ) (s : σ), TraceIs (Leak.forN n f s) (upTrace t n)
  | 0, s => traceIs_pure s
  | n + 1, s => (traceIs_forN h n s).bind fun a => h n a

theorem RunsL.forN {σ : Type} {f : ℕ → σ → Leak σ} (I : ℕ → σ → Prop) (t : ℕ → List Event) :
    ∀ (n : ℕ) (s : σ), I 0 s → (∀ i s, i < n → I i s → RunsL (f i s) (I (i + 1)) (t i)) → RunsL (Leak.forN n f s) (I n) (upTrace t n)
  | 0, _, h, _ => RunsL.pure h
  | n + 1, s, h, hf => (RunsL.forN I t n s h fun i s hi => hf i s (by omega)).bind fun a ha => hf n a (by omega) ha

theorem RunsL.forRev {σ : Type} {f : ℕ → σ → Leak σ} (I : ℕ → σ → Prop) (t : ℕ → List Event) :
    ∀ (n : ℕ) (s : σ), I n s → (∀ i s, i < n → I (i + 1) s → RunsL (f i s) (I i) (t i)) → RunsL (Leak.forRev n f s) (I 0) (downTrace t n)
  | 0, _, h, _ => RunsL.pure h
  | n + 1, s, h, hf => (hf n s (by omega) h).bind fun a ha => RunsL.forRev I t n a ha fun i s hi => hf i s (by omega)

end Leak

open Leak

/-! ## The values are those of the model -/

namespace Jacobian

theorem bothZeroL_value (m rr : FElem) : value (bothZeroL m rr) = bothZero m rr := by
  unfold bothZeroL bothZero
  simp only [value_bind, value_lift, value_branch, pure_bind, value_ite, value_pure]

theorem addGeL_value (a : Jacobian) (b : Affine) : value (addGeL a b) = addGe a b := by
  unfold addGeL addGe
  simp only [value_bind, value_lift, value_pure, bothZeroL_value]

theorem doubleNonzeroL_value (r : Jacobian) : value (doubleNonzeroL r) = Ecmult.constDouble 0 r := by
  unfold doubleNonzeroL Ecmult.constDouble doubleNonzeroInPlace doubleVarInPlace
  simp only [value_bind, value_lift, value_branch, pure_bind, value_ite, value_pure, bind_assoc]
  congr 1; funext _
  split
  · simp [rzrSetInt]
  · simp [rzrDouble]

end Jacobian

namespace Ecmult

theorem cmovLoopL_value (pre : List Affine) (k : ℕ) (r : Affine) : value (cmovLoopL pre k r) = cmovLoop pre k r := by
  unfold cmovLoopL cmovLoop
  simp only [value_forN, value_bind, value_read, value_pure]

theorem tableGetGeConstL_value (r : Affine) (pre : List Affine) (d : ℤ) (w : ℕ) : value (tableGetGeConstL r pre d w) = tableGetGeConst r pre d w := by
  unfold tableGetGeConstL tableGetGeConst
  simp only [value_bind, value_lift, value_pure, cmovLoopL_value]

theorem constStepL_value (preA : List Affine) (w : List ℤ) (i : ℕ) (s : Jacobian × Affine) : value (constStepL preA w i s) = constStep preA w i s := by
  unfold constStepL constStep
  simp only [value_bind, value_lift, value_pure, value_forN, value_read, tableGetGeConstL_value, Jacobian.addGeL_value, Jacobian.doubleNonzeroL_value]
  rfl

theorem constCorrectL_value (a : Affine) (k : ℤ) (r : Jacobian) : value (constCorrectL a k r) = constCorrect a k r := by
  unfold constCorrectL constCorrect
  simp only [value_bind, value_lift, value_emit, pure_bind, Jacobian.addGeL_value]

theorem ecmultConstL_value (a : Affine) (s : Scalar) : value (ecmultConstL a s) = ecmultConst a s := by
  unfold ecmultConstL ecmultConst
  simp only [value_bind, value_lift, value_emit, pure_bind, value_read, value_forRev, tableGetGeConstL_value, constStepL_value, constCorrectL_value]

theorem genSelectL_value (row : List AffineStorage) (b : UInt32) (x : AffineStorage) : value (genSelectL row b x) = genSelect row b x := by
  unfold genSelectL genSelect
  simp only [value_forN, value_bind, value_read, value_pure]

theorem genStepL_value (c : GenContext) (k : Scalar) (j : ℕ) (s : Jacobian × AffineStorage) : value (genStepL c k j s) = genStep c k j s := by
  unfold genStepL genStep
  simp only [value_bind, value_lift, value_read, value_pure, genSelectL_value, Jacobian.addGeL_value]

theorem ecmultGenL_value (c : GenContext) (k : Scalar) : value (ecmultGenL c k) = ecmultGen c k := by
  unfold ecmultGenL ecmultGen
  simp only [value_bind, value_lift, value_pure, value_forN, genStepL_value]

end Ecmult

namespace Ecdsa

theorem signTailL_value (r s : Scalar) (i : UInt8) : value (signTailL r s i) = signTail r s i := by
  unfold signTailL signTail
  simp only [value_bind, value_lift, value_branch, pure_bind, value_ite, value_pure]

theorem signRawL_value (c : Ecmult.GenContext) (k m x : Scalar) : value (signRawL c k m x) = signRaw c k m x := by
  unfold signRawL signRaw
  simp only [value_bind, value_lift, Ecmult.ecmultGenL_value, signTailL_value]

theorem ecdhRawL_value (D : Digest) (a : Affine) (s : Scalar) : value (ecdhRawL D a s) = ecdhRaw D a s := by
  unfold ecdhRawL ecdhRaw
  simp only [value_bind, value_lift, value_branch, value_emit, pure_bind, value_ite, value_pure, Ecmult.ecmultConstL_value]

end Ecdsa

theorem PublicKey.fromSecretKeyL_value (k : SecretKey) : value (PublicKey.fromSecretKeyL k) = PublicKey.fromSecretKey k := by
  unfold PublicKey.fromSecretKeyL PublicKey.fromSecretKey PublicKey.fromSecretKeyWithContext
  simp only [value_bind, value_lift, value_pure, Ecmult.ecmultGenL_value]

theorem SharedSecret.newL_value (D : Digest) (k : PublicKey) (s : SecretKey) : value (SharedSecret.newL D k s) = SharedSecret.new D k s := by
  unfold SharedSecret.newL SharedSecret.new
  simp only [value_bind, Ecdsa.ecdhRawL_value]
  congr 1; funext x
  cases x <;> simp only [value_bind, value_branch, pure_bind, value_pure]

theorem nonceOkL_value (x : Scalar × Bool) : value (nonceOkL x) = pure (!x.2 && !x.1.isZero) := by
  unfold nonceOkL
  rw [value_bind, value_branch, pure_bind]
  cases x.2 <;> simp [value_branch, value_pure]

theorem signLoopL_value (D : Drbg) (c : Ecmult.GenContext) (k m : Scalar) : ∀ (fuel : ℕ) (s : D.State), value (signLoopL D c k m fuel s) = signLoop D c k m fuel s
  | 0, _ => value_pure _
  | fuel + 1, s => by
    unfold signLoopL signLoop
    simp only [value_bind, value_lift, value_emit, pure_bind]
    congr 1; funext x
    rw [nonceOkL_value, pure_bind, value_ite]
    simp only [value_bind, Ecdsa.signRawL_value, signLoopL_value D c k m fuel]
    split
    · congr 1; funext r
      cases r <;> simp only [value_bind, value_branch, pure_bind, value_pure, signLoopL_value D c k m fuel]
    · rfl

theorem signL_value (D : Drbg) (fuel : ℕ) (m : Message) (k : SecretKey) : value (signL D fuel m k) = sign D fuel m k := by
  unfold signL sign signWithContext
  simp only [value_bind, value_lift, value_emit, pure_bind, signLoopL_value]
  congr 1; funext c
  congr 1; funext r
  rcases r with _ | ⟨r, s, i⟩ <;> simp only [value_pure]

/-! ## The one branch of `add_ge` -/

theorem Jacobian.bothZeroL_traceIs {m rr : FElem} {a : ℕ} {M : Fp} (h : Fe m a M) (ha : a ≤ 31) : TraceIs (bothZeroL m rr) [.branch (decide (M = 0))] := by
  unfold bothZeroL
  refine TraceIs.bind_runs (fe_normalizesToZero h ha) fun b hb => ?_
  subst hb
  refine TraceIs.bind_runsL (u := []) (RunsL.branch _) fun c hc => ?_
  split
  · exact traceIs_lift _
  · exact traceIs_pure _

theorem Jacobian.addGeL_traceIs {a : Jacobian} {b : Affine} {X Y W : Fp} (hx : FeL a.x X) (hy : FeL a.y Y) (hz : Fe a.z 8 W)
    (hbx : b.x.Ok 8) (hby : b.y.Ok 8) :
    TraceIs (addGeL a b) [.branch (decide (Y + b.y.v * (W * W) * W = 0))] := by
  unfold addGeL
  refine TraceIs.bind_lift fun _ => ?_
  refine TraceIs.bind_runs (fe_sqr hz (by norm_num)) fun zz hzz => ?_
  refine TraceIs.bind_runs (fe_normalizeWeak_loose hx) fun u1 hu1 => ?_
  refine TraceIs.bind_runs (fe_mul hbx hzz.1 (by norm_num) (by norm_num)) fun u2 hu2 => ?_
  refine TraceIs.bind_runs (fe_normalizeWeak_loose hy) fun s1 hs1 => ?_
  refine TraceIs.bind_runs (fe_mul hby hzz.1 (by norm_num) (by norm_num)) fun s2 hs2 => ?_
  refine TraceIs.bind_runs (fe_mul hs2.1 hz (by norm_num) (by norm_num)) fun s2 hs2 => ?_
  refine TraceIs.bind_runs (fe_add hu1.1 hu2.1 (by norm_num)) fun t ht => ?_
  refine TraceIs.bind_runs (fe_add hs1.1 hs2.1 (by norm_num)) fun m hm => ?_
  iterate 4 refine TraceIs.bind_lift fun _ => ?_
  refine TraceIs.bind (u := []) (bothZeroL_traceIs hm.1 (by norm_num)) fun d => ?_
  iterate 2 refine TraceIs.bind_lift fun _ => ?_
  iterate 2 refine TraceIs.bind (t := []) (u := []) (traceIs_pure _) fun _ => ?_
  iterate 3 refine TraceIs.bind_lift fun _ => ?_
  refine TraceIs.bind (t := []) (u := []) (traceIs_pure _) fun _ => ?_
  iterate 3 refine TraceIs.bind_lift fun _ => ?_
  refine TraceIs.bind (t := []) (u := []) (traceIs_pure _) fun _ => ?_
  iterate 4 refine TraceIs.bind_lift fun _ => ?_
  refine TraceIs.bind (t := []) (u := []) (traceIs_pure _) fun _ => ?_
  iterate 8 refine TraceIs.bind_lift fun _ => ?_
  exact traceIs_pure _

theorem Jacobian.addGeL_loose {a : Jacobian} {b : Affine} {Z X Y W : Fp} {P Q : Pt} (hx : FeL a.x X) (hy : FeL a.y Y) (hz : Fe a.z 8 W)
    (ha : Rep a.infinity X Y (W * Z) P) (hb : AffZ b Z Q) (hbi : b.infinity = false) (hP : P ≠ 0)
    {d : Bool} (hd : OppY P Q ↔ d = true) : RunsL (addGeL a b) (fun r => JacZ r Z (P + Q)) [.branch d] := by
  refine runsL_of (by rw [addGeL_value]; exact addGe_loose hx hy hz ha hb hbi) ?_
  have key := addGeL_traceIs hx hy hz hb.x hb.y
  have hai : a.infinity = false := by
    have := ha.flag; cases h : a.infinity
    · rfl
    · exact absurd (this.1 h) hP
  rw [hai] at ha
  have rb := hb.rep
  rw [hbi] at rb
  obtain ⟨hw, x1, y1, h1, _, rfl⟩ := ha.fin
  obtain ⟨hZ, x2, y2, h2, _, e2⟩ := rb.fin
  have e : (y1 * (W * Z) ^ 3 + b.y.v * (W * W) * W = 0) ↔ OppY P Q := by
    have : y1 * (W * Z) ^ 3 + b.y.v * (W * W) * W = (y1 + y2) * (W * Z) ^ 3 := by rw [e2]; ring
    rw [this, mul_eq_zero, or_iff_left (pow_ne_zero 3 hw)]
    constructor
    · intro h
      exact ⟨x1, x2, y1, h1, h2.congr rfl (by linear_combination h)⟩
    · rintro ⟨u1, u2, v, g1, g2⟩
      obtain ⟨_, r1⟩ := g1.inj h1
      obtain ⟨_, r2⟩ := g2.inj h2
      rw [← r1, ← r2]; ring
  rwa [show decide (y1 * (W * Z) ^ 3 + b.y.v * (W * W) * W = 0) = d from by
    rw [Bool.eq_iff_iff, decide_eq_true_eq, e, hd]] at key

theorem Jacobian.addGeL_runs {a : Jacobian} {b : Affine} {Z : Fp} {P Q : Pt} (ha : JacZ a Z P) (hb : AffZ b Z Q)
    (hbi : b.infinity = false) (hP : P ≠ 0) {d : Bool} (hd : OppY P Q ↔ d = true) :
    RunsL (addGeL a b) (fun r => JacZ r Z (P + Q)) [.branch d] :=
  addGeL_loose (ha.x.loose (by norm_num)) (ha.y.loose (by norm_num)) ha.z ha.rep hb hbi hP hd

end Verif
