import Verif.Spec.Leak
import Verif.Proofs.LeakGen
import Verif.Proofs.Sign

/-! The observations of key derivation and signing. -/

namespace Verif

open Spec Leak Ecmult Ecdsa
open FElem hiding n

/-- Whenever the computation returns, its observations are `t` and its value satisfies `P`. -/
def TraceOn {α : Type} (x : Leak α) (P : α → Prop) (t : List Event) : Prop := ∀ π a t', x.run π = some (a, t') → t' = t ∧ P a

theorem TraceOn.bind {α β : Type} {x : Leak α} {f : α → Leak β} {P : α → Prop} {Q : β → Prop} {t u : List Event} (hx : TraceOn x P t)
    (hf : ∀ a, P a → TraceOn (f a) Q u) : TraceOn (x >>= f) Q (t ++ u) := by
  intro π b t' h
  have h' : (x.run π).bind (fun a => ((f a.1).run π).bind fun b => some (b.1, a.2 ++ b.2)) = some (b, t') := h
  rcases e : x.run π with _ | ⟨a, s⟩
  · rw [e] at h'; simp at h'
  · rw [e] at h'
    simp only [Option.bind_some] at h'
    rcases e2 : (f a).run π with _ | ⟨c, s2⟩
    · rw [e2] at h'; simp at h'
    · rw [e2] at h'
      simp at h'
      obtain ⟨h1, h2⟩ := hx π a s e
      obtain ⟨h3, h4⟩ := hf a h2 π c s2 e2
      rw [← h'.2, h1, h3, ← h'.1]
      exact ⟨rfl, h4⟩

theorem traceOn_of {α : Type} {x : Leak α} {P : α → Prop} {t : List Event} (h : RunsL x P t) : TraceOn x P t := by
  obtain ⟨a, e, ha⟩ := h
  intro π b t' h
  rw [e] at h
  have : some (a, t) = some (b, t') := h
  simp at this
  rw [← this.1, ← this.2]
  exact ⟨rfl, ha⟩

theorem TraceOn.of_traceIs {α : Type} {x : Leak α} {t : List Event} (h : TraceIs x t) : TraceOn x (fun _ => True) t :=
  fun π a t' e => ⟨h π a t' e, trivial⟩

theorem TraceOn.bind_any {α β : Type} {x : Exec α} {f : α → Leak β} {Q : β → Prop} {t : List Event} (hf : ∀ a, TraceOn (f a) Q t) :
    TraceOn (Leak.lift x >>= f) Q t := (TraceOn.of_traceIs (traceIs_lift x)).bind fun a _ => hf a

theorem TraceOn.bind_runs {α β : Type} {x : Exec α} {f : α → Leak β} {P : α → Prop} {Q : β → Prop} {t : List Event} (hx : Runs x P)
    (hf : ∀ a, P a → TraceOn (f a) Q t) : TraceOn (Leak.lift x >>= f) Q t := (traceOn_of (RunsL.lift hx)).bind hf

theorem traceOn_pure {α : Type} {a : α} {P : α → Prop} (h : P a) : TraceOn (Pure.pure a : Leak α) P [] := traceOn_of (RunsL.pure h)

theorem TraceOn.cast {α : Type} {x : Leak α} {P : α → Prop} {t u : List Event} (hx : TraceOn x P t) (h : t = u) : TraceOn x P u := h ▸ hx

/-- The observations when the value is known to be returned. -/
theorem TraceOn.of_value {α : Type} {x : Leak α} {P : α → Prop} {t : List Event} (h : TraceOn x P t) {π : Profile} {a : α} (e : x.value π = some a) :
    x.run π = some (a, t) := by
  have e' : (x.run π).bind (fun a => some a.1) = some a := e
  rcases hx : x.run π with _ | ⟨b, t'⟩
  · rw [hx] at e'; simp at e'
  · rw [hx] at e'
    have := (h π b t' hx).1
    simp at e'; subst this e'; rfl

/-! ## Key derivation -/

theorem PublicKey.fromSecretKeyL_runs {k : SecretKey} (hk : k.sc.val < n) (hreg : k.sc.val ∉ irregular) :
    RunsL (PublicKey.fromSecretKeyL k) (fun _ => True) genTrace := by
  unfold PublicKey.fromSecretKeyL
  refine RunsL.bind_lift newGenContext_runs fun c ⟨h1, h2, h3⟩ => ?_
  refine (RunsL.bind (ecmultGenL_runs h1 h2 h3 hk hreg) fun j hj => ?_).cast (List.append_nil _)
  exact RunsL.bind_lift (Affine.setGej_runs hj) fun p _ => RunsL.pure trivial

/-! ## Signing -/

/-- The observations of `sign_raw` after the multiplication. -/
def tailTrace : Verdict → List Event
  | .low => [.branch false, .branch false]
  | .high => [.branch false, .branch true]
  | _ => [.branch true]

/-- The verdict on a candidate in range. -/
def verdictOf (s : ZMod n) : Verdict := if s = 0 then .refused else if s.val < (n - 1) / 2 then .low else .high

theorem signTailL_runs {sigr sigs : Scalar} {s : ZMod n} (hs : Sc sigs s) (recid : UInt8) :
    RunsL (signTailL sigr sigs recid) (fun o => ((verdictOf s).final = true → ∃ v, o = .ok v) ∧ ((verdictOf s).final = false → ∃ e, o = .error e))
      (tailTrace (verdictOf s)) := by
  unfold signTailL verdictOf
  by_cases h0 : s = 0
  · rw [if_pos h0, hs.zero_iff.2 h0]
    refine RunsL.bind (u := []) (RunsL.branch true) fun z hz => ?_
    subst hz
    exact RunsL.pure ⟨fun h => (by cases h), fun _ => ⟨_, rfl⟩⟩
  · have hz : sigs.isZero = false := by rw [Bool.eq_false_iff]; exact fun h => h0 (hs.zero_iff.1 h)
    rw [if_neg h0, hz]
    by_cases hh : s.val < (n - 1) / 2
    · have hi : sigs.isHigh = false := by
        rw [Bool.eq_false_iff]; intro h
        have := (Scalar.isHigh_iff _).1 h
        rw [hs] at this; omega
      rw [if_pos hh, hi]
      refine RunsL.bind (t := [.branch false]) (u := [.branch false]) (RunsL.branch false) fun z hz => ?_
      subst hz
      refine RunsL.bind (u := []) (RunsL.branch false) fun z hz => ?_
      subst hz
      exact RunsL.pure ⟨fun _ => ⟨_, rfl⟩, fun h => (by cases h)⟩
    · have hi : sigs.isHigh = true := (Scalar.isHigh_iff _).2 (by rw [hs]; omega)
      rw [if_neg hh, hi]
      refine RunsL.bind (t := [.branch false]) (u := [.branch true]) (RunsL.branch false) fun z hz => ?_
      subst hz
      refine RunsL.bind (u := []) (RunsL.branch true) fun z hz => ?_
      subst hz
      exact RunsL.bind_lift (sc_neg hs) fun s' _ => RunsL.pure ⟨fun _ => ⟨_, rfl⟩, fun h => (by cases h)⟩

theorem signRawL_trace {ctx : GenContext} {seckey message nonce : Scalar} {d m : ZMod n} {x y : Fp} (hc : GenTable ctx.prec) (hb : ctx.blind = genBlind)
    (hi : ctx.initial = genInitial) (hd : Rs seckey d) (hm : Rs message m) (hk : nonce.val < n) (hreg : nonce.val ∉ irregular)
    (hP : IsPt (nonce.val • G) x y) :
    TraceOn (signRawL ctx seckey message nonce)
      (fun o => ((verdictOf ((m + (x.val : ZMod n) * d) / nonce.val)).final = true → ∃ v, o = .ok v) ∧
        ((verdictOf ((m + (x.val : ZMod n) * d) / nonce.val)).final = false → ∃ e, o = .error e))
      (genTrace ++ tailTrace (verdictOf ((m + (x.val : ZMod n) * d) / nonce.val))) := by
  unfold signRawL
  refine (traceOn_of (ecmultGenL_runs hc hb hi hk hreg)).bind fun rp hrp => ?_
  refine TraceOn.bind_runs (Affine.setGej_runs hrp) fun r ⟨hr, _, hrx, hry⟩ => ?_
  have hrP := (hr.isPt (hr.inf_false hP.ne_zero)).inj hP
  refine TraceOn.bind_runs (fe_normalize hrx (by norm_num)) fun fx ⟨hfx, _⟩ => ?_
  refine TraceOn.bind_runs (fe_normalize hry (by norm_num)) fun fy ⟨hfy, _⟩ => ?_
  rw [hrP.1] at hfx
  rw [hrP.2] at hfy
  refine TraceOn.bind_runs (b32_runs hfx) fun b hb => ?_
  refine TraceOn.bind_runs (Scalar.setB32_runs b) fun sr ⟨hs1, hs2⟩ => ?_
  have hxlt := ZMod.val_lt x
  have hx32 : beNat b.toList = x.val := by
    rw [hb, beNat_beBytes, Nat.mod_eq_of_lt (hxlt.trans (by decide +kernel))]
  rw [hx32] at hs1 hs2
  refine TraceOn.bind_any fun _ => ?_
  refine TraceOn.bind_any fun _ => ?_
  refine TraceOn.bind_runs (isOdd_runs hfy) fun odd hodd => ?_
  have hsr := sc_mod hs2
  have hkz : Rs nonce (nonce.val : ZMod n) := rfl
  refine TraceOn.bind_runs (rs_mul hsr.rs hd) fun n1 hn1 => ?_
  refine TraceOn.bind_runs (rs_add hn1 hm) fun n2 hn2 => ?_
  refine TraceOn.bind_runs (rs_inv hkz) fun ki hki => ?_
  refine TraceOn.bind_runs (rs_mul hki.rs hn2) fun sigs hsigs => ?_
  have es : ((nonce.val : ℕ) : ZMod n)⁻¹ * (((x.val : ℕ) : ZMod n) * d + m) = (m + (x.val : ZMod n) * d) / nonce.val := by
    rw [div_eq_mul_inv, mul_comm, add_comm]
  rw [es] at hsigs
  exact traceOn_of (signTailL_runs hsigs _)

/-- The observations of one turn of the loop. -/
def turnTrace : Verdict → List Event
  | .large => [.extern 32, .branch false]
  | .zero => [.extern 32, .branch true, .branch false]
  | v => [.extern 32, .branch true, .branch true] ++ (genTrace ++ tailTrace v) ++ [.branch v.final]

theorem hasVerdict_of {d m : ZMod n} {k : ℕ} {v : Verdict} (h : HasVerdict d m k v) :
    (v = .large ∧ n ≤ k) ∨ (v = .zero ∧ k = 0) ∨
    (0 < k ∧ k < n ∧ v ≠ .large ∧ v ≠ .zero ∧ ∃ x y, IsPt (k • G) x y ∧ v = verdictOf ((m + (x.val : ZMod n) * d) / k)) := by
  cases h with
  | large h => exact Or.inl ⟨rfl, h⟩
  | zero h => exact Or.inr (Or.inl ⟨rfl, h⟩)
  | refused h1 h2 hp h => exact Or.inr (Or.inr ⟨h1, h2, by simp, by simp, _, _, hp, by rw [verdictOf, if_pos h]⟩)
  | low h1 h2 hp h h' => exact Or.inr (Or.inr ⟨h1, h2, by simp, by simp, _, _, hp, by rw [verdictOf, if_neg h, if_pos h']⟩)
  | high h1 h2 hp h =>
    refine Or.inr (Or.inr ⟨h1, h2, by simp, by simp, _, _, hp, ?_⟩)
    rw [verdictOf, if_neg, if_neg (by omega)]
    intro e
    rw [e, ZMod.val_zero] at h
    exact absurd h (by decide +kernel)

theorem signLoopL_trace {D : Drbg} {ctx : GenContext} {seckey message : Scalar} {d m : ZMod n} (hc : GenTable ctx.prec) (hb : ctx.blind = genBlind)
    (hi : ctx.initial = genInitial) (hd : Rs seckey d) (hm : Rs message m) : ∀ (fuel : ℕ) (st : D.State) (v : ℕ → Verdict),
    (∀ i < fuel, (∀ j < i, (v j).final = false) → HasVerdict d m (beNat (blockAt D.generate st i).toList) (v i)) →
    (∀ i < fuel, (∀ j < i, (v j).final = false) → beNat (blockAt D.generate st i).toList ∉ irregular) →
    TraceOn (signLoopL D ctx seckey message fuel st) (fun _ => True) ((verdicts v fuel).flatMap turnTrace)
  | 0, st, v, _, _ => traceOn_pure trivial
  | fuel + 1, st, v, hv, hr => by
    have hv0 := hv 0 (by omega) (fun j hj => by omega)
    have hr0 := hr 0 (by omega) (fun j hj => by omega)
    have ih := fun hf : (v 0).final = false => signLoopL_trace hc hb hi hd hm fuel (D.generate st).2 (fun i => v (i + 1))
      (fun i hi h => hv (i + 1) (by omega) fun j hj => by
        rcases j with _ | j
        · exact hf
        · exact h j (by omega))
      (fun i hi h => hr (i + 1) (by omega) fun j hj => by
        rcases j with _ | j
        · exact hf
        · exact h j (by omega))
    change HasVerdict d m (beNat (D.generate st).1.toList) (v 0) at hv0
    change beNat (D.generate st).1.toList ∉ irregular at hr0
    rw [verdicts, List.flatMap_cons]
    unfold signLoopL
    generalize v 0 = w at *
    rcases hasVerdict_of hv0 with ⟨rfl, h⟩ | ⟨rfl, h⟩ | ⟨h0, h1, hw1, hw2, x, y, hP, hw⟩
    · refine ((traceOn_of (RunsL.emit (.extern 32))).bind (u := [.branch false] ++ (verdicts (fun i => v (i + 1)) fuel).flatMap turnTrace) fun _ _ => ?_).cast (by simp [turnTrace, Verdict.final])
      refine TraceOn.bind_runs (Scalar.setB32_runs (D.generate st).1) fun a ⟨ha1, ha2⟩ => ?_
      have hov : a.2 = true := by rw [ha1]; exact decide_eq_true h
      refine TraceOn.bind (P := fun r => r = false) ?_ fun r hr => ?_
      · unfold nonceOkL
        rw [hov]
        refine traceOn_of (RunsL.bind (u := []) (RunsL.branch false) fun z hz => ?_)
        subst hz
        exact RunsL.pure rfl
      · subst hr
        exact ih rfl
    · refine ((traceOn_of (RunsL.emit (.extern 32))).bind (u := [.branch true, .branch false] ++ (verdicts (fun i => v (i + 1)) fuel).flatMap turnTrace) fun _ _ => ?_).cast (by simp [turnTrace, Verdict.final])
      refine TraceOn.bind_runs (Scalar.setB32_runs (D.generate st).1) fun a ⟨ha1, ha2⟩ => ?_
      rw [h] at ha1 ha2
      have hov : a.2 = false := by rw [ha1]; exact decide_eq_false (by decide +kernel)
      have hz0 : a.1.isZero = true := (Scalar.isZero_iff _).2 (by rw [ha2, Nat.zero_mod])
      refine TraceOn.bind (P := fun r => r = false) ?_ fun r hr => ?_
      · unfold nonceOkL
        rw [hov, hz0]
        refine traceOn_of (RunsL.bind (t := [.branch true]) (u := [.branch false]) (RunsL.branch true) fun z hz => ?_)
        subst hz
        exact RunsL.branch false
      · subst hr
        exact ih rfl
    · have ht : turnTrace w = [.extern 32] ++ ([.branch true, .branch true] ++ ((genTrace ++ tailTrace w) ++ [.branch w.final])) := by
        cases w <;> simp_all [turnTrace]
      rw [ht, List.append_assoc, List.append_assoc, List.append_assoc]
      refine (traceOn_of (RunsL.emit (.extern 32))).bind fun _ _ => ?_
      refine TraceOn.bind_runs (Scalar.setB32_runs (D.generate st).1) fun a ⟨ha1, ha2⟩ => ?_
      rw [Nat.mod_eq_of_lt h1] at ha2
      have hov : a.2 = false := by rw [ha1]; exact decide_eq_false (by omega)
      have hz0 : a.1.isZero = false := by
        rw [Bool.eq_false_iff]; intro hz
        have := (Scalar.isZero_iff _).1 hz
        omega
      refine TraceOn.bind (P := fun r => r = true) ?_ fun r hr => ?_
      · unfold nonceOkL
        rw [hov, hz0]
        refine traceOn_of (RunsL.bind (t := [.branch true]) (u := [.branch true]) (RunsL.branch true) fun z hz => ?_)
        subst hz
        exact RunsL.branch true
      · subst hr
        rw [if_pos rfl]
        rw [← ha2] at hP hr0 h1 hw
        have hraw := signRawL_trace hc hb hi hd hm h1 hr0 hP
        rw [← hw] at hraw
        refine hraw.bind fun o ho => ?_
        cases hf : w.final with
        | true =>
          obtain ⟨val, rfl⟩ := ho.1 hf
          refine (traceOn_of (RunsL.branch true)).bind fun _ _ => traceOn_pure trivial
        | false =>
          obtain ⟨e, rfl⟩ := ho.2 hf
          refine (traceOn_of (RunsL.branch false)).bind fun _ _ => ?_
          exact ih hf

theorem signL_trace {D : Drbg} {fuel : ℕ} {m : Message} {k : SecretKey} {v : ℕ → Verdict}
    (hv : ∀ i < fuel, (∀ j < i, (v j).final = false) →
      HasVerdict (k.sc.val : ZMod n) (m.sc.val : ZMod n) (beNat (blockAt D.generate (D.new k.sc.b32.toList m.sc.b32.toList []) i).toList) (v i))
    (hr : ∀ i < fuel, (∀ j < i, (v j).final = false) →
      beNat (blockAt D.generate (D.new k.sc.b32.toList m.sc.b32.toList []) i).toList ∉ irregular) :
    TraceOn (signL D fuel m k) (fun _ => True) ([.extern 32, .extern 32] ++ (verdicts v fuel).flatMap turnTrace) := by
  unfold signL
  refine TraceOn.bind_runs newGenContext_runs fun c ⟨h1, h2, h3⟩ => ?_
  refine ((traceOn_of (RunsL.emit (.extern k.sc.b32.toList.length))).bind (u := [.extern 32] ++ ((verdicts v fuel).flatMap turnTrace ++ [])) fun _ _ => ?_).cast (by simp)
  refine ((traceOn_of (RunsL.emit (.extern m.sc.b32.toList.length))).bind (u := (verdicts v fuel).flatMap turnTrace ++ []) fun _ _ => ?_).cast (by simp)
  refine (signLoopL_trace h1 h2 h3 rfl rfl fuel _ v hv hr).bind fun o _ => ?_
  rcases o with _ | ⟨a, b, c⟩
  · exact traceOn_pure trivial
  · exact traceOn_pure trivial

end Verif
