import Verif.Spec.Curve
import Mathlib.Tactic.LinearCombination
import Mathlib.Tactic.FieldSimp
import Mathlib.Data.ZMod.Basic
import Mathlib.GroupTheory.Perm.Cycle.Type
import Mathlib.GroupTheory.SpecificGroups.Cyclic
import Mathlib.FieldTheory.Finite.Basic
import Verif.Proofs.Primes

/-!
The affine chord-and-tangent formulas, primality of the field prime and the order of the group.
-/

namespace Verif
open Spec WeierstrassCurve

section generic
variable {K : Type*} [Field K]

theorem curve_equation {x y : K} : (curve K).Equation x y ↔ y ^ 2 = x ^ 3 + 7 := by
  rw [Affine.equation_iff]; simp [curve]

theorem curve_negY {x y : K} : (curve K).negY x y = -y := by simp [Affine.negY, curve]

theorem curve_nonsingular {x y : K} (h : y ^ 2 = x ^ 3 + 7) (h2 : 2 * y ≠ 0) : (curve K).Nonsingular x y := by
  rw [Affine.nonsingular_iff']
  refine ⟨curve_equation.2 h, Or.inr ?_⟩
  simpa [curve] using h2

theorem Spec.IsPt.eqn {P : (curve K).Point} {x y : K} (h : IsPt P x y) : y ^ 2 = x ^ 3 + 7 :=
  curve_equation.1 h.choose.1

theorem exists_isPt {x y : K} (h : y ^ 2 = x ^ 3 + 7) (h2 : 2 * y ≠ 0) : ∃ P : (curve K).Point, IsPt P x y :=
  ⟨_, curve_nonsingular h h2, rfl⟩

theorem Spec.IsPt.ne_zero {P : (curve K).Point} {x y : K} (h : IsPt P x y) : P ≠ 0 := by
  obtain ⟨h, rfl⟩ := h; exact Affine.Point.some_ne_zero h

theorem Spec.IsPt.inj {P : (curve K).Point} {x y x' y' : K} (h : IsPt P x y) (h' : IsPt P x' y') : x = x' ∧ y = y' := by
  obtain ⟨h, rfl⟩ := h; obtain ⟨h', e⟩ := h'
  simpa using e

theorem Spec.IsPt.unique {P Q : (curve K).Point} {x y : K} (h : IsPt P x y) (h' : IsPt Q x y) : P = Q := by
  obtain ⟨h, rfl⟩ := h; obtain ⟨h', rfl⟩ := h'; rfl

theorem isPt_or_zero (P : (curve K).Point) : P = 0 ∨ ∃ x y, IsPt P x y := by
  rcases P with _ | ⟨x, y, h⟩
  · exact Or.inl rfl
  · exact Or.inr ⟨x, y, h, rfl⟩

theorem Spec.IsPt.neg {P : (curve K).Point} {x y : K} (h : IsPt P x y) : IsPt (-P) x (-y) := by
  obtain ⟨h, rfl⟩ := h
  rw [Affine.Point.neg_some]
  have h2 := (Affine.nonsingular_neg ..).2 h
  refine ⟨by rw [← curve_negY (x := x)]; exact h2, ?_⟩
  congr 1; exact curve_negY

theorem Spec.IsPt.congr {P : (curve K).Point} {x y x' y' : K} (h : IsPt P x y) (hx : x = x') (hy : y = y') :
    IsPt P x' y' := by subst hx hy; exact h

variable [DecidableEq K]

theorem isPt_dbl {P : (curve K).Point} {x y : K} (l : K) (h : IsPt P x y) (h2 : 2 * y ≠ 0)
    (hl : l * (2 * y) = 3 * x ^ 2) : IsPt (P + P) (l ^ 2 - 2 * x) (l * (x - (l ^ 2 - 2 * x)) - y) := by
  obtain ⟨h, rfl⟩ := h
  have hy : y ≠ (curve K).negY x y := by
    rw [curve_negY]; intro e; apply h2; linear_combination e
  rw [Affine.Point.add_self_of_Y_ne hy]
  have hs : (curve K).slope x x y y = l := by
    rw [Affine.slope_of_Y_ne rfl hy, curve_negY]
    simp only [curve]
    rw [show y - -y = 2 * y by ring, div_eq_iff h2]; linear_combination -hl
  refine IsPt.congr ⟨_, rfl⟩ ?_ ?_
  · rw [hs]; simp only [Affine.addX, curve]; ring
  · rw [hs]; simp only [Affine.addX, Affine.addY, Affine.negAddY, Affine.negY, curve]; ring

theorem isPt_dbl_zero {P : (curve K).Point} {x y : K} (h : IsPt P x y) (h2 : 2 * y = 0) : P + P = 0 := by
  obtain ⟨h, rfl⟩ := h
  apply Affine.Point.add_self_of_Y_eq
  rw [curve_negY]; linear_combination h2

theorem isPt_add {P Q : (curve K).Point} {x₁ y₁ x₂ y₂ : K} (l : K) (h₁ : IsPt P x₁ y₁) (h₂ : IsPt Q x₂ y₂)
    (hx : x₁ ≠ x₂) (hl : l * (x₁ - x₂) = y₁ - y₂) :
    IsPt (P + Q) (l ^ 2 - x₁ - x₂) (l * (x₁ - (l ^ 2 - x₁ - x₂)) - y₁) := by
  obtain ⟨h₁, rfl⟩ := h₁
  obtain ⟨h₂, rfl⟩ := h₂
  rw [Affine.Point.add_of_X_ne hx]
  have hs : (curve K).slope x₁ x₂ y₁ y₂ = l := by
    rw [Affine.slope_of_X_ne hx, div_eq_iff (sub_ne_zero.2 hx), hl]
  refine IsPt.congr ⟨_, rfl⟩ ?_ ?_
  · rw [hs]; simp only [Affine.addX, curve]; ring
  · rw [hs]; simp only [Affine.addX, Affine.addY, Affine.negAddY, Affine.negY, curve]; ring

theorem isPt_add_neg {P Q : (curve K).Point} {x y : K} (h₁ : IsPt P x y) (h₂ : IsPt Q x (-y)) : P + Q = 0 := by
  rw [h₂.unique h₁.neg, add_neg_cancel]

/-- Two points with one x-coordinate are equal or opposite. -/
theorem Spec.IsPt.same_x {P Q : (curve K).Point} {x y y' : K} (h₁ : IsPt P x y) (h₂ : IsPt Q x y') :
    y' = y ∨ y' = -y := by
  have e1 := h₁.eqn; have e2 := h₂.eqn
  have : (y' - y) * (y' + y) = 0 := by linear_combination e2 - e1
  rcases mul_eq_zero.1 this with h | h
  · left; linear_combination h
  · right; linear_combination h

end generic

/-! ### A checked chain of affine steps modulo `p` -/

namespace Chain

/-- Modular inverse by Euclid's algorithm; its result is always checked. -/
def invGo (m : ℕ) : ℕ → ℕ → ℕ → ℕ → ℕ → ℕ
  | 0, _, _, t0, _ => t0
  | fuel + 1, r0, r1, t0, t1 =>
    if r1 = 0 then t0 else invGo m fuel r1 (r0 % r1) t1 ((t0 + (m - t1) * (r0 / r1)) % m)

def inv (m a : ℕ) : ℕ := invGo m 400 m (a % m) 0 1

def gx : ℕ := 0x79BE667EF9DCBBAC55A06295CE870B07029BFCDB2DCE28D959F2815B16F81798
def gy : ℕ := 0x483ADA7726A3C4655DA4FBFC0E1108A8FD17B448A68554199C47D08FFB10D4B8

/-- Tangent step modulo `p`. -/
def dbl (P : ℕ × ℕ) : Option (ℕ × ℕ) :=
  let w := inv p (2 * P.2)
  if 2 * P.2 * w % p = 1 then
    let l := 3 * P.1 * P.1 * w % p
    let x' := (l * l + 2 * (p - P.1)) % p
    some (x', (l * (P.1 + (p - x')) + (p - P.2)) % p)
  else none

/-- Chord step modulo `p`, second summand the base point. -/
def addG (P : ℕ × ℕ) : Option (ℕ × ℕ) :=
  let d := P.1 + (p - gx)
  let w := inv p d
  if d * w % p = 1 then
    let l := (P.2 + (p - gy)) * w % p
    let x' := (l * l + (p - P.1) + (p - gx)) % p
    some (x', (l * (P.1 + (p - x')) + (p - P.2)) % p)
  else none

/-- `k` times the base point. -/
def mulG : ℕ → ℕ → Option (ℕ × ℕ)
  | 0, _ => none
  | fuel + 1, k =>
    if k = 1 then some (gx, gy)
    else match mulG fuel (k / 2) with
      | none => none
      | some P => match dbl P with
        | none => none
        | some Q => if k % 2 = 1 then addG Q else some Q

theorem check : mulG 256 (n - 1) = some (gx, p - gy) := by decide +kernel

section
variable {K : Type*} [Field K] [DecidableEq K] (hp : (p : K) = 0)
include hp

theorem cast_mod_p (a : ℕ) : ((a % p : ℕ) : K) = (a : K) := by
  conv_rhs => rw [← Nat.div_add_mod a p]
  push_cast [hp]; ring

theorem cast_sub_p {a : ℕ} (h : a ≤ p) : ((p - a : ℕ) : K) = -(a : K) := by
  rw [Nat.cast_sub h, hp]; ring

def Good (P : ℕ × ℕ) : Prop := P.1 ≤ p ∧ P.2 ≤ p

omit hp in
theorem p_pos' : 0 < p := by decide +kernel

theorem dbl_spec {P Q : ℕ × ℕ} {A : (curve K).Point} (h : dbl P = some Q) (hg : Good P) (hA : IsPt A (P.1 : K) P.2) :
    Good Q ∧ IsPt (A + A) (Q.1 : K) Q.2 := by
  unfold dbl at h
  dsimp only at h
  split at h
  · rename_i hw
    have hw' : (2 * (P.2 : K)) * (inv p (2 * P.2) : K) = 1 := by
      have := congrArg (Nat.cast (R := K)) hw
      rw [cast_mod_p hp] at this; push_cast at this; exact this
    generalize (inv p (2 * P.2)) = w at h hw'
    generalize hl : 3 * P.1 * P.1 * w % p = l at h
    generalize hx : (l * l + 2 * (p - P.1)) % p = x' at h
    have hxp : x' ≤ p := by rw [← hx]; exact (Nat.mod_lt _ p_pos').le
    have hle : (l : K) * (2 * P.2) = 3 * (P.1 : K) ^ 2 := by
      rw [← hl, cast_mod_p hp]; push_cast; linear_combination 3 * (P.1 : K) ^ 2 * hw'
    have hxe : (x' : K) = (l : K) ^ 2 - 2 * P.1 := by
      rw [← hx, cast_mod_p hp]; push_cast; rw [cast_sub_p hp hg.1]; ring
    have := isPt_dbl (l : K) hA (left_ne_zero_of_mul_eq_one hw') hle
    cases h
    refine ⟨⟨hxp, (Nat.mod_lt _ p_pos').le⟩, this.congr hxe.symm ?_⟩
    dsimp only
    rw [cast_mod_p hp]; push_cast; rw [cast_sub_p hp hg.2, cast_sub_p hp hxp, hxe]; ring
  · cases h

theorem addG_spec {P Q : ℕ × ℕ} {A B : (curve K).Point} (h : addG P = some Q) (hg : Good P) (hA : IsPt A (P.1 : K) P.2)
    (hB : IsPt B (gx : K) gy) : Good Q ∧ IsPt (A + B) (Q.1 : K) Q.2 := by
  unfold addG at h
  dsimp only at h
  have g1 : gx ≤ p := by decide +kernel
  have g2 : gy ≤ p := by decide +kernel
  split at h
  · rename_i hw
    have hw' : ((P.1 : K) - gx) * (inv p (P.1 + (p - gx)) : K) = 1 := by
      have := congrArg (Nat.cast (R := K)) hw
      rw [cast_mod_p hp] at this; push_cast at this; rw [cast_sub_p hp g1] at this
      rw [← this]; push_cast; ring
    generalize (inv p (P.1 + (p - gx))) = w at h hw'
    generalize hl : (P.2 + (p - gy)) * w % p = l at h
    generalize hx : (l * l + (p - P.1) + (p - gx)) % p = x' at h
    have hxp : x' ≤ p := by rw [← hx]; exact (Nat.mod_lt _ p_pos').le
    have hle : (l : K) * (P.1 - gx) = P.2 - gy := by
      rw [← hl, cast_mod_p hp]; push_cast; rw [cast_sub_p hp g2]; linear_combination ((P.2 : K) - gy) * hw'
    have hxe : (x' : K) = (l : K) ^ 2 - P.1 - gx := by
      rw [← hx, cast_mod_p hp]; push_cast; rw [cast_sub_p hp hg.1, cast_sub_p hp g1]; ring
    have := isPt_add (l : K) hA hB (sub_ne_zero.1 (left_ne_zero_of_mul_eq_one hw')) hle
    cases h
    refine ⟨⟨hxp, (Nat.mod_lt _ p_pos').le⟩, this.congr hxe.symm ?_⟩
    dsimp only
    rw [cast_mod_p hp]; push_cast; rw [cast_sub_p hp hg.2, cast_sub_p hp hxp, hxe]; ring
  · cases h

theorem mulG_spec {B : (curve K).Point} (hB : IsPt B (gx : K) gy) (fuel : ℕ) : ∀ (k : ℕ) (Q : ℕ × ℕ),
    mulG fuel k = some Q → Good Q ∧ IsPt (k • B) (Q.1 : K) Q.2 := by
  induction fuel with
  | zero => intro k Q h; simp [mulG] at h
  | succ f ih =>
    intro k Q h
    rw [mulG] at h
    split at h
    · rename_i hk
      subst hk
      cases h
      rw [one_smul]; exact ⟨⟨by decide +kernel, by decide +kernel⟩, hB⟩
    · split at h
      · cases h
      rename_i P hP
      obtain ⟨gP, iP⟩ := ih _ _ hP
      split at h
      · cases h
      rename_i R hR
      obtain ⟨gR, iR⟩ := dbl_spec hp hR gP iP
      have h2 := Nat.div_add_mod k 2
      split at h
      · rename_i hk
        obtain ⟨gQ, iQ⟩ := addG_spec hp h gR iR hB
        refine ⟨gQ, ?_⟩
        have : k • B = (k / 2) • B + (k / 2) • B + B := by
          conv_lhs => rw [← h2, hk]
          rw [add_smul, one_smul, two_mul, add_smul]
        rw [this]; exact iQ
      · rename_i hk
        cases h
        refine ⟨gR, ?_⟩
        have : k • B = (k / 2) • B + (k / 2) • B := by
          conv_lhs => rw [← h2, show k % 2 = 0 by omega]
          rw [add_zero, two_mul, add_smul]
        rw [this]; exact iR

theorem exists_base : ∃ B : (curve K).Point, IsPt B (gx : K) gy ∧ n • B = 0 := by
  have h1 : ((gy : K)) ^ 2 = (gx : K) ^ 3 + 7 := by
    have : gy ^ 2 % p = (gx ^ 3 + 7) % p := by decide +kernel
    have := congrArg (Nat.cast (R := K)) this
    rw [cast_mod_p hp, cast_mod_p hp] at this
    push_cast at this; exact this
  have h2 : (2 : K) * gy ≠ 0 := by
    have : 2 * gy * inv p (2 * gy) % p = 1 := by decide +kernel
    have := congrArg (Nat.cast (R := K)) this
    rw [cast_mod_p hp] at this; push_cast at this
    exact left_ne_zero_of_mul_eq_one this
  obtain ⟨B, hB⟩ := exists_isPt h1 h2
  refine ⟨B, hB, ?_⟩
  obtain ⟨_, h3⟩ := mulG_spec hp hB 256 _ _ check
  have e : n = (n - 1) + 1 := by decide +kernel
  rw [e, add_smul, one_smul]
  have g2 : gy ≤ p := by decide +kernel
  dsimp only at h3
  rw [cast_sub_p hp g2] at h3
  rw [add_comm]
  exact isPt_add_neg hB h3

end

end Chain

/-! ### Counting points -/

/-- A curve over `ZMod q`, `q` odd, has at most `2 q + 1` points. -/
noncomputable def ptCode (q : ℕ) [Fact q.Prime] (P : (curve (ZMod q)).Point) : Option (ZMod q × Bool) :=
  match P with
  | .zero => none
  | .some x y _ => some (x, decide (y.val % 2 = 1))

theorem ptCode_inj (q : ℕ) [Fact q.Prime] (hq : q % 2 = 1) : Function.Injective (ptCode q) := by
  intro P Q h
  rcases P with _ | ⟨x, y, hP⟩ <;> rcases Q with _ | ⟨x', y', hQ⟩
  · rfl
  · simp [ptCode] at h
  · simp [ptCode] at h
  · simp only [ptCode, Option.some.injEq, Prod.mk.injEq, decide_eq_decide] at h
    obtain ⟨rfl, h2⟩ := h
    have i1 : IsPt (Affine.Point.some x y hP) x y := ⟨_, rfl⟩
    have i2 : IsPt (Affine.Point.some x y' hQ) x y' := ⟨_, rfl⟩
    rcases i1.same_x i2 with e | e
    · subst e; rfl
    · by_cases hy : y = 0
      · subst hy; rw [neg_zero] at e; subst e; rfl
      · exfalso
        rw [e, ZMod.neg_val, if_neg hy] at h2
        have := ZMod.val_lt y
        omega

noncomputable instance (q : ℕ) [Fact q.Prime] : Finite (curve (ZMod q)).Point :=
  Finite.of_injective (fun P : (curve (ZMod q)).Point => match P with
    | .zero => none
    | .some x y _ => some (x, y)) (by
      intro P Q h
      rcases P with _ | ⟨x, y, hP⟩ <;> rcases Q with _ | ⟨x', y', hQ⟩
      · rfl
      · simp at h
      · simp at h
      · simp only [Option.some.injEq, Prod.mk.injEq] at h
        obtain ⟨rfl, rfl⟩ := h; rfl)

theorem card_le (q : ℕ) [Fact q.Prime] (hq : q % 2 = 1) : Nat.card (curve (ZMod q)).Point ≤ 2 * q + 1 := by
  have h := Nat.card_le_card_of_injective _ (ptCode_inj q hq)
  refine h.trans_eq ?_
  rw [Nat.card_eq_fintype_card, Fintype.card_option, Fintype.card_prod, ZMod.card, Fintype.card_bool]; ring

theorem order_base {K : Type*} [Field K] [DecidableEq K] {B : (curve K).Point} (h0 : B ≠ 0) (h : n • B = 0) : addOrderOf B = n := by
  have : Fact n.Prime := ⟨n_prime⟩
  exact addOrderOf_eq_prime h h0

/-- The field modulus is prime (Goldwasser–Kilian, with the curve itself as certificate). -/
theorem p_prime : p.Prime := by
  by_contra hnp
  have h1 : p ≠ 1 := by decide +kernel
  set q := p.minFac with hq
  have hqp : q.Prime := Nat.minFac_prime h1
  have : Fact q.Prime := ⟨hqp⟩
  have hd : q ∣ p := Nat.minFac_dvd p
  have hsq : q ^ 2 ≤ p := Nat.minFac_sq_le_self (by decide +kernel) hnp
  have hodd : q % 2 = 1 := by
    rcases hqp.eq_two_or_odd with e | e
    · exfalso; rw [e] at hd; revert hd; decide +kernel
    · exact e
  have hp0 : (p : ZMod q) = 0 := (ZMod.natCast_eq_zero_iff _ _).2 hd
  obtain ⟨B, hB, hnB⟩ := Chain.exists_base hp0
  have ho := order_base hB.ne_zero hnB
  have hc : n ≤ 2 * q + 1 := by
    rw [← ho]; exact (addOrderOf_le_card).trans (card_le q hodd)
  have hb : q < 2 ^ 128 := by
    by_contra hge
    have h2 : (2 ^ 128) ^ 2 ≤ q ^ 2 := Nat.pow_le_pow_left (not_lt.1 hge) 2
    have h3 : p < (2 ^ 128) ^ 2 := by decide +kernel
    omega
  have : 2 * 2 ^ 128 + 1 < n := by decide +kernel
  omega

instance : Fact p.Prime := ⟨p_prime⟩
instance : Fact n.Prime := ⟨n_prime⟩

end Verif
