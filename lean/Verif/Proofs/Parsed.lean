import Verif.Proofs.Keys
import Verif.Proofs.Core
import Verif.Proofs.Residue
import Mathlib.NumberTheory.LegendreSymbol.Basic

/-! The exact representation of parsed public keys. -/

namespace Verif
open Spec FElem

/-- Digits in base `2^26` are determined by the number. -/
theorem limbs_step {a b A B : ℕ} (ha : a ≤ 67108863) (hb : b ≤ 67108863) (h : a + 67108864 * A = b + 67108864 * B) : a = b ∧ A = B := by
  omega

theorem limbs_inj {s t : Limbs10} (hs : s.LB 67108863 67108863) (ht : t.LB 67108863 67108863) (h : s.val = t.val) : s = t := by
  have e : ∀ t : Limbs10, t.val = t.n0.toNat + 67108864 * (t.n1.toNat + 67108864 * (t.n2.toNat + 67108864 * (t.n3.toNat +
      67108864 * (t.n4.toNat + 67108864 * (t.n5.toNat + 67108864 * (t.n6.toNat + 67108864 * (t.n7.toNat +
      67108864 * (t.n8.toNat + 67108864 * t.n9.toNat)))))))) := by
    intro t; unfold Limbs10.val; ring
  rw [e, e] at h
  obtain ⟨h0, h⟩ := limbs_step hs.h0 ht.h0 h
  obtain ⟨h1, h⟩ := limbs_step hs.h1 ht.h1 h
  obtain ⟨h2, h⟩ := limbs_step hs.h2 ht.h2 h
  obtain ⟨h3, h⟩ := limbs_step hs.h3 ht.h3 h
  obtain ⟨h4, h⟩ := limbs_step hs.h4 ht.h4 h
  obtain ⟨h5, h⟩ := limbs_step hs.h5 ht.h5 h
  obtain ⟨h6, h⟩ := limbs_step hs.h6 ht.h6 h
  obtain ⟨h7, h⟩ := limbs_step hs.h7 ht.h7 h
  obtain ⟨h8, h9⟩ := limbs_step hs.h8 ht.h8 h
  obtain ⟨s0, s1, s2, s3, s4, s5, s6, s7, s8, s9⟩ := s
  obtain ⟨t0, t1, t2, t3, t4, t5, t6, t7, t8, t9⟩ := t
  simp only [Limbs10.mk.injEq]
  exact ⟨UInt32.toNat_inj.1 h0, UInt32.toNat_inj.1 h1, UInt32.toNat_inj.1 h2, UInt32.toNat_inj.1 h3, UInt32.toNat_inj.1 h4,
    UInt32.toNat_inj.1 h5, UInt32.toNat_inj.1 h6, UInt32.toNat_inj.1 h7, UInt32.toNat_inj.1 h8, UInt32.toNat_inj.1 h9⟩

/-- Normalized elements with the same magnitude and value are the same. -/
theorem FElem.FeN.ext {f g : FElem} {x : Fp} (hf : FeN f x) (hg : FeN g x) (h : f.magnitude = g.magnitude) : f = g := by
  have B : ∀ {f : FElem}, FeN f x → f.n.LB 67108863 67108863 := by
    intro f hf
    obtain ⟨h1, h2, _⟩ := hf.1.norm hf.2.1
    constructor
    · have := h2.h0; omega
    · have := h2.h1; omega
    · have := h2.h2; omega
    · have := h2.h3; omega
    · have := h2.h4; omega
    · have := h2.h5; omega
    · have := h2.h6; omega
    · have := h2.h7; omega
    · have := h2.h8; omega
    · have := h2.h9; omega
  have e : f.n = g.n := limbs_inj (B hf) (B hg) (hf.2.2.trans hg.2.2.symm)
  obtain ⟨fn, fm, fz⟩ := f
  obtain ⟨gn, gm, gz⟩ := g
  have h1 : fz = true := hf.2.1
  have h2 : gz = true := hg.2.1
  dsimp only at e h
  rw [e, h, h1, h2]

/-- Minus one is not a square modulo `p`. -/
theorem not_isSquare_neg {y : Fp} (h0 : y ≠ 0) (h : IsSquare y) : ¬ IsSquare (-y) := by
  intro h'
  have : IsSquare (-1 : Fp) := by
    obtain ⟨a, ha⟩ := h
    obtain ⟨b, hb⟩ := h'
    have ha0 : a ≠ 0 := by rintro rfl; exact h0 (by rw [ha, zero_mul])
    refine ⟨b / a, ?_⟩
    field_simp
    rw [ha] at hb
    linear_combination hb
  rw [ZMod.exists_sq_eq_neg_one_iff] at this
  exact this (by decide +kernel)

/-- The key is held in normal form. -/
def Parsed (k : PublicKey) (x y : Fp) : Prop :=
  FeN k.pt.x x ∧ k.pt.x.magnitude = 1 ∧ FeN k.pt.y y ∧ k.pt.y.magnitude = 1 ∧ k.pt.infinity = false

theorem Parsed.ext {k k' : PublicKey} {x y : Fp} (h : Parsed k x y) (h' : Parsed k' x y) : k = k' := by
  obtain ⟨a1, a2, a3, a4, a5⟩ := h
  obtain ⟨b1, b2, b3, b4, b5⟩ := h'
  have e1 := a1.ext b1 (a2.trans b2.symm)
  have e2 := a3.ext b3 (a4.trans b4.symm)
  obtain ⟨⟨_, _, _⟩⟩ := k
  obtain ⟨⟨_, _, _⟩⟩ := k'
  dsimp only at *
  rw [e1, e2, a5, b5]

theorem parse_form (b : Vector UInt8 65) : Runs (PublicKey.parse b) (fun o => ∀ k, o = .ok k → ∃ x y, Parsed k x y) := by
  unfold PublicKey.parse
  by_cases ht : (b[0] == 0x04 || b[0] == 0x06 || b[0] == 0x07) = true
  swap
  · rw [if_pos (by simpa using ht)]
    exact runs_pure fun k h => by injection h
  rw [if_neg (by rw [ht]; simp)]
  refine Runs.bind (FElem.setB32_runs FElem.zero _) fun fx ⟨hx1, hx2⟩ => ?_
  cases hbx : fx.2 with
  | false =>
    rw [if_pos (by simp)]
    exact runs_pure fun k h => by injection h
  | true =>
    rw [if_neg (by simp)]
    refine Runs.bind (FElem.setB32_runs FElem.zero _) fun fy ⟨hy1, hy2⟩ => ?_
    cases hby : fy.2 with
    | false =>
      rw [if_pos (by simp)]
      exact runs_pure fun k h => by injection h
    | true =>
      rw [if_neg (by simp)]
      obtain ⟨hfx, hmx⟩ := hx2 hbx
      obtain ⟨hfy, hmy⟩ := hy2 hby
      refine Runs.bind (hybridBad_runs hfy ht) fun bad hbad => ?_
      cases bad with
      | true =>
        rw [if_pos rfl]
        exact runs_pure fun k h => by injection h
      | false =>
        rw [if_neg (by simp)]
        refine (checkValid_runs (a := Affine.setXy fx.1 fy.1) (by rfl) (hfx.fe.mono (by norm_num)) (hfy.fe.mono (by norm_num))).mono fun o ho => ?_
        rcases ho with ⟨rfl, h⟩ | ⟨rfl, P, hP, ha⟩
        · exact fun k h => by injection h
        · intro k hk
          injection hk with hk
          subst hk
          exact ⟨_, _, hfx, hmx, hfy, hmy, rfl⟩

theorem setXoVar_form {x : FElem} {X : Fp} (hx : Fe x 8 X) (hsq : IsSquare (X ^ 3 + 7)) (odd : Bool) :
    Runs (Affine.setXoVar x odd) (fun r => r.1.x = x ∧ r.1.infinity = false ∧ ∃ Y,
      (FeN r.1.y Y ∧ r.1.y.magnitude = 1 ∧ IsSquare Y) ∨ (Fe r.1.y 2 Y ∧ r.1.y.magnitude = 2 ∧ ¬ IsSquare Y)) := by
  unfold Affine.setXoVar
  have hq : Runs (Affine.setXquad x) (fun r => r.1.x = x ∧ r.1.infinity = false ∧ r.2 = true ∧ ∃ Y, Fe r.1.y 1 Y ∧ Y ^ 2 = X ^ 3 + 7 ∧ IsSquare Y) := by
    unfold Affine.setXquad
    refine Runs.bind (fe_sqr hx (by norm_num)) fun x2 h2 => ?_
    refine Runs.bind (fe_mul hx h2.1 (by norm_num) (by norm_num)) fun x3 h3 => ?_
    refine Runs.bind fe_seven fun c hc => ?_
    refine Runs.bind (fe_add hc h3.1 (by norm_num)) fun c hc => ?_
    have hc' : Fe c 2 (X ^ 3 + 7) := hc.1.cast (by norm_num) (by ring)
    refine Runs.bind (fe_sqrt_sq hc' (by norm_num)) fun v ⟨y, hv1, hv2, hv3⟩ => runs_pure ⟨rfl, rfl, hv2.2 hsq, y, hv1, hv3 hsq⟩
  refine Runs.bind hq fun s ⟨h1, h2, h3, Y, hY, hY2, hYs⟩ => ?_
  have hY0 : Y ≠ 0 := by
    rintro rfl
    exact no_cube X (by rw [← hY2]; ring)
  rw [if_pos h3]
  unfold Affine.fixParity
  rw [bind_assoc]
  refine Runs.bind (fe_normalizeVar hY (by norm_num)) fun y hy => ?_
  rw [bind_assoc]
  refine Runs.bind (isOdd_runs hy.1) fun o ho => ?_
  split
  · rw [bind_assoc]
    refine Runs.bind (fe_neg (m := 1) hy.1.fe rfl (by norm_num)) fun y' hy' => ?_
    rw [pure_bind]
    refine runs_pure ⟨h1, h2, -Y, Or.inr ⟨hy'.1, ?_, not_isSquare_neg hY0 hYs⟩⟩
    exact UInt32.toNat_inj.1 hy'.2
  · rw [pure_bind]
    exact runs_pure ⟨h1, h2, Y, Or.inl ⟨hy.1, hy.2, hYs⟩⟩

theorem parseCompressed_form (b : Vector UInt8 33) : Runs (PublicKey.parseCompressed b) (fun o => ∀ k, o = .ok k → ∃ x y,
    (Parsed k x y ∧ IsSquare y) ∨ (Fe k.pt.y 2 y ∧ k.pt.y.magnitude = 2 ∧ ¬ IsSquare y)) := by
  obtain ⟨o0, ho0, hr⟩ := parseCompressed_runs b
  refine ⟨o0, ho0, fun k hk => ?_⟩
  subst hk
  rcases hr with ⟨h, _⟩ | ⟨k', P, x, y, h, hP, hb, ha⟩
  · injection h
  injection h with h
  subst h
  have hx8 := hb
  unfold PublicKey.parseCompressed at ho0
  split at ho0
  · exact absurd (congrFun ho0 .debug) (by intro h; injection h with h; injection h)
  have h1 := congrFun ho0 .debug
  obtain ⟨fx, e1, h1⟩ := bind_some h1
  obtain ⟨hx1, hx2⟩ := (FElem.setB32_runs FElem.zero _).some e1
  split at h1
  · injection pure_some h1
  rename_i hbx
  have hbx : fx.2 = true := by simpa using hbx
  obtain ⟨hfx, hmx⟩ := hx2 hbx
  obtain ⟨e, e2, h1⟩ := bind_some h1
  have hX : ((beNat (arrayRef32 b 1 (by decide)).toList : ℕ) : Fp) = x := by
    rw [split33] at hx8
    unfold sec1Compressed at hx8
    simp only [List.cons.injEq] at hx8
    rw [hx8.2, beNat_fp]
    simp
  rw [hX] at hfx
  have hsq : IsSquare (x ^ 3 + 7) := ⟨y, by rw [← hP.eqn]; ring⟩
  obtain ⟨g1, g2, Y, hY⟩ := (setXoVar_form (hfx.fe.mono (by norm_num)) hsq _).some e2
  have hk : k = ⟨e.1⟩ := by
    have hy8 : Fe e.1.y 8 Y := by
      rcases hY with ⟨h, _⟩ | ⟨h, _⟩
      · exact h.fe.mono (by norm_num)
      · exact h.mono (by norm_num)
    have := (checkValid_runs (a := e.1) g2 (by rw [g1]; exact hfx.fe.mono (by norm_num)) hy8).some h1
    rcases this with ⟨h, _⟩ | ⟨h, _⟩
    · injection h
    · injection h
  subst hk
  refine ⟨x, Y, ?_⟩
  rcases hY with ⟨h, hm, hs⟩ | h
  · exact Or.inl ⟨⟨by rw [g1]; exact hfx, by rw [g1]; exact hmx, h, hm, g2⟩, hs⟩
  · exact Or.inr h

end Verif
