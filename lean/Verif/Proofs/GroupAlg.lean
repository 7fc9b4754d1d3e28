import Verif.Proofs.Order
import Mathlib.Tactic.FieldSimp
import Mathlib.Tactic.LinearCombination

/-! The algebra behind the Jacobian formulas of `group.rs`, in the field and the group only. -/

namespace Verif

open Spec

/-- Jacobian coordinates `X`, `Y` with denominator `w` (or the infinity flag) stand for the point `P`. -/
def Rep (inf : Bool) (X Y w : Fp) (P : Pt) : Prop :=
  (inf = true ∧ P = 0) ∨
  (inf = false ∧ w ≠ 0 ∧ ∃ x y, IsPt P x y ∧ X = x * w ^ 2 ∧ Y = y * w ^ 3)

theorem Rep.inf {X Y w : Fp} {P : Pt} (h : Rep true X Y w P) : P = 0 := by
  rcases h with h | h
  · exact h.2
  · exact absurd h.1 (by simp)

theorem Rep.fin {X Y w : Fp} {P : Pt} (h : Rep false X Y w P) :
    w ≠ 0 ∧ ∃ x y, IsPt P x y ∧ X = x * w ^ 2 ∧ Y = y * w ^ 3 := by
  rcases h with h | h
  · exact absurd h.1 (by simp)
  · exact h.2

theorem rep_inf (X Y w : Fp) : Rep true X Y w 0 := Or.inl ⟨rfl, rfl⟩

theorem rep_fin {X Y w x y : Fp} {P : Pt} (hw : w ≠ 0) (h : IsPt P x y) (hx : X = x * w ^ 2) (hy : Y = y * w ^ 3) :
    Rep false X Y w P := Or.inr ⟨rfl, hw, x, y, h, hx, hy⟩

theorem Rep.congr {b : Bool} {X Y w X' Y' w' : Fp} {P Q : Pt} (h : Rep b X Y w P) (hX : X = X') (hY : Y = Y') (hw : w = w') (hP : P = Q) :
    Rep b X' Y' w' Q := by subst hX hY hw hP; exact h

/-- The infinity flag says whether the point is infinite. -/
theorem Rep.flag {b : Bool} {X Y w : Fp} {P : Pt} (h : Rep b X Y w P) : b = true ↔ P = 0 := by
  rcases h with ⟨h, h2⟩ | ⟨h, _, x, y, h2, _⟩
  · simp [h, h2]
  · simp [h, h2.ne_zero]

theorem rep_neg {b : Bool} {X Y w : Fp} {P : Pt} (h : Rep b X Y w P) : Rep b X (-Y) w (-P) := by
  rcases h with ⟨rfl, rfl⟩ | ⟨rfl, hw, x, y, h, rfl, rfl⟩
  · rw [neg_zero]; exact rep_inf ..
  · exact rep_fin hw h.neg rfl (by ring)

theorem rep_scale {b : Bool} {X Y w k : Fp} {P : Pt} (h : Rep b X Y w P) (hk : k ≠ 0) :
    Rep b (X * k ^ 2) (Y * k ^ 3) (w * k) P := by
  rcases h with ⟨rfl, rfl⟩ | ⟨rfl, hw, x, y, h, rfl, rfl⟩
  · exact rep_inf ..
  · exact rep_fin (mul_ne_zero hw hk) h (by ring) (by ring)

/-- Doubling. -/
theorem rep_double {X Y w : Fp} {P : Pt} (h : Rep false X Y w P) :
    Rep false (9 * X ^ 4 - 8 * X * Y ^ 2) (3 * X ^ 2 * (12 * X * Y ^ 2 - 9 * X ^ 4) - 8 * Y ^ 4) (2 * Y * w) (P + P) := by
  obtain ⟨hw, x, y, hP, rfl, rfl⟩ := h.fin
  clear h; rename' hP => h
  have h2 := h.two_y_ne
  have hy := h.y_ne
  have h2' := two_ne_zero_fp
  have hd := isPt_dbl (3 * x ^ 2 / (2 * y)) h h2 (div_mul_cancel₀ _ h2)
  refine rep_fin (mul_ne_zero (mul_ne_zero two_ne_zero_fp (mul_ne_zero hy (pow_ne_zero _ hw))) hw) hd ?_ ?_
  · field_simp; ring
  · field_simp; ring

/-- Addition of two finite points brought to a common denominator `s`, different x-coordinates. -/
theorem rep_add {U1 S1 U2 S2 s : Fp} {P Q : Pt} (h1 : Rep false U1 S1 s P) (h2 : Rep false U2 S2 s Q)
    (hh : U2 - U1 ≠ 0) :
    Rep false ((S2 - S1) ^ 2 - (U2 - U1) ^ 3 - 2 * U1 * (U2 - U1) ^ 2)
      ((S2 - S1) * (U1 * (U2 - U1) ^ 2 - ((S2 - S1) ^ 2 - (U2 - U1) ^ 3 - 2 * U1 * (U2 - U1) ^ 2)) - (U2 - U1) ^ 3 * S1)
      (s * (U2 - U1)) (P + Q) := by
  obtain ⟨hs, x1, y1, hP, rfl, rfl⟩ := h1.fin
  obtain ⟨_, x2, y2, hQ, rfl, rfl⟩ := h2.fin
  clear h1 h2; rename' hP => h1, hQ => h2
  have hd : x2 - x1 ≠ 0 := by rintro e; apply hh; rw [← sub_mul, e, zero_mul]
  have hx : x1 ≠ x2 := by rintro rfl; exact hd (sub_self _)
  have ha := isPt_add ((y2 - y1) / (x2 - x1)) h1 h2 hx (by rw [← neg_sub y2 y1, ← neg_sub x2 x1, mul_neg, div_mul_cancel₀ _ hd])
  refine rep_fin (mul_ne_zero hs hh) ha ?_ ?_
  · field_simp; ring
  · field_simp; ring

/-- Same x-coordinate, same y-coordinate: the same point. -/
theorem rep_same {U1 S1 U2 S2 s : Fp} {P Q : Pt} (h1 : Rep false U1 S1 s P) (h2 : Rep false U2 S2 s Q)
    (hh : U2 - U1 = 0) (hi : S2 - S1 = 0) : P = Q := by
  obtain ⟨hs, x1, y1, hP, rfl, rfl⟩ := h1.fin
  obtain ⟨_, x2, y2, hQ, rfl, rfl⟩ := h2.fin
  clear h1 h2; rename' hP => h1, hQ => h2
  rw [← sub_mul] at hh hi
  have hx : x2 = x1 := sub_eq_zero.1 ((mul_eq_zero.1 hh).resolve_right (pow_ne_zero _ hs))
  have hy : y2 = y1 := sub_eq_zero.1 ((mul_eq_zero.1 hi).resolve_right (pow_ne_zero _ hs))
  subst hx hy
  exact h1.unique h2

/-- Same x-coordinate, different y-coordinate: opposite points. -/
theorem rep_opp {U1 S1 U2 S2 s : Fp} {P Q : Pt} (h1 : Rep false U1 S1 s P) (h2 : Rep false U2 S2 s Q)
    (hh : U2 - U1 = 0) (hi : S2 - S1 ≠ 0) : P + Q = 0 := by
  obtain ⟨hs, x1, y1, hP, rfl, rfl⟩ := h1.fin
  obtain ⟨_, x2, y2, hQ, rfl, rfl⟩ := h2.fin
  clear h1 h2; rename' hP => h1, hQ => h2
  rw [← sub_mul] at hh
  have hx : x2 = x1 := sub_eq_zero.1 ((mul_eq_zero.1 hh).resolve_right (pow_ne_zero _ hs))
  subst hx
  rcases h1.same_x h2 with rfl | rfl
  · exact absurd (sub_self _) hi
  · exact isPt_add_neg h1 h2

/-- The complete formula with a slope `R / M`: `M` and `R` are one of the two proportional pairs. -/
theorem rep_complete {x1 y1 x2 y2 s M R N : Fp} {P Q : Pt} (h1 : IsPt P x1 y1) (h2 : IsPt Q x2 y2) (hs : s ≠ 0)
    (hM : M ≠ 0) (hN : N = (y1 + y2) * s ^ 3 * M ^ 3)
    (hc : (x1 ≠ x2 ∧ R * (x1 - x2) * s ^ 2 = M * (y1 - y2) * s ^ 3) ∨ (x1 = x2 ∧ y1 = y2 ∧ R * (2 * y1) = 3 * x1 ^ 2 * M * s)) :
    Rep false (4 * (R ^ 2 - M ^ 2 * ((x1 + x2) * s ^ 2)))
      (-4 * (R * (2 * (R ^ 2 - M ^ 2 * ((x1 + x2) * s ^ 2)) - M ^ 2 * ((x1 + x2) * s ^ 2)) + N)) (2 * (s * M)) (P + Q) := by
  subst hN
  have hw : 2 * (s * M) ≠ 0 := mul_ne_zero two_ne_zero_fp (mul_ne_zero hs hM)
  have hsM : s * M ≠ 0 := mul_ne_zero hs hM
  rcases hc with ⟨hx, hl⟩ | ⟨rfl, rfl, hl⟩
  · have hl' : R / (s * M) * (x1 - x2) = y1 - y2 := by
      field_simp
      have := mul_left_cancel₀ (pow_ne_zero 2 hs) (by linear_combination hl : s ^ 2 * (R * (x1 - x2)) = s ^ 2 * (M * (y1 - y2) * s))
      linear_combination this
    have ha := isPt_add (R / (s * M)) h1 h2 hx hl'
    refine rep_fin hw ha (by field_simp; ring) ?_
    have e : y2 = y1 - R / (s * M) * (x1 - x2) := by rw [hl']; ring
    rw [e]; field_simp; ring
  · have hl' : R / (s * M) * (2 * y1) = 3 * x1 ^ 2 := by
      field_simp; linear_combination hl
    have ha := isPt_dbl (R / (s * M)) h1 h1.two_y_ne hl'
    rw [h2.unique h1]
    refine rep_fin hw ha (by field_simp; ring) ?_
    field_simp; ring

end Verif
