import Verif.Proofs.Order

/-!
The endomorphism `(x, y) ↦ (β x, y)` of the curve is multiplication by `λ`.  It tells when two points
have opposite y-coordinates.
-/

namespace Verif

open Spec

/-- A primitive cube root of unity modulo `p`. -/
def betaNat : ℕ := 0x7ae96a2b657c07106e64479eac3434e99cf0497512f58995c1396c28719501ee

/-- A primitive cube root of unity modulo `n`. -/
def lam : ℕ := 0x5363ad4cc05c30e0a5261c028812645a122e22ea20816678df02967c1b23bd72

def beta : Fp := (betaNat : Fp)

theorem beta_sq : beta ^ 2 + beta + 1 = 0 := by
  have h : p ∣ betaNat ^ 2 + betaNat + 1 := Nat.dvd_of_mod_eq_zero (by decide +kernel)
  have : ((betaNat ^ 2 + betaNat + 1 : ℕ) : Fp) = 0 := (ZMod.natCast_eq_zero_iff _ _).2 h
  unfold beta; push_cast at this; exact this

theorem beta_cube : beta ^ 3 = 1 := by linear_combination (beta - 1) * beta_sq

theorem beta_ne : beta ≠ 0 := by
  intro h; have := beta_cube; rw [h] at this; norm_num at this

theorem lam_G : IsPt (lam • G) (beta * (Gx : Fp)) (Gy : Fp) := by
  have hp : ((p : ℕ) : Fp) = 0 := ZMod.natCast_self p
  have h : Chain.mulG 256 lam = some (betaNat * Gx % p, Gy) := by decide +kernel
  obtain ⟨_, hi⟩ := Chain.mulG_spec (K := Fp) hp isPt_G 256 _ _ h
  refine hi.congr ?_ rfl
  dsimp only
  rw [Chain.cast_mod_p hp]; push_cast; rfl

theorem lam_smul_G (k : ℕ) : k • G = 0 ∨ ∃ x y, IsPt (k • G) x y ∧ IsPt (k • lam • G) (beta * x) y := by
  induction k with
  | zero => left; simp
  | succ k ih =>
    rw [succ_nsmul, succ_nsmul]
    rcases ih with h | ⟨x, y, h1, h2⟩
    · right
      rw [smul_comm k lam G, h, nsmul_zero, zero_add, zero_add]
      exact ⟨_, _, isPt_G, lam_G⟩
    · by_cases hx : x = (Gx : Fp)
      · subst hx
        rcases h1.same_x isPt_G with e | e
        · rw [h1.unique (isPt_G.congr rfl e), h2.unique (lam_G.congr rfl e)]
          right
          have hy : 2 * (Gy : Fp) ≠ 0 := by
            intro hy
            have := isPt_dbl_zero isPt_G hy
            rw [← two_nsmul] at this
            exact absurd ((smul_eq_zero_iff G_ne_zero).1 this) (by decide +kernel)
          obtain ⟨l, hl⟩ : ∃ l : Fp, l * (2 * (Gy : Fp)) = 3 * (Gx : Fp) ^ 2 := ⟨3 * (Gx : Fp) ^ 2 / (2 * (Gy : Fp)), div_mul_cancel₀ _ hy⟩
          refine ⟨_, _, isPt_dbl l isPt_G hy hl, ?_⟩
          refine (isPt_dbl (beta ^ 2 * l) lam_G hy (by linear_combination beta ^ 2 * hl)).congr ?_ ?_
          · linear_combination beta * l ^ 2 * beta_cube
          · linear_combination (l * (Gx : Fp) - (beta ^ 3 + 1) * l ^ 3 + 2 * l * (Gx : Fp)) * beta_cube
        · left
          have : IsPt G (Gx : Fp) (-y) := isPt_G.congr rfl e
          exact isPt_add_neg h1 this
      · right
        obtain ⟨l, hl⟩ : ∃ l : Fp, l * (x - (Gx : Fp)) = y - (Gy : Fp) := ⟨(y - (Gy : Fp)) / (x - (Gx : Fp)), div_mul_cancel₀ _ (sub_ne_zero.2 hx)⟩
        refine ⟨_, _, isPt_add l h1 isPt_G hx hl, ?_⟩
        have hx' : beta * x ≠ beta * (Gx : Fp) := fun h => hx (mul_left_cancel₀ beta_ne h)
        refine (isPt_add (beta ^ 2 * l) h2 lam_G hx' (by linear_combination hl + l * (x - (Gx : Fp)) * beta_cube)).congr ?_ ?_
        · linear_combination beta * l ^ 2 * beta_cube
        · linear_combination (l * x - (beta ^ 3 + 1) * l ^ 3 + l * x + l * (Gx : Fp)) * beta_cube

/-- `(x, y) ↦ (β x, y)` is multiplication by `λ`. -/
theorem Spec.IsPt.lam {P : Pt} {x y : Fp} (h : IsPt P x y) : IsPt (lam • P) (beta * x) y := by
  obtain ⟨k, _, rfl⟩ := exists_smul_G P
  rcases lam_smul_G k with h0 | ⟨x', y', h1, h2⟩
  · exact absurd h0 h.ne_zero
  · obtain ⟨rfl, rfl⟩ := h.inj h1
    rwa [smul_comm] at h2

/-- Two finite points with opposite y-coordinates. -/
def OppY (P Q : Pt) : Prop := ∃ x₁ x₂ y, IsPt P x₁ y ∧ IsPt Q x₂ (-y)

theorem oppY_iff {P Q : Pt} (hQ : Q ≠ 0) : OppY P Q ↔ P + Q = 0 ∨ P + lam • Q = 0 ∨ P + lam • lam • Q = 0 := by
  constructor
  · rintro ⟨x1, x2, y, h1, h2⟩
    have e1 := h1.eqn
    have e2 := h2.eqn
    have hc : (x1 - x2) * ((x1 - beta * x2) * (x1 - beta * (beta * x2))) = 0 := by
      linear_combination e2 - e1 - x2 ^ 3 * beta_cube + (x1 * x2 ^ 2 * beta - x1 ^ 2 * x2) * beta_sq
    rcases mul_eq_zero.1 hc with h | h
    · left; rw [← sub_eq_zero.1 h] at h2; exact isPt_add_neg h1 h2
    · rcases mul_eq_zero.1 h with h | h
      · right; left
        have := h2.lam
        rw [← sub_eq_zero.1 h] at this; exact isPt_add_neg h1 this
      · right; right
        have := h2.lam.lam
        rw [← sub_eq_zero.1 h] at this; exact isPt_add_neg h1 this
  · obtain ⟨x, y, h⟩ := (isPt_or_zero Q).resolve_left hQ
    have key : ∀ {R : Pt} {x' : Fp}, IsPt R x' y → P + R = 0 → OppY P Q := by
      intro R x' hR e
      rw [eq_neg_of_add_eq_zero_left e]
      exact ⟨x', x, -y, hR.neg, h.congr rfl (neg_neg y).symm⟩
    rintro (e | e | e)
    · exact key h e
    · exact key h.lam e
    · exact key h.lam.lam e

end Verif
