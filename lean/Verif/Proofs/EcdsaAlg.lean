import Verif.Spec.Ecdsa
import Verif.Proofs.GroupConv

/-! ECDSA as algebra in the group: signatures verify and the key can be recovered. -/

namespace Verif
open Spec

instance : NeZero n := ⟨by decide⟩

/-! Multiples by residues modulo `n`. -/

theorem zs_cast (k : ℕ) (P : Pt) : ((k : ZMod n)).val • P = k • P := by
  rw [ZMod.val_natCast]; exact smul_mod k P

theorem zs_add (a b : ZMod n) (P : Pt) : (a + b).val • P = a.val • P + b.val • P := by
  rw [ZMod.val_add, smul_mod, add_nsmul]

theorem zs_mul (a b : ZMod n) (P : Pt) : (a * b).val • P = a.val • b.val • P := by
  rw [ZMod.val_mul, smul_mod, mul_nsmul']

theorem zs_zero (P : Pt) : (0 : ZMod n).val • P = 0 := by
  rw [ZMod.val_zero, zero_nsmul]

theorem zs_one (P : Pt) : (1 : ZMod n).val • P = P := by
  have := zs_cast 1 P
  rwa [Nat.cast_one, one_nsmul] at this

theorem zs_neg (a : ZMod n) (P : Pt) : (-a).val • P = -(a.val • P) := by
  rw [eq_neg_iff_add_eq_zero, ← zs_add, neg_add_cancel, zs_zero]

theorem zs_eq_zero {a : ZMod n} {P : Pt} (hP : P ≠ 0) : a.val • P = 0 ↔ a = 0 := by
  rw [smul_eq_zero_iff hP]
  constructor
  · intro h
    rw [← ZMod.natCast_zmod_val a]
    exact (ZMod.natCast_eq_zero_iff _ _).2 h
  · rintro rfl; rw [ZMod.val_zero]; exact dvd_zero n

theorem p_lt_two_n : p < 2 * n := by decide +kernel
theorem n_lt_p : n < p := by decide +kernel

/-- An x coordinate is congruent to `r` modulo `n` iff it is `r` or `r + n`. -/
theorem x_mod_iff {x : Fp} {r : ℕ} (hr : r < n) : ((x.val : ℕ) : ZMod n) = (r : ZMod n) ↔
    x = ((r : ℕ) : Fp) ∨ (r < p - n ∧ x = ((r + n : ℕ) : Fp)) := by
  have hx := ZMod.val_lt x
  have h2 := p_lt_two_n
  have h3 := n_lt_p
  have key : ∀ v : ℕ, v < p → (x = ((v : ℕ) : Fp) ↔ x.val = v) := by
    intro v hv
    constructor
    · rintro rfl; exact ZMod.val_natCast_of_lt hv
    · rintro rfl; exact (ZMod.natCast_zmod_val x).symm
  rw [ZMod.natCast_eq_natCast_iff', Nat.mod_eq_of_lt hr, key r (hr.trans h3)]
  generalize x.val = v at *
  constructor
  · intro h
    by_cases hv : v < n
    · left; rwa [Nat.mod_eq_of_lt hv] at h
    · right
      have : v % n = v - n := by
        rw [Nat.mod_eq_sub_mod (by omega), Nat.mod_eq_of_lt (by omega)]
      refine ⟨by omega, ?_⟩
      rw [key _ (by omega)]; omega
  · rintro (rfl | ⟨h, e⟩)
    · exact Nat.mod_eq_of_lt hr
    · rw [key _ (by omega)] at e
      rw [e, Nat.add_mod_right, Nat.mod_eq_of_lt hr]

theorem xMatches_iff {P : Pt} {r : ℕ} : XMatches P r ↔
    (∃ y, IsPt P ((r % p : ℕ) : Fp) y) ∨ (r < p - n ∧ ∃ y, IsPt P ((r + n : ℕ) : Fp) y) := by
  have hp : 0 < p := by decide +kernel
  constructor
  · rintro ⟨x, y, h, e | e⟩
    · refine Or.inl ⟨y, ?_⟩
      rw [← e, ZMod.natCast_zmod_val]; exact h
    · have := ZMod.val_lt x
      refine Or.inr ⟨by omega, y, ?_⟩
      rw [← e, ZMod.natCast_zmod_val]; exact h
  · rintro (⟨y, h⟩ | ⟨h1, y, h⟩)
    · exact ⟨_, y, h, Or.inl (ZMod.val_natCast_of_lt (Nat.mod_lt _ hp))⟩
    · exact ⟨_, y, h, Or.inr (ZMod.val_natCast_of_lt (by omega))⟩

theorem xMatches_mod {P : Pt} {r : ℕ} (hr : r < n) : XMatches P r ↔ ∃ x y : Fp, IsPt P x y ∧ ((x.val : ℕ) : ZMod n) = (r : ZMod n) := by
  rw [xMatches_iff, Nat.mod_eq_of_lt (hr.trans n_lt_p)]
  constructor
  · rintro (⟨y, h⟩ | ⟨h1, y, h⟩)
    · exact ⟨_, y, h, (x_mod_iff hr).2 (Or.inl rfl)⟩
    · exact ⟨_, y, h, (x_mod_iff hr).2 (Or.inr ⟨h1, rfl⟩)⟩
  · rintro ⟨x, y, h, e⟩
    rcases (x_mod_iff hr).1 e with rfl | ⟨h1, rfl⟩
    · exact Or.inl ⟨y, h⟩
    · exact Or.inr ⟨h1, y, h⟩

theorem y_parity {y : Fp} (h : y ≠ 0) : (-y).val % 2 = (y.val + 1) % 2 := by
  have := Affine.neg_parity h
  omega

theorem isRec_of_isSig {d m k : ZMod n} {r s id : ℕ} (h : IsSignature d m k r s id) :
    ∃ R : Pt, IsRecoveryPoint r id R ∧ s < n ∧ r < n ∧ id < 4 ∧ (s : ZMod n) ≠ 0 ∧
      (s : ZMod n).val • R = ((m + r * d) / k).val • k.val • G := by
  obtain ⟨x, y, hP, rfl, h0, hs⟩ := h
  have hn : 0 < n := by decide +kernel
  have hx := ZMod.val_lt x
  have hd : x.val / n < 2 := Nat.div_lt_of_lt_mul (by have := p_lt_two_n; omega)
  have hx' : x.val = x.val % n + n * (x.val / n) := (Nat.mod_add_div _ _).symm
  rcases hs with ⟨rfl, rfl⟩ | ⟨rfl, rfl⟩
  · refine ⟨_, ⟨x, y, hP, ?_, by omega⟩, ZMod.val_lt _, Nat.mod_lt _ hn, by omega, ?_, ?_⟩
    · rw [show (2 * (x.val / n) + y.val % 2) / 2 = x.val / n by omega]; exact hx'
    · rwa [ZMod.natCast_zmod_val]
    · rw [ZMod.natCast_zmod_val]
  · refine ⟨_, ⟨x, -y, hP.neg, ?_, ?_⟩, ZMod.val_lt _, Nat.mod_lt _ hn, by omega, ?_, ?_⟩
    · rw [show (2 * (x.val / n) + (y.val + 1) % 2) / 2 = x.val / n by omega]; exact hx'
    · rw [y_parity hP.y_ne]; omega
    · rw [ZMod.natCast_zmod_val]; exact neg_ne_zero.2 h0
    · rw [ZMod.natCast_zmod_val, zs_neg, neg_nsmul, neg_neg]

/-- A recovered key verifies. -/
theorem valid_of_recover {m r s : ℕ} {id : ℕ} {R : Pt} (hr0 : (r : ZMod n) ≠ 0) (hs0 : (s : ZMod n) ≠ 0) (h : IsRecoveryPoint r id R) :
    EcdsaValid m r s (recoveredKey m r s R) := by
  obtain ⟨x, y, hP, hx, _⟩ := h
  refine ⟨hr0, hs0, x, y, ?_, ?_⟩
  · have e : ((m : ZMod n) / s).val • G + ((r : ZMod n) / s).val • recoveredKey m r s R = R := by
      unfold recoveredKey
      rw [sub_eq_add_neg, nsmul_add, ← zs_neg, ← zs_mul, ← zs_mul]
      rw [show (r : ZMod n) / s * (s / r) = 1 by field_simp, zs_one, add_left_comm, ← zs_add]
      rw [show (m : ZMod n) / s + r / s * -(m / r) = 0 by field_simp; ring, zs_zero, add_zero]
    rw [e]; exact hP
  · rw [hx]; push_cast; rw [ZMod.natCast_self]; ring

/-- The recovery id determines the point. -/
theorem recoveryPoint_unique {r id : ℕ} {R R' : Pt} (h : IsRecoveryPoint r id R) (h' : IsRecoveryPoint r id R') : R = R' := by
  obtain ⟨x, y, hP, hx, hy⟩ := h
  obtain ⟨x', y', hP', hx', hy'⟩ := h'
  have : x' = x := ZMod.val_injective _ (hx'.trans hx.symm)
  subst this
  rcases hP.same_x hP' with e | e
  · subst e; exact hP.unique hP'
  · exfalso
    have := y_parity hP.y_ne
    rw [e] at hy'
    omega

/-- Recovering from a signature gives the signer's key. -/
theorem recover_isSig {d m k : ZMod n} {r s id : ℕ} {R : Pt} (h : IsSignature d m k r s id) (hk : k ≠ 0) (hr0 : (r : ZMod n) ≠ 0)
    (hR : IsRecoveryPoint r id R) : recoveredKey m r s R = d.val • G := by
  obtain ⟨R', hR', _, _, _, hs0, e⟩ := isRec_of_isSig h
  have := recoveryPoint_unique hR hR'
  subst this
  unfold recoveredKey
  rw [show (s : ZMod n) / r = (r : ZMod n)⁻¹ * s by field_simp, zs_mul, e, sub_eq_add_neg, ← zs_neg, ← zs_mul, ← zs_mul, ← zs_add]
  rw [show (r : ZMod n)⁻¹ * ((m + r * d) / k) * k + -(m / r) = d by field_simp; ring]

theorem valid_isSig {d m k : ZMod n} {r s id : ℕ} (h : IsSignature d m k r s id) (hk : k ≠ 0) (hr0 : (r : ZMod n) ≠ 0) :
    EcdsaValid m r s (d.val • G) := by
  obtain ⟨R, hR, _, _, _, hs0, _⟩ := isRec_of_isSig h
  rw [← recover_isSig h hk hr0 hR]
  have := valid_of_recover (m := m.val) hr0 hs0 hR
  rwa [ZMod.natCast_zmod_val] at this

/-- Malleability. -/
theorem valid_neg {m r s : ZMod n} {Q : Pt} : EcdsaValid m r (-s) Q ↔ EcdsaValid m r s Q := by
  have key : ∀ s : ZMod n, EcdsaValid m r s Q → EcdsaValid m r (-s) Q := by
    rintro s ⟨h1, h2, x, y, hP, hx⟩
    refine ⟨h1, neg_ne_zero.2 h2, x, -y, ?_, hx⟩
    rw [div_neg, div_neg, zs_neg, zs_neg, ← neg_add]
    exact hP.neg
  exact ⟨fun h => by simpa using key _ h, key s⟩

end Verif
