import Verif.Spec.Points
import Verif.Proofs.GroupConv

/-! The specification's denotation and the invariants used in the proofs coincide. -/

namespace Verif

open Spec FElem

theorem coord_iff {f : FElem} : Coord f ↔ f.Ok 8 := ⟨fun h => ⟨h.1, h.2, rfl⟩, fun h => ⟨h.1, h.2.1⟩⟩

theorem Spec.IsPt.of_ne_zero {P : Pt} (h : P ≠ 0) : ∃ x y, IsPt P x y := by
  cases P with
  | zero => exact absurd rfl h
  | some x y hxy => exact ⟨x, y, hxy, rfl⟩

/-- Thirty-two bytes with a given big-endian value. -/
theorem exists_b32 {v : ℕ} (h : v < 2 ^ 256) : ∃ b : Vector UInt8 32, beNat b.toList = v := by
  refine ⟨⟨(beBytes 32 v).toArray, by simp [beBytes_length]⟩, ?_⟩
  rw [Vector.toList_mk, beNat_beBytes]
  exact Nat.mod_eq_of_lt h

theorem exists_feN (x : Fp) : ∃ f : FElem, FeN f x := by
  have hx := ZMod.val_lt x
  obtain ⟨b, hb⟩ := exists_b32 (v := x.val) (hx.trans (by decide +kernel))
  obtain ⟨r, _, h1, h2⟩ := FElem.setB32_runs FElem.zero b
  rw [hb] at h1 h2
  refine ⟨r.1, ?_⟩
  have := (h2 (by rw [h1]; simpa using hx)).1
  rwa [ZMod.natCast_zmod_val] at this

theorem denotesScaled_iff {j : Jacobian} {s : Fp} {P : Pt} : DenotesScaled j s P ↔ JacZ j s P := by
  unfold DenotesScaled
  rw [coord_iff, coord_iff, coord_iff]
  constructor
  · rintro ⟨hx, hy, hz, h⟩
    refine ⟨hx, hy, hz, ?_⟩
    rcases h with ⟨h, rfl⟩ | ⟨h, h0, hP⟩
    · rw [h]; exact rep_inf ..
    · rw [h]
      exact rep_fin h0 hP (div_mul_cancel₀ _ (pow_ne_zero 2 h0)).symm (div_mul_cancel₀ _ (pow_ne_zero 3 h0)).symm
  · rintro ⟨hx, hy, hz, h⟩
    refine ⟨hx, hy, hz, ?_⟩
    cases hi : j.infinity with
    | true => rw [hi] at h; exact Or.inl ⟨rfl, h.inf⟩
    | false =>
      rw [hi] at h
      obtain ⟨h0, x, y, hP, hX, hY⟩ := h.fin
      refine Or.inr ⟨rfl, h0, hP.congr ?_ ?_⟩
      · exact (eq_div_iff (pow_ne_zero 2 h0)).2 hX.symm
      · exact (eq_div_iff (pow_ne_zero 3 h0)).2 hY.symm

theorem denotesJ_iff {j : Jacobian} {P : Pt} : DenotesJ j P ↔ Jac j P := denotesScaled_iff

theorem denotesA_iff {a : Affine} {P : Pt} : DenotesA a P ↔ Aff a P := by
  unfold DenotesA
  rw [coord_iff, coord_iff]
  constructor
  · rintro ⟨hx, hy, h⟩
    refine ⟨hx, hy, ?_⟩
    rcases h with ⟨h, rfl⟩ | ⟨h, hP⟩
    · rw [h]; exact rep_inf ..
    · rw [h]; exact rep_one_iff.2 hP
  · rintro ⟨hx, hy, h⟩
    refine ⟨hx, hy, ?_⟩
    cases hi : a.infinity with
    | true => rw [hi] at h; exact Or.inl ⟨rfl, h.inf⟩
    | false => rw [hi] at h; exact Or.inr ⟨rfl, rep_one_iff.1 h⟩

end Verif
