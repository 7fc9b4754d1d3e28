import Verif.Spec.Group
import Mathlib.NumberTheory.LegendreSymbol.Basic
import Mathlib.Algebra.Module.ZMod

/-! The group has order `n` and is generated by the base point. -/

namespace Verif
open Spec WeierstrassCurve

theorem isPt_G : IsPt G (Gx : Fp) (Gy : Fp) := ⟨_, rfl⟩

theorem G_ne_zero : G ≠ 0 := isPt_G.ne_zero

theorem n_smul_G : n • G = 0 := by
  have hp : ((p : ℕ) : Fp) = 0 := ZMod.natCast_self p
  obtain ⟨B, h, h2⟩ := Chain.exists_base (K := Fp) hp
  have : B = G := h.unique isPt_G
  rw [← this]; exact h2

theorem addOrderOf_G : addOrderOf G = n := order_base G_ne_zero n_smul_G

theorem card_fp_sub : Fintype.card Fp = p := ZMod.card p

/-- `-7` is not a cube. -/
theorem no_cube (x : Fp) : x ^ 3 + 7 ≠ 0 := by
  intro h
  have hx : x ≠ 0 := by
    rintro rfl
    have h7 : ((7 : ℕ) : Fp) = 0 := by push_cast; linear_combination h
    rw [ZMod.natCast_eq_zero_iff] at h7
    revert h7; decide +kernel
  have h1 : x ^ (p - 1) = 1 := ZMod.pow_card_sub_one_eq_one hx
  have h3 : x ^ 3 = ((p - 7 : ℕ) : Fp) := by
    rw [Nat.cast_sub (by decide +kernel), ZMod.natCast_self]; push_cast; linear_combination h
  have e : p - 1 = 3 * ((p - 1) / 3) := by decide +kernel
  rw [e, pow_mul, h3, ← powMod_cast (by decide +kernel)] at h1
  have h4 : ((powMod (p - 7) ((p - 1) / 3) p : ℕ) : ZMod p) = ((1 : ℕ) : ZMod p) := by rw [h1]; simp
  have h5 := (ZMod.natCast_eq_natCast_iff' _ _ _).1 h4
  revert h5; decide +kernel

/-- `7` is not a square. -/
theorem no_sqrt7 (y : Fp) : y ^ 2 ≠ 7 := by
  intro h
  have hy : y ≠ 0 := by
    rintro rfl
    have h7 : ((7 : ℕ) : Fp) = 0 := by push_cast; linear_combination -h
    rw [ZMod.natCast_eq_zero_iff] at h7
    revert h7; decide +kernel
  have h1 : y ^ (p - 1) = 1 := ZMod.pow_card_sub_one_eq_one hy
  have h3 : y ^ 2 = ((7 : ℕ) : Fp) := by rw [h]; simp
  have e : p - 1 = 2 * ((p - 1) / 2) := by decide +kernel
  rw [e, pow_mul, h3, ← powMod_cast (by decide +kernel)] at h1
  have h4 : ((powMod 7 ((p - 1) / 2) p : ℕ) : ZMod p) = ((1 : ℕ) : ZMod p) := by rw [h1]; simp
  have h5 := (ZMod.natCast_eq_natCast_iff' _ _ _).1 h4
  revert h5; decide +kernel

theorem two_ne_zero_fp : (2 : Fp) ≠ 0 := by
  intro h
  have h7 : ((2 : ℕ) : Fp) = 0 := by push_cast; exact h
  rw [ZMod.natCast_eq_zero_iff] at h7
  revert h7; decide +kernel

theorem Spec.IsPt.y_ne {P : Pt} {x y : Fp} (h : IsPt P x y) : y ≠ 0 := by
  rintro rfl
  have := h.eqn
  exact no_cube x (by linear_combination -this)

theorem Spec.IsPt.x_ne {P : Pt} {x y : Fp} (h : IsPt P x y) : x ≠ 0 := by
  rintro rfl
  have := h.eqn
  exact no_sqrt7 y (by linear_combination this)

theorem Spec.IsPt.two_y_ne {P : Pt} {x y : Fp} (h : IsPt P x y) : 2 * y ≠ 0 :=
  mul_ne_zero two_ne_zero_fp h.y_ne

theorem isPt_of_eqn {x y : Fp} (h : y ^ 2 = x ^ 3 + 7) : ∃ P : Pt, IsPt P x y := by
  refine exists_isPt h (mul_ne_zero two_ne_zero_fp ?_)
  rintro rfl
  exact no_cube x (by linear_combination -h)

theorem dbl_ne_zero {P : Pt} (h : P ≠ 0) : P + P ≠ 0 := by
  rcases isPt_or_zero P with h0 | ⟨x, y, hP⟩
  · exact absurd h0 h
  · have h2 := hP.two_y_ne
    exact (isPt_dbl (3 * x ^ 2 / (2 * y)) hP h2 (div_mul_cancel₀ _ h2)).ne_zero

theorem card_pt : Nat.card Pt = n := by
  have hd : n ∣ Nat.card Pt := by rw [← addOrderOf_G]; exact addOrderOf_dvd_natCard G
  have hle : Nat.card Pt ≤ 2 * p + 1 := card_le p (by decide +kernel)
  have hpos : 0 < Nat.card Pt := Nat.card_pos
  obtain ⟨k, hk⟩ := hd
  have h3 : 2 * p + 1 < n * 3 := by decide +kernel
  have hk3 : k < 3 := by
    by_contra hge
    have : n * 3 ≤ n * k := Nat.mul_le_mul_left _ (by omega)
    omega
  have hk0 : k ≠ 0 := by rintro rfl; omega
  have hk2 : k ≠ 2 := by
    rintro rfl
    have : Fact (Nat.Prime 2) := ⟨Nat.prime_two⟩
    obtain ⟨P, hP⟩ := exists_prime_addOrderOf_dvd_card' (G := Pt) 2 ⟨n, by rw [hk]; ring⟩
    have h0 : P ≠ 0 := by
      rintro rfl; rw [addOrderOf_zero] at hP; omega
    apply dbl_ne_zero h0
    rw [← two_nsmul, ← hP, addOrderOf_nsmul_eq_zero]
  have : k = 1 := by omega
  rw [hk, this, mul_one]

theorem n_smul (P : Pt) : n • P = 0 := by
  rw [← card_pt]; exact card_nsmul_eq_zero'

theorem exists_smul_G (P : Pt) : ∃ k < n, P = k • G := by
  have h := mem_zmultiples_of_prime_card (G := Pt) card_pt (g := G) (g' := P) G_ne_zero
  rw [AddSubgroup.mem_zmultiples_iff] at h
  obtain ⟨k, hk⟩ := h
  have hn : (0 : ℤ) < n := by decide +kernel
  refine ⟨(k % n).toNat, ?_, ?_⟩
  · have := Int.emod_lt_of_pos k hn; omega
  · have h0 : 0 ≤ k % n := Int.emod_nonneg _ hn.ne'
    rw [← natCast_zsmul, Int.toNat_of_nonneg h0, ← hk]
    conv_lhs => rw [← Int.mul_ediv_add_emod k n]
    rw [add_zsmul, mul_comm, mul_zsmul, natCast_zsmul, n_smul, zsmul_zero, zero_add]

theorem smul_mod (k : ℕ) (P : Pt) : (k % n) • P = k • P := by
  conv_rhs => rw [← Nat.div_add_mod k n]
  rw [add_nsmul, mul_nsmul, n_smul, nsmul_zero, zero_add]

theorem smul_congr {j k : ℕ} (h : (j : ZMod n) = (k : ZMod n)) (P : Pt) : j • P = k • P := by
  rw [← smul_mod j, ← smul_mod k, (ZMod.natCast_eq_natCast_iff' _ _ _).1 h]

theorem addOrderOf_pt {P : Pt} (h : P ≠ 0) : addOrderOf P = n := order_base h (n_smul P)

theorem smul_eq_zero_iff {k : ℕ} {P : Pt} (h : P ≠ 0) : k • P = 0 ↔ n ∣ k := by
  rw [← addOrderOf_pt h]; exact (addOrderOf_dvd_iff_nsmul_eq_zero).symm

theorem smul_eq_iff {j k : ℕ} {P : Pt} (h : P ≠ 0) : j • P = k • P ↔ (j : ZMod n) = (k : ZMod n) := by
  refine ⟨fun e => ?_, fun e => smul_congr e P⟩
  have : j ≡ k [MOD addOrderOf P] := nsmul_eq_nsmul_iff_modEq.1 e
  rw [addOrderOf_pt h] at this
  exact (ZMod.natCast_eq_natCast_iff _ _ _).2 this

end Verif
