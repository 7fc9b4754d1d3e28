import Verif.Proofs.ZeroSecret

/-! `add_ge` on coordinates that need not belong to points of the curve, and `combine` with the key of a zero secret. -/

namespace Verif

open Spec
open FElem hiding n

namespace Jacobian

/-- The coordinates `add_ge` computes, for any coordinates of its arguments. -/
theorem addGe_values {a : Jacobian} {b : Affine} (hx : a.x.Ok 8) (hy : a.y.Ok 8) (hz : a.z.Ok 8)
    (hbx : b.x.Ok 8) (hby : b.y.Ok 8) (hbi : b.infinity = false) {T M R : Fp}
    (hT : T = a.x.v + b.x.v * (a.z.v * a.z.v)) (hM : M = a.y.v + b.y.v * (a.z.v * a.z.v) * a.z.v)
    (hR : R = T * T + a.x.v * -(b.x.v * (a.z.v * a.z.v))) :
    Runs (addGe a b) (fun r => r.x.Ok 8 ∧ r.y.Ok 8 ∧ r.z.Ok 8 ∧
      (a.infinity = true → r.x.v = b.x.v ∧ r.y.v = b.y.v ∧ r.z.v = 1 ∧ r.infinity = false) ∧
      (a.infinity = false → M ≠ 0 → a.z.v ≠ 0 → r.infinity = false ∧ r.z.v = 2 * M * a.z.v ∧ r.x.v = 4 * (R ^ 2 - M ^ 2 * T) ∧
        r.y.v = -4 * ((2 * (R ^ 2 - M ^ 2 * T) - M ^ 2 * T) * R + M ^ 4))) := by
  unfold addGe
  refine runs_dassert (by rw [hbi]; rfl) ?_
  refine Runs.bind (fe_sqr hz (by norm_num)) fun zz hzz => ?_
  refine Runs.bind (fe_normalizeWeak hx (by norm_num)) fun u1 hu1 => ?_
  refine Runs.bind (fe_mul hbx hzz.1 (by norm_num) (by norm_num)) fun u2 hu2 => ?_
  refine Runs.bind (fe_normalizeWeak hy (by norm_num)) fun s1 hs1 => ?_
  refine Runs.bind (fe_mul hby hzz.1 (by norm_num) (by norm_num)) fun s2 hs2 => ?_
  refine Runs.bind (fe_mul hs2.1 hz (by norm_num) (by norm_num)) fun s2 hs2 => ?_
  refine Runs.bind (fe_add hu1.1 hu2.1 (by norm_num)) fun t ht => ?_
  refine Runs.bind (fe_add hs1.1 hs2.1 (by norm_num)) fun m hm => ?_
  refine Runs.bind (fe_sqr ht.1 (by norm_num)) fun rr hrr => ?_
  refine Runs.bind (fe_neg (m := 1) hu2.1 rfl (by norm_num)) fun mAlt hmA => ?_
  refine Runs.bind (fe_mul hu1.1 hmA.1 (by norm_num) (by norm_num)) fun tt htt => ?_
  refine Runs.bind (fe_add hrr.1 htt.1 (by norm_num)) fun rr hrr => ?_
  refine Runs.bind (bothZero_runs hm.1 hrr.1) fun d hd => ?_
  refine Runs.bind (fe_mulInt (a := 2) 2 hs1.1 rfl (by norm_num)) fun rrAlt hrA => ?_
  refine Runs.bind (fe_add hmA.1 hu1.1 (by norm_num)) fun mAlt hmA => ?_
  have hrC := fe_cmov (!d) hrA.1 (hrr.1.mono (show 1 + 1 ≤ 1 * 2 by norm_num))
  have hmC := fe_cmov (!d) hmA.1 (hm.1.mono (show 1 + 1 ≤ 1 + 1 + 1 by norm_num))
  rw [pure_bind, pure_bind]
  refine Runs.bind (fe_sqr hmC (by norm_num)) fun n hn => ?_
  refine Runs.bind (fe_mul hn.1 ht.1 (by norm_num) (by norm_num)) fun q hq => ?_
  refine Runs.bind (fe_sqr hn.1 (by norm_num)) fun n hn => ?_
  have hnC := fe_cmov d (hn.1.mono (show 1 ≤ 1 + 1 by norm_num)) hm.1
  rw [pure_bind]
  refine Runs.bind (fe_sqr hrC (by norm_num)) fun t2 ht2 => ?_
  refine Runs.bind (fe_mul hz hmC (by norm_num) (by norm_num)) fun z hz' => ?_
  refine Runs.bind (fe_normalizesToZero hz'.1 (by norm_num)) fun zz0 hz0 => ?_
  rw [pure_bind]
  refine Runs.bind (fe_mulInt (a := 2) 2 hz'.1 rfl (by norm_num)) fun z hz2 => ?_
  refine Runs.bind (fe_neg (m := 1) hq.1 rfl (by norm_num)) fun q hq => ?_
  refine Runs.bind (fe_add ht2.1 hq.1 (by norm_num)) fun t2 ht2 => ?_
  refine Runs.bind (fe_normalizeWeak ht2.1 (by norm_num)) fun x hx' => ?_
  rw [pure_bind]
  refine Runs.bind (fe_mulInt (a := 2) 2 hx'.1 rfl (by norm_num)) fun t3 ht3 => ?_
  refine Runs.bind (fe_add ht3.1 hq.1 (by norm_num)) fun t3 ht3 => ?_
  refine Runs.bind (fe_mul ht3.1 hrC (by norm_num) (by norm_num)) fun t3 ht3 => ?_
  refine Runs.bind (fe_add ht3.1 hnC (by norm_num)) fun t3 ht3 => ?_
  refine Runs.bind (fe_neg (m := 3) ht3.1 rfl (by norm_num)) fun y hy' => ?_
  refine Runs.bind (fe_normalizeWeak hy'.1 (by norm_num)) fun y hy' => ?_
  refine Runs.bind (fe_mulInt (a := 4) 4 hx'.1 rfl (by norm_num)) fun x hx' => ?_
  refine Runs.bind (fe_mulInt (a := 4) 4 hy'.1 rfl (by norm_num)) fun y hy' => runs_pure ?_
  have gx := fe_cmov a.infinity (hx'.1.mono (show 1 * 4 ≤ 8 by norm_num)) hbx
  have gy := fe_cmov a.infinity (hy'.1.mono (show 1 * 4 ≤ 8 by norm_num)) hby
  have gz := fe_cmov a.infinity hz2.1 (fe1_fe.mono (show 1 ≤ 1 * 2 by norm_num))
  dsimp only
  refine ⟨gx.ok (by norm_num), gy.ok (by norm_num), gz.ok (by norm_num), fun hai => ?_, fun hai hM0 hW => ?_⟩
  · rw [gx.v, gy.v, gz.v, hai]
    refine ⟨if_pos rfl, if_pos rfl, if_pos rfl, by simp⟩
  · have hd' : d = false := by rw [hd, ← hM]; simp [hM0]
    rw [gx.v, gy.v, gz.v, hai, hz0, hd']
    simp only [Bool.false_eq_true, if_false, Bool.not_false, if_true, Bool.and_true]
    rw [← hM, ← hT, ← hR]
    refine ⟨decide_eq_false (mul_ne_zero hW hM0), ?_, ?_, ?_⟩ <;> push_cast <;> ring

/-- `add_ge` of a curve point and (0, 0). -/
theorem addGe_origin {a : Jacobian} {b : Affine} {P : Pt} {x y : Fp} (ha : Jac a P) (hP : IsPt P x y)
    (hbx : Fe b.x 8 0) (hby : Fe b.y 8 0) (hbi : b.infinity = false) :
    Runs (addGe a b) (fun r => r.x.Ok 8 ∧ r.y.Ok 8 ∧ r.z.Ok 8 ∧ r.infinity = false ∧ r.z.v ≠ 0 ∧
      r.x.v = -7 * x / y ^ 2 * r.z.v ^ 2 ∧ r.y.v = -7 * (7 - x ^ 3) / (2 * y ^ 3) * r.z.v ^ 3) := by
  obtain ⟨h, _⟩ | ⟨hi, hw, x', y', hP', hX, hY⟩ := ha.rep
  · exact absurd (ha.inf_iff.1 h) hP.ne_zero
  obtain ⟨rfl, rfl⟩ := hP.inj hP'
  rw [mul_one] at hw hX hY
  have hy0 := hP.y_ne
  have h2 : (2 : Fp) ≠ 0 := two_ne_zero_fp
  have he := hP.eqn
  refine (addGe_values ha.x ha.y ha.z (hbx.ok le_rfl) (hby.ok le_rfl) hbi rfl rfl rfl).mono ?_
  rintro r ⟨h1, h2', h3, _, h4⟩
  rw [hbx.v, hby.v, hX, hY] at h4
  simp only [zero_mul, add_zero, neg_zero, mul_zero] at h4
  obtain ⟨e1, e2, e3, e4⟩ := h4 hi (mul_ne_zero hy0 (pow_ne_zero _ hw)) hw
  generalize a.z.v = w at *
  refine ⟨h1, h2', h3, e1, ?_, ?_, ?_⟩
  · rw [e2]; exact mul_ne_zero (mul_ne_zero h2 (mul_ne_zero hy0 (pow_ne_zero _ hw))) hw
  · rw [e3, e2]; field_simp
    linear_combination (-4 * x) * he
  · rw [e4, e2]; field_simp
    linear_combination (-4 * (y ^ 2 - 2 * x ^ 3 + 7)) * he

end Jacobian
end Verif
