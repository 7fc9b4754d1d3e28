import Verif.Proofs.Residue
import Verif.Proofs.Ecdsa

/-! The locals of `ecmult_const` and `ecdh_raw`. -/

namespace Verif
open Spec FElem

namespace Ecmult

theorem ecmultConstR_value (a : Affine) (s : Scalar) : (do let o ← ecmultConstR a s; pure o.1) = ecmultConst a s := by
  unfold ecmultConstR ecmultConst constCorrect
  simp only [bind_assoc, pure_bind, bind_pure]

/-- What is left of the scalar. -/
structure LeftConst (A : Pt) (s : Scalar) (l : ConstLocals) : Prop where
  sc : l.sc = s
  len : l.wnaf1.length = 65
  skew : l.skew1 = 1 ∨ l.skew1 = 2
  sum : ((digitSum 16 l.wnaf1 : ℤ) : ZMod Spec.n) = (s.val : ZMod Spec.n) + l.skew1
  corr : Aff l.correction (-(l.skew1 • A))

theorem ecmultConstR_runs {a : Affine} {A : Pt} {s : Scalar} (ha : Aff a A) (hA : A ≠ 0) (hs : s.val < Spec.n) :
    Runs (ecmultConstR a s) (fun o => Jac o.1 (s.val • A) ∧ LeftConst A s o.2) := by
  unfold ecmultConstR
  dsimp only
  refine Runs.bind (ecmultWnafConst_runs (w := 4) hs (by norm_num) (by norm_num) (by rw [List.length_replicate]; rfl)) fun w hw => ?_
  have hlen : w.1.length = 65 := hw.len
  have e64 : wnafSize = 64 := rfl
  refine Runs.bind (Jacobian.setGe_runs ha) fun r0 hr0 => ?_
  refine Runs.bind (oddMultiplesTableGlobalz_runs hr0.1 hA) fun t ⟨hl, hz, hz0, ht⟩ => ?_
  refine Runs.bind (weakTable_runs hl ht) fun preA ⟨hl', hp⟩ => ?_
  rw [e64, idx_pure (by omega), pure_bind]
  obtain ⟨d1, d2, d3⟩ := hw.dig w.1[64] (List.getElem_mem _)
  norm_num at d2 d3
  refine runs_dassert (by simp; omega) ?_
  refine Runs.bind (tableGetGeConst_runs hl' hp d1 d2 d3) fun tm htm => ?_
  refine Runs.bind (Jacobian.setGe_runs htm.1) fun r1 hr1 => ?_
  refine Runs.bind (forRev_runs (fun i (s : Jacobian × Affine) => JacZ s.1 t.2.v (digitSum 16 (w.1.drop i) • A)) 64 _ ?_
    (fun i s hi h => constStep_runs hA hl' hp hw hi h)) fun q hs' => ?_
  · dsimp only
    rw [digitSum_drop 16 (show 64 < w.1.length by omega), List.drop_eq_nil_of_le (by omega)]
    simpa [digitSum] using hr1.1
  · rw [List.drop_zero] at hs'
    have hr : Runs (FElem.mul q.1.z t.2) fun z => Jac ({ q.1 with z := z } : Jacobian) (digitSum 16 w.1 • A) := by
      obtain ⟨r, hr, hj⟩ := unscale_runs hs' hz
      obtain ⟨z, hz', _⟩ := fe_mul hs'.z hz (by norm_num) (by norm_num)
      rw [hz', pure_bind] at hr
      exact ⟨z, hz', by rw [← pure_inj' hr] at hj; exact hj⟩
    refine Runs.bind hr fun z hr => ?_
    refine Runs.bind (Jacobian.setGe_runs ha) fun tj htj => ?_
    refine Runs.bind (Jacobian.doubleVar_runs none htj.1) fun d hd => ?_
    refine Runs.bind (Affine.setGej_runs hd.1) fun c hc => ?_
    refine Runs.bind (Affine.toStorage_runs ha (ha.inf_false hA)) fun c1 hc1 => ?_
    refine Runs.bind (Affine.toStorage_runs hc.1 (hc.1.inf_false (dbl_ne_zero hA))) fun a2 ha2 => ?_
    have hsto : Sto (c1.cmov a2 (w.2 == 2)) (w.2 • A) := by
      rw [AffineStorage.cmov_eq]
      rcases hw.skew with h | h <;> rw [h]
      · simpa using hc1
      · rw [if_pos (by rfl), two_zsmul]; exact ha2
    have hof := Affine.ofStorage_aff hsto
    refine Runs.bind (Affine.neg_runs hof.1) fun cr hcr => ?_
    refine Runs.bind (Jacobian.addGe_runs hr hcr.1 (hcr.2.1.trans hof.2.1)) fun o ho => runs_pure ⟨?_, rfl, hlen, hw.skew, ?_, hcr.1⟩
    · have hsum : digitSum 16 w.1 • A + -(w.2 • A) = s.val • A := by
        have hsum := hw.sum
        norm_num at hsum
        rcases hsum with h | h <;> rw [h]
        · rw [add_zsmul, natCast_zsmul]; abel
        · rw [sub_zsmul, add_zsmul, natCast_zsmul, natCast_zsmul, n_smul]; abel
      rwa [hsum] at ho
    · have hsum := hw.sum
      norm_num at hsum
      dsimp only
      rcases hsum with e | e <;> rw [e] <;> simp

end Ecmult

namespace Ecdsa
open Ecmult

theorem ecdhRawR_value (D : Digest) (a : Affine) (s : Scalar) :
    (do let o ← ecdhRawR D a s; pure (o.map (·.1))) = ecdhRaw D a s := by
  unfold ecdhRawR ecdhRaw
  dsimp only
  split
  · rfl
  · simp only [bind_assoc, pure_bind, ← ecmultConstR_value, Option.map_some]

/-- What is left of the secret and of the shared point. -/
structure LeftEcdh (D : Digest) (P : Pt) (s : Scalar) (out : List UInt8) (l : EcdhLocals) : Prop where
  s : l.s = s
  pt : Aff l.pt P
  norm : l.pt.x.normalized = true ∧ l.pt.y.normalized = true
  res : Jac l.res P
  out : out = D.finalize (D.update D.init (l.y :: l.x.toList))

theorem ecdhRawR_runs {D : Digest} {a : Affine} {A : Pt} {s : Scalar} (ha : Aff a A) (hA : A ≠ 0) (hs : s.val < Spec.n) (h0 : s.val ≠ 0) :
    Runs (ecdhRawR D a s) (fun o => ∃ out l c, o = some (out, l, c) ∧ LeftEcdh D (s.val • A) s out l ∧ LeftConst A s c) := by
  unfold ecdhRawR
  dsimp only
  rw [if_neg (fun h => h0 ((Scalar.isZero_iff s).1 h))]
  have hne : s.val • A ≠ 0 := fun h => h0 (by
    have := (zs_eq_zero (a := (s.val : ZMod Spec.n)) hA).1 (by rwa [ZMod.val_natCast_of_lt hs])
    rw [ZMod.natCast_eq_zero_iff] at this
    exact Nat.eq_zero_of_dvd_of_lt this hs)
  refine Runs.bind (ecmultConstR_runs ha hA hs) fun c hc => ?_
  refine Runs.bind (Affine.setGej_runs hc.1) fun r ⟨hr, _, hrx, hry⟩ => ?_
  have hrP := hr.isPt (hr.inf_false hne)
  refine Runs.bind (fe_normalize hrx (by norm_num)) fun fx ⟨hfx, _⟩ => ?_
  refine Runs.bind (fe_normalize hry (by norm_num)) fun fy ⟨hfy, _⟩ => ?_
  refine Runs.bind (b32_runs hfx) fun b hb => ?_
  refine Runs.bind (isOdd_runs hfy) fun odd hodd => ?_
  refine runs_pure ⟨_, _, _, rfl, ⟨rfl, ?_, ⟨hfx.2.1, hfy.2.1⟩, hc.1, ?_⟩, hc.2⟩
  · exact aff_of_isPt (hr.inf_false hne) hfx.fe hfy.fe (by norm_num) (by norm_num) hrP
  · dsimp only
    rw [D.update_append, List.singleton_append]

end Ecdsa
end Verif
