import Verif.Proofs.DegenerateConst
import Verif.Proofs.Keys

/-! The coordinates of the public key of a secret that is zero modulo `n`: `add_ge` returns infinity with a third
coordinate that is zero, so the conversion to affine coordinates gives (0, 0). -/

namespace Verif

open Spec
open FElem hiding n

namespace Jacobian

/-- When `add_ge` raises the infinity flag, the third coordinate is zero. -/
theorem addGe_z {a : Jacobian} {b : Affine} {X Y : Fp} (hx : FeL a.x X) (hy : FeL a.y Y) (hz : a.z.Ok 8)
    (hbx : b.x.Ok 8) (hby : b.y.Ok 8) (hbi : b.infinity = false) :
    Runs (addGe a b) (fun r => r.infinity = true → r.z.v = 0) := by
  unfold addGe
  refine runs_dassert (by rw [hbi]; rfl) ?_
  refine Runs.bind (fe_sqr hz (by norm_num)) fun zz hzz => ?_
  refine Runs.bind (fe_normalizeWeak_loose hx) fun u1 hu1 => ?_
  refine Runs.bind (fe_mul hbx hzz.1 (by norm_num) (by norm_num)) fun u2 hu2 => ?_
  refine Runs.bind (fe_normalizeWeak_loose hy) fun s1 hs1 => ?_
  refine Runs.bind (fe_mul hby hzz.1 (by norm_num) (by norm_num)) fun s2 hs2 => ?_
  refine Runs.bind (fe_mul hs2.1 hz (by norm_num) (by norm_num)) fun s2 hs2 => ?_
  refine Runs.bind (fe_add hu1.1 hu2.1 (by norm_num)) fun t ht => ?_
  refine Runs.bind (fe_add hs1.1 hs2.1 (by norm_num)) fun m hm => ?_
  refine Runs.bind (fe_sqr ht.1 (by norm_num)) fun rr hrr => ?_
  refine Runs.bind (fe_neg (m := 1) hu2.1 rfl (by norm_num)) fun mAlt hmA => ?_
  refine Runs.bind (fe_mul hu1.1 hmA.1 (by norm_num) (by norm_num)) fun tt htt => ?_
  refine Runs.bind (fe_add hrr.1 htt.1 (by norm_num)) fun rr hrr => ?_
  refine Runs.bind (bothZero_runs hm.1 hrr.1) fun d hd => ?_
  refine Runs.bind (fe_mulInt (a := 2) 2 hs1.1 rfl (by norm_num)) fun rrAlt hrA => ?_
  refine Runs.bind (fe_add hmA.1 hu1.1 (by norm_num)) fun mAlt hmA => ?_
  have hrC := fe_cmov (!d) hrA.1 (hrr.1.mono (show 1 + 1 ≤ 1 * 2 by norm_num))
  have hmC := fe_cmov (!d) hmA.1 (hm.1.mono (show 1 + 1 ≤ 1 + 1 + 1 by norm_num))
  rw [pure_bind, pure_bind]
  refine Runs.bind (fe_sqr hmC (by norm_num)) fun n hn => ?_
  refine Runs.bind (fe_mul hn.1 ht.1 (by norm_num) (by norm_num)) fun q hq => ?_
  refine Runs.bind (fe_sqr hn.1 (by norm_num)) fun n hn => ?_
  have hnC := fe_cmov d (hn.1.mono (show 1 ≤ 1 + 1 by norm_num)) hm.1
  rw [pure_bind]
  refine Runs.bind (fe_sqr hrC (by norm_num)) fun t2 ht2 => ?_
  refine Runs.bind (fe_mul hz hmC (by norm_num) (by norm_num)) fun z hz' => ?_
  refine Runs.bind (fe_normalizesToZero hz'.1 (by norm_num)) fun zz0 hz0 => ?_
  rw [pure_bind]
  refine Runs.bind (fe_mulInt (a := 2) 2 hz'.1 rfl (by norm_num)) fun z hz2 => ?_
  refine Runs.bind (fe_neg (m := 1) hq.1 rfl (by norm_num)) fun q hq => ?_
  refine Runs.bind (fe_add ht2.1 hq.1 (by norm_num)) fun t2 ht2 => ?_
  refine Runs.bind (fe_normalizeWeak ht2.1 (by norm_num)) fun x hx' => ?_
  rw [pure_bind]
  refine Runs.bind (fe_mulInt (a := 2) 2 hx'.1 rfl (by norm_num)) fun t3 ht3 => ?_
  refine Runs.bind (fe_add ht3.1 hq.1 (by norm_num)) fun t3 ht3 => ?_
  refine Runs.bind (fe_mul ht3.1 hrC (by norm_num) (by norm_num)) fun t3 ht3 => ?_
  refine Runs.bind (fe_add ht3.1 hnC (by norm_num)) fun t3 ht3 => ?_
  refine Runs.bind (fe_neg (m := 3) ht3.1 rfl (by norm_num)) fun y hy' => ?_
  refine Runs.bind (fe_normalizeWeak hy'.1 (by norm_num)) fun y hy' => ?_
  refine Runs.bind (fe_mulInt (a := 4) 4 hx'.1 rfl (by norm_num)) fun x hx' => ?_
  refine Runs.bind (fe_mulInt (a := 4) 4 hy'.1 rfl (by norm_num)) fun y hy' => runs_pure ?_
  have gz := fe_cmov a.infinity hz2.1 (fe1_fe.mono (show 1 ≤ 1 * 2 by norm_num))
  dsimp only
  intro h
  rw [Bool.and_eq_true, Bool.not_eq_true'] at h
  obtain ⟨h1, h2⟩ := h
  rw [hz0, decide_eq_true_eq] at h1
  rw [gz.v, h2, if_neg (by simp), h1, zero_mul]

/-- `add_ge` in a release build does not read the flag of its second argument. -/
theorem addGe_flag (a : Jacobian) (b : Affine) : addGe a b .release = addGe a { b with infinity := false } .release := rfl

end Jacobian

namespace Ecmult

theorem genStep_z {ctx : GenContext} {gnb : Scalar} {j : ℕ} {s : Jacobian × AffineStorage} {P : Pt} (hc : GenTable ctx.prec) (hj : j < 64)
    (hs : JacL s.1 P) : Runs (genStep ctx gnb j s) (fun s => s.1.infinity = true → s.1.z.v = 0) := by
  unfold genStep
  refine Runs.bind (Scalar.bits_runs gnb (o := j * 4) (c := 4) (by norm_num) (by norm_num) (by omega) (by omega)) fun b hb => ?_
  have hj' : j < ctx.prec.length := by rw [hc.rows]; exact hj
  rw [idx_pure hj', pure_bind]
  have hcols := hc.cols j hj'
  have hb16 : b.toNat < ctx.prec[j].length := by rw [hb, hcols]; exact Nat.mod_lt _ (by norm_num)
  refine Runs.bind (genSelect_runs hcols hb16) fun adds hadds => ?_
  have hsto := hc.entry j hj' b.toNat hb16
  rw [← hadds] at hsto
  have haff := Affine.ofStorage_aff hsto
  exact Runs.bind (Jacobian.addGe_z hs.x hs.y hs.z haff.1.x haff.1.y haff.2.1) fun r hr => runs_pure hr

theorem ecmultGen_z {ctx : GenContext} {gn : Scalar} (hc : GenTable ctx.prec) (hi : ctx.initial = genInitial) :
    Runs (ecmultGen ctx gn) (fun r => r.infinity = true → r.z.v = 0) := by
  unfold ecmultGen
  rw [hi]
  refine Runs.bind (Scalar.add_any gn ctx.blind) fun gnb _ => ?_
  refine Runs.bind (forN_runs (fun j (s : Jacobian × AffineStorage) =>
    (∃ P, JacL s.1 P) ∧ (0 < j → s.1.infinity = true → s.1.z.v = 0)) 64 _ ⟨⟨_, genInitial_loose⟩, fun h => by omega⟩ ?_)
    fun s hs => runs_pure (hs.2 (by norm_num))
  rintro j s hj ⟨⟨P, h⟩, _⟩
  exact ((genStep_runs hc hj h).and (genStep_z hc hj h)).mono fun s' hs' => ⟨⟨_, Jac.loose hs'.1⟩, fun _ => hs'.2⟩

end Ecmult

/-- The public key of a zero secret: infinity, with both coordinates zero. -/
theorem fromSecretKey_zero {k : SecretKey} (h : k.sc.val • G = 0) :
    Runs (PublicKey.fromSecretKey k) (fun q => Fe q.pt.x 1 0 ∧ Fe q.pt.y 1 0 ∧ q.pt.infinity = true) := by
  unfold PublicKey.fromSecretKey PublicKey.fromSecretKeyWithContext
  refine Runs.bind Ecmult.newGenContext_runs fun ctx hc => ?_
  refine Runs.bind ((Ecmult.ecmultGen_runs (gn := k.sc) hc.1 hc.2.1 hc.2.2).and (Ecmult.ecmultGen_z hc.1 hc.2.2)) fun r hr => ?_
  obtain ⟨hj, hz⟩ := hr
  have hi := hj.inf_iff.2 h
  have hz := hz hi
  have hz' : Fe r.z 8 0 := hj.z.cast le_rfl hz
  unfold Affine.setGej
  refine Runs.bind (Runs.bind (fe_inv hz' (by norm_num)) fun z hz => ?_) fun a ha => runs_pure ha
  refine Runs.bind (fe_sqr hz (by norm_num)) fun z2 h2 => ?_
  refine Runs.bind (fe_mul hz h2.1 (by norm_num) (by norm_num)) fun z3 h3 => ?_
  refine Runs.bind (fe_mul hj.x h2.1 (by norm_num) (by norm_num)) fun x hx => ?_
  refine Runs.bind (fe_mul hj.y h3.1 (by norm_num) (by norm_num)) fun y hy => ?_
  refine Runs.bind fe_one fun _ _ => runs_pure ?_
  exact ⟨hx.1.cast le_rfl (by simp), hy.1.cast le_rfl (by simp), hi⟩

end Verif
