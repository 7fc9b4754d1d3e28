import Verif.Proofs.Degenerate

/-! `ecmult_const` on the point at infinity and on the pair (0, 0): every table entry is (0, 0), and every addition
flips the infinity flag and leaves zero coordinates. -/

namespace Verif

open Spec
open FElem hiding n

/-- Both coordinates are zero; the flag is arbitrary. -/
structure Zeros (a : Jacobian) : Prop where
  x : Fe a.x 8 0
  y : Fe a.y 8 0
  z : a.z.Ok 8

namespace Jacobian

/-- `add_ge` of zero coordinates and a term that vanishes when scaled. -/
theorem zeros_addGe {a : Jacobian} {b : Affine} (h : Zeros a) (hx : b.x.Ok 8) (hy : b.y.Ok 8) (hbi : b.infinity = false)
    (hz0 : (b.x.v = 0 ∧ b.y.v = 0) ∨ a.z.v = 0) :
    Runs (addGe a b) fun r => r.infinity = !a.infinity ∧ r.x.Ok 8 ∧ r.y.Ok 8 ∧ r.z.Ok 8 ∧
      r.x.v = (if a.infinity then b.x.v else 0) ∧ r.y.v = (if a.infinity then b.y.v else 0) := by
  have hz := h.z
  have e1 : b.x.v * (a.z.v * a.z.v) = 0 := by rcases hz0 with h | h <;> simp [h]
  have e2 : b.y.v * (a.z.v * a.z.v) * a.z.v = 0 := by rcases hz0 with h | h <;> simp [h]
  unfold addGe
  refine runs_dassert (by rw [hbi]; rfl) ?_
  refine Runs.bind (fe_sqr hz (by norm_num)) fun zz hzz => ?_
  refine Runs.bind (fe_normalizeWeak h.x (by norm_num)) fun u1 hu1 => ?_
  refine Runs.bind (fe_mul hx hzz.1 (by norm_num) (by norm_num)) fun u2 hu2 => ?_
  have hu2' : Fe u2 1 0 := hu2.1.cast le_rfl e1
  refine Runs.bind (fe_normalizeWeak h.y (by norm_num)) fun s1 hs1 => ?_
  refine Runs.bind (fe_mul hy hzz.1 (by norm_num) (by norm_num)) fun s2 hs2 => ?_
  refine Runs.bind (fe_mul hs2.1 hz (by norm_num) (by norm_num)) fun s2 hs2 => ?_
  have hs2' : Fe s2 1 0 := hs2.1.cast le_rfl e2
  refine Runs.bind (fe_add hu1.1 hu2' (by norm_num)) fun t ht => ?_
  refine Runs.bind (fe_add hs1.1 hs2' (by norm_num)) fun m hm => ?_
  refine Runs.bind (fe_sqr ht.1 (by norm_num)) fun rr hrr => ?_
  refine Runs.bind (fe_neg (m := 1) hu2' rfl (by norm_num)) fun mAlt hmA => ?_
  refine Runs.bind (fe_mul hu1.1 hmA.1 (by norm_num) (by norm_num)) fun tt htt => ?_
  refine Runs.bind (fe_add hrr.1 htt.1 (by norm_num)) fun rr hrr => ?_
  refine Runs.bind (bothZero_runs hm.1 hrr.1) fun d hd => ?_
  refine Runs.bind (fe_mulInt (a := 2) 2 hs1.1 rfl (by norm_num)) fun rrAlt hrA => ?_
  refine Runs.bind (fe_add hmA.1 hu1.1 (by norm_num)) fun mAlt hmA => ?_
  have hrC := fe_cmov (!d) hrA.1 (hrr.1.mono (show 1 + 1 ≤ 1 * 2 by norm_num))
  have hmC := fe_cmov (!d) hmA.1 (hm.1.mono (show 1 + 1 ≤ 1 + 1 + 1 by norm_num))
  have hrC' : Fe (rrAlt.cmov rr (!d)) 2 0 := hrC.cast (by norm_num) (by simp)
  have hmC' : Fe (mAlt.cmov m (!d)) 3 0 := hmC.cast (by norm_num) (by simp)
  rw [pure_bind, pure_bind]
  refine Runs.bind (fe_sqr hmC' (by norm_num)) fun n hn => ?_
  refine Runs.bind (fe_mul hn.1 ht.1 (by norm_num) (by norm_num)) fun q hq => ?_
  refine Runs.bind (fe_sqr hn.1 (by norm_num)) fun n hn => ?_
  have hnC := fe_cmov d (hn.1.mono (show 1 ≤ 1 + 1 by norm_num)) hm.1
  rw [pure_bind]
  refine Runs.bind (fe_sqr hrC' (by norm_num)) fun t2 ht2 => ?_
  refine Runs.bind (fe_mul hz hmC' (by norm_num) (by norm_num)) fun z hz' => ?_
  refine Runs.bind (fe_normalizesToZero hz'.1 (by norm_num)) fun zz0 hz0 => ?_
  rw [pure_bind]
  refine Runs.bind (fe_mulInt (a := 2) 2 hz'.1 rfl (by norm_num)) fun z hz2 => ?_
  refine Runs.bind (fe_neg (m := 1) hq.1 rfl (by norm_num)) fun q hq => ?_
  refine Runs.bind (fe_add ht2.1 hq.1 (by norm_num)) fun t2 ht2 => ?_
  refine Runs.bind (fe_normalizeWeak ht2.1 (by norm_num)) fun x hx' => ?_
  rw [pure_bind]
  refine Runs.bind (fe_mulInt (a := 2) 2 hx'.1 rfl (by norm_num)) fun t3 ht3 => ?_
  refine Runs.bind (fe_add ht3.1 hq.1 (by norm_num)) fun t3 ht3 => ?_
  refine Runs.bind (fe_mul ht3.1 hrC' (by norm_num) (by norm_num)) fun t3 ht3 => ?_
  refine Runs.bind (fe_add ht3.1 hnC (by norm_num)) fun t3 ht3 => ?_
  refine Runs.bind (fe_neg (m := 3) ht3.1 rfl (by norm_num)) fun y hy' => ?_
  refine Runs.bind (fe_normalizeWeak hy'.1 (by norm_num)) fun y hy' => ?_
  refine Runs.bind (fe_mulInt (a := 4) 4 hx'.1 rfl (by norm_num)) fun x hx' => ?_
  refine Runs.bind (fe_mulInt (a := 4) 4 hy'.1 rfl (by norm_num)) fun y hy' => runs_pure ?_
  have gx := fe_cmov a.infinity (hx'.1.mono (show 1 * 4 ≤ 8 by norm_num)) hx
  have gy := fe_cmov a.infinity (hy'.1.mono (show 1 * 4 ≤ 8 by norm_num)) hy
  have gz := fe_cmov a.infinity hz2.1 (fe1_fe.mono (show 1 ≤ 1 * 2 by norm_num))
  refine ⟨?_, gx.ok (by norm_num), gy.ok (by norm_num), gz.ok (by norm_num), ?_, ?_⟩
  · dsimp only
    rw [hz0, decide_eq_true (mul_zero _), Bool.true_and]
  · rw [gx.v]; simp
  · rw [gy.v]; simp

theorem zeros_double {r : Jacobian} (h : Zeros r) (i : ℕ) : Rel (Ecmult.constDouble i r) fun r' => Zeros r' ∧ r'.infinity = r.infinity := by
  unfold Ecmult.constDouble doubleNonzeroInPlace
  rw [bind_assoc]
  refine rel_seq inferInstance fun _ => ?_
  cases hi : r.infinity with
  | true =>
    unfold doubleVarInPlace
    rw [if_pos hi]
    exact rel_pure ⟨⟨h.x, h.y, h.z⟩, rfl⟩
  | false =>
    exact (rel_of_runs (nil_doubleVarInPlace (self := r) none ⟨h.x, h.y, h.z, hi⟩)).bind fun d hd =>
      rel_pure ⟨⟨hd.1.x, hd.1.y, hd.1.z⟩, hd.1.inf⟩

end Jacobian

namespace Ecmult

theorem rel_forRev {σ : Type} {f : ℕ → σ → Exec σ} (I : ℕ → σ → Prop) :
    ∀ (n : ℕ) (s : σ), I n s → (∀ i s, i < n → I (i + 1) s → Rel (f i s) (I i)) → Rel (forRev n f s) (I 0)
  | 0, s, h0, _ => rel_pure h0
  | n + 1, s, h0, hs => by
    unfold forRev
    exact Rel.bind (hs n s (by omega) h0) fun a ha => rel_forRev I n a ha (fun i s hi => hs i s (by omega))

theorem nil_weakTable {pre : List Affine} (hl : pre.length = 8) (hp : ∀ x ∈ pre, NilA x) :
    Runs (weakTable pre) fun l => l.length = 8 ∧ ∀ j (hj : j < l.length), Fe l[j].x 8 0 ∧ Fe l[j].y 1 0 := by
  unfold weakTable
  refine tabulate_runs (n := 8) (P := fun _ (x : Affine) => Fe x.x 8 0 ∧ Fe x.y 1 0) fun i hi => ?_
  rw [idx_pure (by omega), pure_bind]
  have g := hp _ (List.getElem_mem (show i < pre.length by omega))
  exact Runs.bind (fe_normalizeWeak g.y (by norm_num)) fun y hy => runs_pure ⟨g.x, hy.1⟩

theorem nil_getConst {r : Affine} {pre : List Affine} {d : ℤ} (hl : pre.length = 8)
    (hp : ∀ j (hj : j < pre.length), Fe pre[j].x 8 0 ∧ Fe pre[j].y 1 0) (h1 : d % 2 = 1) (h2 : -16 < d) (h3 : d < 16) :
    Runs (tableGetGeConst r pre d windowA) NilA := by
  unfold tableGetGeConst
  have habs : d * ((if d > 0 then 1 else 0) * 2 - 1) = |d| := by
    by_cases h : d > 0
    · rw [if_pos h, abs_of_pos h]; ring
    · rw [if_neg h, abs_of_nonpos (by omega)]; ring
  have hlt : |d| < 16 := abs_lt.2 ⟨h2, h3⟩
  have h0 := abs_nonneg d
  rw [habs, i32_pure (by omega) (by omega), pure_bind, digitCheck_runs h1 (by simpa [windowA] using h2) (by simpa [windowA] using h3), pure_bind]
  have hk : (|d| / 2).toNat < pre.length := by omega
  refine Runs.bind (cmovLoop_runs (r := r) hk) fun r ⟨hx, hy⟩ => ?_
  obtain ⟨g1, g2⟩ := hp _ hk
  rw [← hx] at g1; rw [← hy] at g2
  refine Runs.bind (fe_neg (m := 1) g2 rfl (by norm_num)) fun ny hny => runs_pure ⟨g1, ?_, rfl⟩
  exact (fe_cmov _ (g2.mono (show 1 ≤ 2 by norm_num)) hny.1).cast (by norm_num) (by simp)

/-- The state of the loop: zero coordinates, and the flag is set after an odd number of additions. -/
def ConstState (i : ℕ) (s : Jacobian × Affine) : Prop := Zeros s.1 ∧ s.1.infinity = decide (i % 2 = 1)

theorem nil_constAdd {preA : List Affine} {a : ℕ} {w : List ℤ × ℤ} (hl : preA.length = 8)
    (hp : ∀ j (hj : j < preA.length), Fe preA[j].x 8 0 ∧ Fe preA[j].y 1 0) (hw : WnafConst 4 a w) {i : ℕ} (hi : i < 64) {r : Jacobian} {t : Affine}
    (h : Zeros r) (hf : r.infinity = decide ((i + 1) % 2 = 1)) :
    Runs (idx w.1 i >>= fun n => tableGetGeConst t preA n windowA >>= fun tmpa => dassert (n != 0) >>= fun _ =>
      Jacobian.addGe r tmpa >>= fun r => pure (r, tmpa)) (ConstState i) := by
  have hlen : w.1.length = 65 := hw.len
  rw [idx_pure (by omega), pure_bind]
  obtain ⟨d1, d2, d3⟩ := hw.dig w.1[i] (List.getElem_mem _)
  norm_num at d2 d3
  refine Runs.bind (nil_getConst hl hp d1 d2 d3) fun t ht => ?_
  refine runs_dassert (by simp; omega) ?_
  refine Runs.bind (Jacobian.zeros_addGe h (ht.x.ok le_rfl) (ht.y.ok le_rfl) ht.inf (Or.inl ⟨ht.x.v, ht.y.v⟩)) fun r' hr' => runs_pure ⟨?_, ?_⟩
  · obtain ⟨_, o1, o2, o3, v1, v2⟩ := hr'
    refine ⟨o1.cast le_rfl ?_, o2.cast le_rfl ?_, o3⟩
    · rw [v1, ht.x.v, ite_self]
    · rw [v2, ht.y.v, ite_self]
  · dsimp only
    rw [hr'.1, hf, Bool.eq_iff_iff]
    simp only [Bool.not_eq_true', decide_eq_false_iff_not, decide_eq_true_eq]
    omega

theorem nil_constStep {preA : List Affine} {a : ℕ} {w : List ℤ × ℤ} (hl : preA.length = 8)
    (hp : ∀ j (hj : j < preA.length), Fe preA[j].x 8 0 ∧ Fe preA[j].y 1 0) (hw : WnafConst 4 a w) {i : ℕ} (hi : i < 64) {s : Jacobian × Affine}
    (h : ConstState (i + 1) s) : Rel (constStep preA w.1 i s) (ConstState i) := by
  unfold constStep
  refine Rel.bind (rel_loop (fun _ r => Zeros r ∧ r.infinity = s.1.infinity) ⟨h.1, rfl⟩ fun j r _ hr =>
    (Jacobian.zeros_double hr.1 j).mono fun r' h' => ⟨h'.1, h'.2.trans hr.2⟩) fun r hr => ?_
  exact rel_of_runs (nil_constAdd hl hp hw hi hr.1 (hr.2.trans h.2))

/-- From a finite state both builds make the step. -/
theorem nil_constStep_fin {preA : List Affine} {a : ℕ} {w : List ℤ × ℤ} (hl : preA.length = 8)
    (hp : ∀ j (hj : j < preA.length), Fe preA[j].x 8 0 ∧ Fe preA[j].y 1 0) (hw : WnafConst 4 a w) {i : ℕ} (hi : i < 64) (hodd : i % 2 = 1)
    {s : Jacobian × Affine} (h : ConstState (i + 1) s) : Runs (constStep preA w.1 i s) (ConstState i) := by
  unfold constStep
  have hf : s.1.infinity = false := by rw [h.2, decide_eq_false (by omega)]
  refine Runs.bind (forN_runs (fun _ r => Nil r) _ _ ⟨h.1.x, h.1.y, h.1.z, hf⟩ fun j r _ hr => ?_) fun r hr => ?_
  · unfold constDouble Jacobian.doubleNonzeroInPlace
    rw [dassert_true (show (!r.infinity) = true by rw [hr.inf]; rfl), pure_bind]
    exact Runs.bind (Jacobian.nil_doubleVarInPlace none hr) fun d hd => runs_pure hd.1
  · exact nil_constAdd hl hp hw hi ⟨hr.x, hr.y, hr.z⟩ (by rw [hr.inf, decide_eq_false (by omega)])

/-- From an infinite state the debug build panics. -/
theorem nil_constStep_inf {preA : List Affine} {w : List ℤ} {i : ℕ} {s : Jacobian × Affine} (h : s.1.infinity = true) :
    constStep preA w i s .debug = none := by
  have e : forN (windowA - 1) constDouble s.1 .debug = none := by
    have e1 : constDouble 0 s.1 .debug = none := by
      unfold constDouble Jacobian.doubleNonzeroInPlace
      rw [h]; rfl
    show (forN 4 constDouble s.1) .debug = none
    have e4 : forN 4 constDouble s.1 = (constDouble 0 s.1 >>= fun r => constDouble 1 r >>= fun r => constDouble 2 r >>= constDouble 3) := by
      simp [forN]
    rw [e4, exec_bind, e1]; rfl
  unfold constStep
  rw [exec_bind, e]; rfl

theorem ok_toStorage {a : Affine} (hx : a.x.Ok 8) (hy : a.y.Ok 8) :
    Rel (Affine.toStorage a) fun s => (Affine.ofStorage s).x.Ok 8 ∧ (Affine.ofStorage s).y.Ok 8 := by
  unfold Affine.toStorage
  refine rel_seq inferInstance fun _ => rel_of_runs ?_
  refine Runs.bind (fe_normalize hx (by norm_num)) fun x hx => ?_
  refine Runs.bind (fe_normalize hy (by norm_num)) fun y hy => ?_
  refine Runs.bind (FieldStorage.ofField_runs hx.1) fun sx hsx => ?_
  refine Runs.bind (FieldStorage.ofField_runs hy.1) fun sy hsy => runs_pure ?_
  exact ⟨(FieldStorage.toField_feN hsx).fe.ok (by norm_num), (FieldStorage.toField_feN hsy).fe.ok (by norm_num)⟩

theorem zeros_setGej {r : Jacobian} (h : Zeros r) : Runs (Affine.setGej r) fun a => Fe a.x 1 0 ∧ Fe a.y 1 0 := by
  unfold Affine.setGej
  refine Runs.bind (fe_inv h.z (by norm_num)) fun z hz => ?_
  refine Runs.bind (fe_sqr hz (by norm_num)) fun z2 h2 => ?_
  refine Runs.bind (fe_mul hz h2.1 (by norm_num) (by norm_num)) fun z3 h3 => ?_
  refine Runs.bind (fe_mul h.x h2.1 (by norm_num) (by norm_num)) fun x hx => ?_
  refine Runs.bind (fe_mul h.y h3.1 (by norm_num) (by norm_num)) fun y hy => ?_
  refine Runs.bind fe_one fun _ _ => runs_pure ?_
  exact ⟨hx.1.cast (by norm_num) (by ring), hy.1.cast (by norm_num) (by ring)⟩

theorem nil_constCorrect {a : Affine} {skew : ℤ} {r : Jacobian} (hx : a.x.Ok 8) (hy : a.y.Ok 8) (ha : a.infinity = true ∨ NilA a)
    (hr : Zeros r) (hz : r.z.v = 0) (hi : r.infinity = false) : Rel (constCorrect a skew r) Zeros := by
  unfold constCorrect
  have hset : Runs (Jacobian.setGe a) Bad := by
    unfold Jacobian.setGe
    exact Runs.bind fe_one fun z hz => runs_pure ⟨hx, hy, hz.ok (by norm_num), ha.imp id fun h => ⟨h.x, h.y, hz.ok (by norm_num), h.inf⟩⟩
  refine (rel_of_runs hset).bind fun tj htj => (rel_of_runs (bad_double htj)).bind fun d hd => ?_
  refine (rel_of_runs (zeros_setGej ⟨hd.1, hd.2.1, hd.2.2.ok le_rfl⟩)).bind fun c hc => ?_
  refine (ok_toStorage hx hy).bind fun c1 h1 => (ok_toStorage (hc.1.ok (by norm_num)) (hc.2.ok (by norm_num))).bind fun c2 h2 => ?_
  dsimp only
  have h3 : (Affine.ofStorage (c1.cmov c2 (skew == 2))).x.Ok 8 ∧ (Affine.ofStorage (c1.cmov c2 (skew == 2))).y.Ok 8 := by
    rw [AffineStorage.cmov_eq]
    split
    exacts [h2, h1]
  have hneg : Runs (Affine.neg (Affine.ofStorage (c1.cmov c2 (skew == 2)))) fun b => b.x.Ok 8 ∧ b.y.Ok 8 ∧ b.infinity = false := by
    unfold Affine.neg
    refine Runs.bind (fe_normalizeWeak h3.2 (by norm_num)) fun y hy => ?_
    exact Runs.bind (fe_neg (m := 1) hy.1 rfl (by norm_num)) fun y hy => runs_pure ⟨h3.1, hy.1.ok (by norm_num), rfl⟩
  refine (rel_of_runs hneg).bind fun b hb => (rel_of_runs (Jacobian.zeros_addGe hr hb.1 hb.2.1 hb.2.2 (Or.inr hz))).mono fun r' h' => ?_
  obtain ⟨_, o1, o2, o3, v1, v2⟩ := h'
  rw [hi] at v1 v2
  exact ⟨o1.cast le_rfl v1, o2.cast le_rfl v2, o3⟩

/-- `ecmult_const` of such a point leaves zero coordinates in a release build, and panics in a debug build. -/
theorem nil_ecmultConst {a : Affine} {s : Scalar} (hx : a.x.Ok 8) (hy : a.y.Ok 8) (ha : a.infinity = true ∨ NilA a) (hs : s.val < n) :
    Rel (ecmultConst a s) Zeros ∧ ecmultConst a s .debug = none := by
  unfold ecmultConst
  obtain ⟨w, ew, hw⟩ := ecmultWnafConst_runs (w := 4) hs (by norm_num) (by norm_num) (show (List.replicate (1 + wnafSize) (0 : ℤ)).length = _ by rw [List.length_replicate]; rfl)
  have hlen : w.1.length = 65 := hw.len
  have ew' : ecmultWnafConst (List.replicate (1 + wnafSize) 0) s (windowA - 1) = pure w := ew
  obtain ⟨z, ez, hz⟩ := fe_one
  have hset : Jacobian.setGe a = pure ⟨a.x, a.y, z, a.infinity⟩ := by unfold Jacobian.setGe; rw [ez]; rfl
  have hbad : Bad ⟨a.x, a.y, z, a.infinity⟩ := ⟨hx, hy, hz.ok (by norm_num), ha.imp id fun h => ⟨h.x, h.y, hz.ok (by norm_num), h.inf⟩⟩
  obtain ⟨x, ex, t, et, hl, ht, htz⟩ := nil_table hbad
  obtain ⟨pre, ep, hpl, hp⟩ := nil_weakTable hl ht
  have e64 : wnafSize = 64 := rfl
  obtain ⟨d1, d2, d3⟩ := hw.dig w.1[64] (List.getElem_mem _)
  norm_num at d2 d3
  obtain ⟨tm, etm, htm⟩ := nil_getConst (r := Affine.default) hpl hp d1 d2 d3
  obtain ⟨r1, er1, hr1⟩ := Jacobian.nil_setGe htm
  have h0 : ConstState 64 (r1, tm) := ⟨⟨hr1.x, hr1.y, hr1.z⟩, hr1.inf⟩
  have e9 : dassert (w.1[64] != 0) = pure () := dassert_true (by simp; omega)
  rw [ew', pure_bind, hset, pure_bind, ex, bind_assoc, et, pure_bind, ep, pure_bind, e64, idx_pure (show 64 < w.1.length by omega), pure_bind, e9, pure_bind,
    etm, pure_bind, er1, pure_bind]
  constructor
  · refine rel_seq inferInstance fun _ => ?_
    refine (rel_forRev ConstState 64 _ h0 fun i s hi hs => nil_constStep hpl hp hw hi hs).bind fun q hq => ?_
    refine (rel_of_runs (fe_mul hq.1.z htz (by norm_num) (by norm_num))).bind fun z' hz' => ?_
    exact nil_constCorrect hx hy ha ⟨hq.1.x, hq.1.y, hz'.1.ok (by norm_num)⟩ (by rw [hz'.1.v, mul_zero]) hq.2
  · obtain ⟨q, eq, hq⟩ := nil_constStep_fin hpl hp hw (i := 63) (by norm_num) (by norm_num) h0
    have hloop : forRev 64 (constStep pre w.1) (r1, tm) .debug = none := by
      rw [forRev, eq, pure_bind, forRev, exec_bind, nil_constStep_inf hq.2]; rfl
    cases hi : a.infinity with
    | true => rfl
    | false =>
      rw [dassert_true (by rfl), pure_bind, exec_bind, hloop]; rfl

end Ecmult

namespace Ecdsa
open Ecmult

/-- `ecdh_raw` of such a point. -/
theorem nil_ecdhRaw (D : Digest) {a : Affine} {s : Scalar} (hx : a.x.Ok 8) (hy : a.y.Ok 8) (ha : a.infinity = true ∨ NilA a)
    (hs : s.val < n) (hs0 : s.val ≠ 0) :
    ecdhRaw D a s .release = some (some (D.finalize (D.update D.init (2 :: beBytes 32 0)))) ∧ ecdhRaw D a s .debug = none := by
  obtain ⟨h1, h2⟩ := nil_ecmultConst hx hy ha hs
  unfold ecdhRaw
  rw [if_neg (by rw [Scalar.isZero_iff]; exact hs0)]
  constructor
  · refine Exists.elim (Rel.bind (Q := fun o => o = some (D.finalize (D.update D.init (2 :: beBytes 32 0)))) h1 fun r hr => rel_of_runs ?_)
      fun o ho => by rw [ho.1, ho.2]
    refine Runs.bind (zeros_setGej hr) fun pt hpt => ?_
    refine Runs.bind (fe_normalize hpt.1 (by norm_num)) fun x hx => ?_
    refine Runs.bind (fe_normalize hpt.2 (by norm_num)) fun y hy => ?_
    refine Runs.bind (b32_runs hx.1) fun b hb => ?_
    refine Runs.bind (isOdd_runs hy.1) fun o ho => runs_pure ?_
    have ho' : o = false := by rw [ho, ZMod.val_zero]; rfl
    rw [ho', hb, ZMod.val_zero]
    rw [D.update_append]; rfl
  · rw [exec_bind, h2]; rfl

end Ecdsa

end Verif
