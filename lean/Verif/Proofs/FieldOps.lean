import Verif.Proofs.FieldMul

/-! Field operations refine arithmetic in `ZMod p`. -/

namespace Verif
open Spec

namespace FElem
open Limbs10

/-- `f` represents `x` with magnitude at most `m`. -/
def Fe (f : FElem) (m : ℕ) (x : Fp) : Prop := WF f ∧ f.magnitude.toNat ≤ m ∧ (f.val : Fp) = x

/-- `f` represents `x` and is normalized: its limbs hold the least residue. -/
def FeN (f : FElem) (x : Fp) : Prop := WF f ∧ f.normalized = true ∧ f.val = x.val

instance : NeZero p := ⟨by decide⟩

theorem Fe.mono {f : FElem} {m m' : ℕ} {x : Fp} (h : Fe f m x) (hm : m ≤ m') : Fe f m' x :=
  ⟨h.1, h.2.1.trans hm, h.2.2⟩

theorem FeN.fe {f : FElem} {x : Fp} (h : FeN f x) : Fe f 1 x := by
  refine ⟨h.1, (h.1.norm h.2.1).1, ?_⟩
  rw [h.2.2]; exact ZMod.natCast_zmod_val x

theorem FeN.mag {f : FElem} {x : Fp} (h : FeN f x) : f.magnitude.toNat ≤ 1 := h.fe.2.1

theorem cast_mod (v : ℕ) : ((v % p : ℕ) : Fp) = v := ZMod.natCast_mod v p

theorem Normal.feN {f : FElem} {v : ℕ} {x : Fp} (h : Normal f (v % p)) (hx : (v : Fp) = x) : FeN f x := by
  refine ⟨h.1, h.2.1, ?_⟩
  rw [h.2.2.2, ← hx, ZMod.val_natCast]

theorem mod_eq_zero_iff (v : ℕ) : v % p = 0 ↔ (v : Fp) = 0 := by
  rw [ZMod.natCast_eq_zero_iff, Nat.dvd_iff_mod_eq_zero]

theorem Fe.verify {f : FElem} {m : ℕ} {x : Fp} (h : Fe f m x) : Runs (verify f) (fun b => b = true) :=
  verify_runs h.1

theorem fe_normalize {f : FElem} {m : ℕ} {x : Fp} (h : Fe f m x) (hm : m ≤ 31) :
    Runs (normalize f) (fun r => FeN r x ∧ r.magnitude = 1) :=
  (normalize_runs h.1 (h.2.1.trans hm)).mono fun _ hr => ⟨hr.feN h.2.2, hr.2.2.1⟩

theorem fe_normalizeVar {f : FElem} {m : ℕ} {x : Fp} (h : Fe f m x) (hm : m ≤ 31) :
    Runs (normalizeVar f) (fun r => FeN r x ∧ r.magnitude = 1) :=
  (normalizeVar_runs h.1 (h.2.1.trans hm)).mono fun _ hr => ⟨hr.feN h.2.2, hr.2.2.1⟩

theorem fe_normalizeWeak {f : FElem} {m : ℕ} {x : Fp} (h : Fe f m x) (hm : m ≤ 31) :
    Runs (normalizeWeak f) (fun r => Fe r 1 x ∧ r.magnitude = 1) := by
  refine (normalizeWeak_runs h.1 (h.2.1.trans hm)).mono fun r hr => ⟨⟨hr.1, by rw [hr.2.1]; rfl, ?_⟩, hr.2.1⟩
  rw [← cast_mod, hr.2.2.1, cast_mod, h.2.2]

theorem fe_normalizesToZero {f : FElem} {m : ℕ} {x : Fp} (h : Fe f m x) (hm : m ≤ 31) :
    Runs (normalizesToZero f) (fun b => b = decide (x = 0)) := by
  refine (normalizesToZero_runs h.1 (h.2.1.trans hm)).mono fun b hb => ?_
  rw [hb, decide_eq_decide, mod_eq_zero_iff, h.2.2]

theorem fe_normalizesToZeroVar {f : FElem} {m : ℕ} {x : Fp} (h : Fe f m x) (hm : m ≤ 31) :
    Runs (normalizesToZeroVar f) (fun b => b = decide (x = 0)) := by
  refine (normalizesToZeroVar_runs h.1 (h.2.1.trans hm)).mono fun b hb => ?_
  rw [hb, decide_eq_decide, mod_eq_zero_iff, h.2.2]

/-! Addition, negation, small multiples. -/

theorem wf_unnormal {t : Limbs10} {m : UInt32} (h : t.LB (134217726 * m.toNat) (8388606 * m.toNat))
    (hm : m.toNat ≤ 32) : WF { n := t, magnitude := m, normalized := false } :=
  ⟨h, hm, fun h => by simp at h⟩

theorem fe_add {f g : FElem} {a b : ℕ} {x y : Fp} (hf : Fe f a x) (hg : Fe g b y) (hm : a + b ≤ 32) :
    Runs (add f g) (fun r => Fe r (a + b) (x + y) ∧ r.magnitude.toNat = f.magnitude.toNat + g.magnitude.toNat) := by
  unfold add
  obtain ⟨wf, mf, vf⟩ := hf
  obtain ⟨wg, mg, vg⟩ := hg
  have F := wf.lb
  have G := wg.lb
  refine Runs.bind (add32_runs (134217726 * (f.magnitude.toNat + g.magnitude.toNat)) F.h0 G.h0 (by omega) (by omega)) fun n0 h0 => ?_
  refine Runs.bind (add32_runs (134217726 * (f.magnitude.toNat + g.magnitude.toNat)) F.h1 G.h1 (by omega) (by omega)) fun n1 h1 => ?_
  refine Runs.bind (add32_runs (134217726 * (f.magnitude.toNat + g.magnitude.toNat)) F.h2 G.h2 (by omega) (by omega)) fun n2 h2 => ?_
  refine Runs.bind (add32_runs (134217726 * (f.magnitude.toNat + g.magnitude.toNat)) F.h3 G.h3 (by omega) (by omega)) fun n3 h3 => ?_
  refine Runs.bind (add32_runs (134217726 * (f.magnitude.toNat + g.magnitude.toNat)) F.h4 G.h4 (by omega) (by omega)) fun n4 h4 => ?_
  refine Runs.bind (add32_runs (134217726 * (f.magnitude.toNat + g.magnitude.toNat)) F.h5 G.h5 (by omega) (by omega)) fun n5 h5 => ?_
  refine Runs.bind (add32_runs (134217726 * (f.magnitude.toNat + g.magnitude.toNat)) F.h6 G.h6 (by omega) (by omega)) fun n6 h6 => ?_
  refine Runs.bind (add32_runs (134217726 * (f.magnitude.toNat + g.magnitude.toNat)) F.h7 G.h7 (by omega) (by omega)) fun n7 h7 => ?_
  refine Runs.bind (add32_runs (134217726 * (f.magnitude.toNat + g.magnitude.toNat)) F.h8 G.h8 (by omega) (by omega)) fun n8 h8 => ?_
  refine Runs.bind (add32_runs (8388606 * (f.magnitude.toNat + g.magnitude.toNat)) F.h9 G.h9 (by omega) (by omega)) fun n9 h9 => ?_
  refine Runs.bind (add32_runs 32 mf mg hm (by norm_num)) fun mag hmag => ?_
  have hw : WF { n := ⟨n0, n1, n2, n3, n4, n5, n6, n7, n8, n9⟩, magnitude := mag, normalized := false } := by
    refine wf_unnormal ?_ hmag.2
    rw [hmag.1]
    exact ⟨h0.2, h1.2, h2.2, h3.2, h4.2, h5.2, h6.2, h7.2, h8.2, h9.2⟩
  refine runs_dassertE (verify_runs hw) (runs_pure ⟨⟨hw, by dsimp only; omega, ?_⟩, hmag.1⟩)
  have : FElem.val { n := ⟨n0, n1, n2, n3, n4, n5, n6, n7, n8, n9⟩, magnitude := mag, normalized := false } = f.val + g.val := by
    simp only [FElem.val, Limbs10.val, h0.1, h1.1, h2.1, h3.1, h4.1, h5.1, h6.1, h7.1, h8.1, h9.1]
    ring
  rw [this, Nat.cast_add, vf, vg]

theorem negLimb_runs {c m x : UInt32} {M C : ℕ} (hc : c.toNat = C) (hC : C ≤ 67108863) (hm : m.toNat = M)
    (hM : M ≤ 31) (hx : x.toNat ≤ C * 2 * (M + 1)) :
    Runs (negLimb c m x) (fun r => r.toNat + x.toNat = C * 2 * (M + 1) ∧ r.toNat ≤ C * 2 * (M + 1)) := by
  unfold negLimb
  refine Runs.bind (mul32_runs (C * 2) hc.le (by decide : (2 : UInt32).toNat ≤ 2) le_rfl (by omega)) fun u hu => ?_
  refine Runs.bind (add32_runs (M + 1) hm.le (by decide : (1 : UInt32).toNat ≤ 1) le_rfl (by omega)) fun v hv => ?_
  have hbound : C * 2 * (M + 1) < 2 ^ 32 := by
    calc C * 2 * (M + 1) ≤ 67108863 * 2 * (31 + 1) := by gcongr
      _ < 2 ^ 32 := by norm_num
  refine Runs.bind (mul32_runs (C * 2 * (M + 1)) hu.2 hv.2 le_rfl hbound) fun w hw => ?_
  have hue : u.toNat = C * 2 := by rw [hu.1, hc]; rfl
  have hve : v.toNat = M + 1 := by rw [hv.1, hm]; rfl
  have hwe : w.toNat = C * 2 * (M + 1) := by rw [hw.1, hue, hve]
  refine (sub32_runs (by omega)).mono fun r hr => ?_
  rw [hr, hwe]; omega

theorem fe_neg {f : FElem} {m : UInt32} {M : ℕ} {x : Fp} (h : Fe f M x) (hmM : m.toNat = M) (hM : M ≤ 31) :
    Runs (neg f m) (fun r => Fe r (M + 1) (-x) ∧ r.magnitude.toNat = M + 1) := by
  unfold neg
  obtain ⟨wf, mf, vf⟩ := h
  have F := wf.lb
  refine runs_dassert (by rw [decide_eq_true_eq, UInt32.le_iff_toNat_le]; omega) ?_
  refine runs_dassertE (verify_runs wf) ?_
  refine Runs.bind (negLimb_runs (C := 67107887) rfl (by norm_num) hmM hM (by have := F.h0; omega)) fun n0 h0 => ?_
  refine Runs.bind (negLimb_runs (C := 67108799) rfl (by norm_num) hmM hM (by have := F.h1; omega)) fun n1 h1 => ?_
  refine Runs.bind (negLimb_runs (C := 67108863) rfl (by norm_num) hmM hM (by have := F.h2; omega)) fun n2 h2 => ?_
  refine Runs.bind (negLimb_runs (C := 67108863) rfl (by norm_num) hmM hM (by have := F.h3; omega)) fun n3 h3 => ?_
  refine Runs.bind (negLimb_runs (C := 67108863) rfl (by norm_num) hmM hM (by have := F.h4; omega)) fun n4 h4 => ?_
  refine Runs.bind (negLimb_runs (C := 67108863) rfl (by norm_num) hmM hM (by have := F.h5; omega)) fun n5 h5 => ?_
  refine Runs.bind (negLimb_runs (C := 67108863) rfl (by norm_num) hmM hM (by have := F.h6; omega)) fun n6 h6 => ?_
  refine Runs.bind (negLimb_runs (C := 67108863) rfl (by norm_num) hmM hM (by have := F.h7; omega)) fun n7 h7 => ?_
  refine Runs.bind (negLimb_runs (C := 67108863) rfl (by norm_num) hmM hM (by have := F.h8; omega)) fun n8 h8 => ?_
  refine Runs.bind (negLimb_runs (C := 4194303) rfl (by norm_num) hmM hM (by have := F.h9; omega)) fun n9 h9 => ?_
  refine Runs.bind (add32_runs 32 (hmM.le.trans hM) (by decide : (1 : UInt32).toNat ≤ 1) (by norm_num) (by norm_num)) fun mag hmag => ?_
  have e1 : mag.toNat = M + 1 := by rw [hmag.1, hmM]; rfl
  have hw : WF { n := ⟨n0, n1, n2, n3, n4, n5, n6, n7, n8, n9⟩, magnitude := mag, normalized := false } := by
    refine wf_unnormal ?_ hmag.2
    rw [e1]
    refine ⟨?_, ?_, ?_, ?_, ?_, ?_, ?_, ?_, ?_, ?_⟩ <;> dsimp only <;> omega
  refine runs_dassertE (verify_runs hw) (runs_pure ⟨⟨hw, by dsimp only; omega, ?_⟩, e1⟩)
  have : FElem.val { n := ⟨n0, n1, n2, n3, n4, n5, n6, n7, n8, n9⟩, magnitude := mag, normalized := false } + f.val = 2 * (M + 1) * p := by
    simp only [FElem.val, Limbs10.val, p]
    omega
  have h2 := congrArg (fun v : ℕ => (v : Fp)) this
  simp only [Nat.cast_add, Nat.cast_mul, ZMod.natCast_self, mul_zero, vf] at h2
  exact eq_neg_of_add_eq_zero_left h2

theorem fe_mulInt {f : FElem} {a : UInt32} {M : ℕ} {x : Fp} (k : ℕ) (h : Fe f M x) (hk : a.toNat = k) (hM : M * k ≤ 32) :
    Runs (mulInt f a) (fun r => Fe r (M * k) (x * k) ∧ r.magnitude.toNat = f.magnitude.toNat * k) := by
  unfold mulInt
  obtain ⟨wf, mf, vf⟩ := h
  have F := wf.lb
  have hmk : f.magnitude.toNat * k ≤ 32 := (Nat.mul_le_mul_right k mf).trans hM
  have hb : 134217726 * f.magnitude.toNat * k ≤ 134217726 * 32 := by rw [mul_assoc]; exact Nat.mul_le_mul_left _ hmk
  have hb9 : 8388606 * f.magnitude.toNat * k ≤ 8388606 * 32 := by rw [mul_assoc]; exact Nat.mul_le_mul_left _ hmk
  refine Runs.bind (mul32_runs (134217726 * f.magnitude.toNat * k) F.h0 hk.le le_rfl (by omega)) fun n0 h0 => ?_
  refine Runs.bind (mul32_runs (134217726 * f.magnitude.toNat * k) F.h1 hk.le le_rfl (by omega)) fun n1 h1 => ?_
  refine Runs.bind (mul32_runs (134217726 * f.magnitude.toNat * k) F.h2 hk.le le_rfl (by omega)) fun n2 h2 => ?_
  refine Runs.bind (mul32_runs (134217726 * f.magnitude.toNat * k) F.h3 hk.le le_rfl (by omega)) fun n3 h3 => ?_
  refine Runs.bind (mul32_runs (134217726 * f.magnitude.toNat * k) F.h4 hk.le le_rfl (by omega)) fun n4 h4 => ?_
  refine Runs.bind (mul32_runs (134217726 * f.magnitude.toNat * k) F.h5 hk.le le_rfl (by omega)) fun n5 h5 => ?_
  refine Runs.bind (mul32_runs (134217726 * f.magnitude.toNat * k) F.h6 hk.le le_rfl (by omega)) fun n6 h6 => ?_
  refine Runs.bind (mul32_runs (134217726 * f.magnitude.toNat * k) F.h7 hk.le le_rfl (by omega)) fun n7 h7 => ?_
  refine Runs.bind (mul32_runs (134217726 * f.magnitude.toNat * k) F.h8 hk.le le_rfl (by omega)) fun n8 h8 => ?_
  refine Runs.bind (mul32_runs (8388606 * f.magnitude.toNat * k) F.h9 hk.le le_rfl (by omega)) fun n9 h9 => ?_
  refine Runs.bind (mul32_runs (f.magnitude.toNat * k) le_rfl hk.le le_rfl (by omega)) fun mag hmag => ?_
  rw [hk] at h0 h1 h2 h3 h4 h5 h6 h7 h8 h9 hmag
  have hw : WF { n := ⟨n0, n1, n2, n3, n4, n5, n6, n7, n8, n9⟩, magnitude := mag, normalized := false } := by
    refine wf_unnormal ?_ (hmag.2.trans hmk)
    rw [hmag.1, ← mul_assoc, ← mul_assoc]
    exact ⟨h0.2, h1.2, h2.2, h3.2, h4.2, h5.2, h6.2, h7.2, h8.2, h9.2⟩
  refine runs_dassertE (verify_runs hw) (runs_pure ⟨⟨hw, hmag.2.trans (Nat.mul_le_mul_right k mf), ?_⟩, hmag.1⟩)
  have : FElem.val { n := ⟨n0, n1, n2, n3, n4, n5, n6, n7, n8, n9⟩, magnitude := mag, normalized := false } = f.val * k := by
    simp only [FElem.val, Limbs10.val, h0.1, h1.1, h2.1, h3.1, h4.1, h5.1, h6.1, h7.1, h8.1, h9.1]
    ring
  rw [this, Nat.cast_mul, vf]

/-! Multiplication and squaring. -/

theorem WF.lb8 {f : FElem} (h : WF f) (hm : f.magnitude.toNat ≤ 8) : f.n.LB 1073741808 67108848 :=
  h.lb.mono (by omega) (by omega)

theorem le_lit32 {x : UInt32} {M : ℕ} (hm : M ≤ 8) (h : x.toNat ≤ M) : decide (x ≤ 8) = true := by
  rw [decide_eq_true_eq, UInt32.le_iff_toNat_le]
  exact h.trans hm

theorem fe_mul {f g : FElem} {a b : ℕ} {x y : Fp} (hf : Fe f a x) (hg : Fe g b y) (ha : a ≤ 8) (hb : b ≤ 8) :
    Runs (mul f g) (fun r => Fe r 1 (x * y) ∧ r.magnitude = 1 ∧ r.normalized = false) := by
  unfold mul
  obtain ⟨wf, mf, vf⟩ := hf
  obtain ⟨wg, mg, vg⟩ := hg
  refine runs_dassert (le_lit32 ha mf) ?_
  refine runs_dassert (le_lit32 hb mg) ?_
  refine runs_dassertE (verify_runs wf) ?_
  refine runs_dassertE (verify_runs wg) ?_
  refine Runs.bind (mulInner_runs (wf.lb8 (mf.trans ha)) (wg.lb8 (mg.trans hb))) fun t ⟨ht, K, hK⟩ => ?_
  have hw : WF { n := t, magnitude := 1, normalized := false } :=
    wf_unnormal (ht.mono (by decide) (by decide)) (by decide)
  refine runs_dassertE (verify_runs hw) (runs_pure ⟨⟨hw, by simp, ?_⟩, rfl, rfl⟩)
  have h2 := congrArg (fun v : ℕ => (v : Fp)) hK
  simp only [Nat.cast_add, Nat.cast_mul, ZMod.natCast_self, zero_mul, add_zero] at h2
  rw [← vf, ← vg]; exact h2

theorem fe_sqr {f : FElem} {a : ℕ} {x : Fp} (hf : Fe f a x) (ha : a ≤ 8) :
    Runs (sqr f) (fun r => Fe r 1 (x * x) ∧ r.magnitude = 1 ∧ r.normalized = false) := by
  unfold sqr
  obtain ⟨wf, mf, vf⟩ := hf
  refine runs_dassert (le_lit32 ha mf) ?_
  refine runs_dassertE (verify_runs wf) ?_
  refine Runs.bind (sqrInner_runs (wf.lb8 (mf.trans ha))) fun t ⟨ht, K, hK⟩ => ?_
  have hw : WF { n := t, magnitude := 1, normalized := false } :=
    wf_unnormal (ht.mono (by decide) (by decide)) (by decide)
  refine runs_dassertE (verify_runs wf) (runs_pure ⟨⟨hw, by simp, ?_⟩, rfl, rfl⟩)
  have h2 := congrArg (fun v : ℕ => (v : Fp)) hK
  simp only [Nat.cast_add, Nat.cast_mul, ZMod.natCast_self, zero_mul, add_zero] at h2
  rw [← vf]; exact h2

/-! Comparisons. -/

theorem eq_runs {f g : FElem} {a b : ℕ} {x y : Fp} (hf : Fe f a x) (hg : Fe g b y) (h : a + 1 + b ≤ 31) :
    Runs (eq f g) (fun r => r = decide (x = y)) := by
  unfold eq
  refine Runs.bind (fe_neg (M := f.magnitude.toNat) ⟨hf.1, le_rfl, hf.2.2⟩ rfl (by have := hf.2.1; omega)) fun na hna => ?_
  have := hf.2.1
  refine Runs.bind (fe_add hna.1 hg (by omega)) fun nb hnb => ?_
  refine (fe_normalizesToZero hnb.1 (by omega)).mono fun r hr => ?_
  rw [hr, decide_eq_decide, neg_add_eq_zero]

theorem eqVar_runs {f g : FElem} {b : ℕ} {x y : Fp} (hf : Fe f 1 x) (hg : Fe g b y) (h : b ≤ 29) :
    Runs (eqVar f g) (fun r => r = decide (x = y)) := by
  unfold eqVar
  refine Runs.bind (fe_neg (M := 1) hf rfl (by norm_num)) fun na hna => ?_
  refine Runs.bind (fe_add hna.1 hg (by omega)) fun nb hnb => ?_
  refine (fe_normalizesToZeroVar hnb.1 (by omega)).mono fun r hr => ?_
  rw [hr, decide_eq_decide, neg_add_eq_zero]

theorem isZero_runs {f : FElem} {x : Fp} (h : FeN f x) : Runs (isZero f) (fun b => b = decide (x = 0)) := by
  unfold isZero
  refine runs_dassert h.2.1 (runs_dassertE (verify_runs h.1) (runs_pure ?_))
  have : f.n.val = x.val := h.2.2
  rw [maskZ0_iff, decide_eq_decide, this, ZMod.val_eq_zero]

theorem isOdd_runs {f : FElem} {x : Fp} (h : FeN f x) : Runs (isOdd f) (fun b => b = decide (x.val % 2 = 1)) := by
  unfold isOdd
  refine runs_dassert h.2.1 (runs_dassertE (verify_runs h.1) (runs_pure ?_))
  have : f.n.val = x.val := h.2.2
  rw [← this, Bool.eq_iff_iff, bne_iff_ne, decide_eq_true_eq, ne_eq, ← UInt32.toNat_inj]
  have e : (f.n.n0 &&& 1).toNat = f.n.n0.toNat % 2 := by
    rw [UInt32.toNat_and]; exact Nat.and_one_is_mod _
  rw [e, UInt32.toNat_zero]
  simp only [Limbs10.val]
  omega

theorem cmp_cons (x y : UInt32) (xs ys : List UInt32) : cmpLoop (x :: xs) (y :: ys) =
    if y.toNat < x.toNat then .gt else if x.toNat < y.toNat then .lt else cmpLoop xs ys := by
  rw [cmpLoop]; simp only [gt_iff_lt, UInt32.lt_iff_toNat_lt]

theorem cmpLoop_spec (t u : Limbs10) (ht : t.LB 67108863 4194303) (hu : u.LB 67108863 4194303) :
    cmpLoop (limbsRev t) (limbsRev u) = compare t.val u.val := by
  obtain ⟨t0, t1, t2, t3, t4, t5, t6, t7, t8, t9⟩ := ht
  obtain ⟨u0, u1, u2, u3, u4, u5, u6, u7, u8, u9⟩ := hu
  have gt' : ∀ {v w : ℕ}, w < v → Ordering.gt = compare v w := fun h => (compare_gt_iff_gt.2 h).symm
  have lt' : ∀ {v w : ℕ}, v < w → Ordering.lt = compare v w := fun h => (compare_lt_iff_lt.2 h).symm
  unfold limbsRev
  rw [cmp_cons]
  split
  · apply gt'; simp only [Limbs10.val]; omega
  split
  · apply lt'; simp only [Limbs10.val]; omega
  rw [cmp_cons]
  split
  · apply gt'; simp only [Limbs10.val]; omega
  split
  · apply lt'; simp only [Limbs10.val]; omega
  rw [cmp_cons]
  split
  · apply gt'; simp only [Limbs10.val]; omega
  split
  · apply lt'; simp only [Limbs10.val]; omega
  rw [cmp_cons]
  split
  · apply gt'; simp only [Limbs10.val]; omega
  split
  · apply lt'; simp only [Limbs10.val]; omega
  rw [cmp_cons]
  split
  · apply gt'; simp only [Limbs10.val]; omega
  split
  · apply lt'; simp only [Limbs10.val]; omega
  rw [cmp_cons]
  split
  · apply gt'; simp only [Limbs10.val]; omega
  split
  · apply lt'; simp only [Limbs10.val]; omega
  rw [cmp_cons]
  split
  · apply gt'; simp only [Limbs10.val]; omega
  split
  · apply lt'; simp only [Limbs10.val]; omega
  rw [cmp_cons]
  split
  · apply gt'; simp only [Limbs10.val]; omega
  split
  · apply lt'; simp only [Limbs10.val]; omega
  rw [cmp_cons]
  split
  · apply gt'; simp only [Limbs10.val]; omega
  split
  · apply lt'; simp only [Limbs10.val]; omega
  rw [cmp_cons]
  split
  · apply gt'; simp only [Limbs10.val]; omega
  split
  · apply lt'; simp only [Limbs10.val]; omega
  · show Ordering.eq = _; symm; rw [compare_eq_iff_eq]; simp only [Limbs10.val]; omega

theorem FeN.lb {f : FElem} {x : Fp} (h : FeN f x) : f.n.LB 67108863 4194303 := by
  obtain ⟨h1, h2, _⟩ := h.1.norm h.2.1
  exact h2.mono (by omega) (by omega)

theorem cmpVar_runs {f g : FElem} {x y : Fp} (hf : FeN f x) (hg : FeN g y) :
    Runs (cmpVar f g) (fun r => r = compare x.val y.val) := by
  unfold cmpVar
  refine runs_dassert hf.2.1 (runs_dassert hg.2.1 (runs_dassertE (verify_runs hf.1) (runs_dassertE (verify_runs hg.1) (runs_pure ?_))))
  rw [cmpLoop_spec _ _ hf.lb hg.lb, ← hf.2.2, ← hg.2.2]; rfl

/-! Small integers, constants. -/

theorem setInt_runs {a : UInt32} (h : a.toNat ≤ 67108863) : Runs (setInt a) (fun r => FeN r (a.toNat : Fp) ∧ r.magnitude = 1) := by
  unfold setInt
  have hv : Limbs10.val ⟨a, 0, 0, 0, 0, 0, 0, 0, 0, 0⟩ = a.toNat := by simp [Limbs10.val]
  have hp : a.toNat < p := by unfold p; omega
  have hw := wf_normal (t := ⟨a, 0, 0, 0, 0, 0, 0, 0, 0, 0⟩)
    ⟨h, by simp, by simp, by simp, by simp, by simp, by simp, by simp, by simp, by simp⟩ (by rw [hv]; exact hp)
  refine runs_dassertE (verify_runs hw) (runs_pure ⟨⟨hw, rfl, ?_⟩, rfl⟩)
  show Limbs10.val _ = _
  rw [hv, ZMod.val_natCast, Nat.mod_eq_of_lt hp]

theorem zero_feN : FeN zero 0 := by
  refine ⟨⟨?_, by decide, fun _ => ⟨by decide, ?_, by decide⟩⟩, rfl, by decide⟩ <;>
  · refine ⟨?_, ?_, ?_, ?_, ?_, ?_, ?_, ?_, ?_, ?_⟩ <;> decide

/-! Powers. -/

/-- `r` holds `x^k`. -/
def Pw (x : Fp) (k : ℕ) (r : FElem) : Prop := Fe r 8 (x ^ k)

/-- `r` holds `x^k` with magnitude 1. -/
def Pw1 (x : Fp) (k : ℕ) (r : FElem) : Prop := Fe r 1 (x ^ k)

theorem Pw1.pw {x : Fp} {k : ℕ} {r : FElem} (h : Pw1 x k r) : Pw x k r := h.mono (by norm_num)

theorem mul_pw {x : Fp} {f g : FElem} {j k : ℕ} (e : ℕ) (hf : Pw x j f) (hg : Pw x k g) (h : j + k = e) :
    Runs (mul f g) (Pw1 x e) := by
  refine (fe_mul hf hg le_rfl le_rfl).mono fun r hr => ?_
  unfold Pw1
  rw [← h, pow_add]; exact hr.1

theorem sqr_pw {x : Fp} {f : FElem} {j : ℕ} (e : ℕ) (hf : Pw x j f) (h : 2 * j = e) :
    Runs (sqr f) (Pw1 x e) := by
  refine (fe_sqr hf le_rfl).mono fun r hr => ?_
  unfold Pw1
  rw [← h, two_mul, pow_add]; exact hr.1

theorem sqrN_pw {x : Fp} {f : FElem} {j : ℕ} (m e : ℕ) (hf : Pw1 x j f) (h : j * 2 ^ m = e) :
    Runs (sqrN m f) (Pw1 x e) := by
  unfold sqrN
  rw [← h]
  refine forN_runs (fun i s => Pw1 x (j * 2 ^ i) s) m f (by simpa using hf) ?_
  intro i s _ hs
  exact sqr_pw _ hs.pw (by rw [pow_succ]; ring)

theorem inv_pow {f : FElem} {m : ℕ} {x : Fp} (h : Fe f m x) (hm : m ≤ 8) :
    Runs (inv f) (fun r => Fe r 1 (x ^ (p - 2))) := by
  have hp : p - 2 = 115792089237316195423570985008687907853269984665640564039457584007908834671661 := rfl
  rw [hp]
  have hx : Pw x 1 f := by unfold Pw; rw [pow_one]; exact h.mono hm
  unfold inv
  refine Runs.bind (sqr_pw 2 hx (by norm_num)) fun y1 h1 => ?_
  refine Runs.bind (mul_pw 3 h1.pw hx (by norm_num)) fun y2 h2 => ?_
  refine Runs.bind (sqr_pw 6 h2.pw (by norm_num)) fun y3 h3 => ?_
  refine Runs.bind (mul_pw 7 h3.pw hx (by norm_num)) fun y4 h4 => ?_
  refine Runs.bind (sqrN_pw 3 56 h4 (by norm_num)) fun y5 h5 => ?_
  refine Runs.bind (mul_pw 63 h5.pw h4.pw (by norm_num)) fun y6 h6 => ?_
  refine Runs.bind (sqrN_pw 3 504 h6 (by norm_num)) fun y7 h7 => ?_
  refine Runs.bind (mul_pw 511 h7.pw h4.pw (by norm_num)) fun y8 h8 => ?_
  refine Runs.bind (sqrN_pw 2 2044 h8 (by norm_num)) fun y9 h9 => ?_
  refine Runs.bind (mul_pw 2047 h9.pw h2.pw (by norm_num)) fun y10 h10 => ?_
  refine Runs.bind (sqrN_pw 11 4192256 h10 (by norm_num)) fun y11 h11 => ?_
  refine Runs.bind (mul_pw 4194303 h11.pw h10.pw (by norm_num)) fun y12 h12 => ?_
  refine Runs.bind (sqrN_pw 22 17592181850112 h12 (by norm_num)) fun y13 h13 => ?_
  refine Runs.bind (mul_pw 17592186044415 h13.pw h12.pw (by norm_num)) fun y14 h14 => ?_
  refine Runs.bind (sqrN_pw 44 309485009821327476538736640 h14 (by norm_num)) fun y15 h15 => ?_
  refine Runs.bind (mul_pw 309485009821345068724781055 h15.pw h14.pw (by norm_num)) fun y16 h16 => ?_
  refine Runs.bind (sqrN_pw 88 95780971304118053647396688887409314154826126411694080 h16 (by norm_num)) fun y17 h17 => ?_
  refine Runs.bind (mul_pw 95780971304118053647396689196894323976171195136475135 h17.pw h16.pw (by norm_num)) fun y18 h18 => ?_
  refine Runs.bind (sqrN_pw 44 1684996666696914987166688442938726917102321526408785762476789596160 h18 (by norm_num)) fun y19 h19 => ?_
  refine Runs.bind (mul_pw 1684996666696914987166688442938726917102321526408785780068975640575 h19.pw h14.pw (by norm_num)) fun y20 h20 => ?_
  refine Runs.bind (sqrN_pw 3 13479973333575319897333507543509815336818572211270286240551805124600 h20 (by norm_num)) fun y21 h21 => ?_
  refine Runs.bind (mul_pw 13479973333575319897333507543509815336818572211270286240551805124607 h21.pw h4.pw (by norm_num)) fun y22 h22 => ?_
  refine Runs.bind (sqrN_pw 23 113078212145816597093331040047546785012958969400039613319782796882719277056 h22 (by norm_num)) fun y23 h23 => ?_
  refine Runs.bind (mul_pw 113078212145816597093331040047546785012958969400039613319782796882723471359 h23.pw h12.pw (by norm_num)) fun y24 h24 => ?_
  refine Runs.bind (sqrN_pw 5 3618502788666131106986593281521497120414687020801267626233049500247151083488 h24 (by norm_num)) fun y25 h25 => ?_
  refine Runs.bind (mul_pw 3618502788666131106986593281521497120414687020801267626233049500247151083489 h25.pw hx (by norm_num)) fun y26 h26 => ?_
  refine Runs.bind (sqrN_pw 3 28948022309329048855892746252171976963317496166410141009864396001977208667912 h26 (by norm_num)) fun y27 h27 => ?_
  refine Runs.bind (mul_pw 28948022309329048855892746252171976963317496166410141009864396001977208667915 h27.pw h2.pw (by norm_num)) fun y28 h28 => ?_
  refine Runs.bind (sqrN_pw 2 115792089237316195423570985008687907853269984665640564039457584007908834671660 h28 (by norm_num)) fun y29 h29 => ?_
  exact mul_pw 115792089237316195423570985008687907853269984665640564039457584007908834671661 hx h29.pw (by norm_num)

theorem sqrt_pow {f : FElem} {m : ℕ} {x : Fp} (h : Fe f m x) (hm : m ≤ 8) :
    Runs (sqrt f) (fun r => Fe r.1 1 (x ^ ((p + 1) / 4)) ∧ r.2 = decide ((x ^ ((p + 1) / 4)) ^ 2 = x)) := by
  have hp : (p + 1) / 4 = 28948022309329048855892746252171976963317496166410141009864396001977208667916 := rfl
  rw [hp]
  have hx : Pw x 1 f := by unfold Pw; rw [pow_one]; exact h.mono hm
  unfold sqrt
  refine Runs.bind (sqr_pw 2 hx (by norm_num)) fun y1 h1 => ?_
  refine Runs.bind (mul_pw 3 h1.pw hx (by norm_num)) fun y2 h2 => ?_
  refine Runs.bind (sqr_pw 6 h2.pw (by norm_num)) fun y3 h3 => ?_
  refine Runs.bind (mul_pw 7 h3.pw hx (by norm_num)) fun y4 h4 => ?_
  refine Runs.bind (sqrN_pw 3 56 h4 (by norm_num)) fun y5 h5 => ?_
  refine Runs.bind (mul_pw 63 h5.pw h4.pw (by norm_num)) fun y6 h6 => ?_
  refine Runs.bind (sqrN_pw 3 504 h6 (by norm_num)) fun y7 h7 => ?_
  refine Runs.bind (mul_pw 511 h7.pw h4.pw (by norm_num)) fun y8 h8 => ?_
  refine Runs.bind (sqrN_pw 2 2044 h8 (by norm_num)) fun y9 h9 => ?_
  refine Runs.bind (mul_pw 2047 h9.pw h2.pw (by norm_num)) fun y10 h10 => ?_
  refine Runs.bind (sqrN_pw 11 4192256 h10 (by norm_num)) fun y11 h11 => ?_
  refine Runs.bind (mul_pw 4194303 h11.pw h10.pw (by norm_num)) fun y12 h12 => ?_
  refine Runs.bind (sqrN_pw 22 17592181850112 h12 (by norm_num)) fun y13 h13 => ?_
  refine Runs.bind (mul_pw 17592186044415 h13.pw h12.pw (by norm_num)) fun y14 h14 => ?_
  refine Runs.bind (sqrN_pw 44 309485009821327476538736640 h14 (by norm_num)) fun y15 h15 => ?_
  refine Runs.bind (mul_pw 309485009821345068724781055 h15.pw h14.pw (by norm_num)) fun y16 h16 => ?_
  refine Runs.bind (sqrN_pw 88 95780971304118053647396688887409314154826126411694080 h16 (by norm_num)) fun y17 h17 => ?_
  refine Runs.bind (mul_pw 95780971304118053647396689196894323976171195136475135 h17.pw h16.pw (by norm_num)) fun y18 h18 => ?_
  refine Runs.bind (sqrN_pw 44 1684996666696914987166688442938726917102321526408785762476789596160 h18 (by norm_num)) fun y19 h19 => ?_
  refine Runs.bind (mul_pw 1684996666696914987166688442938726917102321526408785780068975640575 h19.pw h14.pw (by norm_num)) fun y20 h20 => ?_
  refine Runs.bind (sqrN_pw 3 13479973333575319897333507543509815336818572211270286240551805124600 h20 (by norm_num)) fun y21 h21 => ?_
  refine Runs.bind (mul_pw 13479973333575319897333507543509815336818572211270286240551805124607 h21.pw h4.pw (by norm_num)) fun y22 h22 => ?_
  refine Runs.bind (sqrN_pw 23 113078212145816597093331040047546785012958969400039613319782796882719277056 h22 (by norm_num)) fun y23 h23 => ?_
  refine Runs.bind (mul_pw 113078212145816597093331040047546785012958969400039613319782796882723471359 h23.pw h12.pw (by norm_num)) fun y24 h24 => ?_
  refine Runs.bind (sqrN_pw 6 7237005577332262213973186563042994240829374041602535252466099000494302166976 h24 (by norm_num)) fun y25 h25 => ?_
  refine Runs.bind (mul_pw 7237005577332262213973186563042994240829374041602535252466099000494302166979 h25.pw h2.pw (by norm_num)) fun y26 h26 => ?_
  refine Runs.bind (sqr_pw 14474011154664524427946373126085988481658748083205070504932198000988604333958 h26.pw (by norm_num)) fun y27 h27 => ?_
  refine Runs.bind (sqr_pw 28948022309329048855892746252171976963317496166410141009864396001977208667916 h27.pw (by norm_num)) fun y28 h28 => ?_
  refine Runs.bind (sqr_pw 57896044618658097711785492504343953926634992332820282019728792003954417335832 h28.pw (by norm_num)) fun y29 h29 => ?_
  refine Runs.bind (eq_runs h29 h (by omega)) fun b hb => runs_pure ⟨h28, ?_⟩
  rw [hb, decide_eq_decide, show (57896044618658097711785492504343953926634992332820282019728792003954417335832 : ℕ) = 28948022309329048855892746252171976963317496166410141009864396001977208667916 * 2 by norm_num, pow_mul]

theorem cmov_eq (f g : FElem) (b : Bool) : cmov f g b = if b then g else f := by
  cases b <;> rfl

end FElem
end Verif
