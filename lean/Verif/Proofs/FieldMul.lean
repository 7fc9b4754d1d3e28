import Verif.Proofs.Field

/-! Multiplication and squaring of field elements. Generated interval proofs. -/

namespace Verif.FElem
open Verif Spec Limbs10

theorem runs_pure_bind {α β : Type} {a : α} {f : α → Exec β} {Q : β → Prop} (h : Runs (f a) Q) :
    Runs (pure a >>= f) Q := by rw [pure_bind]; exact h

theorem shr_zero64 {x : UInt64} {B : ℕ} (k : ℕ) (h : x.toNat ≤ B) (hk : k < 64) (hB : B < 2 ^ k) :
    (x >>> UInt64.ofNat k == 0) = true := by
  rw [beq_iff_eq]; apply UInt64.toNat_inj.1
  rw [UInt64.toNat_shiftRight, UInt64.toNat_ofNat_of_lt' (by unfold UInt64.size; omega),
    Nat.mod_eq_of_lt hk, Nat.shiftRight_eq_div_pow, Nat.div_eq_of_lt (by omega)]; rfl

theorem shr_zero32 {x : UInt32} {B : ℕ} (k : ℕ) (h : x.toNat ≤ B) (hk : k < 32) (hB : B < 2 ^ k) :
    (x >>> UInt32.ofNat k == 0) = true := by
  rw [beq_iff_eq]; apply UInt32.toNat_inj.1
  rw [UInt32.toNat_shiftRight, UInt32.toNat_ofNat_of_lt' (by unfold UInt32.size; omega),
    Nat.mod_eq_of_lt hk, Nat.shiftRight_eq_div_pow, Nat.div_eq_of_lt (by omega)]; rfl

theorem le_lit64 {x : UInt64} {B : ℕ} (k : ℕ) (h : x.toNat ≤ B) (hk : k < 2 ^ 64) (hB : B ≤ k) :
    decide (x ≤ UInt64.ofNat k) = true := by
  rw [decide_eq_true_eq, UInt64.le_iff_toNat_le, UInt64.toNat_ofNat_of_lt' hk]; omega

theorem mul32c {a : UInt32} {A : ℕ} (k C : ℕ) (ha : a.toNat ≤ A) (hk : k < 2 ^ 32) (hC : A * k ≤ C)
    (h : C < 2 ^ 32) : Runs (mul32 a (UInt32.ofNat k)) (fun r => r.toNat = a.toNat * k ∧ r.toNat ≤ C) := by
  have e : (UInt32.ofNat k).toNat = k := UInt32.toNat_ofNat_of_lt' hk
  refine (mul32_runs C ha e.le hC h).mono fun r hr => ?_
  rw [e] at hr; exact hr

theorem mul64c {a : UInt64} {A : ℕ} (k C : ℕ) (ha : a.toNat ≤ A) (hk : k < 2 ^ 64) (hC : A * k ≤ C)
    (h : C < 2 ^ 64) : Runs (mul64 a (UInt64.ofNat k)) (fun r => r.toNat = a.toNat * k ∧ r.toNat ≤ C) := by
  have e : (UInt64.ofNat k).toNat = k := UInt64.toNat_ofNat_of_lt' hk
  refine (mul64_runs C ha e.le hC h).mono fun r hr => ?_
  rw [e] at hr; exact hr

theorem add64u {a : UInt64} {b : UInt32} {A B : ℕ} (C : ℕ) (ha : a.toNat ≤ A) (hb : b.toNat ≤ B)
    (hC : A + B ≤ C) (h : C < 2 ^ 64) :
    Runs (add64 a b.toUInt64) (fun r => r.toNat = a.toNat + b.toNat ∧ r.toNat ≤ C) := by
  have := add64_runs (b := b.toUInt64) C ha (by rw [u32_u64]; exact hb) hC h
  rwa [u32_u64] at this

theorem pureB {x : UInt64} {v V : ℕ} (h : x.toNat = v ∧ x.toNat ≤ V) :
    Runs (pure x) (fun r => r.toNat = v ∧ r.toNat ≤ V) := runs_pure h

theorem selfB {x : UInt64} {V : ℕ} (h : x.toNat ≤ V) : x.toNat = x.toNat ∧ x.toNat ≤ V := ⟨rfl, h⟩

theorem wadd {x y : UInt64} {v w V W : ℕ} (C : ℕ) (hx : x.toNat = v ∧ x.toNat ≤ V)
    (hy : y.toNat = w ∧ y.toNat ≤ W) (hC : V + W ≤ C) (h : C < 2 ^ 64) :
    (x + y).toNat = v + w ∧ (x + y).toNat ≤ C := by
  rw [UInt64.toNat_add, Nat.mod_eq_of_lt (by omega)]; omega

theorem mulwB {x y : UInt32} {A B : ℕ} (C : ℕ) (hx : x.toNat ≤ A) (hy : y.toNat ≤ B) (hC : A * B ≤ C) :
    (mulw x y).toNat = x.toNat * y.toNat ∧ (mulw x y).toNat ≤ C := by
  rw [mulw, mulw_toNat]
  exact ⟨rfl, (Nat.mul_le_mul hx hy).trans hC⟩

theorem mulwB2 {e x y : UInt32} {A B : ℕ} (C : ℕ) (hx : e.toNat = x.toNat * 2 ∧ e.toNat ≤ A)
    (hy : y.toNat ≤ B) (hC : A * B ≤ C) :
    (mulw e y).toNat = x.toNat * 2 * y.toNat ∧ (mulw e y).toNat ≤ C := by
  rw [← hx.1]; exact mulwB C hx.2 hy hC

theorem and26_64 (d : UInt64) : (d &&& 0x3ffffff).toNat = d.toNat % 67108864 := by
  have : (67108863 : Nat) = 2 ^ 26 - 1 := rfl
  simp only [UInt64.toNat_and, UInt64.toNat_ofNat]
  norm_num
  rw [this, Nat.and_two_pow_sub_one_eq_mod]

theorem and22_64 (d : UInt64) : (d &&& 0x3fffff).toNat = d.toNat % 4194304 := by
  have : (4194303 : Nat) = 2 ^ 22 - 1 := rfl
  simp only [UInt64.toNat_and, UInt64.toNat_ofNat]
  norm_num
  rw [this, Nat.and_two_pow_sub_one_eq_mod]

theorem shr_64 (d : UInt64) (k : ℕ) (hk : k < 64) : (d >>> UInt64.ofNat k).toNat = d.toNat / 2 ^ k := by
  rw [UInt64.toNat_shiftRight, UInt64.toNat_ofNat_of_lt' (by unfold UInt64.size; omega),
    Nat.mod_eq_of_lt hk, Nat.shiftRight_eq_div_pow]

theorem and26_64_runs (d : UInt64) : Runs (pure (d &&& 0x3ffffff))
    (fun r => r.toNat + 67108864 * (d >>> UInt64.ofNat 26).toNat = d.toNat ∧ r.toNat ≤ 67108863) := by
  refine runs_pure ?_
  rw [and26_64, shr_64 _ _ (by norm_num)]
  constructor <;> omega

theorem lo26_runs (d : UInt64) : Runs (pure (lo26 d))
    (fun r => r.toNat + 67108864 * (d >>> UInt64.ofNat 26).toNat = d.toNat ∧ r.toNat ≤ 67108863) := by
  refine runs_pure ?_
  rw [lo26, UInt64.toNat_toUInt32, and26_64, shr_64 _ _ (by norm_num)]
  constructor <;> omega

theorem lo22_runs (d : UInt64) : Runs (pure (lo22 d))
    (fun r => r.toNat + 4194304 * (d >>> UInt64.ofNat 22).toNat = d.toNat ∧ r.toNat ≤ 4194303) := by
  refine runs_pure ?_
  rw [lo22, UInt64.toNat_toUInt32, and22_64, shr_64 _ _ (by norm_num)]
  constructor <;> omega

theorem shrB {d : UInt64} {D : ℕ} (k B : ℕ) (h : d.toNat ≤ D) (hk : k < 64) (hB : D / 2 ^ k ≤ B) :
    Runs (pure (d >>> UInt64.ofNat k))
    (fun r => r.toNat = (d >>> UInt64.ofNat k).toNat ∧ r.toNat ≤ B) := by
  refine runs_pure ⟨rfl, ?_⟩
  rw [shr_64 _ _ hk]; exact (Nat.div_le_div_right h).trans hB

theorem toU32B {d : UInt64} {D : ℕ} (h : d.toNat ≤ D) (hD : D < 2 ^ 32) :
    Runs (pure d.toUInt32) (fun r => r.toNat = d.toNat ∧ r.toNat ≤ D) := by
  refine runs_pure ?_
  rw [UInt64.toNat_toUInt32, Nat.mod_eq_of_lt (by omega)]; exact ⟨rfl, h⟩

theorem mulInner_runs {a b : Limbs10} (ha : a.LB 1073741808 67108848) (hb : b.LB 1073741808 67108848) :
    Runs (mulInner a b) (fun r => r.LB 134217726 8388606 ∧ ∃ K, r.val + p * K = a.val * b.val) := by
  unfold mulInner
  refine runs_dassert (shr_zero32 30 ha.h0 (by norm_num) (by norm_num)) ?_
  refine runs_dassert (shr_zero32 30 ha.h1 (by norm_num) (by norm_num)) ?_
  refine runs_dassert (shr_zero32 30 ha.h2 (by norm_num) (by norm_num)) ?_
  refine runs_dassert (shr_zero32 30 ha.h3 (by norm_num) (by norm_num)) ?_
  refine runs_dassert (shr_zero32 30 ha.h4 (by norm_num) (by norm_num)) ?_
  refine runs_dassert (shr_zero32 30 ha.h5 (by norm_num) (by norm_num)) ?_
  refine runs_dassert (shr_zero32 30 ha.h6 (by norm_num) (by norm_num)) ?_
  refine runs_dassert (shr_zero32 30 ha.h7 (by norm_num) (by norm_num)) ?_
  refine runs_dassert (shr_zero32 30 ha.h8 (by norm_num) (by norm_num)) ?_
  refine runs_dassert (shr_zero32 26 ha.h9 (by norm_num) (by norm_num)) ?_
  refine runs_dassert (shr_zero32 30 hb.h0 (by norm_num) (by norm_num)) ?_
  refine runs_dassert (shr_zero32 30 hb.h1 (by norm_num) (by norm_num)) ?_
  refine runs_dassert (shr_zero32 30 hb.h2 (by norm_num) (by norm_num)) ?_
  refine runs_dassert (shr_zero32 30 hb.h3 (by norm_num) (by norm_num)) ?_
  refine runs_dassert (shr_zero32 30 hb.h4 (by norm_num) (by norm_num)) ?_
  refine runs_dassert (shr_zero32 30 hb.h5 (by norm_num) (by norm_num)) ?_
  refine runs_dassert (shr_zero32 30 hb.h6 (by norm_num) (by norm_num)) ?_
  refine runs_dassert (shr_zero32 30 hb.h7 (by norm_num) (by norm_num)) ?_
  refine runs_dassert (shr_zero32 30 hb.h8 (by norm_num) (by norm_num)) ?_
  refine runs_dassert (shr_zero32 26 hb.h9 (by norm_num) (by norm_num)) ?_
  refine Runs.bind (pureB (wadd 9367486913545505280 (wadd 9295429337761188096 (wadd 8142507867514079232 (wadd 6989586397266970368 (wadd 5836664927019861504 (wadd 4683743456772752640 (wadd 3530821986525643776 (wadd 2377900516278534912 (wadd 1224979046031426048 (mulwB 72057575784317184 ha.h0 hb.h9 (by norm_num)) (mulwB 1152921470247108864 ha.h1 hb.h8 (by norm_num)) (by norm_num) (by norm_num)) (mulwB 1152921470247108864 ha.h2 hb.h7 (by norm_num)) (by norm_num) (by norm_num)) (mulwB 1152921470247108864 ha.h3 hb.h6 (by norm_num)) (by norm_num) (by norm_num)) (mulwB 1152921470247108864 ha.h4 hb.h5 (by norm_num)) (by norm_num) (by norm_num)) (mulwB 1152921470247108864 ha.h5 hb.h4 (by norm_num)) (by norm_num) (by norm_num)) (mulwB 1152921470247108864 ha.h6 hb.h3 (by norm_num)) (by norm_num) (by norm_num)) (mulwB 1152921470247108864 ha.h7 hb.h2 (by norm_num)) (by norm_num) (by norm_num)) (mulwB 1152921470247108864 ha.h8 hb.h1 (by norm_num)) (by norm_num) (by norm_num)) (mulwB 72057575784317184 ha.h9 hb.h0 (by norm_num)) (by norm_num) (by norm_num))) fun d_1 hd_1 => ?_
  refine Runs.bind (lo26_runs d_1) fun t9_1 ht9_1 => ?_
  refine Runs.bind (shrB 26 139586432480 hd_1.2 (by norm_num) (by norm_num)) fun d_2 hd_2 => ?_
  refine runs_dassert (shr_zero32 26 ht9_1.2 (by norm_num) (by norm_num)) ?_
  refine runs_dassert (shr_zero64 38 hd_2.2 (by norm_num) (by norm_num)) ?_
  refine Runs.bind (pureB (mulwB 1152921470247108864 ha.h0 hb.h0 (by norm_num))) fun c_1 hc_1 => ?_
  refine runs_dassert (shr_zero64 60 hc_1.2 (by norm_num) (by norm_num)) ?_
  refine Runs.bind (pureB (wadd 8214565582884828896 (wadd 8142508007100511712 (wadd 6989586536853402848 (wadd 5836665066606293984 (wadd 4683743596359185120 (wadd 3530822126112076256 (wadd 2377900655864967392 (wadd 1224979185617858528 (wadd 72057715370749664 (selfB hd_2.2) (mulwB 72057575784317184 ha.h1 hb.h9 (by norm_num)) (by norm_num) (by norm_num)) (mulwB 1152921470247108864 ha.h2 hb.h8 (by norm_num)) (by norm_num) (by norm_num)) (mulwB 1152921470247108864 ha.h3 hb.h7 (by norm_num)) (by norm_num) (by norm_num)) (mulwB 1152921470247108864 ha.h4 hb.h6 (by norm_num)) (by norm_num) (by norm_num)) (mulwB 1152921470247108864 ha.h5 hb.h5 (by norm_num)) (by norm_num) (by norm_num)) (mulwB 1152921470247108864 ha.h6 hb.h4 (by norm_num)) (by norm_num) (by norm_num)) (mulwB 1152921470247108864 ha.h7 hb.h3 (by norm_num)) (by norm_num) (by norm_num)) (mulwB 1152921470247108864 ha.h8 hb.h2 (by norm_num)) (by norm_num) (by norm_num)) (mulwB 72057575784317184 ha.h9 hb.h1 (by norm_num)) (by norm_num) (by norm_num))) fun d_3 hd_3 => ?_
  refine runs_dassert (shr_zero64 63 hd_3.2 (by norm_num) (by norm_num)) ?_
  refine Runs.bind (and26_64_runs d_3) fun v0_1 hv0_1 => ?_
  refine Runs.bind (shrB 26 122406565887 hd_3.2 (by norm_num) (by norm_num)) fun d_4 hd_4 => ?_
  refine Runs.bind (mul64c 15632 1049045746416 hv0_1.2 (by norm_num) (by norm_num) (by norm_num)) fun x_1 hx_1 => ?_
  refine Runs.bind (add64_runs 1152922519292855280 hc_1.2 hx_1.2 (by norm_num) (by norm_num)) fun c_2 hc_2 => ?_
  refine runs_dassert (shr_zero64 26 hv0_1.2 (by norm_num) (by norm_num)) ?_
  refine runs_dassert (shr_zero64 37 hd_4.2 (by norm_num) (by norm_num)) ?_
  refine runs_dassert (shr_zero64 61 hc_2.2 (by norm_num) (by norm_num)) ?_
  refine Runs.bind (lo26_runs c_2) fun t0_1 ht0_1 => ?_
  refine Runs.bind (shrB 26 17179884303 hc_2.2 (by norm_num) (by norm_num)) fun c_3 hc_3 => ?_
  refine Runs.bind (mul64c 1024 68719475712 hv0_1.2 (by norm_num) (by norm_num) (by norm_num)) fun x_2 hx_2 => ?_
  refine Runs.bind (add64_runs 85899360015 hc_3.2 hx_2.2 (by norm_num) (by norm_num)) fun c_4 hc_4 => ?_
  refine runs_dassert (shr_zero32 26 ht0_1.2 (by norm_num) (by norm_num)) ?_
  refine runs_dassert (shr_zero64 37 hc_4.2 (by norm_num) (by norm_num)) ?_
  refine Runs.bind (pureB (wadd 2305843026393577743 (wadd 1152921556146468879 (selfB hc_4.2) (mulwB 1152921470247108864 ha.h0 hb.h1 (by norm_num)) (by norm_num) (by norm_num)) (mulwB 1152921470247108864 ha.h1 hb.h0 (by norm_num)) (by norm_num) (by norm_num))) fun c_5 hc_5 => ?_
  refine runs_dassert (shr_zero64 62 hc_5.2 (by norm_num) (by norm_num)) ?_
  refine Runs.bind (pureB (wadd 7061644095457853439 (wadd 6989586519673536255 (wadd 5836665049426427391 (wadd 4683743579179318527 (wadd 3530822108932209663 (wadd 2377900638685100799 (wadd 1224979168437991935 (wadd 72057698190883071 (selfB hd_4.2) (mulwB 72057575784317184 ha.h2 hb.h9 (by norm_num)) (by norm_num) (by norm_num)) (mulwB 1152921470247108864 ha.h3 hb.h8 (by norm_num)) (by norm_num) (by norm_num)) (mulwB 1152921470247108864 ha.h4 hb.h7 (by norm_num)) (by norm_num) (by norm_num)) (mulwB 1152921470247108864 ha.h5 hb.h6 (by norm_num)) (by norm_num) (by norm_num)) (mulwB 1152921470247108864 ha.h6 hb.h5 (by norm_num)) (by norm_num) (by norm_num)) (mulwB 1152921470247108864 ha.h7 hb.h4 (by norm_num)) (by norm_num) (by norm_num)) (mulwB 1152921470247108864 ha.h8 hb.h3 (by norm_num)) (by norm_num) (by norm_num)) (mulwB 72057575784317184 ha.h9 hb.h2 (by norm_num)) (by norm_num) (by norm_num))) fun d_5 hd_5 => ?_
  refine runs_dassert (shr_zero64 63 hd_5.2 (by norm_num) (by norm_num)) ?_
  refine Runs.bind (and26_64_runs d_5) fun v1_1 hv1_1 => ?_
  refine Runs.bind (shrB 26 105226696959 hd_5.2 (by norm_num) (by norm_num)) fun d_6 hd_6 => ?_
  refine Runs.bind (mul64c 15632 1049045746416 hv1_1.2 (by norm_num) (by norm_num) (by norm_num)) fun x_3 hx_3 => ?_
  refine Runs.bind (add64_runs 2305844075439324159 hc_5.2 hx_3.2 (by norm_num) (by norm_num)) fun c_6 hc_6 => ?_
  refine runs_dassert (shr_zero64 26 hv1_1.2 (by norm_num) (by norm_num)) ?_
  refine runs_dassert (shr_zero64 37 hd_6.2 (by norm_num) (by norm_num)) ?_
  refine runs_dassert (shr_zero64 63 hc_6.2 (by norm_num) (by norm_num)) ?_
  refine Runs.bind (lo26_runs c_6) fun t1_1 ht1_1 => ?_
  refine Runs.bind (shrB 26 34359754255 hc_6.2 (by norm_num) (by norm_num)) fun c_7 hc_7 => ?_
  refine Runs.bind (mul64c 1024 68719475712 hv1_1.2 (by norm_num) (by norm_num) (by norm_num)) fun x_4 hx_4 => ?_
  refine Runs.bind (add64_runs 103079229967 hc_7.2 hx_4.2 (by norm_num) (by norm_num)) fun c_8 hc_8 => ?_
  refine runs_dassert (shr_zero32 26 ht1_1.2 (by norm_num) (by norm_num)) ?_
  refine runs_dassert (shr_zero64 38 hc_8.2 (by norm_num) (by norm_num)) ?_
  refine Runs.bind (pureB (wadd 3458764513820556559 (wadd 2305843043573447695 (wadd 1152921573326338831 (selfB hc_8.2) (mulwB 1152921470247108864 ha.h0 hb.h2 (by norm_num)) (by norm_num) (by norm_num)) (mulwB 1152921470247108864 ha.h1 hb.h1 (by norm_num)) (by norm_num) (by norm_num)) (mulwB 1152921470247108864 ha.h2 hb.h0 (by norm_num)) (by norm_num) (by norm_num))) fun c_9 hc_9 => ?_
  refine runs_dassert (shr_zero64 62 hc_9.2 (by norm_num) (by norm_num)) ?_
  refine Runs.bind (pureB (wadd 5908722608030875647 (wadd 5836665032246558463 (wadd 4683743561999449599 (wadd 3530822091752340735 (wadd 2377900621505231871 (wadd 1224979151258123007 (wadd 72057681011014143 (selfB hd_6.2) (mulwB 72057575784317184 ha.h3 hb.h9 (by norm_num)) (by norm_num) (by norm_num)) (mulwB 1152921470247108864 ha.h4 hb.h8 (by norm_num)) (by norm_num) (by norm_num)) (mulwB 1152921470247108864 ha.h5 hb.h7 (by norm_num)) (by norm_num) (by norm_num)) (mulwB 1152921470247108864 ha.h6 hb.h6 (by norm_num)) (by norm_num) (by norm_num)) (mulwB 1152921470247108864 ha.h7 hb.h5 (by norm_num)) (by norm_num) (by norm_num)) (mulwB 1152921470247108864 ha.h8 hb.h4 (by norm_num)) (by norm_num) (by norm_num)) (mulwB 72057575784317184 ha.h9 hb.h3 (by norm_num)) (by norm_num) (by norm_num))) fun d_7 hd_7 => ?_
  refine runs_dassert (shr_zero64 63 hd_7.2 (by norm_num) (by norm_num)) ?_
  refine Runs.bind (and26_64_runs d_7) fun v2_1 hv2_1 => ?_
  refine Runs.bind (shrB 26 88046828031 hd_7.2 (by norm_num) (by norm_num)) fun d_8 hd_8 => ?_
  refine Runs.bind (mul64c 15632 1049045746416 hv2_1.2 (by norm_num) (by norm_num) (by norm_num)) fun x_5 hx_5 => ?_
  refine Runs.bind (add64_runs 3458765562866302975 hc_9.2 hx_5.2 (by norm_num) (by norm_num)) fun c_10 hc_10 => ?_
  refine runs_dassert (shr_zero64 26 hv2_1.2 (by norm_num) (by norm_num)) ?_
  refine runs_dassert (shr_zero64 37 hd_8.2 (by norm_num) (by norm_num)) ?_
  refine runs_dassert (shr_zero64 63 hc_10.2 (by norm_num) (by norm_num)) ?_
  refine Runs.bind (lo26_runs c_10) fun t2_1 ht2_1 => ?_
  refine Runs.bind (shrB 26 51539623183 hc_10.2 (by norm_num) (by norm_num)) fun c_11 hc_11 => ?_
  refine Runs.bind (mul64c 1024 68719475712 hv2_1.2 (by norm_num) (by norm_num) (by norm_num)) fun x_6 hx_6 => ?_
  refine Runs.bind (add64_runs 120259098895 hc_11.2 hx_6.2 (by norm_num) (by norm_num)) fun c_12 hc_12 => ?_
  refine runs_dassert (shr_zero32 26 ht2_1.2 (by norm_num) (by norm_num)) ?_
  refine runs_dassert (shr_zero64 38 hc_12.2 (by norm_num) (by norm_num)) ?_
  refine Runs.bind (pureB (wadd 4611686001247534351 (wadd 3458764531000425487 (wadd 2305843060753316623 (wadd 1152921590506207759 (selfB hc_12.2) (mulwB 1152921470247108864 ha.h0 hb.h3 (by norm_num)) (by norm_num) (by norm_num)) (mulwB 1152921470247108864 ha.h1 hb.h2 (by norm_num)) (by norm_num) (by norm_num)) (mulwB 1152921470247108864 ha.h2 hb.h1 (by norm_num)) (by norm_num) (by norm_num)) (mulwB 1152921470247108864 ha.h3 hb.h0 (by norm_num)) (by norm_num) (by norm_num))) fun c_13 hc_13 => ?_
  refine runs_dassert (shr_zero64 63 hc_13.2 (by norm_num) (by norm_num)) ?_
  refine Runs.bind (pureB (wadd 4755801120603897855 (wadd 4683743544819580671 (wadd 3530822074572471807 (wadd 2377900604325362943 (wadd 1224979134078254079 (wadd 72057663831145215 (selfB hd_8.2) (mulwB 72057575784317184 ha.h4 hb.h9 (by norm_num)) (by norm_num) (by norm_num)) (mulwB 1152921470247108864 ha.h5 hb.h8 (by norm_num)) (by norm_num) (by norm_num)) (mulwB 1152921470247108864 ha.h6 hb.h7 (by norm_num)) (by norm_num) (by norm_num)) (mulwB 1152921470247108864 ha.h7 hb.h6 (by norm_num)) (by norm_num) (by norm_num)) (mulwB 1152921470247108864 ha.h8 hb.h5 (by norm_num)) (by norm_num) (by norm_num)) (mulwB 72057575784317184 ha.h9 hb.h4 (by norm_num)) (by norm_num) (by norm_num))) fun d_9 hd_9 => ?_
  refine runs_dassert (shr_zero64 63 hd_9.2 (by norm_num) (by norm_num)) ?_
  refine Runs.bind (and26_64_runs d_9) fun v3_1 hv3_1 => ?_
  refine Runs.bind (shrB 26 70866959103 hd_9.2 (by norm_num) (by norm_num)) fun d_10 hd_10 => ?_
  refine Runs.bind (mul64c 15632 1049045746416 hv3_1.2 (by norm_num) (by norm_num) (by norm_num)) fun x_7 hx_7 => ?_
  refine Runs.bind (add64_runs 4611687050293280767 hc_13.2 hx_7.2 (by norm_num) (by norm_num)) fun c_14 hc_14 => ?_
  refine runs_dassert (shr_zero64 26 hv3_1.2 (by norm_num) (by norm_num)) ?_
  refine runs_dassert (shr_zero64 37 hd_10.2 (by norm_num) (by norm_num)) ?_
  refine Runs.bind (lo26_runs c_14) fun t3_1 ht3_1 => ?_
  refine Runs.bind (shrB 26 68719492111 hc_14.2 (by norm_num) (by norm_num)) fun c_15 hc_15 => ?_
  refine Runs.bind (mul64c 1024 68719475712 hv3_1.2 (by norm_num) (by norm_num) (by norm_num)) fun x_8 hx_8 => ?_
  refine Runs.bind (add64_runs 137438967823 hc_15.2 hx_8.2 (by norm_num) (by norm_num)) fun c_16 hc_16 => ?_
  refine runs_dassert (shr_zero32 26 ht3_1.2 (by norm_num) (by norm_num)) ?_
  refine runs_dassert (shr_zero64 39 hc_16.2 (by norm_num) (by norm_num)) ?_
  refine Runs.bind (pureB (wadd 5764607488674512143 (wadd 4611686018427403279 (wadd 3458764548180294415 (wadd 2305843077933185551 (wadd 1152921607686076687 (selfB hc_16.2) (mulwB 1152921470247108864 ha.h0 hb.h4 (by norm_num)) (by norm_num) (by norm_num)) (mulwB 1152921470247108864 ha.h1 hb.h3 (by norm_num)) (by norm_num) (by norm_num)) (mulwB 1152921470247108864 ha.h2 hb.h2 (by norm_num)) (by norm_num) (by norm_num)) (mulwB 1152921470247108864 ha.h3 hb.h1 (by norm_num)) (by norm_num) (by norm_num)) (mulwB 1152921470247108864 ha.h4 hb.h0 (by norm_num)) (by norm_num) (by norm_num))) fun c_17 hc_17 => ?_
  refine runs_dassert (shr_zero64 63 hc_17.2 (by norm_num) (by norm_num)) ?_
  refine Runs.bind (pureB (wadd 3602879633176920063 (wadd 3530822057392602879 (wadd 2377900587145494015 (wadd 1224979116898385151 (wadd 72057646651276287 (selfB hd_10.2) (mulwB 72057575784317184 ha.h5 hb.h9 (by norm_num)) (by norm_num) (by norm_num)) (mulwB 1152921470247108864 ha.h6 hb.h8 (by norm_num)) (by norm_num) (by norm_num)) (mulwB 1152921470247108864 ha.h7 hb.h7 (by norm_num)) (by norm_num) (by norm_num)) (mulwB 1152921470247108864 ha.h8 hb.h6 (by norm_num)) (by norm_num) (by norm_num)) (mulwB 72057575784317184 ha.h9 hb.h5 (by norm_num)) (by norm_num) (by norm_num))) fun d_11 hd_11 => ?_
  refine runs_dassert (shr_zero64 62 hd_11.2 (by norm_num) (by norm_num)) ?_
  refine Runs.bind (and26_64_runs d_11) fun v4_1 hv4_1 => ?_
  refine Runs.bind (shrB 26 53687090175 hd_11.2 (by norm_num) (by norm_num)) fun d_12 hd_12 => ?_
  refine Runs.bind (mul64c 15632 1049045746416 hv4_1.2 (by norm_num) (by norm_num) (by norm_num)) fun x_9 hx_9 => ?_
  refine Runs.bind (add64_runs 5764608537720258559 hc_17.2 hx_9.2 (by norm_num) (by norm_num)) fun c_18 hc_18 => ?_
  refine runs_dassert (shr_zero64 26 hv4_1.2 (by norm_num) (by norm_num)) ?_
  refine runs_dassert (shr_zero64 36 hd_12.2 (by norm_num) (by norm_num)) ?_
  refine Runs.bind (lo26_runs c_18) fun t4_1 ht4_1 => ?_
  refine Runs.bind (shrB 26 85899361039 hc_18.2 (by norm_num) (by norm_num)) fun c_19 hc_19 => ?_
  refine Runs.bind (mul64c 1024 68719475712 hv4_1.2 (by norm_num) (by norm_num) (by norm_num)) fun x_10 hx_10 => ?_
  refine Runs.bind (add64_runs 154618836751 hc_19.2 hx_10.2 (by norm_num) (by norm_num)) fun c_20 hc_20 => ?_
  refine runs_dassert (shr_zero32 26 ht4_1.2 (by norm_num) (by norm_num)) ?_
  refine runs_dassert (shr_zero64 39 hc_20.2 (by norm_num) (by norm_num)) ?_
  refine Runs.bind (pureB (wadd 6917528976101489935 (wadd 5764607505854381071 (wadd 4611686035607272207 (wadd 3458764565360163343 (wadd 2305843095113054479 (wadd 1152921624865945615 (selfB hc_20.2) (mulwB 1152921470247108864 ha.h0 hb.h5 (by norm_num)) (by norm_num) (by norm_num)) (mulwB 1152921470247108864 ha.h1 hb.h4 (by norm_num)) (by norm_num) (by norm_num)) (mulwB 1152921470247108864 ha.h2 hb.h3 (by norm_num)) (by norm_num) (by norm_num)) (mulwB 1152921470247108864 ha.h3 hb.h2 (by norm_num)) (by norm_num) (by norm_num)) (mulwB 1152921470247108864 ha.h4 hb.h1 (by norm_num)) (by norm_num) (by norm_num)) (mulwB 1152921470247108864 ha.h5 hb.h0 (by norm_num)) (by norm_num) (by norm_num))) fun c_21 hc_21 => ?_
  refine runs_dassert (shr_zero64 63 hc_21.2 (by norm_num) (by norm_num)) ?_
  refine Runs.bind (pureB (wadd 2449958145749942271 (wadd 2377900569965625087 (wadd 1224979099718516223 (wadd 72057629471407359 (selfB hd_12.2) (mulwB 72057575784317184 ha.h6 hb.h9 (by norm_num)) (by norm_num) (by norm_num)) (mulwB 1152921470247108864 ha.h7 hb.h8 (by norm_num)) (by norm_num) (by norm_num)) (mulwB 1152921470247108864 ha.h8 hb.h7 (by norm_num)) (by norm_num) (by norm_num)) (mulwB 72057575784317184 ha.h9 hb.h6 (by norm_num)) (by norm_num) (by norm_num))) fun d_13 hd_13 => ?_
  refine runs_dassert (shr_zero64 62 hd_13.2 (by norm_num) (by norm_num)) ?_
  refine Runs.bind (and26_64_runs d_13) fun v5_1 hv5_1 => ?_
  refine Runs.bind (shrB 26 36507221247 hd_13.2 (by norm_num) (by norm_num)) fun d_14 hd_14 => ?_
  refine Runs.bind (mul64c 15632 1049045746416 hv5_1.2 (by norm_num) (by norm_num) (by norm_num)) fun x_11 hx_11 => ?_
  refine Runs.bind (add64_runs 6917530025147236351 hc_21.2 hx_11.2 (by norm_num) (by norm_num)) fun c_22 hc_22 => ?_
  refine runs_dassert (shr_zero64 26 hv5_1.2 (by norm_num) (by norm_num)) ?_
  refine runs_dassert (shr_zero64 36 hd_14.2 (by norm_num) (by norm_num)) ?_
  refine Runs.bind (lo26_runs c_22) fun t5_1 ht5_1 => ?_
  refine Runs.bind (shrB 26 103079229967 hc_22.2 (by norm_num) (by norm_num)) fun c_23 hc_23 => ?_
  refine Runs.bind (mul64c 1024 68719475712 hv5_1.2 (by norm_num) (by norm_num) (by norm_num)) fun x_12 hx_12 => ?_
  refine Runs.bind (add64_runs 171798705679 hc_23.2 hx_12.2 (by norm_num) (by norm_num)) fun c_24 hc_24 => ?_
  refine runs_dassert (shr_zero32 26 ht5_1.2 (by norm_num) (by norm_num)) ?_
  refine runs_dassert (shr_zero64 39 hc_24.2 (by norm_num) (by norm_num)) ?_
  refine Runs.bind (pureB (wadd 8070450463528467727 (wadd 6917528993281358863 (wadd 5764607523034249999 (wadd 4611686052787141135 (wadd 3458764582540032271 (wadd 2305843112292923407 (wadd 1152921642045814543 (selfB hc_24.2) (mulwB 1152921470247108864 ha.h0 hb.h6 (by norm_num)) (by norm_num) (by norm_num)) (mulwB 1152921470247108864 ha.h1 hb.h5 (by norm_num)) (by norm_num) (by norm_num)) (mulwB 1152921470247108864 ha.h2 hb.h4 (by norm_num)) (by norm_num) (by norm_num)) (mulwB 1152921470247108864 ha.h3 hb.h3 (by norm_num)) (by norm_num) (by norm_num)) (mulwB 1152921470247108864 ha.h4 hb.h2 (by norm_num)) (by norm_num) (by norm_num)) (mulwB 1152921470247108864 ha.h5 hb.h1 (by norm_num)) (by norm_num) (by norm_num)) (mulwB 1152921470247108864 ha.h6 hb.h0 (by norm_num)) (by norm_num) (by norm_num))) fun c_25 hc_25 => ?_
  refine runs_dassert (shr_zero64 63 hc_25.2 (by norm_num) (by norm_num)) ?_
  refine Runs.bind (pureB (wadd 1297036658322964479 (wadd 1224979082538647295 (wadd 72057612291538431 (selfB hd_14.2) (mulwB 72057575784317184 ha.h7 hb.h9 (by norm_num)) (by norm_num) (by norm_num)) (mulwB 1152921470247108864 ha.h8 hb.h8 (by norm_num)) (by norm_num) (by norm_num)) (mulwB 72057575784317184 ha.h9 hb.h7 (by norm_num)) (by norm_num) (by norm_num))) fun d_15 hd_15 => ?_
  refine runs_dassert (shr_zero64 61 hd_15.2 (by norm_num) (by norm_num)) ?_
  refine Runs.bind (and26_64_runs d_15) fun v6_1 hv6_1 => ?_
  refine Runs.bind (shrB 26 19327352319 hd_15.2 (by norm_num) (by norm_num)) fun d_16 hd_16 => ?_
  refine Runs.bind (mul64c 15632 1049045746416 hv6_1.2 (by norm_num) (by norm_num) (by norm_num)) fun x_13 hx_13 => ?_
  refine Runs.bind (add64_runs 8070451512574214143 hc_25.2 hx_13.2 (by norm_num) (by norm_num)) fun c_26 hc_26 => ?_
  refine runs_dassert (shr_zero64 26 hv6_1.2 (by norm_num) (by norm_num)) ?_
  refine runs_dassert (shr_zero64 35 hd_16.2 (by norm_num) (by norm_num)) ?_
  refine Runs.bind (lo26_runs c_26) fun t6_1 ht6_1 => ?_
  refine Runs.bind (shrB 26 120259098895 hc_26.2 (by norm_num) (by norm_num)) fun c_27 hc_27 => ?_
  refine Runs.bind (mul64c 1024 68719475712 hv6_1.2 (by norm_num) (by norm_num) (by norm_num)) fun x_14 hx_14 => ?_
  refine Runs.bind (add64_runs 188978574607 hc_27.2 hx_14.2 (by norm_num) (by norm_num)) fun c_28 hc_28 => ?_
  refine runs_dassert (shr_zero32 26 ht6_1.2 (by norm_num) (by norm_num)) ?_
  refine runs_dassert (shr_zero64 39 hc_28.2 (by norm_num) (by norm_num)) ?_
  refine Runs.bind (pureB (wadd 9223371950955445519 (wadd 8070450480708336655 (wadd 6917529010461227791 (wadd 5764607540214118927 (wadd 4611686069967010063 (wadd 3458764599719901199 (wadd 2305843129472792335 (wadd 1152921659225683471 (selfB hc_28.2) (mulwB 1152921470247108864 ha.h0 hb.h7 (by norm_num)) (by norm_num) (by norm_num)) (mulwB 1152921470247108864 ha.h1 hb.h6 (by norm_num)) (by norm_num) (by norm_num)) (mulwB 1152921470247108864 ha.h2 hb.h5 (by norm_num)) (by norm_num) (by norm_num)) (mulwB 1152921470247108864 ha.h3 hb.h4 (by norm_num)) (by norm_num) (by norm_num)) (mulwB 1152921470247108864 ha.h4 hb.h3 (by norm_num)) (by norm_num) (by norm_num)) (mulwB 1152921470247108864 ha.h5 hb.h2 (by norm_num)) (by norm_num) (by norm_num)) (mulwB 1152921470247108864 ha.h6 hb.h1 (by norm_num)) (by norm_num) (by norm_num)) (mulwB 1152921470247108864 ha.h7 hb.h0 (by norm_num)) (by norm_num) (by norm_num))) fun c_29 hc_29 => ?_
  refine runs_dassert (le_lit64 0x8000007c00000007 hc_29.2 (by norm_num) (by norm_num)) ?_
  refine Runs.bind (pureB (wadd 144115170895986687 (wadd 72057595111669503 (selfB hd_16.2) (mulwB 72057575784317184 ha.h8 hb.h9 (by norm_num)) (by norm_num) (by norm_num)) (mulwB 72057575784317184 ha.h9 hb.h8 (by norm_num)) (by norm_num) (by norm_num))) fun d_17 hd_17 => ?_
  refine runs_dassert (shr_zero64 58 hd_17.2 (by norm_num) (by norm_num)) ?_
  refine Runs.bind (and26_64_runs d_17) fun v7_1 hv7_1 => ?_
  refine Runs.bind (shrB 26 2147483391 hd_17.2 (by norm_num) (by norm_num)) fun d_18 hd_18 => ?_
  refine Runs.bind (mul64c 15632 1049045746416 hv7_1.2 (by norm_num) (by norm_num) (by norm_num)) fun x_15 hx_15 => ?_
  refine Runs.bind (add64_runs 9223373000001191935 hc_29.2 hx_15.2 (by norm_num) (by norm_num)) fun c_30 hc_30 => ?_
  refine runs_dassert (shr_zero64 26 hv7_1.2 (by norm_num) (by norm_num)) ?_
  refine runs_dassert (shr_zero64 32 hd_18.2 (by norm_num) (by norm_num)) ?_
  refine runs_dassert (le_lit64 0x800001703fffc2f7 hc_30.2 (by norm_num) (by norm_num)) ?_
  refine Runs.bind (lo26_runs c_30) fun t7_1 ht7_1 => ?_
  refine Runs.bind (shrB 26 137438967823 hc_30.2 (by norm_num) (by norm_num)) fun c_31 hc_31 => ?_
  refine Runs.bind (mul64c 1024 68719475712 hv7_1.2 (by norm_num) (by norm_num) (by norm_num)) fun x_16 hx_16 => ?_
  refine Runs.bind (add64_runs 206158443535 hc_31.2 hx_16.2 (by norm_num) (by norm_num)) fun c_32 hc_32 => ?_
  refine runs_dassert (shr_zero32 26 ht7_1.2 (by norm_num) (by norm_num)) ?_
  refine runs_dassert (shr_zero64 38 hc_32.2 (by norm_num) (by norm_num)) ?_
  refine Runs.bind (pureB (wadd 10376293438382423311 (wadd 9223371968135314447 (wadd 8070450497888205583 (wadd 6917529027641096719 (wadd 5764607557393987855 (wadd 4611686087146878991 (wadd 3458764616899770127 (wadd 2305843146652661263 (wadd 1152921676405552399 (selfB hc_32.2) (mulwB 1152921470247108864 ha.h0 hb.h8 (by norm_num)) (by norm_num) (by norm_num)) (mulwB 1152921470247108864 ha.h1 hb.h7 (by norm_num)) (by norm_num) (by norm_num)) (mulwB 1152921470247108864 ha.h2 hb.h6 (by norm_num)) (by norm_num) (by norm_num)) (mulwB 1152921470247108864 ha.h3 hb.h5 (by norm_num)) (by norm_num) (by norm_num)) (mulwB 1152921470247108864 ha.h4 hb.h4 (by norm_num)) (by norm_num) (by norm_num)) (mulwB 1152921470247108864 ha.h5 hb.h3 (by norm_num)) (by norm_num) (by norm_num)) (mulwB 1152921470247108864 ha.h6 hb.h2 (by norm_num)) (by norm_num) (by norm_num)) (mulwB 1152921470247108864 ha.h7 hb.h1 (by norm_num)) (by norm_num) (by norm_num)) (mulwB 1152921470247108864 ha.h8 hb.h0 (by norm_num)) (by norm_num) (by norm_num))) fun c_33 hc_33 => ?_
  refine runs_dassert (le_lit64 0x9000007b80000008 hc_33.2 (by norm_num) (by norm_num)) ?_
  refine Runs.bind (pureB (wadd 4503599627370495 (selfB hd_18.2) (mulwB 4503597479887104 ha.h9 hb.h9 (by norm_num)) (by norm_num) (by norm_num))) fun d_19 hd_19 => ?_
  refine runs_dassert (shr_zero64 57 hd_19.2 (by norm_num) (by norm_num)) ?_
  refine Runs.bind (and26_64_runs d_19) fun v8_1 hv8_1 => ?_
  refine Runs.bind (shrB 26 67108863 hd_19.2 (by norm_num) (by norm_num)) fun d_20 hd_20 => ?_
  refine Runs.bind (mul64c 15632 1049045746416 hv8_1.2 (by norm_num) (by norm_num) (by norm_num)) fun x_17 hx_17 => ?_
  refine Runs.bind (add64_runs 10376294487428169727 hc_33.2 hx_17.2 (by norm_num) (by norm_num)) fun c_34 hc_34 => ?_
  refine runs_dassert (shr_zero64 26 hv8_1.2 (by norm_num) (by norm_num)) ?_
  refine runs_dassert (shr_zero64 31 hd_20.2 (by norm_num) (by norm_num)) ?_
  refine runs_dassert (le_lit64 0x9000016fbfffc2f8 hc_34.2 (by norm_num) (by norm_num)) ?_
  refine runs_pure_bind ?_
  refine runs_dassert (shr_zero32 26 ht3_1.2 (by norm_num) (by norm_num)) ?_
  refine runs_pure_bind ?_
  refine runs_dassert (shr_zero32 26 ht4_1.2 (by norm_num) (by norm_num)) ?_
  refine runs_pure_bind ?_
  refine runs_dassert (shr_zero32 26 ht5_1.2 (by norm_num) (by norm_num)) ?_
  refine runs_pure_bind ?_
  refine runs_dassert (shr_zero32 26 ht6_1.2 (by norm_num) (by norm_num)) ?_
  refine runs_pure_bind ?_
  refine runs_dassert (shr_zero32 26 ht7_1.2 (by norm_num) (by norm_num)) ?_
  refine Runs.bind (lo26_runs c_34) fun r8_1 hr8_1 => ?_
  refine Runs.bind (shrB 26 154618836751 hc_34.2 (by norm_num) (by norm_num)) fun c_35 hc_35 => ?_
  refine Runs.bind (mul64c 1024 68719475712 hv8_1.2 (by norm_num) (by norm_num) (by norm_num)) fun x_18 hx_18 => ?_
  refine Runs.bind (add64_runs 223338312463 hc_35.2 hx_18.2 (by norm_num) (by norm_num)) fun c_36 hc_36 => ?_
  refine runs_dassert (shr_zero32 26 hr8_1.2 (by norm_num) (by norm_num)) ?_
  refine runs_dassert (shr_zero64 39 hc_36.2 (by norm_num) (by norm_num)) ?_
  refine Runs.bind (mul64c 15632 1049045746416 hd_20.2 (by norm_num) (by norm_num) (by norm_num)) fun x_19 hx_19 => ?_
  refine Runs.bind (add64u 1049112855279 hx_19.2 ht9_1.2 (by norm_num) (by norm_num)) fun x_20 hx_20 => ?_
  refine Runs.bind (add64_runs 1272451167742 hc_36.2 hx_20.2 (by norm_num) (by norm_num)) fun c_37 hc_37 => ?_
  refine runs_dassert (shr_zero64 45 hc_37.2 (by norm_num) (by norm_num)) ?_
  refine Runs.bind (lo22_runs c_37) fun r9_1 hr9_1 => ?_
  refine Runs.bind (shrB 22 303375 hc_37.2 (by norm_num) (by norm_num)) fun c_38 hc_38 => ?_
  refine Runs.bind (mul64c 16384 1099511611392 hd_20.2 (by norm_num) (by norm_num) (by norm_num)) fun x_21 hx_21 => ?_
  refine Runs.bind (add64_runs 1099511914767 hc_38.2 hx_21.2 (by norm_num) (by norm_num)) fun c_39 hc_39 => ?_
  refine runs_dassert (shr_zero32 22 hr9_1.2 (by norm_num) (by norm_num)) ?_
  refine runs_dassert (shr_zero64 46 hc_39.2 (by norm_num) (by norm_num)) ?_
  refine Runs.bind (mul64c 977 1074223140727359 hc_39.2 (by norm_num) (by norm_num) (by norm_num)) fun x_22 hx_22 => ?_
  refine Runs.bind (add64u 1074223207836222 hx_22.2 ht0_1.2 (by norm_num) (by norm_num)) fun d_21 hd_21 => ?_
  refine runs_dassert (shr_zero64 56 hd_21.2 (by norm_num) (by norm_num)) ?_
  refine Runs.bind (lo26_runs d_21) fun r0_1 hr0_1 => ?_
  refine Runs.bind (shrB 26 16007173 hd_21.2 (by norm_num) (by norm_num)) fun d_22 hd_22 => ?_
  refine runs_dassert (shr_zero32 26 hr0_1.2 (by norm_num) (by norm_num)) ?_
  refine runs_dassert (shr_zero64 30 hd_22.2 (by norm_num) (by norm_num)) ?_
  refine Runs.bind (mul64c 64 70368762545088 hc_39.2 (by norm_num) (by norm_num) (by norm_num)) fun x_23 hx_23 => ?_
  refine Runs.bind (add64u 70368829653951 hx_23.2 ht1_1.2 (by norm_num) (by norm_num)) fun x_24 hx_24 => ?_
  refine Runs.bind (add64_runs 70368845661124 hd_22.2 hx_24.2 (by norm_num) (by norm_num)) fun d_23 hd_23 => ?_
  refine runs_dassert (shr_zero64 53 hd_23.2 (by norm_num) (by norm_num)) ?_
  refine runs_dassert (le_lit64 0x10000003ffffbf hd_23.2 (by norm_num) (by norm_num)) ?_
  refine Runs.bind (lo26_runs d_23) fun r1_1 hr1_1 => ?_
  refine Runs.bind (shrB 26 1048577 hd_23.2 (by norm_num) (by norm_num)) fun d_24 hd_24 => ?_
  refine runs_dassert (shr_zero32 26 hr1_1.2 (by norm_num) (by norm_num)) ?_
  refine runs_dassert (shr_zero64 27 hd_24.2 (by norm_num) (by norm_num)) ?_
  refine runs_dassert (le_lit64 0x4000000 hd_24.2 (by norm_num) (by norm_num)) ?_
  refine Runs.bind (add64u 68157440 hd_24.2 ht2_1.2 (by norm_num) (by norm_num)) fun d_25 hd_25 => ?_
  refine runs_dassert (shr_zero64 27 hd_25.2 (by norm_num) (by norm_num)) ?_
  refine Runs.bind (toU32B hd_25.2 (by norm_num)) fun r2_1 hr2_1 => ?_
  refine runs_dassert (shr_zero32 27 hr2_1.2 (by norm_num) (by norm_num)) ?_
  refine runs_pure ⟨⟨hr0_1.2.trans (by norm_num), hr1_1.2.trans (by norm_num), hr2_1.2.trans (by norm_num), ht3_1.2.trans (by norm_num), ht4_1.2.trans (by norm_num), ht5_1.2.trans (by norm_num), ht6_1.2.trans (by norm_num), ht7_1.2.trans (by norm_num), hr8_1.2.trans (by norm_num), hr9_1.2.trans (by norm_num)⟩, 16 * v0_1.toNat + 1073741824 * v1_1.toNat + 72057594037927936 * v2_1.toNat + 4835703278458516698824704 * v3_1.toNat + 324518553658426726783156020576256 * v4_1.toNat + 21778071482940061661655974875633165533184 * v5_1.toNat + 1461501637330902918203684832716283019655932542976 * v6_1.toNat + 98079714615416886934934209737619787751599303819750539264 * v7_1.toNat + 6582018229284824168619876730229402019930943462534319453394436096 * v8_1.toNat + 441711766194596082395824375185729628956870974218904739530401550323154944 * d_20.toNat + 1 * c_39.toNat, ?_⟩
  simp only [Limbs10.val]
  replace hd_1 := hd_1.1
  replace ht9_1 := ht9_1.1
  replace hd_2 := hd_2.1
  replace hc_1 := hc_1.1
  replace hd_3 := hd_3.1
  replace hv0_1 := hv0_1.1
  replace hd_4 := hd_4.1
  replace hx_1 := hx_1.1
  replace hc_2 := hc_2.1
  replace ht0_1 := ht0_1.1
  replace hc_3 := hc_3.1
  replace hx_2 := hx_2.1
  replace hc_4 := hc_4.1
  replace hc_5 := hc_5.1
  replace hd_5 := hd_5.1
  replace hv1_1 := hv1_1.1
  replace hd_6 := hd_6.1
  replace hx_3 := hx_3.1
  replace hc_6 := hc_6.1
  replace ht1_1 := ht1_1.1
  replace hc_7 := hc_7.1
  replace hx_4 := hx_4.1
  replace hc_8 := hc_8.1
  replace hc_9 := hc_9.1
  replace hd_7 := hd_7.1
  replace hv2_1 := hv2_1.1
  replace hd_8 := hd_8.1
  replace hx_5 := hx_5.1
  replace hc_10 := hc_10.1
  replace ht2_1 := ht2_1.1
  replace hc_11 := hc_11.1
  replace hx_6 := hx_6.1
  replace hc_12 := hc_12.1
  replace hc_13 := hc_13.1
  replace hd_9 := hd_9.1
  replace hv3_1 := hv3_1.1
  replace hd_10 := hd_10.1
  replace hx_7 := hx_7.1
  replace hc_14 := hc_14.1
  replace ht3_1 := ht3_1.1
  replace hc_15 := hc_15.1
  replace hx_8 := hx_8.1
  replace hc_16 := hc_16.1
  replace hc_17 := hc_17.1
  replace hd_11 := hd_11.1
  replace hv4_1 := hv4_1.1
  replace hd_12 := hd_12.1
  replace hx_9 := hx_9.1
  replace hc_18 := hc_18.1
  replace ht4_1 := ht4_1.1
  replace hc_19 := hc_19.1
  replace hx_10 := hx_10.1
  replace hc_20 := hc_20.1
  replace hc_21 := hc_21.1
  replace hd_13 := hd_13.1
  replace hv5_1 := hv5_1.1
  replace hd_14 := hd_14.1
  replace hx_11 := hx_11.1
  replace hc_22 := hc_22.1
  replace ht5_1 := ht5_1.1
  replace hc_23 := hc_23.1
  replace hx_12 := hx_12.1
  replace hc_24 := hc_24.1
  replace hc_25 := hc_25.1
  replace hd_15 := hd_15.1
  replace hv6_1 := hv6_1.1
  replace hd_16 := hd_16.1
  replace hx_13 := hx_13.1
  replace hc_26 := hc_26.1
  replace ht6_1 := ht6_1.1
  replace hc_27 := hc_27.1
  replace hx_14 := hx_14.1
  replace hc_28 := hc_28.1
  replace hc_29 := hc_29.1
  replace hd_17 := hd_17.1
  replace hv7_1 := hv7_1.1
  replace hd_18 := hd_18.1
  replace hx_15 := hx_15.1
  replace hc_30 := hc_30.1
  replace ht7_1 := ht7_1.1
  replace hc_31 := hc_31.1
  replace hx_16 := hx_16.1
  replace hc_32 := hc_32.1
  replace hc_33 := hc_33.1
  replace hd_19 := hd_19.1
  replace hv8_1 := hv8_1.1
  replace hd_20 := hd_20.1
  replace hx_17 := hx_17.1
  replace hc_34 := hc_34.1
  replace hr8_1 := hr8_1.1
  replace hc_35 := hc_35.1
  replace hx_18 := hx_18.1
  replace hc_36 := hc_36.1
  replace hx_19 := hx_19.1
  replace hx_20 := hx_20.1
  replace hc_37 := hc_37.1
  replace hr9_1 := hr9_1.1
  replace hc_38 := hc_38.1
  replace hx_21 := hx_21.1
  replace hc_39 := hc_39.1
  replace hx_22 := hx_22.1
  replace hd_21 := hd_21.1
  replace hr0_1 := hr0_1.1
  replace hd_22 := hd_22.1
  replace hx_23 := hx_23.1
  replace hx_24 := hx_24.1
  replace hd_23 := hd_23.1
  replace hr1_1 := hr1_1.1
  replace hd_24 := hd_24.1
  replace hd_25 := hd_25.1
  replace hr2_1 := hr2_1.1
  clear ha hb
  simp only [p]
  zify at *
  linear_combination (4503599627370496) * hr2_1 + (4503599627370496) * hd_25 + (4503599627370496) * hd_24 + (67108864) * hr1_1 + (67108864) * hd_23 + (67108864) * hx_24 + (67108864) * hx_23 + (67108864) * hd_22 + (1) * hr0_1 + (1) * hd_21 + (1) * hx_22 + (115792089237316195423570985008687907853269984665640564039457584007913129639936) * hc_39 + (115792089237316195423570985008687907853269984665640564039457584007913129639936) * hx_21 + (115792089237316195423570985008687907853269984665640564039457584007913129639936) * hc_38 + (27606985387162255149739023449108101809804435888681546220650096895197184) * hr9_1 + (27606985387162255149739023449108101809804435888681546220650096895197184) * hc_37 + (27606985387162255149739023449108101809804435888681546220650096895197184) * hx_20 + (27606985387162255149739023449108101809804435888681546220650096895197184) * hx_19 + (27606985387162255149739023449108101809804435888681546220650096895197184) * hc_36 + (27606985387162255149739023449108101809804435888681546220650096895197184) * hx_18 + (27606985387162255149739023449108101809804435888681546220650096895197184) * hc_35 + (411376139330301510538742295639337626245683966408394965837152256) * hr8_1 + (411376139330301510538742295639337626245683966408394965837152256) * hc_34 + (411376139330301510538742295639337626245683966408394965837152256) * hx_17 + (51146728248377216718956089012931236753385031969422887335676427626502090568823039920051095192592252455482604439493126109519019633529459266458258243584) * hd_20 + (762145642166990290864647761179972242614403843424065222377723867096038022172794340849684107193235344521442121855812163792833978437326241529856) * hv8_1 + (762145642166990290864647761179972242614403843424065222377723867096038022172794340849684107193235344521442121855812163792833978437326241529856) * hd_19 + (411376139330301510538742295639337626245683966408394965837152256) * hc_33 + (411376139330301510538742295639337626245683966408394965837152256) * hc_32 + (411376139330301510538742295639337626245683966408394965837152256) * hx_16 + (411376139330301510538742295639337626245683966408394965837152256) * hc_31 + (6129982163463555433433388108601236734474956488734408704) * ht7_1 + (6129982163463555433433388108601236734474956488734408704) * hc_30 + (6129982163463555433433388108601236734474956488734408704) * hx_15 + (762145642166990290864647761179972242614403843424065222377723867096038022172794340849684107193235344521442121855812163792833978437326241529856) * hd_18 + (11356855067118857664833184498250070849275646260739344691898284362197488876771842551971735167402555711886914400097909030211478150447104) * hv7_1 + (11356855067118857664833184498250070849275646260739344691898284362197488876771842551971735167402555711886914400097909030211478150447104) * hd_17 + (6129982163463555433433388108601236734474956488734408704) * hc_29 + (6129982163463555433433388108601236734474956488734408704) * hc_28 + (6129982163463555433433388108601236734474956488734408704) * hx_14 + (6129982163463555433433388108601236734474956488734408704) * hc_27 + (91343852333181432387730302044767688728495783936) * ht6_1 + (91343852333181432387730302044767688728495783936) * hc_26 + (91343852333181432387730302044767688728495783936) * hx_13 + (11356855067118857664833184498250070849275646260739344691898284362197488876771842551971735167402555711886914400097909030211478150447104) * hd_16 + (169230328010303641331690318856389386196071598838855992136870091590247882556495704531248437872567112920983350278405979725889536) * hv6_1 + (169230328010303641331690318856389386196071598838855992136870091590247882556495704531248437872567112920983350278405979725889536) * hd_15 + (91343852333181432387730302044767688728495783936) * hc_25 + (91343852333181432387730302044767688728495783936) * hc_24 + (91343852333181432387730302044767688728495783936) * hx_12 + (91343852333181432387730302044767688728495783936) * hc_23 + (1361129467683753853853498429727072845824) * ht5_1 + (1361129467683753853853498429727072845824) * hc_22 + (1361129467683753853853498429727072845824) * hx_11 + (169230328010303641331690318856389386196071598838855992136870091590247882556495704531248437872567112920983350278405979725889536) * hd_14 + (2521728396569246669585858566409191283525103313309788586748690777871726193375821479130513040312634601011624191379636224) * hv5_1 + (2521728396569246669585858566409191283525103313309788586748690777871726193375821479130513040312634601011624191379636224) * hd_13 + (1361129467683753853853498429727072845824) * hc_21 + (1361129467683753853853498429727072845824) * hc_20 + (1361129467683753853853498429727072845824) * hx_10 + (1361129467683753853853498429727072845824) * hc_19 + (20282409603651670423947251286016) * ht4_1 + (20282409603651670423947251286016) * hc_18 + (20282409603651670423947251286016) * hx_9 + (2521728396569246669585858566409191283525103313309788586748690777871726193375821479130513040312634601011624191379636224) * hd_12 + (37576681324381331646231689548629392438010920782533117931316655544515344401833735095419183974156299248510959616) * hv4_1 + (37576681324381331646231689548629392438010920782533117931316655544515344401833735095419183974156299248510959616) * hd_11 + (20282409603651670423947251286016) * hc_17 + (20282409603651670423947251286016) * hc_16 + (20282409603651670423947251286016) * hx_8 + (20282409603651670423947251286016) * hc_15 + (302231454903657293676544) * ht3_1 + (302231454903657293676544) * hc_14 + (302231454903657293676544) * hx_7 + (37576681324381331646231689548629392438010920782533117931316655544515344401833735095419183974156299248510959616) * hd_10 + (559936185544451052639360570142111069530411374308662383724997275240947967795040236345219373317901778944) * hv3_1 + (559936185544451052639360570142111069530411374308662383724997275240947967795040236345219373317901778944) * hd_9 + (302231454903657293676544) * hc_13 + (302231454903657293676544) * hc_12 + (302231454903657293676544) * hx_6 + (302231454903657293676544) * hc_11 + (4503599627370496) * ht2_1 + (4503599627370496) * hc_10 + (4503599627370496) * hx_5 + (559936185544451052639360570142111069530411374308662383724997275240947967795040236345219373317901778944) * hd_8 + (8343699359066055009355553539724812947666814540455674882605631280555545803830627148527195652096) * hv2_1 + (8343699359066055009355553539724812947666814540455674882605631280555545803830627148527195652096) * hd_7 + (4503599627370496) * hc_9 + (4503599627370496) * hc_8 + (4503599627370496) * hx_4 + (4503599627370496) * hc_7 + (67108864) * ht1_1 + (67108864) * hc_6 + (67108864) * hx_3 + (8343699359066055009355553539724812947666814540455674882605631280555545803830627148527195652096) * hd_6 + (124330809102446660538845562036705210025114037699336929360115994223289874253133343883264) * hv1_1 + (124330809102446660538845562036705210025114037699336929360115994223289874253133343883264) * hd_5 + (67108864) * hc_5 + (67108864) * hc_4 + (67108864) * hx_2 + (67108864) * hc_3 + (1) * ht0_1 + (1) * hc_2 + (1) * hx_1 + (124330809102446660538845562036705210025114037699336929360115994223289874253133343883264) * hd_4 + (1852673427797059126777135760139006525652319754650249024631321344126610074238976) * hv0_1 + (1852673427797059126777135760139006525652319754650249024631321344126610074238976) * hd_3 + (1) * hc_1 + (1852673427797059126777135760139006525652319754650249024631321344126610074238976) * hd_2 + (27606985387162255149739023449108101809804435888681546220650096895197184) * ht9_1 + (27606985387162255149739023449108101809804435888681546220650096895197184) * hd_1

theorem sqrInner_runs {a : Limbs10} (ha : a.LB 1073741808 67108848) :
    Runs (sqrInner a) (fun r => r.LB 134217726 8388606 ∧ ∃ K, r.val + p * K = a.val * a.val) := by
  unfold sqrInner
  refine Runs.bind (mul32c 2 2147483616 ha.h0 (by norm_num) (by norm_num) (by norm_num)) fun e0_1 he0_1 => ?_
  refine Runs.bind (mul32c 2 2147483616 ha.h1 (by norm_num) (by norm_num) (by norm_num)) fun e1_1 he1_1 => ?_
  refine Runs.bind (mul32c 2 2147483616 ha.h2 (by norm_num) (by norm_num) (by norm_num)) fun e2_1 he2_1 => ?_
  refine Runs.bind (mul32c 2 2147483616 ha.h3 (by norm_num) (by norm_num) (by norm_num)) fun e3_1 he3_1 => ?_
  refine Runs.bind (mul32c 2 2147483616 ha.h4 (by norm_num) (by norm_num) (by norm_num)) fun e4_1 he4_1 => ?_
  refine Runs.bind (mul32c 2 2147483616 ha.h5 (by norm_num) (by norm_num) (by norm_num)) fun e5_1 he5_1 => ?_
  refine Runs.bind (mul32c 2 2147483616 ha.h6 (by norm_num) (by norm_num) (by norm_num)) fun e6_1 he6_1 => ?_
  refine Runs.bind (mul32c 2 2147483616 ha.h7 (by norm_num) (by norm_num) (by norm_num)) fun e7_1 he7_1 => ?_
  refine Runs.bind (mul32c 2 2147483616 ha.h8 (by norm_num) (by norm_num) (by norm_num)) fun e8_1 he8_1 => ?_
  refine runs_dassert (shr_zero32 30 ha.h0 (by norm_num) (by norm_num)) ?_
  refine runs_dassert (shr_zero32 30 ha.h1 (by norm_num) (by norm_num)) ?_
  refine runs_dassert (shr_zero32 30 ha.h2 (by norm_num) (by norm_num)) ?_
  refine runs_dassert (shr_zero32 30 ha.h3 (by norm_num) (by norm_num)) ?_
  refine runs_dassert (shr_zero32 30 ha.h4 (by norm_num) (by norm_num)) ?_
  refine runs_dassert (shr_zero32 30 ha.h5 (by norm_num) (by norm_num)) ?_
  refine runs_dassert (shr_zero32 30 ha.h6 (by norm_num) (by norm_num)) ?_
  refine runs_dassert (shr_zero32 30 ha.h7 (by norm_num) (by norm_num)) ?_
  refine runs_dassert (shr_zero32 30 ha.h8 (by norm_num) (by norm_num)) ?_
  refine runs_dassert (shr_zero32 26 ha.h9 (by norm_num) (by norm_num)) ?_
  refine Runs.bind (pureB (wadd 9367486913545505280 (wadd 7061643973051287552 (wadd 4755801032557069824 (wadd 2449958092062852096 (mulwB2 144115151568634368 he0_1 ha.h9 (by norm_num)) (mulwB2 2305842940494217728 he1_1 ha.h8 (by norm_num)) (by norm_num) (by norm_num)) (mulwB2 2305842940494217728 he2_1 ha.h7 (by norm_num)) (by norm_num) (by norm_num)) (mulwB2 2305842940494217728 he3_1 ha.h6 (by norm_num)) (by norm_num) (by norm_num)) (mulwB2 2305842940494217728 he4_1 ha.h5 (by norm_num)) (by norm_num) (by norm_num))) fun d_1 hd_1 => ?_
  refine Runs.bind (lo26_runs d_1) fun t9_1 ht9_1 => ?_
  refine Runs.bind (shrB 26 139586432480 hd_1.2 (by norm_num) (by norm_num)) fun d_2 hd_2 => ?_
  refine runs_dassert (shr_zero32 26 ht9_1.2 (by norm_num) (by norm_num)) ?_
  refine runs_dassert (shr_zero64 38 hd_2.2 (by norm_num) (by norm_num)) ?_
  refine Runs.bind (pureB (mulwB 1152921470247108864 ha.h0 ha.h0 (by norm_num))) fun c_1 hc_1 => ?_
  refine runs_dassert (shr_zero64 60 hc_1.2 (by norm_num) (by norm_num)) ?_
  refine Runs.bind (pureB (wadd 8214565582884828896 (wadd 7061644112637720032 (wadd 4755801172143502304 (wadd 2449958231649284576 (wadd 144115291155066848 (selfB hd_2.2) (mulwB2 144115151568634368 he1_1 ha.h9 (by norm_num)) (by norm_num) (by norm_num)) (mulwB2 2305842940494217728 he2_1 ha.h8 (by norm_num)) (by norm_num) (by norm_num)) (mulwB2 2305842940494217728 he3_1 ha.h7 (by norm_num)) (by norm_num) (by norm_num)) (mulwB2 2305842940494217728 he4_1 ha.h6 (by norm_num)) (by norm_num) (by norm_num)) (mulwB 1152921470247108864 ha.h5 ha.h5 (by norm_num)) (by norm_num) (by norm_num))) fun d_3 hd_3 => ?_
  refine runs_dassert (shr_zero64 63 hd_3.2 (by norm_num) (by norm_num)) ?_
  refine Runs.bind (and26_64_runs d_3) fun v0_1 hv0_1 => ?_
  refine Runs.bind (shrB 26 122406565887 hd_3.2 (by norm_num) (by norm_num)) fun d_4 hd_4 => ?_
  refine Runs.bind (mul64c 15632 1049045746416 hv0_1.2 (by norm_num) (by norm_num) (by norm_num)) fun x_1 hx_1 => ?_
  refine Runs.bind (add64_runs 1152922519292855280 hc_1.2 hx_1.2 (by norm_num) (by norm_num)) fun c_2 hc_2 => ?_
  refine runs_dassert (shr_zero64 26 hv0_1.2 (by norm_num) (by norm_num)) ?_
  refine runs_dassert (shr_zero64 37 hd_4.2 (by norm_num) (by norm_num)) ?_
  refine runs_dassert (shr_zero64 61 hc_2.2 (by norm_num) (by norm_num)) ?_
  refine Runs.bind (lo26_runs c_2) fun t0_1 ht0_1 => ?_
  refine Runs.bind (shrB 26 17179884303 hc_2.2 (by norm_num) (by norm_num)) fun c_3 hc_3 => ?_
  refine Runs.bind (mul64c 1024 68719475712 hv0_1.2 (by norm_num) (by norm_num) (by norm_num)) fun x_2 hx_2 => ?_
  refine Runs.bind (add64_runs 85899360015 hc_3.2 hx_2.2 (by norm_num) (by norm_num)) fun c_4 hc_4 => ?_
  refine runs_dassert (shr_zero32 26 ht0_1.2 (by norm_num) (by norm_num)) ?_
  refine runs_dassert (shr_zero64 37 hc_4.2 (by norm_num) (by norm_num)) ?_
  refine Runs.bind (pureB (wadd 2305843026393577743 (selfB hc_4.2) (mulwB2 2305842940494217728 he0_1 ha.h1 (by norm_num)) (by norm_num) (by norm_num))) fun c_5 hc_5 => ?_
  refine runs_dassert (shr_zero64 62 hc_5.2 (by norm_num) (by norm_num)) ?_
  refine Runs.bind (pureB (wadd 7061644095457853439 (wadd 4755801154963635711 (wadd 2449958214469417983 (wadd 144115273975200255 (selfB hd_4.2) (mulwB2 144115151568634368 he2_1 ha.h9 (by norm_num)) (by norm_num) (by norm_num)) (mulwB2 2305842940494217728 he3_1 ha.h8 (by norm_num)) (by norm_num) (by norm_num)) (mulwB2 2305842940494217728 he4_1 ha.h7 (by norm_num)) (by norm_num) (by norm_num)) (mulwB2 2305842940494217728 he5_1 ha.h6 (by norm_num)) (by norm_num) (by norm_num))) fun d_5 hd_5 => ?_
  refine runs_dassert (shr_zero64 63 hd_5.2 (by norm_num) (by norm_num)) ?_
  refine Runs.bind (and26_64_runs d_5) fun v1_1 hv1_1 => ?_
  refine Runs.bind (shrB 26 105226696959 hd_5.2 (by norm_num) (by norm_num)) fun d_6 hd_6 => ?_
  refine Runs.bind (mul64c 15632 1049045746416 hv1_1.2 (by norm_num) (by norm_num) (by norm_num)) fun x_3 hx_3 => ?_
  refine Runs.bind (add64_runs 2305844075439324159 hc_5.2 hx_3.2 (by norm_num) (by norm_num)) fun c_6 hc_6 => ?_
  refine runs_dassert (shr_zero64 26 hv1_1.2 (by norm_num) (by norm_num)) ?_
  refine runs_dassert (shr_zero64 37 hd_6.2 (by norm_num) (by norm_num)) ?_
  refine runs_dassert (shr_zero64 63 hc_6.2 (by norm_num) (by norm_num)) ?_
  refine Runs.bind (lo26_runs c_6) fun t1_1 ht1_1 => ?_
  refine Runs.bind (shrB 26 34359754255 hc_6.2 (by norm_num) (by norm_num)) fun c_7 hc_7 => ?_
  refine Runs.bind (mul64c 1024 68719475712 hv1_1.2 (by norm_num) (by norm_num) (by norm_num)) fun x_4 hx_4 => ?_
  refine Runs.bind (add64_runs 103079229967 hc_7.2 hx_4.2 (by norm_num) (by norm_num)) fun c_8 hc_8 => ?_
  refine runs_dassert (shr_zero32 26 ht1_1.2 (by norm_num) (by norm_num)) ?_
  refine runs_dassert (shr_zero64 38 hc_8.2 (by norm_num) (by norm_num)) ?_
  refine Runs.bind (pureB (wadd 3458764513820556559 (wadd 2305843043573447695 (selfB hc_8.2) (mulwB2 2305842940494217728 he0_1 ha.h2 (by norm_num)) (by norm_num) (by norm_num)) (mulwB 1152921470247108864 ha.h1 ha.h1 (by norm_num)) (by norm_num) (by norm_num))) fun c_9 hc_9 => ?_
  refine runs_dassert (shr_zero64 62 hc_9.2 (by norm_num) (by norm_num)) ?_
  refine Runs.bind (pureB (wadd 5908722608030875647 (wadd 4755801137783766783 (wadd 2449958197289549055 (wadd 144115256795331327 (selfB hd_6.2) (mulwB2 144115151568634368 he3_1 ha.h9 (by norm_num)) (by norm_num) (by norm_num)) (mulwB2 2305842940494217728 he4_1 ha.h8 (by norm_num)) (by norm_num) (by norm_num)) (mulwB2 2305842940494217728 he5_1 ha.h7 (by norm_num)) (by norm_num) (by norm_num)) (mulwB 1152921470247108864 ha.h6 ha.h6 (by norm_num)) (by norm_num) (by norm_num))) fun d_7 hd_7 => ?_
  refine runs_dassert (shr_zero64 63 hd_7.2 (by norm_num) (by norm_num)) ?_
  refine Runs.bind (and26_64_runs d_7) fun v2_1 hv2_1 => ?_
  refine Runs.bind (shrB 26 88046828031 hd_7.2 (by norm_num) (by norm_num)) fun d_8 hd_8 => ?_
  refine Runs.bind (mul64c 15632 1049045746416 hv2_1.2 (by norm_num) (by norm_num) (by norm_num)) fun x_5 hx_5 => ?_
  refine Runs.bind (add64_runs 3458765562866302975 hc_9.2 hx_5.2 (by norm_num) (by norm_num)) fun c_10 hc_10 => ?_
  refine runs_dassert (shr_zero64 26 hv2_1.2 (by norm_num) (by norm_num)) ?_
  refine runs_dassert (shr_zero64 37 hd_8.2 (by norm_num) (by norm_num)) ?_
  refine runs_dassert (shr_zero64 63 hc_10.2 (by norm_num) (by norm_num)) ?_
  refine Runs.bind (lo26_runs c_10) fun t2_1 ht2_1 => ?_
  refine Runs.bind (shrB 26 51539623183 hc_10.2 (by norm_num) (by norm_num)) fun c_11 hc_11 => ?_
  refine Runs.bind (mul64c 1024 68719475712 hv2_1.2 (by norm_num) (by norm_num) (by norm_num)) fun x_6 hx_6 => ?_
  refine Runs.bind (add64_runs 120259098895 hc_11.2 hx_6.2 (by norm_num) (by norm_num)) fun c_12 hc_12 => ?_
  refine runs_dassert (shr_zero32 26 ht2_1.2 (by norm_num) (by norm_num)) ?_
  refine runs_dassert (shr_zero64 38 hc_12.2 (by norm_num) (by norm_num)) ?_
  refine Runs.bind (pureB (wadd 4611686001247534351 (wadd 2305843060753316623 (selfB hc_12.2) (mulwB2 2305842940494217728 he0_1 ha.h3 (by norm_num)) (by norm_num) (by norm_num)) (mulwB2 2305842940494217728 he1_1 ha.h2 (by norm_num)) (by norm_num) (by norm_num))) fun c_13 hc_13 => ?_
  refine runs_dassert (shr_zero64 63 hc_13.2 (by norm_num) (by norm_num)) ?_
  refine Runs.bind (pureB (wadd 4755801120603897855 (wadd 2449958180109680127 (wadd 144115239615462399 (selfB hd_8.2) (mulwB2 144115151568634368 he4_1 ha.h9 (by norm_num)) (by norm_num) (by norm_num)) (mulwB2 2305842940494217728 he5_1 ha.h8 (by norm_num)) (by norm_num) (by norm_num)) (mulwB2 2305842940494217728 he6_1 ha.h7 (by norm_num)) (by norm_num) (by norm_num))) fun d_9 hd_9 => ?_
  refine runs_dassert (shr_zero64 63 hd_9.2 (by norm_num) (by norm_num)) ?_
  refine Runs.bind (and26_64_runs d_9) fun v3_1 hv3_1 => ?_
  refine Runs.bind (shrB 26 70866959103 hd_9.2 (by norm_num) (by norm_num)) fun d_10 hd_10 => ?_
  refine Runs.bind (mul64c 15632 1049045746416 hv3_1.2 (by norm_num) (by norm_num) (by norm_num)) fun x_7 hx_7 => ?_
  refine Runs.bind (add64_runs 4611687050293280767 hc_13.2 hx_7.2 (by norm_num) (by norm_num)) fun c_14 hc_14 => ?_
  refine runs_dassert (shr_zero64 26 hv3_1.2 (by norm_num) (by norm_num)) ?_
  refine runs_dassert (shr_zero64 37 hd_10.2 (by norm_num) (by norm_num)) ?_
  refine Runs.bind (lo26_runs c_14) fun t3_1 ht3_1 => ?_
  refine Runs.bind (shrB 26 68719492111 hc_14.2 (by norm_num) (by norm_num)) fun c_15 hc_15 => ?_
  refine Runs.bind (mul64c 1024 68719475712 hv3_1.2 (by norm_num) (by norm_num) (by norm_num)) fun x_8 hx_8 => ?_
  refine Runs.bind (add64_runs 137438967823 hc_15.2 hx_8.2 (by norm_num) (by norm_num)) fun c_16 hc_16 => ?_
  refine runs_dassert (shr_zero32 26 ht3_1.2 (by norm_num) (by norm_num)) ?_
  refine runs_dassert (shr_zero64 39 hc_16.2 (by norm_num) (by norm_num)) ?_
  refine Runs.bind (pureB (wadd 5764607488674512143 (wadd 4611686018427403279 (wadd 2305843077933185551 (selfB hc_16.2) (mulwB2 2305842940494217728 he0_1 ha.h4 (by norm_num)) (by norm_num) (by norm_num)) (mulwB2 2305842940494217728 he1_1 ha.h3 (by norm_num)) (by norm_num) (by norm_num)) (mulwB 1152921470247108864 ha.h2 ha.h2 (by norm_num)) (by norm_num) (by norm_num))) fun c_17 hc_17 => ?_
  refine runs_dassert (shr_zero64 63 hc_17.2 (by norm_num) (by norm_num)) ?_
  refine Runs.bind (pureB (wadd 3602879633176920063 (wadd 2449958162929811199 (wadd 144115222435593471 (selfB hd_10.2) (mulwB2 144115151568634368 he5_1 ha.h9 (by norm_num)) (by norm_num) (by norm_num)) (mulwB2 2305842940494217728 he6_1 ha.h8 (by norm_num)) (by norm_num) (by norm_num)) (mulwB 1152921470247108864 ha.h7 ha.h7 (by norm_num)) (by norm_num) (by norm_num))) fun d_11 hd_11 => ?_
  refine runs_dassert (shr_zero64 62 hd_11.2 (by norm_num) (by norm_num)) ?_
  refine Runs.bind (and26_64_runs d_11) fun v4_1 hv4_1 => ?_
  refine Runs.bind (shrB 26 53687090175 hd_11.2 (by norm_num) (by norm_num)) fun d_12 hd_12 => ?_
  refine Runs.bind (mul64c 15632 1049045746416 hv4_1.2 (by norm_num) (by norm_num) (by norm_num)) fun x_9 hx_9 => ?_
  refine Runs.bind (add64_runs 5764608537720258559 hc_17.2 hx_9.2 (by norm_num) (by norm_num)) fun c_18 hc_18 => ?_
  refine runs_dassert (shr_zero64 26 hv4_1.2 (by norm_num) (by norm_num)) ?_
  refine runs_dassert (shr_zero64 36 hd_12.2 (by norm_num) (by norm_num)) ?_
  refine Runs.bind (lo26_runs c_18) fun t4_1 ht4_1 => ?_
  refine Runs.bind (shrB 26 85899361039 hc_18.2 (by norm_num) (by norm_num)) fun c_19 hc_19 => ?_
  refine Runs.bind (mul64c 1024 68719475712 hv4_1.2 (by norm_num) (by norm_num) (by norm_num)) fun x_10 hx_10 => ?_
  refine Runs.bind (add64_runs 154618836751 hc_19.2 hx_10.2 (by norm_num) (by norm_num)) fun c_20 hc_20 => ?_
  refine runs_dassert (shr_zero32 26 ht4_1.2 (by norm_num) (by norm_num)) ?_
  refine runs_dassert (shr_zero64 39 hc_20.2 (by norm_num) (by norm_num)) ?_
  refine Runs.bind (pureB (wadd 6917528976101489935 (wadd 4611686035607272207 (wadd 2305843095113054479 (selfB hc_20.2) (mulwB2 2305842940494217728 he0_1 ha.h5 (by norm_num)) (by norm_num) (by norm_num)) (mulwB2 2305842940494217728 he1_1 ha.h4 (by norm_num)) (by norm_num) (by norm_num)) (mulwB2 2305842940494217728 he2_1 ha.h3 (by norm_num)) (by norm_num) (by norm_num))) fun c_21 hc_21 => ?_
  refine runs_dassert (shr_zero64 63 hc_21.2 (by norm_num) (by norm_num)) ?_
  refine Runs.bind (pureB (wadd 2449958145749942271 (wadd 144115205255724543 (selfB hd_12.2) (mulwB2 144115151568634368 he6_1 ha.h9 (by norm_num)) (by norm_num) (by norm_num)) (mulwB2 2305842940494217728 he7_1 ha.h8 (by norm_num)) (by norm_num) (by norm_num))) fun d_13 hd_13 => ?_
  refine runs_dassert (shr_zero64 62 hd_13.2 (by norm_num) (by norm_num)) ?_
  refine Runs.bind (and26_64_runs d_13) fun v5_1 hv5_1 => ?_
  refine Runs.bind (shrB 26 36507221247 hd_13.2 (by norm_num) (by norm_num)) fun d_14 hd_14 => ?_
  refine Runs.bind (mul64c 15632 1049045746416 hv5_1.2 (by norm_num) (by norm_num) (by norm_num)) fun x_11 hx_11 => ?_
  refine Runs.bind (add64_runs 6917530025147236351 hc_21.2 hx_11.2 (by norm_num) (by norm_num)) fun c_22 hc_22 => ?_
  refine runs_dassert (shr_zero64 26 hv5_1.2 (by norm_num) (by norm_num)) ?_
  refine runs_dassert (shr_zero64 36 hd_14.2 (by norm_num) (by norm_num)) ?_
  refine Runs.bind (lo26_runs c_22) fun t5_1 ht5_1 => ?_
  refine Runs.bind (shrB 26 103079229967 hc_22.2 (by norm_num) (by norm_num)) fun c_23 hc_23 => ?_
  refine Runs.bind (mul64c 1024 68719475712 hv5_1.2 (by norm_num) (by norm_num) (by norm_num)) fun x_12 hx_12 => ?_
  refine Runs.bind (add64_runs 171798705679 hc_23.2 hx_12.2 (by norm_num) (by norm_num)) fun c_24 hc_24 => ?_
  refine runs_dassert (shr_zero32 26 ht5_1.2 (by norm_num) (by norm_num)) ?_
  refine runs_dassert (shr_zero64 39 hc_24.2 (by norm_num) (by norm_num)) ?_
  refine Runs.bind (pureB (wadd 8070450463528467727 (wadd 6917528993281358863 (wadd 4611686052787141135 (wadd 2305843112292923407 (selfB hc_24.2) (mulwB2 2305842940494217728 he0_1 ha.h6 (by norm_num)) (by norm_num) (by norm_num)) (mulwB2 2305842940494217728 he1_1 ha.h5 (by norm_num)) (by norm_num) (by norm_num)) (mulwB2 2305842940494217728 he2_1 ha.h4 (by norm_num)) (by norm_num) (by norm_num)) (mulwB 1152921470247108864 ha.h3 ha.h3 (by norm_num)) (by norm_num) (by norm_num))) fun c_25 hc_25 => ?_
  refine runs_dassert (shr_zero64 63 hc_25.2 (by norm_num) (by norm_num)) ?_
  refine Runs.bind (pureB (wadd 1297036658322964479 (wadd 144115188075855615 (selfB hd_14.2) (mulwB2 144115151568634368 he7_1 ha.h9 (by norm_num)) (by norm_num) (by norm_num)) (mulwB 1152921470247108864 ha.h8 ha.h8 (by norm_num)) (by norm_num) (by norm_num))) fun d_15 hd_15 => ?_
  refine runs_dassert (shr_zero64 61 hd_15.2 (by norm_num) (by norm_num)) ?_
  refine Runs.bind (and26_64_runs d_15) fun v6_1 hv6_1 => ?_
  refine Runs.bind (shrB 26 19327352319 hd_15.2 (by norm_num) (by norm_num)) fun d_16 hd_16 => ?_
  refine Runs.bind (mul64c 15632 1049045746416 hv6_1.2 (by norm_num) (by norm_num) (by norm_num)) fun x_13 hx_13 => ?_
  refine Runs.bind (add64_runs 8070451512574214143 hc_25.2 hx_13.2 (by norm_num) (by norm_num)) fun c_26 hc_26 => ?_
  refine runs_dassert (shr_zero64 26 hv6_1.2 (by norm_num) (by norm_num)) ?_
  refine runs_dassert (shr_zero64 35 hd_16.2 (by norm_num) (by norm_num)) ?_
  refine Runs.bind (lo26_runs c_26) fun t6_1 ht6_1 => ?_
  refine Runs.bind (shrB 26 120259098895 hc_26.2 (by norm_num) (by norm_num)) fun c_27 hc_27 => ?_
  refine Runs.bind (mul64c 1024 68719475712 hv6_1.2 (by norm_num) (by norm_num) (by norm_num)) fun x_14 hx_14 => ?_
  refine Runs.bind (add64_runs 188978574607 hc_27.2 hx_14.2 (by norm_num) (by norm_num)) fun c_28 hc_28 => ?_
  refine runs_dassert (shr_zero32 26 ht6_1.2 (by norm_num) (by norm_num)) ?_
  refine runs_dassert (shr_zero64 39 hc_28.2 (by norm_num) (by norm_num)) ?_
  refine Runs.bind (pureB (wadd 9223371950955445519 (wadd 6917529010461227791 (wadd 4611686069967010063 (wadd 2305843129472792335 (selfB hc_28.2) (mulwB2 2305842940494217728 he0_1 ha.h7 (by norm_num)) (by norm_num) (by norm_num)) (mulwB2 2305842940494217728 he1_1 ha.h6 (by norm_num)) (by norm_num) (by norm_num)) (mulwB2 2305842940494217728 he2_1 ha.h5 (by norm_num)) (by norm_num) (by norm_num)) (mulwB2 2305842940494217728 he3_1 ha.h4 (by norm_num)) (by norm_num) (by norm_num))) fun c_29 hc_29 => ?_
  refine runs_dassert (le_lit64 0x8000007C00000007 hc_29.2 (by norm_num) (by norm_num)) ?_
  refine Runs.bind (pureB (wadd 144115170895986687 (selfB hd_16.2) (mulwB2 144115151568634368 he8_1 ha.h9 (by norm_num)) (by norm_num) (by norm_num))) fun d_17 hd_17 => ?_
  refine runs_dassert (shr_zero64 58 hd_17.2 (by norm_num) (by norm_num)) ?_
  refine Runs.bind (and26_64_runs d_17) fun v7_1 hv7_1 => ?_
  refine Runs.bind (shrB 26 2147483391 hd_17.2 (by norm_num) (by norm_num)) fun d_18 hd_18 => ?_
  refine Runs.bind (mul64c 15632 1049045746416 hv7_1.2 (by norm_num) (by norm_num) (by norm_num)) fun x_15 hx_15 => ?_
  refine Runs.bind (add64_runs 9223373000001191935 hc_29.2 hx_15.2 (by norm_num) (by norm_num)) fun c_30 hc_30 => ?_
  refine runs_dassert (shr_zero64 26 hv7_1.2 (by norm_num) (by norm_num)) ?_
  refine runs_dassert (shr_zero64 32 hd_18.2 (by norm_num) (by norm_num)) ?_
  refine runs_dassert (le_lit64 0x800001703FFFC2F7 hc_30.2 (by norm_num) (by norm_num)) ?_
  refine Runs.bind (lo26_runs c_30) fun t7_1 ht7_1 => ?_
  refine Runs.bind (shrB 26 137438967823 hc_30.2 (by norm_num) (by norm_num)) fun c_31 hc_31 => ?_
  refine Runs.bind (mul64c 1024 68719475712 hv7_1.2 (by norm_num) (by norm_num) (by norm_num)) fun x_16 hx_16 => ?_
  refine Runs.bind (add64_runs 206158443535 hc_31.2 hx_16.2 (by norm_num) (by norm_num)) fun c_32 hc_32 => ?_
  refine runs_dassert (shr_zero32 26 ht7_1.2 (by norm_num) (by norm_num)) ?_
  refine runs_dassert (shr_zero64 38 hc_32.2 (by norm_num) (by norm_num)) ?_
  refine Runs.bind (pureB (wadd 10376293438382423311 (wadd 9223371968135314447 (wadd 6917529027641096719 (wadd 4611686087146878991 (wadd 2305843146652661263 (selfB hc_32.2) (mulwB2 2305842940494217728 he0_1 ha.h8 (by norm_num)) (by norm_num) (by norm_num)) (mulwB2 2305842940494217728 he1_1 ha.h7 (by norm_num)) (by norm_num) (by norm_num)) (mulwB2 2305842940494217728 he2_1 ha.h6 (by norm_num)) (by norm_num) (by norm_num)) (mulwB2 2305842940494217728 he3_1 ha.h5 (by norm_num)) (by norm_num) (by norm_num)) (mulwB 1152921470247108864 ha.h4 ha.h4 (by norm_num)) (by norm_num) (by norm_num))) fun c_33 hc_33 => ?_
  refine runs_dassert (le_lit64 0x9000007B80000008 hc_33.2 (by norm_num) (by norm_num)) ?_
  refine Runs.bind (pureB (wadd 4503599627370495 (selfB hd_18.2) (mulwB 4503597479887104 ha.h9 ha.h9 (by norm_num)) (by norm_num) (by norm_num))) fun d_19 hd_19 => ?_
  refine runs_dassert (shr_zero64 57 hd_19.2 (by norm_num) (by norm_num)) ?_
  refine Runs.bind (and26_64_runs d_19) fun v8_1 hv8_1 => ?_
  refine Runs.bind (shrB 26 67108863 hd_19.2 (by norm_num) (by norm_num)) fun d_20 hd_20 => ?_
  refine Runs.bind (mul64c 15632 1049045746416 hv8_1.2 (by norm_num) (by norm_num) (by norm_num)) fun x_17 hx_17 => ?_
  refine Runs.bind (add64_runs 10376294487428169727 hc_33.2 hx_17.2 (by norm_num) (by norm_num)) fun c_34 hc_34 => ?_
  refine runs_dassert (shr_zero64 26 hv8_1.2 (by norm_num) (by norm_num)) ?_
  refine runs_dassert (shr_zero64 31 hd_20.2 (by norm_num) (by norm_num)) ?_
  refine runs_dassert (le_lit64 0x9000016FBFFFC2F8 hc_34.2 (by norm_num) (by norm_num)) ?_
  refine runs_pure_bind ?_
  refine runs_dassert (shr_zero32 26 ht3_1.2 (by norm_num) (by norm_num)) ?_
  refine runs_pure_bind ?_
  refine runs_dassert (shr_zero32 26 ht4_1.2 (by norm_num) (by norm_num)) ?_
  refine runs_pure_bind ?_
  refine runs_dassert (shr_zero32 26 ht5_1.2 (by norm_num) (by norm_num)) ?_
  refine runs_pure_bind ?_
  refine runs_dassert (shr_zero32 26 ht6_1.2 (by norm_num) (by norm_num)) ?_
  refine runs_pure_bind ?_
  refine runs_dassert (shr_zero32 26 ht7_1.2 (by norm_num) (by norm_num)) ?_
  refine Runs.bind (lo26_runs c_34) fun r8_1 hr8_1 => ?_
  refine Runs.bind (shrB 26 154618836751 hc_34.2 (by norm_num) (by norm_num)) fun c_35 hc_35 => ?_
  refine Runs.bind (mul64c 1024 68719475712 hv8_1.2 (by norm_num) (by norm_num) (by norm_num)) fun x_18 hx_18 => ?_
  refine Runs.bind (add64_runs 223338312463 hc_35.2 hx_18.2 (by norm_num) (by norm_num)) fun c_36 hc_36 => ?_
  refine runs_dassert (shr_zero32 26 hr8_1.2 (by norm_num) (by norm_num)) ?_
  refine runs_dassert (shr_zero64 39 hc_36.2 (by norm_num) (by norm_num)) ?_
  refine Runs.bind (mul64c 15632 1049045746416 hd_20.2 (by norm_num) (by norm_num) (by norm_num)) fun x_19 hx_19 => ?_
  refine Runs.bind (add64u 1049112855279 hx_19.2 ht9_1.2 (by norm_num) (by norm_num)) fun x_20 hx_20 => ?_
  refine Runs.bind (add64_runs 1272451167742 hc_36.2 hx_20.2 (by norm_num) (by norm_num)) fun c_37 hc_37 => ?_
  refine runs_dassert (shr_zero64 45 hc_37.2 (by norm_num) (by norm_num)) ?_
  refine Runs.bind (lo22_runs c_37) fun r9_1 hr9_1 => ?_
  refine Runs.bind (shrB 22 303375 hc_37.2 (by norm_num) (by norm_num)) fun c_38 hc_38 => ?_
  refine Runs.bind (mul64c 16384 1099511611392 hd_20.2 (by norm_num) (by norm_num) (by norm_num)) fun x_21 hx_21 => ?_
  refine Runs.bind (add64_runs 1099511914767 hc_38.2 hx_21.2 (by norm_num) (by norm_num)) fun c_39 hc_39 => ?_
  refine runs_dassert (shr_zero32 22 hr9_1.2 (by norm_num) (by norm_num)) ?_
  refine runs_dassert (shr_zero64 46 hc_39.2 (by norm_num) (by norm_num)) ?_
  refine Runs.bind (mul64c 977 1074223140727359 hc_39.2 (by norm_num) (by norm_num) (by norm_num)) fun x_22 hx_22 => ?_
  refine Runs.bind (add64u 1074223207836222 hx_22.2 ht0_1.2 (by norm_num) (by norm_num)) fun d_21 hd_21 => ?_
  refine runs_dassert (shr_zero64 56 hd_21.2 (by norm_num) (by norm_num)) ?_
  refine Runs.bind (lo26_runs d_21) fun r0_1 hr0_1 => ?_
  refine Runs.bind (shrB 26 16007173 hd_21.2 (by norm_num) (by norm_num)) fun d_22 hd_22 => ?_
  refine runs_dassert (shr_zero32 26 hr0_1.2 (by norm_num) (by norm_num)) ?_
  refine runs_dassert (shr_zero64 30 hd_22.2 (by norm_num) (by norm_num)) ?_
  refine Runs.bind (mul64c 64 70368762545088 hc_39.2 (by norm_num) (by norm_num) (by norm_num)) fun x_23 hx_23 => ?_
  refine Runs.bind (add64u 70368829653951 hx_23.2 ht1_1.2 (by norm_num) (by norm_num)) fun x_24 hx_24 => ?_
  refine Runs.bind (add64_runs 70368845661124 hd_22.2 hx_24.2 (by norm_num) (by norm_num)) fun d_23 hd_23 => ?_
  refine runs_dassert (shr_zero64 53 hd_23.2 (by norm_num) (by norm_num)) ?_
  refine runs_dassert (le_lit64 0x10000003FFFFBF hd_23.2 (by norm_num) (by norm_num)) ?_
  refine Runs.bind (lo26_runs d_23) fun r1_1 hr1_1 => ?_
  refine Runs.bind (shrB 26 1048577 hd_23.2 (by norm_num) (by norm_num)) fun d_24 hd_24 => ?_
  refine runs_dassert (shr_zero32 26 hr1_1.2 (by norm_num) (by norm_num)) ?_
  refine runs_dassert (shr_zero64 27 hd_24.2 (by norm_num) (by norm_num)) ?_
  refine runs_dassert (le_lit64 0x4000000 hd_24.2 (by norm_num) (by norm_num)) ?_
  refine Runs.bind (add64u 68157440 hd_24.2 ht2_1.2 (by norm_num) (by norm_num)) fun d_25 hd_25 => ?_
  refine runs_dassert (shr_zero64 27 hd_25.2 (by norm_num) (by norm_num)) ?_
  refine Runs.bind (toU32B hd_25.2 (by norm_num)) fun r2_1 hr2_1 => ?_
  refine runs_dassert (shr_zero32 27 hr2_1.2 (by norm_num) (by norm_num)) ?_
  refine runs_pure ⟨⟨hr0_1.2.trans (by norm_num), hr1_1.2.trans (by norm_num), hr2_1.2.trans (by norm_num), ht3_1.2.trans (by norm_num), ht4_1.2.trans (by norm_num), ht5_1.2.trans (by norm_num), ht6_1.2.trans (by norm_num), ht7_1.2.trans (by norm_num), hr8_1.2.trans (by norm_num), hr9_1.2.trans (by norm_num)⟩, 16 * v0_1.toNat + 1073741824 * v1_1.toNat + 72057594037927936 * v2_1.toNat + 4835703278458516698824704 * v3_1.toNat + 324518553658426726783156020576256 * v4_1.toNat + 21778071482940061661655974875633165533184 * v5_1.toNat + 1461501637330902918203684832716283019655932542976 * v6_1.toNat + 98079714615416886934934209737619787751599303819750539264 * v7_1.toNat + 6582018229284824168619876730229402019930943462534319453394436096 * v8_1.toNat + 441711766194596082395824375185729628956870974218904739530401550323154944 * d_20.toNat + 1 * c_39.toNat, ?_⟩
  simp only [Limbs10.val]
  replace hd_1 := hd_1.1
  replace ht9_1 := ht9_1.1
  replace hd_2 := hd_2.1
  replace hc_1 := hc_1.1
  replace hd_3 := hd_3.1
  replace hv0_1 := hv0_1.1
  replace hd_4 := hd_4.1
  replace hx_1 := hx_1.1
  replace hc_2 := hc_2.1
  replace ht0_1 := ht0_1.1
  replace hc_3 := hc_3.1
  replace hx_2 := hx_2.1
  replace hc_4 := hc_4.1
  replace hc_5 := hc_5.1
  replace hd_5 := hd_5.1
  replace hv1_1 := hv1_1.1
  replace hd_6 := hd_6.1
  replace hx_3 := hx_3.1
  replace hc_6 := hc_6.1
  replace ht1_1 := ht1_1.1
  replace hc_7 := hc_7.1
  replace hx_4 := hx_4.1
  replace hc_8 := hc_8.1
  replace hc_9 := hc_9.1
  replace hd_7 := hd_7.1
  replace hv2_1 := hv2_1.1
  replace hd_8 := hd_8.1
  replace hx_5 := hx_5.1
  replace hc_10 := hc_10.1
  replace ht2_1 := ht2_1.1
  replace hc_11 := hc_11.1
  replace hx_6 := hx_6.1
  replace hc_12 := hc_12.1
  replace hc_13 := hc_13.1
  replace hd_9 := hd_9.1
  replace hv3_1 := hv3_1.1
  replace hd_10 := hd_10.1
  replace hx_7 := hx_7.1
  replace hc_14 := hc_14.1
  replace ht3_1 := ht3_1.1
  replace hc_15 := hc_15.1
  replace hx_8 := hx_8.1
  replace hc_16 := hc_16.1
  replace hc_17 := hc_17.1
  replace hd_11 := hd_11.1
  replace hv4_1 := hv4_1.1
  replace hd_12 := hd_12.1
  replace hx_9 := hx_9.1
  replace hc_18 := hc_18.1
  replace ht4_1 := ht4_1.1
  replace hc_19 := hc_19.1
  replace hx_10 := hx_10.1
  replace hc_20 := hc_20.1
  replace hc_21 := hc_21.1
  replace hd_13 := hd_13.1
  replace hv5_1 := hv5_1.1
  replace hd_14 := hd_14.1
  replace hx_11 := hx_11.1
  replace hc_22 := hc_22.1
  replace ht5_1 := ht5_1.1
  replace hc_23 := hc_23.1
  replace hx_12 := hx_12.1
  replace hc_24 := hc_24.1
  replace hc_25 := hc_25.1
  replace hd_15 := hd_15.1
  replace hv6_1 := hv6_1.1
  replace hd_16 := hd_16.1
  replace hx_13 := hx_13.1
  replace hc_26 := hc_26.1
  replace ht6_1 := ht6_1.1
  replace hc_27 := hc_27.1
  replace hx_14 := hx_14.1
  replace hc_28 := hc_28.1
  replace hc_29 := hc_29.1
  replace hd_17 := hd_17.1
  replace hv7_1 := hv7_1.1
  replace hd_18 := hd_18.1
  replace hx_15 := hx_15.1
  replace hc_30 := hc_30.1
  replace ht7_1 := ht7_1.1
  replace hc_31 := hc_31.1
  replace hx_16 := hx_16.1
  replace hc_32 := hc_32.1
  replace hc_33 := hc_33.1
  replace hd_19 := hd_19.1
  replace hv8_1 := hv8_1.1
  replace hd_20 := hd_20.1
  replace hx_17 := hx_17.1
  replace hc_34 := hc_34.1
  replace hr8_1 := hr8_1.1
  replace hc_35 := hc_35.1
  replace hx_18 := hx_18.1
  replace hc_36 := hc_36.1
  replace hx_19 := hx_19.1
  replace hx_20 := hx_20.1
  replace hc_37 := hc_37.1
  replace hr9_1 := hr9_1.1
  replace hc_38 := hc_38.1
  replace hx_21 := hx_21.1
  replace hc_39 := hc_39.1
  replace hx_22 := hx_22.1
  replace hd_21 := hd_21.1
  replace hr0_1 := hr0_1.1
  replace hd_22 := hd_22.1
  replace hx_23 := hx_23.1
  replace hx_24 := hx_24.1
  replace hd_23 := hd_23.1
  replace hr1_1 := hr1_1.1
  replace hd_24 := hd_24.1
  replace hd_25 := hd_25.1
  replace hr2_1 := hr2_1.1
  clear he0_1 he1_1 he2_1 he3_1 he4_1 he5_1 he6_1 he7_1 he8_1
  clear ha
  simp only [p]
  zify at *
  linear_combination (4503599627370496) * hr2_1 + (4503599627370496) * hd_25 + (4503599627370496) * hd_24 + (67108864) * hr1_1 + (67108864) * hd_23 + (67108864) * hx_24 + (67108864) * hx_23 + (67108864) * hd_22 + (1) * hr0_1 + (1) * hd_21 + (1) * hx_22 + (115792089237316195423570985008687907853269984665640564039457584007913129639936) * hc_39 + (115792089237316195423570985008687907853269984665640564039457584007913129639936) * hx_21 + (115792089237316195423570985008687907853269984665640564039457584007913129639936) * hc_38 + (27606985387162255149739023449108101809804435888681546220650096895197184) * hr9_1 + (27606985387162255149739023449108101809804435888681546220650096895197184) * hc_37 + (27606985387162255149739023449108101809804435888681546220650096895197184) * hx_20 + (27606985387162255149739023449108101809804435888681546220650096895197184) * hx_19 + (27606985387162255149739023449108101809804435888681546220650096895197184) * hc_36 + (27606985387162255149739023449108101809804435888681546220650096895197184) * hx_18 + (27606985387162255149739023449108101809804435888681546220650096895197184) * hc_35 + (411376139330301510538742295639337626245683966408394965837152256) * hr8_1 + (411376139330301510538742295639337626245683966408394965837152256) * hc_34 + (411376139330301510538742295639337626245683966408394965837152256) * hx_17 + (51146728248377216718956089012931236753385031969422887335676427626502090568823039920051095192592252455482604439493126109519019633529459266458258243584) * hd_20 + (762145642166990290864647761179972242614403843424065222377723867096038022172794340849684107193235344521442121855812163792833978437326241529856) * hv8_1 + (762145642166990290864647761179972242614403843424065222377723867096038022172794340849684107193235344521442121855812163792833978437326241529856) * hd_19 + (411376139330301510538742295639337626245683966408394965837152256) * hc_33 + (411376139330301510538742295639337626245683966408394965837152256) * hc_32 + (411376139330301510538742295639337626245683966408394965837152256) * hx_16 + (411376139330301510538742295639337626245683966408394965837152256) * hc_31 + (6129982163463555433433388108601236734474956488734408704) * ht7_1 + (6129982163463555433433388108601236734474956488734408704) * hc_30 + (6129982163463555433433388108601236734474956488734408704) * hx_15 + (762145642166990290864647761179972242614403843424065222377723867096038022172794340849684107193235344521442121855812163792833978437326241529856) * hd_18 + (11356855067118857664833184498250070849275646260739344691898284362197488876771842551971735167402555711886914400097909030211478150447104) * hv7_1 + (11356855067118857664833184498250070849275646260739344691898284362197488876771842551971735167402555711886914400097909030211478150447104) * hd_17 + (6129982163463555433433388108601236734474956488734408704) * hc_29 + (6129982163463555433433388108601236734474956488734408704) * hc_28 + (6129982163463555433433388108601236734474956488734408704) * hx_14 + (6129982163463555433433388108601236734474956488734408704) * hc_27 + (91343852333181432387730302044767688728495783936) * ht6_1 + (91343852333181432387730302044767688728495783936) * hc_26 + (91343852333181432387730302044767688728495783936) * hx_13 + (11356855067118857664833184498250070849275646260739344691898284362197488876771842551971735167402555711886914400097909030211478150447104) * hd_16 + (169230328010303641331690318856389386196071598838855992136870091590247882556495704531248437872567112920983350278405979725889536) * hv6_1 + (169230328010303641331690318856389386196071598838855992136870091590247882556495704531248437872567112920983350278405979725889536) * hd_15 + (91343852333181432387730302044767688728495783936) * hc_25 + (91343852333181432387730302044767688728495783936) * hc_24 + (91343852333181432387730302044767688728495783936) * hx_12 + (91343852333181432387730302044767688728495783936) * hc_23 + (1361129467683753853853498429727072845824) * ht5_1 + (1361129467683753853853498429727072845824) * hc_22 + (1361129467683753853853498429727072845824) * hx_11 + (169230328010303641331690318856389386196071598838855992136870091590247882556495704531248437872567112920983350278405979725889536) * hd_14 + (2521728396569246669585858566409191283525103313309788586748690777871726193375821479130513040312634601011624191379636224) * hv5_1 + (2521728396569246669585858566409191283525103313309788586748690777871726193375821479130513040312634601011624191379636224) * hd_13 + (1361129467683753853853498429727072845824) * hc_21 + (1361129467683753853853498429727072845824) * hc_20 + (1361129467683753853853498429727072845824) * hx_10 + (1361129467683753853853498429727072845824) * hc_19 + (20282409603651670423947251286016) * ht4_1 + (20282409603651670423947251286016) * hc_18 + (20282409603651670423947251286016) * hx_9 + (2521728396569246669585858566409191283525103313309788586748690777871726193375821479130513040312634601011624191379636224) * hd_12 + (37576681324381331646231689548629392438010920782533117931316655544515344401833735095419183974156299248510959616) * hv4_1 + (37576681324381331646231689548629392438010920782533117931316655544515344401833735095419183974156299248510959616) * hd_11 + (20282409603651670423947251286016) * hc_17 + (20282409603651670423947251286016) * hc_16 + (20282409603651670423947251286016) * hx_8 + (20282409603651670423947251286016) * hc_15 + (302231454903657293676544) * ht3_1 + (302231454903657293676544) * hc_14 + (302231454903657293676544) * hx_7 + (37576681324381331646231689548629392438010920782533117931316655544515344401833735095419183974156299248510959616) * hd_10 + (559936185544451052639360570142111069530411374308662383724997275240947967795040236345219373317901778944) * hv3_1 + (559936185544451052639360570142111069530411374308662383724997275240947967795040236345219373317901778944) * hd_9 + (302231454903657293676544) * hc_13 + (302231454903657293676544) * hc_12 + (302231454903657293676544) * hx_6 + (302231454903657293676544) * hc_11 + (4503599627370496) * ht2_1 + (4503599627370496) * hc_10 + (4503599627370496) * hx_5 + (559936185544451052639360570142111069530411374308662383724997275240947967795040236345219373317901778944) * hd_8 + (8343699359066055009355553539724812947666814540455674882605631280555545803830627148527195652096) * hv2_1 + (8343699359066055009355553539724812947666814540455674882605631280555545803830627148527195652096) * hd_7 + (4503599627370496) * hc_9 + (4503599627370496) * hc_8 + (4503599627370496) * hx_4 + (4503599627370496) * hc_7 + (67108864) * ht1_1 + (67108864) * hc_6 + (67108864) * hx_3 + (8343699359066055009355553539724812947666814540455674882605631280555545803830627148527195652096) * hd_6 + (124330809102446660538845562036705210025114037699336929360115994223289874253133343883264) * hv1_1 + (124330809102446660538845562036705210025114037699336929360115994223289874253133343883264) * hd_5 + (67108864) * hc_5 + (67108864) * hc_4 + (67108864) * hx_2 + (67108864) * hc_3 + (1) * ht0_1 + (1) * hc_2 + (1) * hx_1 + (124330809102446660538845562036705210025114037699336929360115994223289874253133343883264) * hd_4 + (1852673427797059126777135760139006525652319754650249024631321344126610074238976) * hv0_1 + (1852673427797059126777135760139006525652319754650249024631321344126610074238976) * hd_3 + (1) * hc_1 + (1852673427797059126777135760139006525652319754650249024631321344126610074238976) * hd_2 + (27606985387162255149739023449108101809804435888681546220650096895197184) * ht9_1 + (27606985387162255149739023449108101809804435888681546220650096895197184) * hd_1

end Verif.FElem
