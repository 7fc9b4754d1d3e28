import Verif.Proofs.Table

/-! Correctness of `ecmult` and `ecmult_const`. -/

namespace Verif

open Spec
open FElem hiding n

namespace Ecmult

theorem forRev_runs {σ : Type} {f : ℕ → σ → Exec σ} (I : ℕ → σ → Prop) :
    ∀ (n : ℕ) (s : σ), I n s → (∀ i s, i < n → I (i + 1) s → Runs (f i s) (I i)) → Runs (forRev n f s) (I 0)
  | 0, s, h0, _ => runs_pure h0
  | n + 1, s, h0, hs => by
    unfold forRev
    exact Runs.bind (hs n s (by omega) h0) fun a ha => forRev_runs I n a ha (fun i s hi => hs i s (by omega))

theorem digitSum_of_zero (base : ℤ) : ∀ l : List ℤ, (∀ d ∈ l, d = 0) → digitSum base l = 0
  | [], _ => rfl
  | d :: l, h => by
    rw [digitSum, digitSum_of_zero base l (fun x hx => h x (by simp [hx])), h d (by simp)]; simp

theorem digitSum_drop (base : ℤ) {l : List ℤ} {i : ℕ} (h : i < l.length) :
    digitSum base (l.drop i) = l[i] + base * digitSum base (l.drop (i + 1)) := by
  rw [List.drop_eq_getElem_cons h, digitSum]

/-- An odd digit is `2 j + 1` up to sign. -/
theorem odd_pos {d : ℤ} (h : d % 2 = 1) (h0 : 0 < d) (A : Pt) : (2 * ((d - 1) / 2).toNat + 1) • A = d • A := by
  have : d = ((2 * ((d - 1) / 2).toNat + 1 : ℕ) : ℤ) := by push_cast; omega
  conv_rhs => rw [this, natCast_zsmul]

theorem digitCheck_runs {d : ℤ} {w : ℕ} (h1 : d % 2 = 1) (h2 : -2 ^ (w - 1) < d) (h3 : d < 2 ^ (w - 1)) : digitCheck d w = pure () := by
  unfold digitCheck
  rw [dassert_true (by simpa using h1), pure_bind, dassert_true (decide_eq_true (by omega)), pure_bind, dassert_true (decide_eq_true (by omega))]

theorem tableGetGe_runs {pre : List Affine} {z : Fp} {A : Pt} {d : ℤ} {w L : ℕ} (hl : pre.length = L) (hL : (2 : ℤ) ^ (w - 1) ≤ 2 * L)
    (hp : ∀ j (hj : j < pre.length), AffZ pre[j] z ((2 * j + 1) • A) ∧ pre[j].infinity = false)
    (h1 : d % 2 = 1) (h2 : -2 ^ (w - 1) < d) (h3 : d < 2 ^ (w - 1)) :
    Runs (tableGetGe pre d w) (fun r => AffZ r z (d • A) ∧ r.infinity = false) := by
  unfold tableGetGe
  rw [digitCheck_runs h1 h2 h3, pure_bind]
  by_cases h0 : d > 0
  · rw [if_pos h0, idx_pure (by omega)]
    refine runs_pure ?_
    have := hp ((d - 1) / 2).toNat (by omega)
    rwa [odd_pos h1 h0] at this
  · rw [if_neg h0, idx_pure (by omega), pure_bind]
    have := hp ((-d - 1) / 2).toNat (by omega)
    rw [odd_pos (by omega) (by omega)] at this
    refine (Affine.neg_runs this.1).mono fun r hr => ⟨?_, hr.2.1.trans this.2⟩
    have h := hr.1
    rwa [neg_zsmul, neg_neg] at h

theorem tableGetGeStorage_runs {pre : List AffineStorage} {A : Pt} {d : ℤ} {w L : ℕ} (hp : StoTable L A pre) (hL : (2 : ℤ) ^ (w - 1) ≤ 2 * L)
    (h1 : d % 2 = 1) (h2 : -2 ^ (w - 1) < d) (h3 : d < 2 ^ (w - 1)) :
    Runs (tableGetGeStorage pre d w) (fun r => Aff r (d • A) ∧ r.infinity = false) := by
  unfold tableGetGeStorage
  obtain ⟨hl, hp⟩ := hp
  rw [digitCheck_runs h1 h2 h3, pure_bind]
  by_cases h0 : d > 0
  · rw [if_pos h0, idx_pure (by omega), pure_bind]
    refine runs_pure ?_
    have := hp ((d - 1) / 2).toNat (by omega)
    rw [odd_pos h1 h0] at this
    have g := Affine.ofStorage_aff this
    exact ⟨g.1, g.2.1⟩
  · rw [if_neg h0, idx_pure (by omega), pure_bind]
    have := hp ((-d - 1) / 2).toNat (by omega)
    rw [odd_pos (by omega) (by omega)] at this
    have g := Affine.ofStorage_aff this
    refine (Affine.neg_runs g.1).mono fun r hr => ⟨?_, hr.2.1.trans g.2.1⟩
    have h := hr.1
    rwa [neg_zsmul, neg_neg] at h

theorem signedVal_smul (k : ℕ) (P : Pt) : signedVal k • P = k • P := by
  unfold signedVal
  split
  · exact natCast_zsmul P k
  · rw [sub_zsmul, natCast_zsmul, natCast_zsmul, n_smul]; simp

theorem wnaf_drop {L w : ℕ} {v : ℤ} {r : List ℤ × ℤ} (h : Wnaf L w v r) {i : ℕ} (hi : r.2 ≤ i) : digitSum 2 (r.1.drop i) = 0 := by
  apply digitSum_of_zero
  intro d hd
  obtain ⟨j, hj, rfl⟩ := List.mem_iff_getElem.1 hd
  rw [List.length_drop] at hj
  rw [List.getElem_drop]
  exact h.zero (i + j) (by omega) (by push_cast; omega)

theorem ecmultStep_runs {preG : List AffineStorage} {preA : List Affine} {z : FElem} {A : Pt} {wa wg : List ℤ × ℤ} {va vg : ℤ} {i : ℕ} {r : Jacobian}
    (hG : StoTable 16384 G preG) (hl : preA.length = 8) (hz : z.Ok 8) (hz0 : z.v ≠ 0)
    (hA : ∀ j (hj : j < preA.length), AffZ preA[j] z.v ((2 * j + 1) • A) ∧ preA[j].infinity = false)
    (hwa : Wnaf 256 5 va wa) (hwg : Wnaf 256 16 vg wg) (hi : i < 256)
    (hr : JacZ r z.v (digitSum 2 (wa.1.drop (i + 1)) • A + digitSum 2 (wg.1.drop (i + 1)) • G)) :
    Runs (ecmultStep preG preA z wa.1 wg.1 wa.2 wg.2 i r)
      (fun r => JacZ r z.v (digitSum 2 (wa.1.drop i) • A + digitSum 2 (wg.1.drop i) • G)) := by
  unfold ecmultStep
  have hla := hwa.len; have hlg := hwg.len
  refine Runs.bind (Jacobian.doubleVar_runs none hr) fun r1 ⟨h1, _⟩ => ?_
  rw [idx_pure (by omega), pure_bind]
  have hstepA : Runs (ecmultAddA preA wa.1[i] i wa.2 r1.1) (fun r => JacZ r z.v
      ((digitSum 2 (wa.1.drop (i + 1)) • A + digitSum 2 (wg.1.drop (i + 1)) • G) +
        (digitSum 2 (wa.1.drop (i + 1)) • A + digitSum 2 (wg.1.drop (i + 1)) • G) + wa.1[i] • A)) := by
    unfold ecmultAddA
    by_cases hc : (i : ℤ) < wa.2 ∧ wa.1[i] ≠ 0
    · rw [if_pos hc]
      obtain ⟨d1, d2, d3⟩ := hwa.dig i (by omega) hc.2
      refine Runs.bind (tableGetGe_runs (w := windowA) (L := 8) hl (by norm_num [windowA]) hA d1 d2 d3) fun t ht => ?_
      refine Runs.bind (Jacobian.addGeVar_runs none h1 ht.1 (fun _ => rfl)) fun r2 hr2 => runs_pure hr2.1
    · rw [if_neg hc]
      have : wa.1[i] = 0 := by
        by_contra h0
        exact hc ⟨by by_contra hlt; exact h0 (hwa.zero i (by omega) (by omega)), h0⟩
      rw [this, zero_zsmul, add_zero]
      exact runs_pure h1
  refine Runs.bind hstepA fun r2 h2 => ?_
  rw [idx_pure (by omega), pure_bind]
  rw [digitSum_drop 2 (show i < wa.1.length by omega), digitSum_drop 2 (show i < wg.1.length by omega)]
  have hfin : ∀ x y : ℤ, ∀ u v : ℤ, (u + 2 * x) • A + (v + 2 * y) • G = (x • A + y • G) + (x • A + y • G) + u • A + v • G := by
    intro x y u v
    rw [add_zsmul, add_zsmul, two_mul, two_mul, add_zsmul, add_zsmul]; abel
  rw [hfin]
  unfold ecmultAddG
  by_cases hc : (i : ℤ) < wg.2 ∧ wg.1[i] ≠ 0
  · rw [if_pos hc]
    obtain ⟨d1, d2, d3⟩ := hwg.dig i (by omega) hc.2
    refine Runs.bind (tableGetGeStorage_runs (w := windowG) hG (by norm_num [windowG]) d1 d2 d3) fun t ht => ?_
    exact Jacobian.addZinvVar_runs h2 ht.1 hz hz0
  · rw [if_neg hc]
    have : wg.1[i] = 0 := by
      by_contra h0
      exact hc ⟨by by_contra hlt; exact h0 (hwg.zero i (by omega) (by omega)), h0⟩
    rw [this, zero_zsmul, add_zero]
    exact runs_pure h2

/-- Multiplying `z` by the common denominator turns a scaled point into a plain one. -/
theorem unscale_runs {r : Jacobian} {z : FElem} {P : Pt} (h : JacZ r z.v P) (hz : z.Ok 8) :
    Runs (FElem.mul r.z z >>= fun z' => pure ({ r with z := z' } : Jacobian)) (fun r => Jac r P) := by
  refine Runs.bind (fe_mul h.z hz (by norm_num) (by norm_num)) fun z' hz' => runs_pure ?_
  refine ⟨h.x, h.y, hz'.1.ok (by norm_num), ?_⟩
  dsimp only
  rw [hz'.1.v, mul_one]; exact h.rep

theorem ecmult_runs {preG : List AffineStorage} {a : Jacobian} {A : Pt} {na ng : Scalar} (hG : StoTable 16384 G preG) (ha : Jac a A) (hA : A ≠ 0)
    (hna : na.val < n) (hng : ng.val < n) :
    Runs (ecmult preG a na ng) (fun r => Jac r (na.val • A + ng.val • G)) := by
  unfold ecmult
  refine Runs.bind (ecmultWnaf_runs (w := windowA) hna (by decide) (by decide) le_rfl (Or.inl rfl)) fun wa hwa => ?_
  refine Runs.bind (oddMultiplesTableGlobalz_runs ha hA) fun t ⟨hl, hz, hz0, ht⟩ => ?_
  refine Runs.bind (ecmultWnaf_runs (w := windowG) hng (by decide) (by decide) le_rfl (Or.inl rfl)) fun wg hwg => ?_
  dsimp only
  have hba := hwa.hi; have hbg := hwg.hi; have hla := hwa.lo; have hlg := hwg.lo
  generalize hbits : (if wg.2 > wa.2 then wg.2 else wa.2) = bits
  have hb1 : wa.2 ≤ bits := by split at hbits <;> omega
  have hb2 : wg.2 ≤ bits := by split at hbits <;> omega
  have hb3 : bits ≤ 256 := by split at hbits <;> omega
  refine Runs.bind (forRev_runs (fun i r => JacZ r t.2.v (digitSum 2 (wa.1.drop i) • A + digitSum 2 (wg.1.drop i) • G)) bits.toNat _ ?_
    (fun i r hi hr => ecmultStep_runs hG hl hz hz0 ht hwa hwg (by omega) hr)) fun r hr => ?_
  · rw [wnaf_drop hwa (by omega), wnaf_drop hwg (by omega), zero_zsmul, zero_zsmul, add_zero]
    exact Jacobian.setInfinity_jac _ _
  · rw [List.drop_zero, List.drop_zero, hwa.sum, hwg.sum, signedVal_smul, signedVal_smul] at hr
    unfold ecmultFinish
    cases hi : r.infinity with
    | true =>
      rw [if_pos rfl]
      rw [hr.inf_iff.1 hi]
      exact runs_pure ⟨hr.x, hr.y, hr.z, by rw [hi]; exact rep_inf ..⟩
    | false =>
      rw [if_neg (by simp)]
      have := unscale_runs hr hz
      rwa [hi] at this

/-! ## `ecmult_const` -/

theorem cmovLoop_runs {pre : List Affine} {k : ℕ} {r : Affine} (hk : k < pre.length) :
    Runs (cmovLoop pre k r) (fun r => r.x = pre[k].x ∧ r.y = pre[k].y) := by
  unfold cmovLoop
  refine (forN_runs (fun m (r : Affine) => k < m → r.x = pre[k].x ∧ r.y = pre[k].y) pre.length r (fun h => by omega) ?_).mono
    (fun r h => h hk)
  intro m r hm h
  rw [idx_pure hm, pure_bind]
  refine runs_pure fun hkm => ?_
  rw [FElem.cmov_eq, FElem.cmov_eq]
  by_cases e : m = k
  · subst e; simp
  · have := h (by omega)
    simp [e, this]

theorem tableGetGeConst_runs {r : Affine} {pre : List Affine} {z : Fp} {A : Pt} {d : ℤ} (hl : pre.length = 8)
    (hp : ∀ j (hj : j < pre.length), AffZ pre[j] z ((2 * j + 1) • A) ∧ pre[j].infinity = false ∧ pre[j].y.Ok 1)
    (h1 : d % 2 = 1) (h2 : -16 < d) (h3 : d < 16) :
    Runs (tableGetGeConst r pre d windowA) (fun r => AffZ r z (d • A) ∧ r.infinity = false) := by
  unfold tableGetGeConst
  have habs : d * ((if d > 0 then 1 else 0) * 2 - 1) = |d| := by
    by_cases h : d > 0
    · rw [if_pos h, abs_of_pos h]; ring
    · rw [if_neg h, abs_of_nonpos (by omega)]; ring
  have hlt : |d| < 16 := abs_lt.2 ⟨h2, h3⟩
  have h0 := abs_nonneg d
  rw [habs, i32_pure (by omega) (by omega), pure_bind, digitCheck_runs h1 (by simpa [windowA] using h2) (by simpa [windowA] using h3), pure_bind]
  have hk : (|d| / 2).toNat < pre.length := by omega
  refine Runs.bind (cmovLoop_runs (r := r) hk) fun r ⟨hx, hy⟩ => ?_
  obtain ⟨g1, g2, g3⟩ := hp _ hk
  have hodd : |d| % 2 = 1 := by rcases abs_choice d with h | h <;> rw [h] <;> omega
  have hsm : (2 * (|d| / 2).toNat + 1) • A = |d| • A := by
    have : |d| = ((2 * (|d| / 2).toNat + 1 : ℕ) : ℤ) := by push_cast; omega
    conv_rhs => rw [this, natCast_zsmul]
  rw [hsm] at g1
  have hrep := g1.rep
  rw [g2] at hrep
  rw [← hy] at g3 hrep
  rw [← hx] at hrep
  have gx := g1.x; have gy := g1.y
  rw [← hx] at gx; rw [← hy] at gy
  refine Runs.bind (fe_neg (m := 1) g3 rfl (by norm_num)) fun ny hny => runs_pure ⟨?_, rfl⟩
  rw [FElem.cmov_eq]
  by_cases hd : d > 0
  · rw [abs_of_pos hd] at *
    rw [if_neg (by simp)]
    exact ⟨gx, gy, hrep⟩
  · rw [abs_of_nonpos (by omega)] at *
    rw [if_pos (by simp; omega)]
    rw [show d • A = -((-d) • A) by rw [neg_zsmul, neg_neg]]
    exact affZ_of gx hny.1 (by norm_num) (by norm_num) (rep_neg hrep)

theorem weakTable_runs {pre : List Affine} {z : Fp} {A : Pt} (hl : pre.length = 8)
    (hp : ∀ j (hj : j < pre.length), AffZ pre[j] z ((2 * j + 1) • A) ∧ pre[j].infinity = false) :
    Runs (weakTable pre) (fun l => l.length = 8 ∧ ∀ j (hj : j < l.length), AffZ l[j] z ((2 * j + 1) • A) ∧ l[j].infinity = false ∧ l[j].y.Ok 1) := by
  unfold weakTable
  refine tabulate_runs (n := 8) (P := fun j x => AffZ x z ((2 * j + 1) • A) ∧ x.infinity = false ∧ x.y.Ok 1) fun i hi => ?_
  rw [idx_pure (by omega), pure_bind]
  obtain ⟨g1, g2⟩ := hp i (by omega)
  refine Runs.bind (fe_normalizeWeak g1.y (by norm_num)) fun y hy => runs_pure ⟨?_, g2, hy.1.ok le_rfl⟩
  exact affZ_of g1.x hy.1 (by norm_num) (by norm_num) g1.rep

theorem zsmul_ne_zero {A : Pt} (hA : A ≠ 0) {v : ℤ} (h0 : v ≠ 0) (h : |v| < n) : v • A ≠ 0 := by
  intro e
  have h1 : v.natAbs • A = 0 := by
    rw [← natCast_zsmul, Int.natCast_natAbs]
    rcases abs_choice v with h | h <;> rw [h]
    · exact e
    · rw [neg_zsmul, e, neg_zero]
  rw [smul_eq_zero_iff hA] at h1
  have h2 : v.natAbs < n := by zify; exact h
  exact Nat.not_dvd_of_pos_of_lt (Int.natAbs_pos.2 h0) h2 h1

theorem digitSum_split (base : ℤ) : ∀ (l : List ℤ) (i : ℕ), i ≤ l.length →
    digitSum base l = digitSum base (l.take i) + base ^ i * digitSum base (l.drop i)
  | l, 0, _ => by simp [digitSum]
  | [], i + 1, h => by simp at h
  | d :: l, i + 1, h => by
    have := digitSum_split base l i (by simpa using h)
    simp only [List.take_succ_cons, List.drop_succ_cons, digitSum]
    rw [this]; ring

theorem digitSum_abs_lt {B : ℤ} (hB : 1 ≤ B) : ∀ l : List ℤ, (∀ d ∈ l, -B < d ∧ d < B) → |digitSum B l| < B ^ l.length
  | [], _ => by simp [digitSum]
  | d :: l, h => by
    have h1 := digitSum_abs_lt hB l (fun x hx => h x (by simp [hx]))
    obtain ⟨h2, h3⟩ := h d (by simp)
    rw [abs_lt] at h1 ⊢
    rw [digitSum, List.length_cons, pow_succ]
    constructor <;> nlinarith

theorem digitSum_odd {B : ℤ} (hB : B % 2 = 0) : ∀ l : List ℤ, l ≠ [] → (∀ d ∈ l, d % 2 = 1) → digitSum B l % 2 = 1
  | [], h, _ => absurd rfl h
  | d :: l, _, h => by
    have h1 := h d (by simp)
    rw [digitSum, Int.add_emod, Int.mul_emod, hB, h1]; simp

/-- The partial sums of the digits are odd and smaller than the order. -/
theorem wnafConst_drop {a : ℕ} {r : List ℤ × ℤ} (h : WnafConst 4 a r) {i : ℕ} (hi : i ≤ 64) {A : Pt} (hA : A ≠ 0) :
    digitSum 16 (r.1.drop i) • A ≠ 0 := by
  have hlen : r.1.length = 65 := h.len
  have hodd : digitSum 16 (r.1.drop i) % 2 = 1 := by
    apply digitSum_odd (by norm_num)
    · intro e
      have := congrArg List.length e
      rw [List.length_drop, hlen] at this; simp at this; omega
    · intro d hd; exact (h.dig d (List.mem_of_mem_drop hd)).1
  have hb := h.bound
  norm_num at hb
  have hs := digitSum_split 16 r.1 i (by omega)
  have ht : |digitSum 16 (r.1.take i)| < 16 ^ i := by
    have := digitSum_abs_lt (B := 16) (by norm_num) (r.1.take i) (fun d hd => by
      have := (h.dig d (List.mem_of_mem_take hd)).2; norm_num at this; exact this)
    rwa [List.length_take, min_eq_left (by omega)] at this
  apply zsmul_ne_zero hA
  · omega
  · have hpos : (1 : ℤ) ≤ 16 ^ i := one_le_pow₀ (by norm_num)
    generalize digitSum 16 (r.1.drop i) = v at *
    generalize digitSum 16 (r.1.take i) = u at *
    generalize digitSum 16 r.1 = V at *
    have hv1 : 1 ≤ |v| := Int.one_le_abs (by omega)
    have h16 : (16 : ℤ) ^ i * |v| = |V - u| := by
      rw [hs, add_sub_cancel_left, abs_mul, abs_of_pos (show (0 : ℤ) < 16 ^ i by omega)]
    have h3 : |V - u| ≤ |V| + |u| := abs_sub V u
    have hlt : (16 : ℤ) ^ i * (|v| - 1) < |V| := by nlinarith
    have hle : |v| - 1 ≤ (16 : ℤ) ^ i * (|v| - 1) := by nlinarith
    have hn3 : (100 : ℤ) < n := by exact_mod_cast (show 100 < n by decide +kernel)
    omega

theorem constDoubles_runs {r : Jacobian} {z : Fp} {P : Pt} (h : JacZ r z P) (hP : P ≠ 0) :
    Runs (forN (windowA - 1) constDouble r) (fun r => JacZ r z ((16 : ℤ) • P)) := by
  refine (forN_runs (fun k r => JacZ r z ((2 ^ k : ℕ) • P) ∧ (2 ^ k : ℕ) • P ≠ 0) (windowA - 1) r ⟨by simpa using h, by simpa using hP⟩ ?_).mono ?_
  · intro i r _ ⟨h, h0⟩
    unfold constDouble Jacobian.doubleNonzeroInPlace
    have hfin := h.inf_false h0
    have e : (2 ^ (i + 1) : ℕ) • P = (2 ^ i : ℕ) • P + (2 ^ i : ℕ) • P := by
      rw [pow_succ, mul_nsmul, two_nsmul]
    refine Runs.bind (P := fun x => JacZ x.1 z ((2 ^ i : ℕ) • P + (2 ^ i : ℕ) • P)) ?_ fun x hx => runs_pure ?_
    · refine runs_dassert (by rw [hfin]; rfl) ?_
      exact (Jacobian.doubleVarInPlace_runs none h ⟨h.x, h.y, h.z⟩).mono fun _ hr => hr.1
    · rw [e]; exact ⟨hx, dbl_ne_zero h0⟩
  · intro r ⟨h, _⟩
    have : (2 ^ (windowA - 1) : ℕ) • P = (16 : ℤ) • P := by
      rw [← natCast_zsmul]; rfl
    rwa [this] at h

theorem constStep_runs {preA : List Affine} {z : Fp} {A : Pt} {a : ℕ} {w : List ℤ × ℤ} {i : ℕ} {s : Jacobian × Affine} (hA : A ≠ 0) (hl : preA.length = 8)
    (hp : ∀ j (hj : j < preA.length), AffZ preA[j] z ((2 * j + 1) • A) ∧ preA[j].infinity = false ∧ preA[j].y.Ok 1)
    (hw : WnafConst 4 a w) (hi : i < 64) (hs : JacZ s.1 z (digitSum 16 (w.1.drop (i + 1)) • A)) :
    Runs (constStep preA w.1 i s) (fun s => JacZ s.1 z (digitSum 16 (w.1.drop i) • A)) := by
  have hlen : w.1.length = 65 := hw.len
  unfold constStep
  refine Runs.bind (constDoubles_runs hs (wnafConst_drop hw (by omega) hA)) fun r hr => ?_
  rw [idx_pure (by omega), pure_bind]
  obtain ⟨d1, d2, d3⟩ := hw.dig w.1[i] (List.getElem_mem _)
  norm_num at d2 d3
  refine Runs.bind (tableGetGeConst_runs hl hp d1 d2 d3) fun t ht => ?_
  refine runs_dassert (by simp; omega) ?_
  refine Runs.bind (Jacobian.addGe_runs hr ht.1 ht.2) fun r' hr' => runs_pure ?_
  dsimp only
  rw [digitSum_drop 16 (show i < w.1.length by omega), add_zsmul, mul_comm, mul_zsmul, zsmul_comm, add_comm]
  exact hr'

theorem constCorrect_runs {a : Affine} {A : Pt} {skew : ℤ} {r : Jacobian} {P : Pt} (ha : Aff a A) (hA : A ≠ 0) (hskew : skew = 1 ∨ skew = 2) (hr : Jac r P) :
    Runs (constCorrect a skew r) (fun r => Jac r (P + -(skew • A))) := by
  unfold constCorrect
  refine Runs.bind (Jacobian.setGe_runs ha) fun tj htj => ?_
  refine Runs.bind (Jacobian.doubleVar_runs none htj.1) fun d hd => ?_
  refine Runs.bind (Affine.setGej_runs hd.1) fun c hc => ?_
  refine Runs.bind (Affine.toStorage_runs ha (ha.inf_false hA)) fun c1 hc1 => ?_
  refine Runs.bind (Affine.toStorage_runs hc.1 (hc.1.inf_false (dbl_ne_zero hA))) fun a2 ha2 => ?_
  dsimp only
  have hsto : Sto (c1.cmov a2 (skew == 2)) (skew • A) := by
    rw [AffineStorage.cmov_eq]
    rcases hskew with rfl | rfl
    · simpa using hc1
    · rw [if_pos (by rfl), two_zsmul]; exact ha2
  have hof := Affine.ofStorage_aff hsto
  refine Runs.bind (Affine.neg_runs hof.1) fun cr hcr => ?_
  exact Jacobian.addGe_runs hr hcr.1 (hcr.2.1.trans hof.2.1)

theorem ecmultConst_runs {a : Affine} {A : Pt} {s : Scalar} (ha : Aff a A) (hA : A ≠ 0) (hs : s.val < n) :
    Runs (ecmultConst a s) (fun r => Jac r (s.val • A)) := by
  unfold ecmultConst
  refine Runs.bind (ecmultWnafConst_runs (w := 4) hs (by norm_num) (by norm_num) (by rw [List.length_replicate]; rfl)) fun w hw => ?_
  have hlen : w.1.length = 65 := hw.len
  have e64 : wnafSize = 64 := rfl
  refine Runs.bind (Jacobian.setGe_runs ha) fun r0 hr0 => ?_
  refine Runs.bind (oddMultiplesTableGlobalz_runs hr0.1 hA) fun t ⟨hl, hz, hz0, ht⟩ => ?_
  refine Runs.bind (weakTable_runs hl ht) fun preA ⟨hl', hp⟩ => ?_
  rw [e64, idx_pure (by omega), pure_bind]
  obtain ⟨d1, d2, d3⟩ := hw.dig w.1[64] (List.getElem_mem _)
  norm_num at d2 d3
  refine runs_dassert (by simp; omega) ?_
  refine Runs.bind (tableGetGeConst_runs hl' hp d1 d2 d3) fun tm htm => ?_
  refine Runs.bind (Jacobian.setGe_runs htm.1) fun r1 hr1 => ?_
  refine Runs.bind (forRev_runs (fun i (s : Jacobian × Affine) => JacZ s.1 t.2.v (digitSum 16 (w.1.drop i) • A)) 64 _ ?_
    (fun i s hi h => constStep_runs hA hl' hp hw hi h)) fun q hs' => ?_
  · dsimp only
    rw [digitSum_drop 16 (show 64 < w.1.length by omega), List.drop_eq_nil_of_le (by omega)]
    simpa [digitSum] using hr1.1
  · rw [List.drop_zero] at hs'
    have e : Runs (FElem.mul q.1.z t.2 >>= fun z => (pure ({ q.1 with z := z } : Jacobian)) >>= constCorrect a w.2)
        (fun r => Jac r (digitSum 16 w.1 • A + -(w.2 • A))) := by
      have := Runs.bind (unscale_runs hs' hz) (fun r hr => constCorrect_runs (skew := w.2) ha hA hw.skew hr)
      rwa [bind_assoc] at this
    simp only [pure_bind] at e
    refine e.mono fun r hr => ?_
    have hsum : digitSum 16 w.1 • A + -(w.2 • A) = s.val • A := by
      have hsum := hw.sum
      norm_num at hsum
      rcases hsum with h | h <;> rw [h]
      · rw [add_zsmul, natCast_zsmul]; abel
      · rw [sub_zsmul, add_zsmul, natCast_zsmul, natCast_zsmul, n_smul]; abel
    rwa [hsum] at hr

end Ecmult

end Verif
