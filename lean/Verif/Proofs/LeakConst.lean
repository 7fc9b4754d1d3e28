import Verif.Proofs.Leak

/-! The observations of `ecmult_const` and `ecdh_raw`. -/

namespace Verif

open Spec Leak
open FElem hiding n

/-! ## When two multiples of a point have opposite y-coordinates -/

theorem zsmul_eq_zero_iff {A : Pt} (hA : A ≠ 0) (v : ℤ) : v • A = 0 ↔ (n : ℤ) ∣ v := by
  rcases Int.eq_nat_or_neg v with ⟨m, rfl | rfl⟩
  · rw [natCast_zsmul, smul_eq_zero_iff hA, Int.natCast_dvd_natCast]
  · rw [neg_zsmul, neg_eq_zero, natCast_zsmul, smul_eq_zero_iff hA, Int.dvd_neg, Int.natCast_dvd_natCast]

theorem oppY_zsmul {A : Pt} (hA : A ≠ 0) {u v : ℤ} (hv : ¬(n : ℤ) ∣ v) :
    OppY (u • A) (v • A) ↔ (n : ℤ) ∣ u + v ∨ (n : ℤ) ∣ u + lam * v ∨ (n : ℤ) ∣ u + lam * (lam * v) := by
  rw [oppY_iff (fun h => hv ((zsmul_eq_zero_iff hA v).1 h))]
  rw [← natCast_zsmul (v • A) lam, ← natCast_zsmul _ lam, smul_smul, smul_smul, ← add_zsmul, ← add_zsmul, ← add_zsmul,
    zsmul_eq_zero_iff hA, zsmul_eq_zero_iff hA, zsmul_eq_zero_iff hA]

theorem lam_sq (v : ℤ) : (n : ℤ) ∣ lam * (lam * v) + lam * v + v := by
  have h : (n : ℤ) ∣ lam * lam + lam + 1 := by
    have : n ∣ lam * lam + lam + 1 := Nat.dvd_of_mod_eq_zero (by decide +kernel)
    exact_mod_cast this
  obtain ⟨k, hk⟩ := h
  exact ⟨k * v, by linear_combination v * hk⟩

theorem oppY_zsmul' {A : Pt} (hA : A ≠ 0) {u v : ℤ} (hv : ¬(n : ℤ) ∣ v) :
    OppY (u • A) (v • A) ↔ (n : ℤ) ∣ u + v ∨ (n : ℤ) ∣ u + lam * v ∨ (n : ℤ) ∣ u - lam * v - v := by
  rw [oppY_zsmul hA hv]
  have e : (n : ℤ) ∣ u + lam * (lam * v) ↔ (n : ℤ) ∣ u - lam * v - v := by
    have h := lam_sq v
    have : u + lam * (lam * v) = (u - lam * v - v) + (lam * (lam * v) + lam * v + v) := by ring
    rw [this, dvd_add_left h]
  rw [e]

theorem small_not_dvd {v : ℤ} (h0 : v ≠ 0) (h1 : -16 < v) (h2 : v < 16) : ¬(n : ℤ) ∣ v := by
  intro h
  have := Int.le_of_dvd (a := (n : ℤ)) (b := |v|) (abs_pos.2 h0) ((dvd_abs _ _).2 h)
  have hn : (100 : ℤ) < n := by exact_mod_cast (show 100 < n by decide +kernel)
  have : |v| < 16 := abs_lt.2 ⟨h1, h2⟩
  omega

theorem step_table : ∀ i : ℕ, i < 32 → ∀ j : ℕ, j < 24 → ∀ r, (r = (n : ℤ) * ((j : ℤ) - 12) - lam * ((i : ℤ) - 16) ∨ r = (n : ℤ) * ((j : ℤ) - 12) + (lam + 1) * ((i : ℤ) - 16)) →
    i % 2 = 1 → r % 32 = 16 → (n : ℤ) + 3 < 2 * ((r + ((i : ℤ) - 16)).natAbs : ℤ) := by
  have h : ∀ i : ℕ, i < 32 → ∀ j : ℕ, j < 24 → ∀ r ∈ [(n : ℤ) * ((j : ℤ) - 12) - lam * ((i : ℤ) - 16), (n : ℤ) * ((j : ℤ) - 12) + (lam + 1) * ((i : ℤ) - 16)],
      i % 2 = 1 → r % 32 = 16 → (n : ℤ) + 3 < 2 * ((r + ((i : ℤ) - 16)).natAbs : ℤ) := by decide +kernel
  intro i hi j hj r hr
  exact h i hi j hj r (by simpa using hr)

theorem dvd_bound {N x k : ℤ} (hN : 0 < N) (h : x = N * k) (h1 : -(12 * N) < x) (h2 : x < 12 * N) : -12 < k ∧ k < 12 := by
  subst h
  constructor
  · by_contra hk
    have : N * k ≤ N * -12 := mul_le_mul_of_nonneg_left (by omega) hN.le
    linarith
  · by_contra hk
    have : N * 12 ≤ N * k := mul_le_mul_of_nonneg_left (by omega) hN.le
    linarith

theorem lam_lt : 3 * (lam : ℤ) < n ∧ (1000 : ℤ) < lam := by
  constructor
  · exact_mod_cast (show 3 * lam < n by decide +kernel)
  · exact_mod_cast (show 1000 < lam by decide +kernel)

theorem step_arith {N L c w : ℤ} (l1 : 3 * L < N) (l2 : 1000 < L) (h1 : -16 < w) (h2 : w < 16) (hb : 2 * ((16 * c + w).natAbs : ℤ) ≤ N + 3) :
    (-(12 * N) < 16 * c + L * w ∧ 16 * c + L * w < 12 * N) ∧ (-(12 * N) < 16 * c - L * w - w ∧ 16 * c - L * w - w < 12 * N) := by
  have q1 : -16 * L < L * w := by nlinarith
  have q2 : L * w < 16 * L := by nlinarith
  generalize L * w = q at *
  omega

theorem step_zero {N c w k : ℤ} (hN : 1000 < N) (h : 16 * c + w = N * k) (hw : w % 2 = 1) (hb : 2 * ((16 * c + w).natAbs : ℤ) ≤ N + 3) : False := by
  rcases lt_trichotomy k 0 with hk | hk | hk
  · have : N * k ≤ N * -1 := mul_le_mul_of_nonneg_left (by omega) (by omega)
    generalize N * k = q at *
    omega
  · subst hk; rw [mul_zero] at h; omega
  · have : N * 1 ≤ N * k := mul_le_mul_of_nonneg_left (by omega) (by omega)
    generalize N * k = q at *
    omega

/-- In the main loop the two points never have opposite y-coordinates. -/
theorem step_regular {c w : ℤ} (hc : c % 2 = 1) (hw : w % 2 = 1) (h1 : -16 < w) (h2 : w < 16) (hb : 2 * |16 * c + w| ≤ n + 3) :
    ¬((n : ℤ) ∣ 16 * c + w ∨ (n : ℤ) ∣ 16 * c + lam * w ∨ (n : ℤ) ∣ 16 * c - lam * w - w) := by
  obtain ⟨l1, l2⟩ := lam_lt
  have ht := step_table (w + 16).toNat (by omega)
  have hi : (((w + 16).toNat : ℕ) : ℤ) - 16 = w := by omega
  rw [hi] at ht
  rw [← Int.natCast_natAbs] at hb
  have hN : (0 : ℤ) < n := by linarith
  obtain ⟨⟨a1, a2⟩, a3, a4⟩ := step_arith l1 l2 h1 h2 hb
  rintro (⟨k, h⟩ | ⟨k, h⟩ | ⟨k, h⟩)
  · exact step_zero (by linarith) h hw hb
  · obtain ⟨k1, k2⟩ := dvd_bound hN h a1 a2
    have hk : (((k + 12).toNat : ℕ) : ℤ) - 12 = k := by omega
    have := ht (k + 12).toNat (by omega) (16 * c) (Or.inl (by rw [hk, ← h]; ring)) (by omega) (by omega)
    linarith
  · obtain ⟨k1, k2⟩ := dvd_bound hN h a3 a4
    have hk : (((k + 12).toNat : ℕ) : ℤ) - 12 = k := by omega
    have := ht (k + 12).toNat (by omega) (16 * c) (Or.inr (by rw [hk, ← h]; ring)) (by omega) (by omega)
    linarith

/-- The scalars for which the final correction of `ecmult_const` meets opposite y-coordinates. -/
def constExceptions : List ℕ :=
  [0, 0x5938a5667f479e3eb5b3c7faefdb374a965297126e45d34a01cd319499eec659,
    0xa6c75a9980b861c14a4c38051024c8b4245c45d44102ccf1be052cf836477ae2,
    0xac9c52b33fa3cf1f5ad9e3fd77ed9ba4a880b9fc8ec739c2e0cfc810b51283cd]

theorem correct_table1 : ∀ k ∈ [(1 : ℤ), 2], ∀ j : ℕ, j < 24 → ∀ V ∈ [(n : ℤ) * ((j : ℤ) - 12) + k, (n : ℤ) * ((j : ℤ) - 12) + lam * k, (n : ℤ) * ((j : ℤ) - 12) - (lam + 1) * k],
    V % 2 = 1 → 2 * (V.natAbs : ℤ) ≤ n + 1 → ∀ a ∈ [V - k, V - k + n], (0 ≤ a ∧ a < n) → a.toNat ∈ constExceptions := by
  decide +kernel

theorem correct_table2 : ∀ a ∈ constExceptions, ∀ k ∈ [(1 : ℤ), 2], ∀ V ∈ [a + k, a + k - n], V % 2 = 1 → 2 * (V.natAbs : ℤ) ≤ n + 1 →
    ((V + -k) % n = 0 ∨ (V + lam * -k) % n = 0 ∨ (V - lam * -k - -k) % n = 0) := by decide +kernel

theorem correct_arith {N L V k : ℤ} (l1 : 3 * L < N) (l2 : 1000 < L) (hk : k = 1 ∨ k = 2) (hb : 2 * (V.natAbs : ℤ) ≤ N + 1) :
    (-(12 * N) < V + -k ∧ V + -k < 12 * N) ∧ (-(12 * N) < V + L * -k ∧ V + L * -k < 12 * N) ∧
    (-(12 * N) < V - L * -k - -k ∧ V - L * -k - -k < 12 * N) := by
  rcases hk with rfl | rfl <;> omega

theorem correct_regular {a : ℕ} {V k : ℤ} (ha : a < n) (hk : k = 1 ∨ k = 2) (hV : V = a + k ∨ V = a + k - n) (ho : V % 2 = 1) (hb : 2 * |V| ≤ n + 1) :
    ((n : ℤ) ∣ V + -k ∨ (n : ℤ) ∣ V + lam * -k ∨ (n : ℤ) ∣ V - lam * -k - -k) ↔ a ∈ constExceptions := by
  obtain ⟨l1, l2⟩ := lam_lt
  rw [← Int.natCast_natAbs] at hb
  have hk' : k ∈ [(1 : ℤ), 2] := by simpa using hk
  have hN : (0 : ℤ) < n := by linarith
  obtain ⟨⟨a1, a2⟩, ⟨a3, a4⟩, a5, a6⟩ := correct_arith l1 l2 hk hb
  constructor
  · intro h
    have fin : ∀ j : ℤ, -12 < j → j < 12 → (V = n * j + k ∨ V = n * j + lam * k ∨ V = n * j - (lam + 1) * k) → a ∈ constExceptions := by
      intro j j1 j2 hj
      have e : (((j + 12).toNat : ℕ) : ℤ) - 12 = j := by omega
      have hm : (a : ℤ) ∈ [V - k, V - k + n] := by
        simp only [List.mem_cons, List.not_mem_nil, or_false]
        rcases hV with h | h
        · left; linarith
        · right; linarith
      have := correct_table1 k hk' (j + 12).toNat (by omega) V (by rw [e]; simpa using hj) ho hb (a : ℤ) hm ⟨by omega, by exact_mod_cast ha⟩
      simpa using this
    rcases h with ⟨j, h⟩ | ⟨j, h⟩ | ⟨j, h⟩
    · obtain ⟨k1, k2⟩ := dvd_bound hN h a1 a2
      exact fin j k1 k2 (Or.inl (by linarith))
    · obtain ⟨k1, k2⟩ := dvd_bound hN h a3 a4
      exact fin j k1 k2 (Or.inr (Or.inl (by linarith)))
    · obtain ⟨k1, k2⟩ := dvd_bound hN h a5 a6
      exact fin j k1 k2 (Or.inr (Or.inr (by linarith)))
  · intro h
    have := correct_table2 a h k hk' V (by simpa using hV) ho hb
    simpa only [Int.dvd_iff_emod_eq_zero] using this

namespace Ecmult

/-- The partial sums of the digits are odd and at most about half the order. -/
theorem wnafConst_drop_bound {a : ℕ} {r : List ℤ × ℤ} (h : WnafConst 4 a r) {i : ℕ} (hi : i ≤ 64) :
    digitSum 16 (r.1.drop i) % 2 = 1 ∧ 2 * |digitSum 16 (r.1.drop i)| ≤ n + 3 := by
  have hlen : r.1.length = 65 := h.len
  have hodd : digitSum 16 (r.1.drop i) % 2 = 1 := by
    apply digitSum_odd (by norm_num)
    · intro e
      have := congrArg List.length e
      rw [List.length_drop, hlen] at this; simp at this; omega
    · intro d hd; exact (h.dig d (List.mem_of_mem_drop hd)).1
  refine ⟨hodd, ?_⟩
  have hb := h.bound
  norm_num at hb
  have hs := digitSum_split 16 r.1 i (by omega)
  have ht : |digitSum 16 (r.1.take i)| < 16 ^ i := by
    have := digitSum_abs_lt (B := 16) (by norm_num) (r.1.take i) (fun d hd => by
      have := (h.dig d (List.mem_of_mem_take hd)).2; norm_num at this; exact this)
    rwa [List.length_take, min_eq_left (by omega)] at this
  have hpos : (1 : ℤ) ≤ 16 ^ i := one_le_pow₀ (by norm_num)
  generalize digitSum 16 (r.1.drop i) = v at *
  generalize digitSum 16 (r.1.take i) = u at *
  generalize digitSum 16 r.1 = V at *
  have hv1 : 1 ≤ |v| := Int.one_le_abs (by omega)
  have h16 : (16 : ℤ) ^ i * |v| = |V - u| := by
    rw [hs, add_sub_cancel_left, abs_mul, abs_of_pos (show (0 : ℤ) < 16 ^ i by omega)]
  have h3 : |V - u| ≤ |V| + |u| := abs_sub V u
  have hlt : (16 : ℤ) ^ i * (|v| - 1) < |V| := by nlinarith
  have hle : |v| - 1 ≤ (16 : ℤ) ^ i * (|v| - 1) := by nlinarith
  omega

/-! ## Observations -/

def readsTrace (k : ℕ) : List Event := upTrace (fun i => [.read i]) k

theorem tableGetGeConstL_runs {r : Affine} {pre : List Affine} {z : Fp} {A : Pt} {d : ℤ} (hl : pre.length = 8)
    (hp : ∀ j (hj : j < pre.length), AffZ pre[j] z ((2 * j + 1) • A) ∧ pre[j].infinity = false ∧ pre[j].y.Ok 1)
    (h1 : d % 2 = 1) (h2 : -16 < d) (h3 : d < 16) :
    RunsL (tableGetGeConstL r pre d windowA) (fun r => AffZ r z (d • A) ∧ r.infinity = false) (readsTrace 8) := by
  refine runsL_of (by rw [tableGetGeConstL_value]; exact tableGetGeConst_runs hl hp h1 h2 h3) ?_
  unfold tableGetGeConstL
  refine TraceIs.bind_lift fun _ => ?_
  refine TraceIs.bind_lift fun _ => ?_
  rw [← List.append_nil (readsTrace 8)]
  refine TraceIs.bind ?_ fun _ => TraceIs.bind_lift fun _ => traceIs_pure _
  unfold cmovLoopL readsTrace
  generalize Int.toNat _ = k
  rw [hl]
  have key : ∀ (i : ℕ) (s : Affine), TraceIs (do
      let p ← Leak.read pre i
      pure ({ s with x := s.x.cmov p.x (i == k), y := s.y.cmov p.y (i == k) } : Affine)) [.read i] := fun i s =>
    (traceIs_read _ _).bind (u := []) fun _ => traceIs_pure _
  exact traceIs_forN (t := fun i => [.read i]) key 8 _

theorem doubleNonzeroL_traceIs {r : Jacobian} (h : r.infinity = false) : TraceIs (Jacobian.doubleNonzeroL r) [.branch false] := by
  unfold Jacobian.doubleNonzeroL
  refine TraceIs.bind_lift fun _ => ?_
  refine TraceIs.bind_runsL (t := [.branch false]) (u := []) (P := fun r => r = false) (by rw [h]; exact RunsL.branch false) fun c hc => ?_
  rw [if_neg (by rw [hc]; simp)]
  exact traceIs_lift _

theorem doubleNonzeroL_runs {r : Jacobian} {z : Fp} {P : Pt} (h : JacZ r z P) (hP : P ≠ 0) :
    RunsL (Jacobian.doubleNonzeroL r) (fun r => JacZ r z (P + P)) [.branch false] := by
  have hfin := h.inf_false hP
  refine runsL_of ?_ (doubleNonzeroL_traceIs hfin)
  rw [Jacobian.doubleNonzeroL_value]
  unfold constDouble Jacobian.doubleNonzeroInPlace
  refine Runs.bind (P := fun x => JacZ x.1 z (P + P)) ?_ fun x hx => runs_pure hx
  refine runs_dassert (by rw [hfin]; rfl) ?_
  exact (Jacobian.doubleVarInPlace_runs none h ⟨h.x, h.y, h.z⟩).mono fun _ hr => hr.1

theorem doublesL_runs {r : Jacobian} {z : Fp} {P : Pt} (h : JacZ r z P) (hP : P ≠ 0) :
    RunsL (Leak.forN (windowA - 1) (fun _ r => Jacobian.doubleNonzeroL r) r) (fun r => JacZ r z ((16 : ℤ) • P))
      (upTrace (fun _ => [.branch false]) (windowA - 1)) := by
  refine (RunsL.forN (fun k r => JacZ r z ((2 ^ k : ℕ) • P) ∧ (2 ^ k : ℕ) • P ≠ 0) (fun _ => [.branch false]) (windowA - 1) r
    ⟨by simpa using h, by simpa using hP⟩ ?_).mono ?_
  · intro i r _ ⟨h, h0⟩
    have e : (2 ^ (i + 1) : ℕ) • P = (2 ^ i : ℕ) • P + (2 ^ i : ℕ) • P := by
      rw [pow_succ, mul_nsmul, two_nsmul]
    refine (doubleNonzeroL_runs h h0).mono fun r hr => ?_
    rw [e]; exact ⟨hr, dbl_ne_zero h0⟩
  · intro r ⟨h, _⟩
    have : (2 ^ (windowA - 1) : ℕ) • P = (16 : ℤ) • P := by
      rw [← natCast_zsmul]; rfl
    rwa [this] at h

/-- The observations of one iteration of `ecmult_const`. -/
def stepTrace (i : ℕ) : List Event :=
  upTrace (fun _ => [.branch false]) (windowA - 1) ++ ([.read i] ++ (readsTrace 8 ++ ([.branch false] ++ [])))

theorem constStepL_runs {preA : List Affine} {z : Fp} {A : Pt} {a : ℕ} {w : List ℤ × ℤ} {i : ℕ} {s : Jacobian × Affine} (hA : A ≠ 0) (hl : preA.length = 8)
    (hp : ∀ j (hj : j < preA.length), AffZ preA[j] z ((2 * j + 1) • A) ∧ preA[j].infinity = false ∧ preA[j].y.Ok 1)
    (hw : WnafConst 4 a w) (hi : i < 64) (hs : JacZ s.1 z (digitSum 16 (w.1.drop (i + 1)) • A)) :
    RunsL (constStepL preA w.1 i s) (fun s => JacZ s.1 z (digitSum 16 (w.1.drop i) • A)) (stepTrace i) := by
  have hlen : w.1.length = 65 := hw.len
  unfold constStepL stepTrace
  have hne := wnafConst_drop hw (i := i + 1) (by omega) hA
  refine RunsL.bind (doublesL_runs hs hne) fun r hr => ?_
  refine RunsL.bind (RunsL.read (by omega)) fun d hd => ?_
  obtain ⟨d1, d2, d3⟩ := hw.dig w.1[i] (List.getElem_mem _)
  norm_num at d2 d3
  have hd1 := digitSum_drop 16 (show i < w.1.length by omega)
  rw [← hd] at d1 d2 d3 hd1
  refine RunsL.bind (tableGetGeConstL_runs hl hp d1 d2 d3) fun t ht => ?_
  refine RunsL.bind_lift (dassert_runs (P := fun _ => True) (by simp; omega) trivial) fun _ _ => ?_
  obtain ⟨o1, _⟩ := wnafConst_drop_bound hw (i := i + 1) (by omega)
  obtain ⟨_, b2⟩ := wnafConst_drop_bound hw (i := i) (by omega)
  rw [hd1, add_comm] at b2
  have hreg := step_regular o1 d1 d2 d3 (b2)
  have hopp : ¬OppY ((16 : ℤ) • digitSum 16 (w.1.drop (i + 1)) • A) (d • A) := by
    rw [smul_smul, oppY_zsmul' hA (small_not_dvd (by omega) d2 d3)]
    exact hreg
  have h16 : (16 : ℤ) • digitSum 16 (w.1.drop (i + 1)) • A ≠ 0 := by
    intro h
    rw [zsmul_eq_zero_iff (wnafConst_drop hw (i := i + 1) (by omega) hA)] at h
    have hn : (100 : ℤ) < n := by exact_mod_cast (show 100 < n by decide +kernel)
    have := Int.le_of_dvd (by norm_num) h
    omega
  refine RunsL.bind (Jacobian.addGeL_runs hr ht.1 ht.2 h16 (d := false) (by simpa using hopp)) fun r' hr' => RunsL.pure ?_
  dsimp only
  rw [hd1, add_zsmul, mul_comm, mul_zsmul, zsmul_comm, add_comm]
  exact hr'

theorem constCorrectL_runs {a : Affine} {A : Pt} {skew : ℤ} {r : Jacobian} {P : Pt} (ha : Aff a A) (hA : A ≠ 0) (hskew : skew = 1 ∨ skew = 2) (hr : Jac r P)
    (hP : P ≠ 0) {e : Bool} (he : OppY P (-skew • A) ↔ e = true) :
    RunsL (constCorrectL a skew r) (fun r => Jac r (P + -(skew • A))) [.call a, .branch e] := by
  unfold constCorrectL
  refine RunsL.bind (t := [.call a]) (u := [.branch e]) (RunsL.emit _) fun _ _ => ?_
  refine RunsL.bind_lift (Jacobian.setGe_runs ha) fun tj htj => ?_
  refine RunsL.bind_lift (Jacobian.doubleVar_runs none htj.1) fun d hd => ?_
  refine RunsL.bind_lift (Affine.setGej_runs hd.1) fun c hc => ?_
  refine RunsL.bind_lift (Affine.toStorage_runs ha (ha.inf_false hA)) fun c1 hc1 => ?_
  refine RunsL.bind_lift (Affine.toStorage_runs hc.1 (hc.1.inf_false (dbl_ne_zero hA))) fun a2 ha2 => ?_
  dsimp only
  have hsto : Sto (c1.cmov a2 (skew == 2)) (skew • A) := by
    rw [AffineStorage.cmov_eq]
    rcases hskew with rfl | rfl
    · simpa using hc1
    · rw [if_pos (by rfl), two_zsmul]; exact ha2
  have hof := Affine.ofStorage_aff hsto
  refine RunsL.bind_lift (Affine.neg_runs hof.1) fun cr hcr => ?_
  rw [neg_zsmul] at he
  exact Jacobian.addGeL_runs hr hcr.1 (hcr.2.1.trans hof.2.1) hP he

/-- The observations of `ecmult_const`: `e` is the outcome of the last branch. -/
def constTrace (a : Affine) (e : Bool) : List Event :=
  [.call a] ++ ([.read 64] ++ (readsTrace 8 ++ (downTrace stepTrace 64 ++ [.call a, .branch e])))

theorem ecmultConstL_runs {a : Affine} {A : Pt} {s : Scalar} (ha : Aff a A) (hA : A ≠ 0) (hs : s.val < n) :
    RunsL (ecmultConstL a s) (fun r => Jac r (s.val • A)) (constTrace a (decide (s.val ∈ constExceptions))) := by
  unfold ecmultConstL constTrace
  refine RunsL.bind_lift (ecmultWnafConst_runs (w := 4) hs (by norm_num) (by norm_num) (by rw [List.length_replicate]; rfl)) fun w hw => ?_
  have hlen : w.1.length = 65 := hw.len
  have e64 : wnafSize = 64 := rfl
  refine RunsL.bind_lift (Jacobian.setGe_runs ha) fun r0 hr0 => ?_
  refine RunsL.bind (RunsL.emit _) fun _ _ => ?_
  refine RunsL.bind_lift (oddMultiplesTableGlobalz_runs hr0.1 hA) fun t ⟨hl, hz, hz0, ht⟩ => ?_
  refine RunsL.bind_lift (weakTable_runs hl ht) fun preA ⟨hl', hp⟩ => ?_
  rw [e64]
  refine RunsL.bind (RunsL.read (by omega)) fun d hd => ?_
  obtain ⟨d1, d2, d3⟩ := hw.dig w.1[64] (List.getElem_mem _)
  norm_num at d2 d3
  have hd64 := digitSum_drop 16 (show 64 < w.1.length by omega)
  rw [← hd] at d1 d2 d3 hd64
  refine RunsL.bind_lift (dassert_runs (P := fun _ => True) (by simp; omega) trivial) fun _ _ => ?_
  refine RunsL.bind (tableGetGeConstL_runs hl' hp d1 d2 d3) fun tm htm => ?_
  refine RunsL.bind_lift (Jacobian.setGe_runs htm.1) fun r1 hr1 => ?_
  refine RunsL.bind (RunsL.forRev (fun i (s : Jacobian × Affine) => JacZ s.1 t.2.v (digitSum 16 (w.1.drop i) • A)) stepTrace 64 _ ?_
    (fun i s hi h => constStepL_runs hA hl' hp hw hi h)) fun q hs' => ?_
  · dsimp only
    rw [hd64, List.drop_eq_nil_of_le (by omega)]
    simpa [digitSum] using hr1.1
  · rw [List.drop_zero] at hs'
    have hne := wnafConst_drop hw (i := 0) (by omega) hA
    rw [List.drop_zero] at hne
    have hsum' := hw.sum
    have hbd := hw.bound
    norm_num at hsum' hbd
    have hodd := (wnafConst_drop_bound hw (i := 0) (by omega)).1
    rw [List.drop_zero] at hodd
    have hopp : OppY (digitSum 16 w.1 • A) (-w.2 • A) ↔ decide (s.val ∈ constExceptions) = true := by
      rw [decide_eq_true_eq, ← correct_regular hs hw.skew hsum' hodd hbd]
      exact oppY_zsmul' hA (small_not_dvd (by rcases hw.skew with h | h <;> omega) (by rcases hw.skew with h | h <;> omega)
        (by rcases hw.skew with h | h <;> omega))
    have e : RunsL (lift (FElem.mul q.1.z t.2) >>= fun z => constCorrectL a w.2 { q.1 with z := z })
        (fun r => Jac r (digitSum 16 w.1 • A + -(w.2 • A))) [.call a, .branch (decide (s.val ∈ constExceptions))] := by
      refine RunsL.bind_lift (P := fun z => Jac { q.1 with z := z } (digitSum 16 w.1 • A)) ?_
        (fun z hzz => constCorrectL_runs (skew := w.2) ha hA hw.skew hzz hne hopp)
      obtain ⟨J, hJ, hJ'⟩ := unscale_runs hs' hz
      obtain ⟨z, hz1, hz2⟩ := fe_mul hs'.z hz (by norm_num) (by norm_num)
      rw [hz1, pure_bind] at hJ
      refine ⟨z, hz1, ?_⟩
      have e := pure_inj' hJ
      subst e
      exact hJ'
    refine e.mono fun r hr => ?_
    have hsum : digitSum 16 w.1 • A + -(w.2 • A) = s.val • A := by
      rcases hsum' with h | h <;> rw [h]
      · rw [add_zsmul, natCast_zsmul]; abel
      · rw [sub_zsmul, add_zsmul, natCast_zsmul, natCast_zsmul, n_smul]; abel
    rwa [hsum] at hr

end Ecmult

end Verif
