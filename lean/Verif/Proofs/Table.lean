import Verif.Proofs.Wnaf
import Verif.Proofs.GroupConv

/-! Correctness of the precomputed tables of odd multiples. -/

namespace Verif

open Spec
open FElem hiding n

theorem tabulate_runs {α : Type} {n : ℕ} {f : ℕ → Exec α} {P : ℕ → α → Prop} (h : ∀ i < n, Runs (f i) (P i)) :
    Runs (tabulate n f) (fun l => l.length = n ∧ ∀ i (h : i < l.length), P i l[i]) := by
  unfold tabulate
  refine forN_runs (fun k l => l.length = k ∧ ∀ i (h : i < l.length), P i l[i]) n [] ⟨rfl, fun i h => by simp at h⟩ ?_
  intro k l hk ⟨hl, hp⟩
  refine Runs.bind (h k hk) fun v hv => runs_pure ⟨by simp [hl], fun i hi => ?_⟩
  rw [List.getElem_append]
  split
  · exact hp i _
  · have : i = k := by
      rw [List.length_append, List.length_singleton, hl] at hi; omega
    subst this; simpa using hv

/-- A multiple that is not a multiple of the order is finite. -/
theorem odd_smul_ne_zero {A : Pt} (hA : A ≠ 0) {k : ℕ} (h0 : 0 < k) (h : k < n) : k • A ≠ 0 := by
  rw [ne_eq, smul_eq_zero_iff hA]
  exact Nat.not_dvd_of_pos_of_lt h0 h

namespace Ecmult

/-- The tables built by `odd_multiples_table`: `ζ i` are the `z` coordinates without the common
factor `dz`. -/
structure OddTable (L : ℕ) (A : Pt) (prej : List Jacobian) (zr : List FElem) (ζ : ℕ → Fp) (dz : Fp) : Prop where
  len : prej.length = L
  len' : zr.length = L
  x : ∀ i (h : i < prej.length), prej[i].x.Ok 8
  y : ∀ i (h : i < prej.length), prej[i].y.Ok 8
  fin : ∀ i (h : i < prej.length), prej[i].infinity = false
  rep : ∀ i (h : i < prej.length), Rep false prej[i].x.v prej[i].y.v (ζ i * dz) ((2 * i + 1) • A)
  zr : ∀ i (h : i + 1 < zr.length), zr[i + 1].Ok 3 ∧ ζ (i + 1) = ζ i * zr[i + 1].v
  last : ∀ (h : prej.length - 1 < prej.length), prej[prej.length - 1].z.Ok 8 ∧ prej[prej.length - 1].z.v = ζ (L - 1) * dz

/-- Loop invariant of `odd_multiples_table`: entries up to `k` are done. -/
structure OddInv (L : ℕ) (A : Pt) (dz : Fp) (k : ℕ) (s : List Jacobian × List FElem) : Prop where
  len : s.1.length = L
  len' : s.2.length = L
  jac : ∀ i (h : i < s.1.length), i ≤ k → JacZ s.1[i] dz ((2 * i + 1) • A) ∧ s.1[i].infinity = false
  zr : ∀ i (h : i + 1 < s.2.length) (h' : i + 1 < s.1.length), i + 1 ≤ k → s.2[i + 1].Ok 3 ∧ s.1[i + 1].z.v = s.1[i].z.v * s.2[i + 1].v

theorem oddStep_runs {L : ℕ} {A : Pt} {dz : Fp} {dGe : Affine} {k : ℕ} {s : List Jacobian × List FElem} (hA : A ≠ 0) (hL : 2 * L < n)
    (hd : AffZ dGe dz (A + A)) (hk : k + 1 < L) (h : OddInv L A dz k s) :
    Runs (oddStep dGe k s) (fun r => OddInv L A dz (k + 1) r) := by
  unfold oddStep
  obtain ⟨hl, hl', hj, hz⟩ := h
  rw [idx_pure (by omega), pure_bind, idx_pure (by omega), pure_bind]
  obtain ⟨hp, hf⟩ := hj k (by omega) le_rfl
  refine Runs.bind (Jacobian.addGeVar_runs (some s.2[k + 1]) hp hd (fun h => by rw [hf] at h; simp at h)) fun r ⟨hr, hz'⟩ => ?_
  have hP : (2 * k + 1) • A + (A + A) = (2 * (k + 1) + 1) • A := by
    rw [← two_nsmul A, ← add_nsmul]; congr 1
  rw [hP] at hr
  have hfin : r.1.infinity = false := hr.inf_false (odd_smul_ne_zero hA (by omega) (by omega))
  obtain ⟨f, hf1, _, hf2, hf3⟩ : ∃ f, r.2 = some f ∧ True ∧ f.Ok 3 ∧ (r.1.infinity = true ∨ r.1.z.v = s.1[k].z.v * f.v) := by
    rcases hz' with h | ⟨f, h1, _, h2, h3⟩
    · simp at h
    · exact ⟨f, h1, trivial, h2, h3⟩
  rw [hfin] at hf3
  have hf3 : r.1.z.v = s.1[k].z.v * f.v := by simpa using hf3
  rw [setIdx_pure _ (by omega), pure_bind, setIdx_pure _ (by omega), pure_bind, hf1]
  refine runs_pure ⟨by simpa using hl, by simpa using hl', ?_, ?_⟩
  · intro i hi hik
    dsimp only at hi ⊢
    rw [List.getElem_set]
    split
    · next h => subst h; exact ⟨hr, hfin⟩
    · exact hj i _ (by omega)
  · intro i hi hi' hik
    dsimp only at hi hi' ⊢
    rw [List.getElem_set, List.getElem_set, List.getElem_set_of_ne (by omega)]
    split
    · next h =>
      obtain rfl : k = i := by omega
      exact ⟨hf2, hf3⟩
    · exact hz i _ _ (by omega)

theorem oddMultiplesTable_runs {L : ℕ} {prej : List Jacobian} {zr : List FElem} {a : Jacobian} {A : Pt} (h : Jac a A) (hA : A ≠ 0)
    (hp : prej.length = L) (hzr : zr.length = L) (hL0 : 0 < L) (hL : 2 * L < n) :
    Runs (oddMultiplesTable prej zr a) (fun r => ∃ ζ dz, OddTable L A r.1 r.2 ζ dz) := by
  unfold oddMultiplesTable
  have hai := h.inf_false hA
  refine runs_dassert (by simp [hp, hzr]) (runs_dassert (by cases prej <;> simp_all) (runs_dassert (by rw [hai]; rfl) ?_))
  refine Runs.bind (Jacobian.doubleVar_fin h hai) fun d ⟨_, hdi, hdz, hd⟩ => ?_
  have hdr := hd.rep
  rw [hdi, mul_one] at hdr
  have hdz0 : d.1.z.v ≠ 0 := hdr.fin.1
  have hdge : AffZ ⟨d.1.x, d.1.y, false⟩ d.1.z.v (A + A) := ⟨hd.x, hd.y, hdr⟩
  have har := h.rep
  rw [mul_one] at har
  refine Runs.bind (Affine.setGejZinv_runs h.x h.y har hd.z (by norm_num) hdz0) fun aGe ⟨h1, h2, h3, h4, _⟩ => ?_
  rw [hai] at h2
  rw [setIdx_pure _ (by omega), pure_bind, setIdx_pure _ (by omega), pure_bind]
  rw [List.length_set, hp]
  have hr1 := h1.rep
  rw [h2] at hr1
  have hinit : OddInv L A d.1.z.v 0 (prej.set 0 ⟨aGe.x, aGe.y, a.z, false⟩, zr.set 0 d.1.z) := by
    refine ⟨by simpa using hp, by simpa using hzr, ?_, by simp⟩
    intro i hi hi0
    obtain rfl : i = 0 := by omega
    simp only [List.getElem_set_self]
    exact ⟨⟨h1.x, h1.y, h.z, by simpa using hr1⟩, trivial⟩
  refine Runs.bind (forN_runs (OddInv L A d.1.z.v) (L - 1) _ hinit
    (fun i s hi hs => oddStep_runs hA hL hdge (by omega) hs)) fun s hs => ?_
  obtain ⟨hl, hl', hj, hz⟩ := hs
  rw [idx_pure (by omega), pure_bind]
  obtain ⟨hlast, hlf⟩ := hj (L - 1) (by omega) le_rfl
  refine Runs.bind (fe_mul hlast.z hd.z (by norm_num) (by norm_num)) fun l hlz => ?_
  rw [setIdx_pure _ (by omega), pure_bind]
  refine runs_pure ⟨fun i => if h : i < s.1.length then s.1[i].z.v else 0, d.1.z.v, ?_⟩
  refine ⟨by simpa using hl, hl', ?_, ?_, ?_, ?_, ?_, ?_⟩
  · intro i hi
    dsimp only at hi ⊢
    rw [List.getElem_set]
    split
    · exact hlast.x
    · exact (hj i _ (by rw [List.length_set] at hi; omega)).1.x
  · intro i hi
    dsimp only at hi ⊢
    rw [List.getElem_set]
    split
    · exact hlast.y
    · exact (hj i _ (by rw [List.length_set] at hi; omega)).1.y
  · intro i hi
    dsimp only at hi ⊢
    rw [List.getElem_set]
    split
    · exact hlf
    · exact (hj i _ (by rw [List.length_set] at hi; omega)).2
  · intro i hi
    dsimp only at hi ⊢
    rw [List.length_set] at hi
    rw [dif_pos hi]
    obtain ⟨g1, g2⟩ := hj i hi (by omega)
    have g3 := g1.rep
    rw [g2] at g3
    rw [List.getElem_set]
    split
    · next he => subst he; exact g3
    · exact g3
  · intro i hi
    dsimp only at hi ⊢
    rw [dif_pos (by omega), dif_pos (by omega)]
    exact hz i hi (by omega) (by omega)
  · intro _
    dsimp only
    have e : (s.1.set (L - 1) { s.1[L - 1] with z := l }).length - 1 = L - 1 := by rw [List.length_set, hl]
    simp only [e, List.getElem_set_self]
    refine ⟨hlz.1.ok (by norm_num), ?_⟩
    rw [hlz.1.v, dif_pos (by omega)]

/-! ## Affine tables -/

theorem setTableLoop_runs {L : ℕ} {A : Pt} {prej : List Jacobian} {zr : List FElem} {ζ : ℕ → Fp} {dz : Fp} (h : OddTable L A prej zr ζ dz) :
    ∀ (i : ℕ) (zi : FElem) (r : List Affine), i < L → r.length = L → zi.Ok 1 → zi.v * (ζ i * dz) = 1 →
      (∀ j (hj : j < r.length), i ≤ j → Aff r[j] ((2 * j + 1) • A) ∧ r[j].infinity = false) →
      Runs (setTableLoop prej zr i zi r) (fun r => r.length = L ∧ ∀ j (hj : j < r.length), Aff r[j] ((2 * j + 1) • A) ∧ r[j].infinity = false) := by
  have hpl := h.len; have hzl := h.len'
  intro i
  induction i with
  | zero => intro zi r _ hr _ _ hall; exact runs_pure ⟨hr, fun j hj => hall j hj (by omega)⟩
  | succ i ih =>
    intro zi r hi hr hzi hz1 hall
    unfold setTableLoop
    rw [idx_pure (by omega), pure_bind]
    obtain ⟨z1, z2⟩ := h.zr i (by omega)
    refine Runs.bind (fe_mul hzi z1 (by norm_num) (by norm_num)) fun zi' hzi' => ?_
    rw [idx_pure (by omega), pure_bind]
    have hfin := h.fin i (by omega)
    have hrep := h.rep i (by omega)
    rw [← hfin] at hrep
    have hz' : zi'.v * (ζ i * dz) = 1 := by
      rw [hzi'.1.v]; rw [z2] at hz1; linear_combination hz1
    have hne : zi'.v ≠ 0 := left_ne_zero_of_mul (hz'.trans_ne one_ne_zero)
    refine Runs.bind (Affine.setGejZinv_runs (h.x i (by omega)) (h.y i (by omega)) hrep (hzi'.1.self 1 le_rfl) (by norm_num) hne) fun v hv => ?_
    rw [setIdx_pure _ (by omega), pure_bind]
    refine ih zi' _ (by omega) (by simpa using hr) (hzi'.1.ok le_rfl) hz' ?_
    intro j hj hij
    rw [List.getElem_set]
    split
    · next he =>
      subst he
      refine ⟨?_, hv.2.1.trans hfin⟩
      have := hv.1
      rwa [show ζ i * dz * zi'.v = 1 by linear_combination hz'] at this
    · exact hall j _ (by omega)

theorem setTableGejVar_runs {L : ℕ} {A : Pt} {prej : List Jacobian} {zr : List FElem} {ζ : ℕ → Fp} {dz : Fp} (h : OddTable L A prej zr ζ dz)
    (hL : 0 < L) {r : List Affine} (hr : r.length = L) :
    Runs (setTableGejVar r prej zr) (fun r => r.length = L ∧ ∀ j (hj : j < r.length), Aff r[j] ((2 * j + 1) • A) ∧ r[j].infinity = false) := by
  have hpl := h.len
  unfold setTableGejVar
  refine runs_dassert (by simp [hr, hpl]) ?_
  have hne : r.isEmpty = false := by cases r <;> simp_all
  rw [subNat_pure (by omega), pure_bind, hne, if_neg Bool.false_ne_true, idx_pure (by omega), pure_bind]
  have hlast := h.last (by omega)
  simp only [hpl] at hlast
  simp only [hr]
  have hrep := h.rep (L - 1) (by omega)
  have hz0 : ζ (L - 1) * dz ≠ 0 := hrep.fin.1
  have hfin := h.fin (L - 1) (by omega)
  rw [← hfin] at hrep
  refine Runs.bind (fe_inv hlast.1 (by norm_num)) fun zi hzi => ?_
  rw [hlast.2] at hzi
  have hz1 : zi.v * (ζ (L - 1) * dz) = 1 := by rw [hzi.v]; exact inv_mul_cancel₀ hz0
  refine Runs.bind (Affine.setGejZinv_runs (h.x _ (by omega)) (h.y _ (by omega)) hrep (hzi.self 1 le_rfl) (by norm_num)
    (left_ne_zero_of_mul (hz1.trans_ne one_ne_zero))) fun v hv => ?_
  rw [setIdx_pure _ (by omega), pure_bind]
  refine setTableLoop_runs h (L - 1) zi _ (by omega) (by simpa using hr) (hzi.ok le_rfl) hz1 ?_
  intro j hj hij
  obtain rfl : j = L - 1 := by rw [List.length_set] at hj; omega
  rw [List.getElem_set_self]
  refine ⟨?_, hv.2.1.trans hfin⟩
  have := hv.1
  rwa [show ζ (L - 1) * dz * zi.v = 1 by linear_combination hz1] at this

theorem globalzLoop_runs {L : ℕ} {A : Pt} {prej : List Jacobian} {zr : List FElem} {ζ : ℕ → Fp} {dz : Fp} (h : OddTable L A prej zr ζ dz) :
    ∀ (i : ℕ) (zs : FElem) (r : List Affine), i < L → r.length = L → (0 < i → zs.Ok 3) →
      (i ≠ L - 1 → ζ i * zs.v = ζ (L - 1)) → (0 < i → i = L - 1 → zs.v * ζ (L - 2) = ζ (L - 1)) →
      (∀ j (hj : j < r.length), i ≤ j → AffZ r[j] (ζ (L - 1) * dz) ((2 * j + 1) • A) ∧ r[j].infinity = false) →
      Runs (globalzLoop prej zr i zs r) (fun r => r.length = L ∧
        ∀ j (hj : j < r.length), AffZ r[j] (ζ (L - 1) * dz) ((2 * j + 1) • A) ∧ r[j].infinity = false) := by
  have hpl := h.len; have hzl := h.len'
  intro i
  induction i with
  | zero => intro zi r _ hr _ _ _ hall; exact runs_pure ⟨hr, fun j hj => hall j hj (by omega)⟩
  | succ i ih =>
    intro zs r hi hr hzs hz1 hz2 hall
    unfold globalzLoop
    have hlastne : ζ (L - 1) ≠ 0 := left_ne_zero_of_mul (h.rep (L - 1) (by omega)).fin.1
    have hstep : Runs (globalzStep zr r.length (i + 1) zs) (fun z => z.Ok 3 ∧ ζ i * z.v = ζ (L - 1)) := by
      unfold globalzStep
      by_cases he : i + 1 = L - 1
      · rw [if_neg (by simp [hr, he])]
        refine runs_pure ⟨hzs (by omega), ?_⟩
        have := hz2 (by omega) he
        rw [show L - 2 = i by omega] at this
        linear_combination this
      · rw [if_pos (by simp [hr, he]), idx_pure (by omega), pure_bind]
        obtain ⟨z1, z2⟩ := h.zr i (by omega)
        refine (fe_mul (hzs (by omega)) z1 (by norm_num) (by norm_num)).mono fun z hz => ⟨hz.1.ok (by norm_num), ?_⟩
        have := hz1 he
        rw [z2] at this
        rw [hz.1.v]; linear_combination this
    refine Runs.bind hstep fun z ⟨hz, hzv⟩ => ?_
    have hne : z.v ≠ 0 := right_ne_zero_of_mul (hzv.trans_ne hlastne)
    rw [idx_pure (by omega), pure_bind]
    have hfin := h.fin i (by omega)
    have hrep := h.rep i (by omega)
    rw [← hfin] at hrep
    refine Runs.bind (Affine.setGejZinv_runs (h.x i (by omega)) (h.y i (by omega)) hrep hz (by norm_num) hne) fun v hv => ?_
    rw [setIdx_pure _ (by omega), pure_bind]
    refine ih z _ (by omega) (by simpa using hr) (fun _ => hz) (fun _ => hzv) (fun _ he => by omega) ?_
    intro j hj hij
    rw [List.getElem_set]
    split
    · next he =>
      subst he
      refine ⟨?_, hv.2.1.trans hfin⟩
      have := hv.1
      rwa [show ζ i * dz * z.v = ζ (L - 1) * dz by linear_combination dz * hzv] at this
    · exact hall j _ (by omega)

theorem globalzSetTableGej_runs {L : ℕ} {A : Pt} {prej : List Jacobian} {zr : List FElem} {ζ : ℕ → Fp} {dz : Fp} (h : OddTable L A prej zr ζ dz)
    (hL : 0 < L) {r : List Affine} (hr : r.length = L) (gz : FElem) :
    Runs (globalzSetTableGej r gz prej zr) (fun r => r.1.length = L ∧ r.2.Ok 8 ∧ r.2.v ≠ 0 ∧
      ∀ j (hj : j < r.1.length), AffZ r.1[j] r.2.v ((2 * j + 1) • A) ∧ r.1[j].infinity = false) := by
  have hpl := h.len; have hzl := h.len'
  unfold globalzSetTableGej
  refine runs_dassert (by simp [hr, hpl, hzl]) ?_
  have hne : r.isEmpty = false := by cases r <;> simp_all
  rw [subNat_pure (by omega), pure_bind, hne, if_neg Bool.false_ne_true, idx_pure (by omega), pure_bind, setIdx_pure _ (by omega), pure_bind,
    idx_pure (by omega), pure_bind]
  have hlast := h.last (by omega)
  simp only [hpl] at hlast
  simp only [hr]
  have hrep := h.rep (L - 1) (by omega)
  refine Runs.bind (globalzLoop_runs h (L - 1) _ _ (by omega) (by simpa using hr) ?_ (fun h => absurd rfl h) ?_ ?_) fun r' ⟨h1, h2⟩ => ?_
  · intro h0
    obtain ⟨z1, _⟩ := h.zr (L - 2) (by omega)
    simp only [show L - 2 + 1 = L - 1 by omega] at z1
    exact z1
  · intro h0 _
    obtain ⟨_, z2⟩ := h.zr (L - 2) (by omega)
    simp only [show L - 2 + 1 = L - 1 by omega] at z2
    linear_combination -z2
  · intro j hj hij
    obtain rfl : j = L - 1 := by rw [List.length_set] at hj; omega
    rw [List.getElem_set_self]
    exact ⟨⟨h.x _ _, h.y _ _, hrep⟩, rfl⟩
  · refine runs_pure ⟨h1, hlast.1, ?_, fun j hj => ?_⟩
    · dsimp only; rw [hlast.2]; exact hrep.fin.1
    · dsimp only; rw [hlast.2]; exact h2 j hj

theorem oddMultiplesTableGlobalz_runs {a : Jacobian} {A : Pt} (h : Jac a A) (hA : A ≠ 0) :
    Runs (oddMultiplesTableGlobalz a) (fun r => r.1.length = 8 ∧ r.2.Ok 8 ∧ r.2.v ≠ 0 ∧
      ∀ j (hj : j < r.1.length), AffZ r.1[j] r.2.v ((2 * j + 1) • A) ∧ r.1[j].infinity = false) := by
  unfold oddMultiplesTableGlobalz
  have e : tableSizeA = 8 := rfl
  refine Runs.bind (oddMultiplesTable_runs (L := 8) h hA (by rw [List.length_replicate, e]) (by rw [List.length_replicate, e])
    (by norm_num) (by decide +kernel)) fun s ⟨ζ, dz, hs⟩ => ?_
  exact globalzSetTableGej_runs hs (by norm_num) (by rw [List.length_replicate, e]) _

/-- A table of stored odd multiples of `A`. -/
def StoTable (L : ℕ) (A : Pt) (l : List AffineStorage) : Prop := l.length = L ∧ ∀ i (h : i < l.length), Sto l[i] ((2 * i + 1) • A)

theorem oddMultiplesTableStorageVar_runs {L : ℕ} {a : Jacobian} {A : Pt} (h : Jac a A) (hA : A ≠ 0) (hL0 : 0 < L) (hL : 2 * L < n) :
    Runs (oddMultiplesTableStorageVar L a) (StoTable L A) := by
  unfold oddMultiplesTableStorageVar
  refine Runs.bind (oddMultiplesTable_runs (L := L) h hA (by simp) (by simp) hL0 hL) fun s ⟨ζ, dz, hs⟩ => ?_
  refine Runs.bind (setTableGejVar_runs hs hL0 (by simp)) fun prea ⟨h1, h2⟩ => ?_
  refine tabulate_runs (P := fun i x => Sto x ((2 * i + 1) • A)) fun i hi => ?_
  rw [idx_pure (by omega), pure_bind]
  obtain ⟨g1, g2⟩ := h2 i (by omega)
  exact Affine.toStorage_runs g1 g2

theorem newContext_runs : Runs newContext (StoTable 16384 G) := by
  unfold newContext
  refine Runs.bind (Jacobian.setGe_runs Affine.g_aff) fun gj hgj => ?_
  exact oddMultiplesTableStorageVar_runs hgj.1 G_ne_zero (by decide) (by decide +kernel)

end Ecmult

end Verif
