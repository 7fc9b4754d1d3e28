import Verif.Proofs.GenWalk
import Verif.Proofs.LeakConst

/-! The observations of the fixed-base multiplication. -/

namespace Verif

open Spec Leak
open FElem hiding n

namespace Ecmult

/-- The accumulator before row `j`, for the blinded scalar `g`. -/
noncomputable def genAcc (g j : ℕ) : Pt := -(genBlind.val • G) + ((g % 16 ^ j) • G + offSum j)

/-- The point added in row `j`. -/
noncomputable def genAdd (g j : ℕ) : Pt := (g / 16 ^ j % 16) • (16 ^ j • G) + rowOff j

theorem genAcc_succ (g j : ℕ) : genAcc g j + genAdd g j = genAcc g (j + 1) := by
  unfold genAcc genAdd
  rw [offSum, Nat.mod_pow_succ, add_nsmul, mul_comm (16 ^ j), mul_nsmul' G]
  abel

/-- No addition is degenerate. -/
def Regular (g : ℕ) : Prop := ∀ j < 64, genAcc g j ≠ 0 ∧ ¬OppY (genAcc g j) (genAdd g j)

theorem genAdd_ne {j : ℕ} (g : ℕ) (hj : j < 64) : genAdd g j ≠ 0 := by
  have := genEntry_ne (m := j * 16 + g / 16 ^ j % 16) (by omega)
  unfold genEntry at this
  rw [show (j * 16 + g / 16 ^ j % 16) % 16 = g / 16 ^ j % 16 by omega, show (j * 16 + g / 16 ^ j % 16) / 16 = j by omega] at this
  exact this

/-! ## How many scalars are not regular -/

/-- The multiples of the generator that make step `j` degenerate for digit `d`. -/
noncomputable def badPoint (j d e : ℕ) : Pt :=
  let T := d • (16 ^ j • G) + rowOff j
  let B := genBlind.val • G - offSum j
  match e with
  | 0 => B
  | 1 => B - T
  | 2 => B - lam • T
  | _ => B - lam • lam • T

theorem not_regular {g : ℕ} (h : ¬Regular g) : ∃ j, 4 ≤ j ∧ j < 64 ∧ ∃ e < 4, (g % 16 ^ j) • G = badPoint j (g / 16 ^ j % 16) e := by
  unfold Regular at h
  push Not at h
  obtain ⟨j, hj, h⟩ := h
  have h4 : 4 ≤ j := by
    by_contra hlt
    obtain ⟨h1, h2⟩ := low_steps (j := j) (by omega) (u := g % 16 ^ j) (d := g / 16 ^ j % 16) (Nat.mod_lt _ (by positivity)) (Nat.mod_lt _ (by norm_num))
    exact h2 (h h1)
  refine ⟨j, h4, hj, ?_⟩
  have hne := genAdd_ne g hj
  by_cases h0 : genAcc g j = 0
  · refine ⟨0, by norm_num, ?_⟩
    unfold genAcc at h0
    show _ = genBlind.val • G - offSum j
    rw [← sub_eq_zero, ← h0]; abel
  · have ho := (oppY_iff hne).1 (h h0)
    unfold genAcc at ho
    rcases ho with h | h | h
    · refine ⟨1, by norm_num, ?_⟩
      show _ = genBlind.val • G - offSum j - genAdd g j
      rw [← sub_eq_zero, ← h]; abel
    · refine ⟨2, by norm_num, ?_⟩
      show _ = genBlind.val • G - offSum j - lam • genAdd g j
      rw [← sub_eq_zero, ← h]; abel
    · refine ⟨3, by norm_num, ?_⟩
      show _ = genBlind.val • G - offSum j - lam • lam • genAdd g j
      rw [← sub_eq_zero, ← h]; abel

theorem smul_G_inj {a b : ℕ} (ha : a < n) (hb : b < n) (h : a • G = b • G) : a = b := by
  have h0 : ((a : ℤ) - b) • G = 0 := by rw [sub_zsmul, natCast_zsmul, natCast_zsmul, h, add_neg_cancel]
  obtain ⟨k, hk⟩ := (zsmul_eq_zero_iff G_ne_zero _).1 h0
  have : (a : ℤ) ≡ b [ZMOD n] := (Int.modEq_iff_dvd.2 ⟨-k, by linarith⟩)
  have := (Int.natCast_modEq_iff).1 this
  rwa [Nat.ModEq, Nat.mod_eq_of_lt ha, Nat.mod_eq_of_lt hb] at this

/-- The blinded scalars for which step `j` is degenerate in way `e` with digit `d`. -/
noncomputable def badSet (N j d e : ℕ) : Finset ℕ := by
  classical
  exact (Finset.range N).filter fun g => g / 16 ^ j % 16 = d ∧ (g % 16 ^ j) • G = badPoint j d e

theorem mem_badSet {N j d e g : ℕ} : g ∈ badSet N j d e ↔ g < N ∧ g / 16 ^ j % 16 = d ∧ (g % 16 ^ j) • G = badPoint j d e := by
  unfold badSet
  rw [Finset.mem_filter, Finset.mem_range]

theorem badSet_card {N q j : ℕ} (hj : j < 64) (hN : N = q * 16 ^ (j + 1)) (d e : ℕ) : (badSet N j d e).card ≤ q := by
  have hm : (badSet N j d e).card ≤ (Finset.range q).card := by
    refine Finset.card_le_card_of_injOn (fun g => g / 16 ^ (j + 1)) ?_ ?_
    · intro g hg
      have hg := (mem_badSet.1 (Finset.mem_coe.1 hg)).1
      rw [Finset.mem_coe, Finset.mem_range, Nat.div_lt_iff_lt_mul (by positivity), ← hN]
      exact hg
    · intro g hg g' hg' h
      obtain ⟨_, h1, h2⟩ := mem_badSet.1 (Finset.mem_coe.1 hg)
      obtain ⟨_, h3, h4⟩ := mem_badSet.1 (Finset.mem_coe.1 hg')
      dsimp only at h
      have hn : (16 : ℕ) ^ 63 ≤ n := by decide +kernel
      have hlt : ∀ a : ℕ, a % 16 ^ j < n := fun a => (Nat.mod_lt a (by positivity)).trans_le
        ((Nat.pow_le_pow_right (by norm_num) (show j ≤ 63 by omega)).trans hn)
      have e1 : g % 16 ^ j = g' % 16 ^ j := smul_G_inj (hlt g) (hlt g') (h2.trans h4.symm)
      have e2 : g % 16 ^ (j + 1) = g' % 16 ^ (j + 1) := by rw [Nat.mod_pow_succ, Nat.mod_pow_succ, e1, h1, h3]
      rw [← Nat.div_add_mod g (16 ^ (j + 1)), ← Nat.div_add_mod g' (16 ^ (j + 1)), h, e2]
  rwa [Finset.card_range] at hm

theorem geom (f : ℕ → ℕ) : ∀ m, (∀ i < m, f i ≤ 64 * 16 ^ (m - 1 - i)) → 15 * ∑ i ∈ Finset.range m, f i + 64 ≤ 64 * 16 ^ m
  | 0, _ => by simp
  | m + 1, h => by
    rw [Finset.sum_range_succ']
    have h0 := h 0 (by omega)
    have ih := geom (fun i => f (i + 1)) m fun i hi => by
      have := h (i + 1) (by omega)
      rwa [show m + 1 - 1 - (i + 1) = m - 1 - i by omega] at this
    rw [show m + 1 - 1 - 0 = m by omega] at h0
    rw [pow_succ]
    omega

/-- The scalars below `N` that, increased by `c`, are not regular. -/
noncomputable def irregularBelow (N c : ℕ) : Finset ℕ := by
  classical
  exact (Finset.range N).filter fun k => ¬Regular ((k + c) % N)

theorem mem_irregularBelow {N c k : ℕ} : k ∈ irregularBelow N c ↔ k < N ∧ ¬Regular ((k + c) % N) := by
  classical
  unfold irregularBelow
  rw [Finset.mem_filter, Finset.mem_range]

/-- The nonces and secrets that are not regular. -/
noncomputable def irregular : Finset ℕ := irregularBelow n genBlind.val

theorem mem_irregular {k : ℕ} (hk : k < n) : k ∈ irregular ↔ ¬Regular ((k + genBlind.val) % n) := by
  unfold irregular
  rw [mem_irregularBelow]
  exact ⟨fun h => h.2, fun h => ⟨hk, h⟩⟩

theorem shift_inj {N a b c : ℕ} (ha : a < N) (hb : b < N) (h : (a + c) % N = (b + c) % N) : a = b := by
  have := Nat.ModEq.add_right_cancel' c (show a + c ≡ b + c [MOD N] from h)
  rwa [Nat.ModEq, Nat.mod_eq_of_lt ha, Nat.mod_eq_of_lt hb] at this

/-- All degenerate cases from row 4 on. -/
noncomputable def badRow (N j : ℕ) : Finset ℕ := (Finset.range 16).biUnion fun d => (Finset.range 4).biUnion fun e => badSet N j d e

theorem badRow_card {N q j : ℕ} (hj : j < 64) (hN : N = q * 16 ^ (j + 1)) : (badRow N j).card ≤ 64 * q := by
  unfold badRow
  have hd : ∀ d ∈ Finset.range 16, ((Finset.range 4).biUnion fun e => badSet N j d e).card ≤ 4 * q := by
    intro d _
    refine Finset.card_biUnion_le.trans ((Finset.sum_le_card_nsmul _ _ q fun e _ => badSet_card hj hN d e).trans ?_)
    rw [Finset.card_range, smul_eq_mul]
  refine Finset.card_biUnion_le.trans ((Finset.sum_le_card_nsmul _ _ _ hd).trans ?_)
  rw [Finset.card_range, smul_eq_mul]
  omega

theorem mem_badRow {M g : ℕ} (hg : ¬Regular g) (hlt : g < M) : ∃ i < 60, g ∈ badRow M (i + 4) := by
  obtain ⟨j, j1, j2, e, he, h⟩ := not_regular hg
  refine ⟨j - 4, by omega, ?_⟩
  unfold badRow
  rw [Finset.mem_biUnion, show j - 4 + 4 = j by omega]
  refine ⟨g / 16 ^ j % 16, Finset.mem_range.2 (Nat.mod_lt _ (by norm_num)), ?_⟩
  rw [Finset.mem_biUnion]
  exact ⟨e, Finset.mem_range.2 he, mem_badSet.2 ⟨hlt, rfl, h⟩⟩

theorem card_shift {N c : ℕ} {U : Finset ℕ} (hU : ∀ k, ¬Regular ((k + c) % N) → (k + c) % N ∈ U) : (irregularBelow N c).card ≤ U.card := by
  refine Finset.card_le_card_of_injOn (fun k => (k + c) % N) (fun k hk => ?_) (fun a ha b hb h => ?_)
  · exact hU k (mem_irregularBelow.1 (Finset.mem_coe.1 hk)).2
  · exact shift_inj (mem_irregularBelow.1 (Finset.mem_coe.1 ha)).1 (mem_irregularBelow.1 (Finset.mem_coe.1 hb)).1 h

theorem card_rows {N c m : ℕ} {B : ℕ → Finset ℕ} (hB : ∀ k, ¬Regular ((k + c) % N) → ∃ i < m, (k + c) % N ∈ B i) :
    (irregularBelow N c).card ≤ ∑ i ∈ Finset.range m, (B i).card := by
  refine (card_shift (U := (Finset.range m).biUnion B) fun k hk => ?_).trans Finset.card_biUnion_le
  obtain ⟨i, hi, h⟩ := hB k hk
  rw [Finset.mem_biUnion]
  exact ⟨i, Finset.mem_range.2 hi, h⟩

theorem irregularBelow_card {N M : ℕ} (c : ℕ) (h0 : 0 < N) (hNM : N ≤ M) :
    (irregularBelow N c).card ≤ ∑ i ∈ Finset.range 60, (badRow M (i + 4)).card :=
  card_rows (B := fun i => badRow M (i + 4)) fun _ hk => mem_badRow hk ((Nat.mod_lt _ h0).trans_le hNM)

theorem irregular_card : irregular.card ≤ 5 * 16 ^ 60 := by
  obtain ⟨M, hM⟩ : ∃ M : ℕ, M = 16 ^ 64 := ⟨_, rfl⟩
  have hn : n ≤ M := by rw [hM]; decide +kernel
  have hn0 : 0 < n := by decide +kernel
  refine (irregularBelow_card genBlind.val hn0 hn).trans ?_
  have := geom (fun i => (badRow M (i + 4)).card) 60 fun i hi =>
    badRow_card (j := i + 4) (by omega) (by rw [hM, ← pow_add]; congr 1; omega)
  generalize (∑ i ∈ Finset.range 60, (badRow M (i + 4)).card : ℕ) = S at this ⊢
  clear hM hn
  generalize (16 : ℕ) ^ 60 = q at *
  omega

/-! ## Observations -/

/-- The observations of one row. -/
def genStepTrace (j : ℕ) : List Event := [.read j] ++ (readsTrace 16 ++ [.branch false])

/-- The observations of `ecmult_gen`. -/
def genTrace : List Event := upTrace genStepTrace 64

theorem genSelectL_runs {row : List AffineStorage} {bits : UInt32} {adds : AffineStorage} (hl : row.length = 16) (hb : bits.toNat < row.length) :
    RunsL (genSelectL row bits adds) (fun r => r = row[bits.toNat]) (readsTrace 16) := by
  refine runsL_of (by rw [genSelectL_value]; exact genSelect_runs hl hb) ?_
  unfold genSelectL readsTrace
  have key : ∀ (i : ℕ) (s : AffineStorage), TraceIs (do
      let e ← Leak.read row i
      pure (s.cmov e (UInt32.ofNat i == bits))) [.read i] := fun i s =>
    (traceIs_read _ _).bind (u := []) fun _ => traceIs_pure _
  exact traceIs_forN (t := fun i => [.read i]) key 16 _

theorem genStepL_runs {ctx : GenContext} {gnb : Scalar} {j : ℕ} {s : Jacobian × AffineStorage} (hc : GenTable ctx.prec) (hj : j < 64)
    (hs : JacL s.1 (genAcc gnb.val j)) (h0 : genAcc gnb.val j ≠ 0) (ho : ¬OppY (genAcc gnb.val j) (genAdd gnb.val j)) :
    RunsL (genStepL ctx gnb j s) (fun s => Jac s.1 (genAcc gnb.val (j + 1))) (genStepTrace j) := by
  unfold genStepL genStepTrace
  refine RunsL.bind_lift (Scalar.bits_runs gnb (o := j * 4) (c := 4) (by norm_num) (by norm_num) (by omega) (by omega)) fun b hb => ?_
  have hj' : j < ctx.prec.length := by rw [hc.rows]; exact hj
  refine RunsL.bind (RunsL.read hj') fun row hrow => ?_
  subst hrow
  have hcols := hc.cols j hj'
  have hb16 : b.toNat < ctx.prec[j].length := by rw [hb, hcols]; exact Nat.mod_lt _ (by norm_num)
  refine RunsL.bind (genSelectL_runs hcols hb16) fun adds hadds => ?_
  have hsto := hc.entry j hj' b.toNat hb16
  have hb' : b.toNat = gnb.val / 16 ^ j % 16 := by
    rw [show (16 : ℕ) ^ j = 2 ^ (j * 4) by rw [mul_comm, pow_mul]; norm_num]; exact hb
  rw [← hadds, hb'] at hsto
  have haff := Affine.ofStorage_aff hsto
  refine RunsL.bind (u := []) (Jacobian.addGeL_loose (d := false) hs.x hs.y hs.z hs.rep haff.1 haff.2.1 h0 (by rw [iff_false_right (by simp)]; exact ho)) fun r hr => RunsL.pure ?_
  rw [← genAcc_succ]; exact hr

theorem ecmultGenL_runs {ctx : GenContext} {gn : Scalar} (hc : GenTable ctx.prec) (hb : ctx.blind = genBlind) (hi : ctx.initial = genInitial)
    (hgn : gn.val < n) (hreg : gn.val ∉ irregular) :
    RunsL (ecmultGenL ctx gn) (fun r => Jac r (gn.val • G)) genTrace := by
  refine runsL_of (by rw [ecmultGenL_value]; exact ecmultGen_runs hc hb hi) (RunsL.traceIs (P := fun _ => True) ?_)
  rw [mem_irregular hgn, not_not] at hreg
  unfold ecmultGenL genTrace
  rw [hb, hi]
  refine RunsL.bind_lift (Scalar.add_runs hgn genBlind_lt) fun gnb hgnb => ?_
  rw [← hgnb] at hreg
  rw [← List.append_nil (upTrace genStepTrace 64)]
  refine RunsL.bind (RunsL.forN (fun j (s : Jacobian × AffineStorage) => JacL s.1 (genAcc gnb.val j)) genStepTrace 64 _ ?_ ?_) fun _ _ => RunsL.pure trivial
  · unfold genAcc
    rw [pow_zero, Nat.mod_one, zero_nsmul, offSum, add_zero, add_zero]; exact genInitial_loose
  · intro j s hj h
    exact (genStepL_runs hc hj h (hreg j hj).1 (hreg j hj).2).mono fun s hs => Jac.loose hs

end Ecmult

end Verif
