import Verif.Proofs.GenChain
import Verif.Proofs.Batch

/-! Correctness of the fixed-base table and of `ecmult_gen`. -/

namespace Verif

open Spec
open FElem hiding n

namespace Ecmult

/-- The offset of row `j`. -/
noncomputable def rowOff : ℕ → Pt
  | 0 => off
  | j + 1 => if j = 62 then -(rowOff j + rowOff j) + off else rowOff j + rowOff j

theorem rowOff_low : ∀ j, j ≤ 62 → rowOff j = 2 ^ j • off
  | 0, _ => by simp [rowOff]
  | j + 1, h => by
    rw [rowOff, if_neg (by omega), rowOff_low j (by omega), pow_succ, mul_nsmul, two_nsmul]

theorem rowOff_63 : rowOff 63 = -(2 ^ 63 • off) + off := by
  rw [rowOff, if_pos rfl, rowOff_low 62 le_rfl, ← two_nsmul, ← mul_nsmul, ← pow_succ]

/-- Entry `m % 16` of row `m / 16`. -/
noncomputable def genEntry (m : ℕ) : Pt := (m % 16) • (16 ^ (m / 16) • G) + rowOff (m / 16)

theorem genEntry_ne {m : ℕ} (h : m < 1024) : genEntry m ≠ 0 := by
  unfold genEntry
  by_cases hj : m / 16 < 63
  · rw [rowOff_low _ (by omega)]
    exact table_finite.1 _ hj _ (by omega)
  · have : m / 16 = 63 := by omega
    rw [this, rowOff_63]
    exact table_finite.2 _ (by omega)

theorem precInner_runs {gbase : Jacobian} {j k : ℕ} {l : List Jacobian} (hj : j < 64) (hk : k < 15) (hl : l.length = 1024)
    (hg : Jac gbase (16 ^ j • G)) (h : ∀ m (hm : m < l.length), m ≤ j * 16 + k → Jac l[m] (genEntry m)) :
    Runs (precInner gbase j k l) (fun l => l.length = 1024 ∧ ∀ m (hm : m < l.length), m ≤ j * 16 + (k + 1) → Jac l[m] (genEntry m)) := by
  unfold precInner
  rw [idx_pure (by omega), pure_bind]
  refine Runs.bind (Jacobian.addVar_runs none (h _ (by omega) (by omega)) hg (fun _ => rfl)) fun r hr => ?_
  rw [setIdx_pure _ (by omega)]
  refine runs_pure ⟨by simpa using hl, fun m hm hle => ?_⟩
  rw [List.length_set] at hm
  rw [List.getElem_set]
  split
  · rename_i e
    subst e
    have e1 : (j * 16 + (k + 1)) / 16 = j := by omega
    have e2 : (j * 16 + (k + 1) - 1) / 16 = j := by omega
    have e3 : (j * 16 + (k + 1)) % 16 = k + 1 := by omega
    have e4 : (j * 16 + (k + 1) - 1) % 16 = k := by omega
    have hr := hr.1
    unfold genEntry at hr ⊢
    rw [e2, e4] at hr
    rw [e1, e3, add_nsmul, one_nsmul]
    rwa [add_right_comm] at hr
  · exact h m hm (by omega)

theorem gbase_runs {g : Jacobian} {P : Pt} (h : Jac g P) :
    Runs (forN 4 (fun _ g => do let r ← Jacobian.doubleVar g none; pure r.1) g) (fun r => Jac r (16 • P)) := by
  refine (forN_runs (fun k (g : Jacobian) => Jac g (2 ^ k • P)) 4 g (by simpa using h) ?_).mono fun r hr => hr
  intro k g _ hg
  refine Runs.bind (Jacobian.doubleVar_runs none hg) fun r hr => runs_pure ?_
  rw [pow_succ, mul_nsmul, two_nsmul]; exact hr.1

theorem precOuter_runs {numsGej : Jacobian} {j : ℕ} {s : List Jacobian × Jacobian × Jacobian} (hn : Jac numsGej off) (hj : j < 64)
    (hl : s.1.length = 1024) (h : ∀ m (hm : m < s.1.length), m < j * 16 → Jac s.1[m] (genEntry m))
    (hg : Jac s.2.1 (16 ^ j • G)) (hb : Jac s.2.2 (rowOff j)) :
    Runs (precOuter numsGej j s) (fun s => s.1.length = 1024 ∧ (∀ m (hm : m < s.1.length), m < (j + 1) * 16 → Jac s.1[m] (genEntry m)) ∧
      Jac s.2.1 (16 ^ (j + 1) • G) ∧ Jac s.2.2 (rowOff (j + 1))) := by
  unfold precOuter
  rw [setIdx_pure _ (by omega), pure_bind]
  refine Runs.bind (forN_runs (fun k (l : List Jacobian) => l.length = 1024 ∧ ∀ m (hm : m < l.length), m ≤ j * 16 + k → Jac l[m] (genEntry m))
    15 _ ⟨by simpa using hl, ?_⟩ (fun k l hk hi => precInner_runs hj hk hi.1 hg hi.2)) fun l hl' => ?_
  · intro m hm hle
    rw [List.length_set] at hm
    rw [List.getElem_set]
    split
    · rename_i e
      subst e
      unfold genEntry
      rw [Nat.mul_mod_left, Nat.mul_div_cancel _ (by norm_num), zero_nsmul, zero_add]
      exact hb
    · exact h m hm (by omega)
  refine Runs.bind (gbase_runs hg) fun g' hg' => ?_
  refine Runs.bind (Jacobian.doubleVar_runs none hb) fun nb hnb => ?_
  have hfix : Runs (precFix numsGej j nb.1) (fun r => Jac r (rowOff (j + 1))) := by
    unfold precFix
    by_cases e : j = 62
    · rw [if_pos (by simpa using e)]
      refine Runs.bind (Jacobian.neg_runs hnb.1) fun m hm => ?_
      refine Runs.bind (Jacobian.addVar_runs none hm hn (fun _ => rfl)) fun r hr => runs_pure ?_
      rw [rowOff, if_pos e]; exact hr.1
    · rw [if_neg (by simpa using e), rowOff, if_neg e]
      exact runs_pure hnb.1
  refine Runs.bind hfix fun nb' hnb' => runs_pure ⟨hl'.1, fun m hm hlt => hl'.2 m hm (by omega), ?_, hnb'⟩
  rw [pow_succ, mul_nsmul]
  exact hg'

/-- The fixed-base table. -/
structure GenTable (t : List (List AffineStorage)) : Prop where
  rows : t.length = 64
  cols : ∀ j (h : j < t.length), t[j].length = 16
  entry : ∀ j (h : j < t.length) i (h' : i < t[j].length), Sto t[j][i] (i • (16 ^ j • G) + rowOff j)

theorem nums_setB32 : Runs (FElem.setB32 FElem.zero nums32) (fun r => r.2 = true ∧ FeN r.1 (Chain.numsX : Fp)) := by
  have hx : beNat nums32.toList = Chain.numsX := by decide +kernel
  have hlt : Chain.numsX < p := by decide +kernel
  refine (FElem.setB32_runs _ _).mono fun X hX => ?_
  obtain ⟨h1, h2⟩ := hX
  rw [hx] at h1 h2
  rw [decide_eq_true hlt] at h1
  exact ⟨h1, (h2 h1).1⟩

theorem nums_setXo {X : FElem} (hX : FeN X (Chain.numsX : Fp)) : Runs (Affine.setXoVar X false) (fun s => s.2 = true ∧ Aff s.1 nums) := by
  have hXf := hX.fe
  refine (Affine.setXoVar_runs (hXf.cast (m' := 8) (by norm_num) rfl) false).mono fun s hs => ?_
  obtain ⟨g1, g2, g3, g4, g5⟩ := hs
  have heqn := isPt_nums.eqn
  have hsq : IsSquare ((Chain.numsX : Fp) ^ 3 + 7) := ⟨Chain.numsY, by rw [← heqn, sq]⟩
  refine ⟨g4.2 hsq, ?_⟩
  obtain ⟨hy, hpar⟩ := g5 hsq
  obtain ⟨N, hN⟩ := isPt_of_eqn hy
  have hyv : s.1.y.v = (Chain.numsY : Fp) := by
    rcases isPt_nums.same_x hN with h | h
    · exact h
    · exfalso
      have hv : ((Chain.numsY : ℕ) : Fp).val = Chain.numsY := ZMod.val_natCast_of_lt (by decide +kernel)
      have h0 : ((Chain.numsY : ℕ) : Fp) ≠ 0 := by
        intro e; rw [e, ZMod.val_zero] at hv; exact absurd hv (by decide +kernel)
      rw [h, Affine.neg_parity h0, hv] at hpar
      exact absurd (hpar.1 (by decide +kernel)) (by simp)
  refine aff_of_isPt g2 (by rw [g1]; exact hXf) g3 (by norm_num) (by norm_num) ?_
  rw [hyv]; exact isPt_nums

theorem newGenContext_runs : Runs newGenContext (fun c => GenTable c.prec ∧ c.blind = genBlind ∧ c.initial = genInitial) := by
  unfold newGenContext
  refine Runs.bind (Jacobian.setGe_runs Affine.g_aff) fun gj hgj => ?_
  refine Runs.bind nums_setB32 fun X hX => ?_
  refine runs_rassert hX.1 ?_
  refine Runs.bind (nums_setXo hX.2) fun a ha => ?_
  refine runs_rassert ha.1 ?_
  have hnums := ha.2
  refine Runs.bind (Jacobian.setGe_runs hnums) fun nj hnj => ?_
  refine Runs.bind (Jacobian.addGeVar_runs none hnj.1 Affine.g_aff (fun _ => rfl)) fun r hr => ?_
  have hoff : Jac r.1 off := hr.1
  refine Runs.bind (forN_runs (fun j (s : List Jacobian × Jacobian × Jacobian) => s.1.length = 1024 ∧
      (∀ m (hm : m < s.1.length), m < j * 16 → Jac s.1[m] (genEntry m)) ∧ Jac s.2.1 (16 ^ j • G) ∧ Jac s.2.2 (rowOff j)) 64 _
    ⟨List.length_replicate, fun m _ h => by omega, by rw [pow_zero, one_nsmul]; exact hgj.1, hoff⟩ (fun j s hj h => precOuter_runs hoff hj h.1 h.2.1 h.2.2.1 h.2.2.2)) fun s hs => ?_
  refine Runs.bind (setAllGejVar_runs (P := genEntry) (fun i hi => hs.2.1 i hi (by have := hs.1; omega))) fun prec hp => ?_
  have hlen : prec.length = 1024 := hp.1.trans hs.1
  refine Runs.bind (tabulate_runs (n := 64) (P := fun j (row : List AffineStorage) => row.length = 16 ∧
    ∀ i (h : i < row.length), Sto row[i] (i • (16 ^ j • G) + rowOff j)) fun j hj => ?_) fun t ht => runs_pure ⟨?_, rfl, rfl⟩
  · refine tabulate_runs (P := fun i x => Sto x (i • (16 ^ j • G) + rowOff j)) fun i hi => ?_
    rw [idx_pure (by omega), pure_bind]
    have haff := hp.2 (j * 16 + i) (by omega)
    have hne := genEntry_ne (m := j * 16 + i) (by omega)
    refine (Affine.toStorage_runs haff (haff.inf_false hne)).mono fun x hx => ?_
    unfold genEntry at hx
    rwa [show (j * 16 + i) % 16 = i by omega, show (j * 16 + i) / 16 = j by omega] at hx
  · exact ⟨ht.1, fun j h => (ht.2 j h).1, fun j h i h' => (ht.2 j h).2 i h'⟩

/-! ## `ecmult_gen` -/

theorem genSelect_runs {row : List AffineStorage} {bits : UInt32} {adds : AffineStorage} (hl : row.length = 16) (hb : bits.toNat < row.length) :
    Runs (genSelect row bits adds) (fun r => r = row[bits.toNat]) := by
  unfold genSelect
  refine (forN_runs (fun m (r : AffineStorage) => bits.toNat < m → r = row[bits.toNat]) 16 adds (fun h => by omega) ?_).mono
    (fun r h => h (by omega))
  intro m r hm h
  rw [idx_pure (by omega), pure_bind]
  refine runs_pure fun hk => ?_
  rw [AffineStorage.cmov_eq]
  have hmm : (UInt32.ofNat m).toNat = m := by rw [UInt32.toNat_ofNat']; omega
  by_cases e : m = bits.toNat
  · subst e
    rw [if_pos (by simp)]
  · have : UInt32.ofNat m ≠ bits := fun h => e (by rw [← h, hmm])
    rw [if_neg (by simpa using this)]
    exact h (by omega)

/-- A representation whose coordinates may exceed their recorded magnitude. -/
structure JacL (J : Jacobian) (P : Pt) : Prop where
  x : FeL J.x J.x.v
  y : FeL J.y J.y.v
  z : J.z.Ok 8
  rep : Rep J.infinity J.x.v J.y.v (J.z.v * 1) P

theorem Jac.loose {J : Jacobian} {P : Pt} (h : Jac J P) : JacL J P := ⟨h.x.loose (by norm_num), h.y.loose (by norm_num), h.z, h.rep⟩

theorem blind_chain : (Chain.mulG 256 genBlind.val).isSome = true ∧
    (∀ Q, Chain.mulG 256 genBlind.val = some Q → genInitial.x.val % p = Q.1 * genInitial.z.val ^ 2 % p ∧
      (genInitial.y.val + Q.2 * genInitial.z.val ^ 3) % p = 0) := by
  have : Chain.mulG 256 genBlind.val = some (0x79fbca1da9be26c041739a35cce4b4ca0e3e20572aa5f56174c5c3cbc98c655,
    0xa058737c5a3a8fd8db21187cb648d2ab9cb52c2df011d0ebf451c980547f4919) := by decide +kernel
  rw [this]
  refine ⟨rfl, fun Q hQ => ?_⟩
  cases hQ
  decide +kernel

theorem genBlind_lt : genBlind.val < n := by decide +kernel

theorem genInitial_loose : JacL genInitial (-(genBlind.val • G)) := by
  have hp : ((p : ℕ) : Fp) = 0 := ZMod.natCast_self p
  obtain ⟨h1, h2⟩ := blind_chain
  obtain ⟨Q, hQ⟩ := Option.isSome_iff_exists.1 h1
  obtain ⟨hx, hy⟩ := h2 Q hQ
  obtain ⟨_, hi⟩ := Chain.mulG_spec (K := Fp) hp isPt_G 256 _ _ hQ
  have hxe : genInitial.x.v = (Q.1 : Fp) * genInitial.z.v ^ 2 := by
    have : ((genInitial.x.val : ℕ) : Fp) = ((Q.1 * genInitial.z.val ^ 2 : ℕ) : Fp) := (ZMod.natCast_eq_natCast_iff' _ _ _).2 hx
    push_cast at this; exact this
  have hye : genInitial.y.v = -(Q.2 : Fp) * genInitial.z.v ^ 3 := by
    have : ((genInitial.y.val + Q.2 * genInitial.z.val ^ 3 : ℕ) : Fp) = 0 := (ZMod.natCast_eq_zero_iff _ _).2 (Nat.dvd_of_mod_eq_zero hy)
    push_cast at this
    have e : genInitial.y.v + (Q.2 : Fp) * genInitial.z.v ^ 3 = 0 := this
    linear_combination e
  have hz : genInitial.z.v ≠ 0 := by
    intro e
    have : p ∣ genInitial.z.val := (ZMod.natCast_eq_zero_iff _ _).1 e
    revert this; decide +kernel
  refine ⟨⟨⟨?_, ?_, ?_, ?_, ?_, ?_, ?_, ?_, ?_, ?_⟩, fun h => ?_, rfl⟩, ⟨⟨?_, ?_, ?_, ?_, ?_, ?_, ?_, ?_, ?_, ?_⟩, fun h => ?_, rfl⟩,
    ⟨⟨⟨?_, ?_, ?_, ?_, ?_, ?_, ?_, ?_, ?_, ?_⟩, ?_, fun h => ?_⟩, ?_, rfl⟩, ?_⟩
  all_goals first
    | (exact absurd h (by decide))
    | decide
    | skip
  exact rep_fin (by rwa [mul_one]) hi.neg (by rw [mul_one]; exact hxe) (by rw [mul_one]; exact hye)

/-- The sum of the offsets of the first `j` rows. -/
noncomputable def offSum : ℕ → Pt
  | 0 => 0
  | j + 1 => offSum j + rowOff j

theorem offSum_low : ∀ j, j ≤ 63 → offSum j + off = 2 ^ j • off
  | 0, _ => by simp [offSum]
  | j + 1, h => by
    rw [offSum, add_right_comm, offSum_low j (by omega), rowOff_low j (by omega), pow_succ, mul_nsmul, two_nsmul]

theorem offSum_64 : offSum 64 = 0 := by
  rw [offSum, rowOff_63, ← offSum_low 63 le_rfl]; abel

theorem genStep_runs {ctx : GenContext} {gnb : Scalar} {j : ℕ} {s : Jacobian × AffineStorage} {P : Pt} (hc : GenTable ctx.prec) (hj : j < 64)
    (hs : JacL s.1 P) :
    Runs (genStep ctx gnb j s) (fun s => Jac s.1 (P + ((gnb.val / 2 ^ (j * 4) % 16) • (16 ^ j • G) + rowOff j))) := by
  unfold genStep
  refine Runs.bind (Scalar.bits_runs gnb (o := j * 4) (c := 4) (by norm_num) (by norm_num) (by omega) (by omega)) fun b hb => ?_
  have hj' : j < ctx.prec.length := by rw [hc.rows]; exact hj
  rw [idx_pure hj', pure_bind]
  have hcols := hc.cols j hj'
  have hb16 : b.toNat < ctx.prec[j].length := by rw [hb, hcols]; exact Nat.mod_lt _ (by norm_num)
  refine Runs.bind (genSelect_runs hcols hb16) fun adds hadds => ?_
  have hsto := hc.entry j hj' b.toNat hb16
  rw [← hadds] at hsto
  have haff := Affine.ofStorage_aff hsto
  refine Runs.bind (Jacobian.addGe_loose hs.x hs.y hs.z hs.rep haff.1 haff.2.1) fun r hr => runs_pure ?_
  have hb' : b.toNat = gnb.val / 2 ^ (j * 4) % 16 := hb
  rw [← hb']; exact hr

theorem ecmultGen_runs {ctx : GenContext} {gn : Scalar} (hc : GenTable ctx.prec) (hb : ctx.blind = genBlind) (hi : ctx.initial = genInitial) :
    Runs (ecmultGen ctx gn) (fun r => Jac r (gn.val • G)) := by
  unfold ecmultGen
  rw [hb, hi]
  refine Runs.bind (Scalar.add_cong gn genBlind_lt) fun gnb hgnb => ?_
  refine Runs.bind (forN_runs (fun j (s : Jacobian × AffineStorage) =>
    JacL s.1 (-(genBlind.val • G) + ((gnb.val % 16 ^ j) • G + offSum j)) ∧
      (0 < j → Jac s.1 (-(genBlind.val • G) + ((gnb.val % 16 ^ j) • G + offSum j)))) 64 _ ⟨?_, fun h => by omega⟩ ?_) fun s hs => runs_pure ?_
  · rw [pow_zero, Nat.mod_one, zero_nsmul, offSum, add_zero, add_zero]; exact genInitial_loose
  · intro j s hj ⟨h, _⟩
    refine (genStep_runs hc hj h).mono fun s' hs' => ?_
    have e : -(genBlind.val • G) + ((gnb.val % 16 ^ j) • G + offSum j) + ((gnb.val / 2 ^ (j * 4) % 16) • (16 ^ j • G) + rowOff j) =
        -(genBlind.val • G) + ((gnb.val % 16 ^ (j + 1)) • G + offSum (j + 1)) := by
      rw [offSum, Nat.mod_pow_succ, add_nsmul, mul_comm (16 ^ j), mul_nsmul' G, show (2 : ℕ) ^ (j * 4) = 16 ^ j by rw [mul_comm, pow_mul]; norm_num]
      abel
    rw [e] at hs'
    exact ⟨Jac.loose hs', fun _ => hs'⟩
  · have h := hs.2 (by norm_num)
    have hlt : gnb.val < 16 ^ 64 := gnb.val_lt
    rw [offSum_64, Nat.mod_eq_of_lt hlt, ← smul_mod gnb.val, hgnb, smul_mod, add_nsmul] at h
    have e : -(genBlind.val • G) + (gn.val • G + genBlind.val • G + 0) = gn.val • G := by abel
    rwa [e] at h

end Ecmult

end Verif
