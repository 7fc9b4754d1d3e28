import Verif.Proofs.Table

/-! Correctness of the batch inversion and of the batch conversion to affine coordinates. -/

namespace Verif

open Spec
open FElem hiding n

namespace Ecmult

/-- The product of the first `k + 1` values. -/
def preProd (g : ℕ → Fp) : ℕ → Fp
  | 0 => g 0
  | k + 1 => preProd g k * g (k + 1)

theorem preProd_ne {g : ℕ → Fp} {L : ℕ} (h : ∀ i < L, g i ≠ 0) : ∀ k, k < L → preProd g k ≠ 0
  | 0, hk => h 0 hk
  | k + 1, hk => mul_ne_zero (preProd_ne h k (by omega)) (h _ hk)

theorem invAllVar_runs {fields : List FElem} (hf : ∀ i (h : i < fields.length), fields[i].Ok 8 ∧ fields[i].v ≠ 0) :
    Runs (invAllVar fields) (fun r => r.length = fields.length ∧
      ∀ i (h : i < r.length) (h' : i < fields.length), Fe r[i] 1 (fields[i].v)⁻¹) := by
  unfold invAllVar
  by_cases he : fields = []
  · subst he
    exact runs_pure ⟨rfl, fun i h => by simp at h⟩
  rw [if_neg (by simpa using he)]
  have hL : 0 < fields.length := List.length_pos_iff.2 he
  let g : ℕ → Fp := fun i => (fields[i]?.getD FElem.zero).v
  have hg : ∀ i (h : i < fields.length), g i = fields[i].v := fun i h => by simp [g, h]
  have hg0 : ∀ i < fields.length, g i ≠ 0 := fun i h => by rw [hg i h]; exact (hf i h).2
  rw [idx_pure hL, pure_bind]
  refine Runs.bind (forN_runs (fun k (ret : List FElem) => ret.length = k + 1 ∧ ∀ i (h : i < ret.length), Fe ret[i] 8 (preProd g i))
    (fields.length - 1) [fields[0]] ⟨rfl, ?_⟩ ?_) fun ret ⟨hr1, hr2⟩ => ?_
  · intro i hi
    have : i = 0 := by simpa using hi
    subst this
    have := (hf 0 hL).1
    simp only [preProd, hg 0 hL]; exact this
  · intro k ret hk ⟨h1, h2⟩
    unfold invForward
    rw [idx_pure (by omega), pure_bind, idx_pure (by omega), pure_bind]
    refine Runs.bind (fe_mul (h2 k (by omega)) (hf (k + 1) (by omega)).1 (by norm_num) (by norm_num)) fun v hv => runs_pure ⟨by simp [h1], ?_⟩
    intro i hi
    rw [List.getElem_append]
    split
    · exact h2 i _
    · have : i = k + 1 := by
        rw [List.length_append, List.length_singleton, h1] at hi; omega
      subst this
      simp only [List.getElem_singleton]
      exact hv.1.cast (by norm_num) (by rw [preProd, hg (k + 1) (by omega)])
  · rw [idx_pure (by omega), pure_bind]
    refine Runs.bind (fe_inv (hr2 (fields.length - 1) (by omega)) (by norm_num)) fun u hu => ?_
    refine Runs.bind (forN_runs (fun k (s : List FElem × FElem) => s.1.length = fields.length ∧ Fe s.2 1 (preProd g (fields.length - 1 - k))⁻¹ ∧
      ∀ i (h : i < s.1.length), (i ≤ fields.length - 1 - k → Fe s.1[i] 8 (preProd g i)) ∧
        (fields.length - 1 - k < i → Fe s.1[i] 1 (g i)⁻¹)) (fields.length - 1) (ret, u) ⟨by dsimp only; omega, by simpa using hu, ?_⟩ ?_)
      fun s ⟨h1, h2, h3⟩ => ?_
    · intro i hi
      dsimp only at hi ⊢
      exact ⟨fun _ => hr2 i hi, fun h => by omega⟩
    · intro k s hk ⟨h1, h2, h3⟩
      unfold invBackward
      dsimp only
      obtain ⟨j, hj⟩ : ∃ j, fields.length - 1 - k = j + 1 := ⟨fields.length - 2 - k, by omega⟩
      have hj' : fields.length - 1 - (k + 1) = j := by omega
      rw [hj] at h2 h3 ⊢
      rw [hj']
      have hpp := preProd_ne hg0 (j + 1) (by omega)
      have hpj := preProd_ne hg0 j (by omega)
      have hgj := hg0 (j + 1) (by omega)
      rw [idx_pure (by omega), pure_bind]
      refine Runs.bind (fe_mul ((h3 _ (by omega)).1 (by omega)) h2 (by norm_num) (by norm_num)) fun v hv => ?_
      rw [setIdx_pure _ (by omega), pure_bind, idx_pure (by omega), pure_bind]
      refine Runs.bind (fe_mul h2 (hf (j + 1) (by omega)).1 (by norm_num) (by norm_num)) fun u' hu' => runs_pure ⟨by simpa using h1, ?_, ?_⟩
      · refine hu'.1.cast le_rfl ?_
        rw [← hg (j + 1) (by omega), preProd]
        field_simp
      · intro i hi
        dsimp only at hi ⊢
        rw [List.length_set] at hi
        rw [List.getElem_set]
        refine ⟨fun h => ?_, fun h => ?_⟩
        · rw [if_neg (by omega)]; exact (h3 i hi).1 (by omega)
        · split
          · rename_i e
            subst e
            refine hv.1.cast le_rfl ?_
            simp only [Nat.add_sub_cancel]
            rw [preProd]
            field_simp
          · exact (h3 i hi).2 (by omega)
    · rw [setIdx_pure _ (by omega)]
      refine runs_pure ⟨by simpa using h1, ?_⟩
      intro i hi hi'
      rw [List.getElem_set]
      split
      · rename_i e
        subst e
        refine h2.cast le_rfl ?_
        rw [Nat.sub_self, preProd, hg 0 hL]
      · rw [← hg i hi']; exact (h3 i (by omega)).2 (by omega)

/-- The entry of the filtered list that belongs to the `i`-th element. -/
theorem filter_getElem {α : Type} (q : α → Bool) (l : List α) {i : ℕ} (h : i < l.length) (hq : q l[i] = true) :
    ∃ h' : ((l.take i).filter q).length < (l.filter q).length, (l.filter q)[((l.take i).filter q).length] = l[i] := by
  have e : l.filter q = (l.take i).filter q ++ l[i] :: (l.drop (i + 1)).filter q := by
    conv_lhs => rw [← List.take_append_drop i l, List.filter_append, List.drop_eq_getElem_cons h, List.filter_cons_of_pos hq]
  refine ⟨by rw [e]; simp, ?_⟩
  simp only [e]
  rw [List.getElem_append_right (by simp)]
  simp

theorem filter_take_succ {α : Type} (q : α → Bool) (l : List α) {i : ℕ} (h : i < l.length) :
    ((l.take (i + 1)).filter q).length = ((l.take i).filter q).length + if q l[i] then 1 else 0 := by
  rw [List.take_succ_eq_append_getElem h, List.filter_append, List.length_append]
  cases hq : q l[i] <;> simp [hq]

theorem rep_z_ne {X Y w : Fp} {P : Pt} (h : Rep false X Y w P) : w ≠ 0 := h.fin.1

theorem setAllGejVar_runs {a : List Jacobian} {P : ℕ → Pt} (ha : ∀ i (h : i < a.length), Jac a[i] (P i)) :
    Runs (setAllGejVar a) (fun r => r.length = a.length ∧
      ∀ i (h : i < r.length), Aff r[i] (P i)) := by
  unfold setAllGejVar
  dsimp only
  let q : Jacobian → Bool := fun point => !point.infinity
  have hz : ∀ i (h : i < a.length), a[i].infinity = false → a[i].z.v ≠ 0 := by
    intro i h hi
    have := (ha i h).rep
    rw [hi, mul_one] at this
    exact rep_z_ne this
  refine Runs.bind (invAllVar_runs (fields := (a.filter q).map Jacobian.z) ?_) fun azi ⟨hl, hazi⟩ => ?_
  · intro i hi
    rw [List.getElem_map]
    have hm : (a.filter q)[i]'(by simpa using hi) ∈ a.filter q := List.getElem_mem _
    rw [List.mem_filter] at hm
    obtain ⟨hm1, hm2⟩ := hm
    obtain ⟨j, hj, e⟩ := List.mem_iff_getElem.1 hm1
    rw [← e] at hm2 ⊢
    exact ⟨(ha j hj).z, hz j hj (by simpa [q] using hm2)⟩
  refine Runs.bind (forN_runs (fun i (s : List Affine × ℕ) => s.1.length = a.length ∧ s.2 = ((a.take i).filter q).length ∧
    (∀ j (h : j < s.1.length), j < i → Aff s.1[j] (P j)) ∧ (∀ j (h : j < s.1.length), i ≤ j → s.1[j] = Affine.default))
    a.length _ ⟨by simp, by simp, fun j _ h => by omega, fun j _ _ => by simp⟩ ?_) fun s ⟨h1, _, h3, _⟩ => runs_pure ⟨h1, fun i h => h3 i h (by omega)⟩
  intro i s hi ⟨h1, h2, h3, h4⟩
  unfold setAllStep
  rw [idx_pure hi, pure_bind]
  have hsucc := filter_take_succ q a hi
  cases hinf : a[i].infinity with
  | true =>
    rw [if_pos rfl, idx_pure (by omega), pure_bind, setIdx_pure _ (by omega), pure_bind]
    refine runs_pure ⟨by simpa using h1, ?_, ?_, ?_⟩
    · rw [h2, hsucc]; simp [q, hinf]
    · intro j hj hji
      dsimp only at hj ⊢
      rw [List.length_set] at hj
      rw [List.getElem_set]
      split
      · rename_i e
        subst e
        rw [h4 i (by omega) le_rfl, (ha i hi).inf_iff.1 hinf]
        exact ⟨FElem.zero_fe.ok (by norm_num), FElem.zero_fe.ok (by norm_num), rep_inf ..⟩
      · exact h3 j hj (by omega)
    · intro j hj hji
      dsimp only at hj ⊢
      rw [List.length_set] at hj
      rw [List.getElem_set, if_neg (by omega)]
      exact h4 j hj (by omega)
  | false =>
    rw [if_neg (by simp)]
    obtain ⟨hlt, hget⟩ := filter_getElem q a hi (by simp [q, hinf])
    have hlt2 : s.2 < azi.length := by rw [hl, List.length_map, h2]; exact hlt
    rw [idx_pure hlt2, pure_bind]
    have hzi := hazi s.2 hlt2 (by rw [← hl]; exact hlt2)
    rw [List.getElem_map] at hzi
    simp only [h2, hget] at hzi
    have hr := (ha i hi).rep
    rw [mul_one] at hr
    have hzne := hz i hi hinf
    simp only [h2]
    refine Runs.bind (Affine.setGejZinv_runs (ha i hi).x (ha i hi).y hr hzi (by norm_num) (inv_ne_zero hzne)) fun v hv => ?_
    rw [mul_inv_cancel₀ hzne] at hv
    rw [setIdx_pure _ (by omega), pure_bind]
    refine runs_pure ⟨by simpa using h1, ?_, ?_, ?_⟩
    · rw [hsucc]; simp [q, hinf]
    · intro j hj hji
      dsimp only at hj ⊢
      rw [List.length_set] at hj
      rw [List.getElem_set]
      split
      · rename_i e
        subst e
        exact hv.1
      · exact h3 j hj (by omega)
    · intro j hj hji
      dsimp only at hj ⊢
      rw [List.length_set] at hj
      rw [List.getElem_set, if_neg (by omega)]
      exact h4 j hj (by omega)

end Ecmult

end Verif
