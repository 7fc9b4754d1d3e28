import Verif.Proofs.Group

/-! Conversions between the point representations, curve membership, equality. -/

namespace Verif

open Spec FElem

theorem rep_one_iff {X Y : Fp} {P : Pt} : Rep false X Y 1 P ↔ IsPt P X Y := by
  constructor
  · intro h
    obtain ⟨_, x, y, hP, rfl, rfl⟩ := h.fin
    exact hP.congr (by ring) (by ring)
  · intro h; exact rep_fin one_ne_zero h (by ring) (by ring)

theorem Aff.isPt {a : Affine} {P : Pt} (h : Aff a P) (hi : a.infinity = false) : IsPt P a.x.v a.y.v := by
  have := h.rep; rw [hi] at this; exact rep_one_iff.1 this

theorem aff_of_isPt {a : Affine} {P : Pt} {m k : ℕ} {X Y : Fp} (hi : a.infinity = false) (hx : Fe a.x m X) (hy : Fe a.y k Y)
    (hm : m ≤ 8) (hk : k ≤ 8) (h : IsPt P X Y) : Aff a P :=
  affZ_of hx hy hm hk (by rw [hi]; exact rep_one_iff.2 h)

theorem JacZ.inf_iff {J : Jacobian} {Z : Fp} {P : Pt} (h : JacZ J Z P) : J.infinity = true ↔ P = 0 := h.rep.flag
theorem AffZ.inf_iff {A : Affine} {Z : Fp} {P : Pt} (h : AffZ A Z P) : A.infinity = true ↔ P = 0 := h.rep.flag

theorem AffZ.inf_false {A : Affine} {Z : Fp} {P : Pt} (h : AffZ A Z P) (hP : P ≠ 0) : A.infinity = false := by
  by_contra hc
  exact hP (h.inf_iff.1 (by simpa using hc))

theorem JacZ.inf_false {A : Jacobian} {Z : Fp} {P : Pt} (h : JacZ A Z P) (hP : P ≠ 0) : A.infinity = false := by
  by_contra hc
  exact hP (h.inf_iff.1 (by simpa using hc))

theorem JacZ.unique {J : Jacobian} {Z : Fp} {P Q : Pt} (h : JacZ J Z P) (h' : JacZ J Z Q) : P = Q := by
  have r := h.rep; have r' := h'.rep
  cases hi : J.infinity with
  | true => rw [hi] at r r'; rw [r.inf, r'.inf]
  | false =>
    rw [hi] at r r'
    exact rep_same r r' (sub_self _) (sub_self _)

theorem AffZ.unique {J : Affine} {Z : Fp} {P Q : Pt} (h : AffZ J Z P) (h' : AffZ J Z Q) : P = Q := by
  have r := h.rep; have r' := h'.rep
  cases hi : J.infinity with
  | true => rw [hi] at r r'; rw [r.inf, r'.inf]
  | false =>
    rw [hi] at r r'
    exact rep_same r r' (sub_self _) (sub_self _)

namespace Affine

theorem g_x : FeN g.x (Gx : Fp) := feN_const (by decide +kernel)
theorem g_y : FeN g.y (Gy : Fp) := feN_const (by decide +kernel)

theorem g_aff : Aff g G := aff_of_isPt rfl g_x.fe g_y.fe (by norm_num) (by norm_num) isPt_G

theorem neg_runs {a : Affine} {Z : Fp} {P : Pt} (h : AffZ a Z P) :
    Runs (neg a) (fun r => AffZ r Z (-P) ∧ r.infinity = a.infinity ∧ r.x = a.x ∧ r.y.Ok 2) := by
  unfold neg
  refine Runs.bind (fe_normalizeWeak h.y (by norm_num)) fun y hy => ?_
  refine Runs.bind (fe_neg (m := 1) hy.1 rfl (by norm_num)) fun y hy => runs_pure ⟨?_, rfl, rfl, hy.1.ok (by norm_num)⟩
  exact affZ_of h.x hy.1 (by norm_num) (by norm_num) (rep_neg h.rep)

theorem setGejZinv_runs {a : Jacobian} {zi : FElem} {w zv : Fp} {P : Pt} {m : ℕ} (hx : a.x.Ok 8) (hy : a.y.Ok 8)
    (hr : Rep a.infinity a.x.v a.y.v w P) (hz : Fe zi m zv) (hm : m ≤ 8) (hz0 : zv ≠ 0) :
    Runs (setGejZinv a zi) (fun r => AffZ r (w * zv) P ∧ r.infinity = a.infinity ∧ r.x.Ok 1 ∧ r.y.Ok 1 ∧
      r.x.v = a.x.v * zv ^ 2 ∧ r.y.v = a.y.v * zv ^ 3) := by
  unfold setGejZinv
  refine Runs.bind (fe_sqr hz hm) fun zi2 h2 => ?_
  refine Runs.bind (fe_mul h2.1 hz (by norm_num) hm) fun zi3 h3 => ?_
  refine Runs.bind (fe_mul hx h2.1 (by norm_num) (by norm_num)) fun x hx' => ?_
  refine Runs.bind (fe_mul hy h3.1 (by norm_num) (by norm_num)) fun y hy' => runs_pure ⟨?_, rfl, hx'.1.ok le_rfl, hy'.1.ok le_rfl, ?_, ?_⟩
  · refine affZ_of hx'.1 hy'.1 (by norm_num) (by norm_num) ((rep_scale hr hz0).congr ?_ ?_ rfl rfl) <;> ring
  · rw [hx'.1.v]; ring
  · rw [hy'.1.v]; ring

theorem inv_rep {b : Bool} {X Y w : Fp} {P : Pt} (h : Rep b X Y (w * 1) P) : Rep b (X * w⁻¹ ^ 2) (Y * w⁻¹ ^ 3) 1 P := by
  rw [mul_one] at h
  rcases h with ⟨rfl, rfl⟩ | ⟨rfl, hw, x, y, h, rfl, rfl⟩
  · exact rep_inf ..
  · exact rep_fin one_ne_zero h (by field_simp) (by field_simp)

theorem setGej_runs {a : Jacobian} {P : Pt} (h : Jac a P) :
    Runs (setGej a) (fun r => Aff r P ∧ r.infinity = a.infinity ∧ r.x.Ok 1 ∧ r.y.Ok 1) := by
  unfold setGej
  refine Runs.bind (fe_inv h.z (by norm_num)) fun z hz => ?_
  refine Runs.bind (fe_sqr hz (by norm_num)) fun z2 h2 => ?_
  refine Runs.bind (fe_mul hz h2.1 (by norm_num) (by norm_num)) fun z3 h3 => ?_
  refine Runs.bind (fe_mul h.x h2.1 (by norm_num) (by norm_num)) fun x hx => ?_
  refine Runs.bind (fe_mul h.y h3.1 (by norm_num) (by norm_num)) fun y hy => ?_
  refine Runs.bind fe_one fun _ _ => runs_pure ⟨?_, rfl, hx.1.ok le_rfl, hy.1.ok le_rfl⟩
  refine affZ_of hx.1 hy.1 (by norm_num) (by norm_num) ((inv_rep h.rep).congr ?_ ?_ rfl rfl) <;> ring

theorem setGejVar_runs {self : Affine} {a : Jacobian} {P : Pt} (h : Jac a P) (hs : self.x.Ok 8 ∧ self.y.Ok 8) :
    Runs (setGejVar self a) (fun r => Aff r P ∧ r.infinity = a.infinity) := by
  unfold setGejVar
  cases hi : a.infinity with
  | true =>
    rw [if_pos rfl]
    have hP : P = 0 := h.inf_iff.1 hi
    exact runs_pure ⟨⟨hs.1, hs.2, by rw [hP]; exact rep_inf ..⟩, rfl⟩
  | false =>
    rw [if_neg (by simp)]
    refine Runs.bind (fe_inv h.z (by norm_num)) fun z hz => ?_
    refine Runs.bind (fe_sqr hz (by norm_num)) fun z2 h2 => ?_
    refine Runs.bind (fe_mul hz h2.1 (by norm_num) (by norm_num)) fun z3 h3 => ?_
    refine Runs.bind (fe_mul h.x h2.1 (by norm_num) (by norm_num)) fun x hx => ?_
    refine Runs.bind (fe_mul h.y h3.1 (by norm_num) (by norm_num)) fun y hy => ?_
    refine Runs.bind fe_one fun _ _ => runs_pure ⟨?_, rfl⟩
    have hr := inv_rep h.rep
    rw [hi] at hr
    refine affZ_of hx.1 hy.1 (by norm_num) (by norm_num) (hr.congr ?_ ?_ rfl rfl) <;> ring

theorem eq_runs {a b : Affine} (hax : a.x.Ok 8) (hay : a.y.Ok 8) (hbx : b.x.Ok 8) (hby : b.y.Ok 8) :
    Runs (eq a b) (fun r => r = decide (a.x.v = b.x.v ∧ a.y.v = b.y.v ∧ a.infinity = b.infinity)) := by
  unfold eq
  refine Runs.bind (FElem.eq_runs hax hbx (by norm_num)) fun ex hex => ?_
  by_cases h0 : a.x.v = b.x.v
  · rw [hex, decide_eq_true h0, if_pos rfl]
    refine Runs.bind (FElem.eq_runs hay hby (by norm_num)) fun ey hey => runs_pure ?_
    rw [hey, Bool.eq_iff_iff]; simp [h0]
  · rw [hex, decide_eq_false h0, if_neg (by simp), pure_bind]
    exact runs_pure (by simp [h0])

theorem isValidVar_runs {a : Affine} (hx : a.x.Ok 8) (hy : a.y.Ok 8) :
    Runs (isValidVar a) (fun r => r = decide (a.infinity = false ∧ a.y.v ^ 2 = a.x.v ^ 3 + 7)) := by
  unfold isValidVar
  cases hi : a.infinity with
  | true => rw [if_pos rfl]; exact runs_pure (by simp)
  | false =>
    rw [if_neg (by simp)]
    refine Runs.bind (fe_sqr hy (by norm_num)) fun y2 h2 => ?_
    refine Runs.bind (fe_sqr hx (by norm_num)) fun x3 h3 => ?_
    refine Runs.bind (fe_mul h3.1 hx (by norm_num) (by norm_num)) fun x3 h3 => ?_
    refine Runs.bind fe_seven fun c hc => ?_
    refine Runs.bind (fe_add h3.1 hc (by norm_num)) fun x3 h3 => ?_
    refine Runs.bind (fe_normalizeWeak h3.1 (by norm_num)) fun x3 h3 => ?_
    refine (eqVar_runs h2.1 h3.1 (by norm_num)).mono fun r hr => ?_
    rw [hr, decide_eq_decide]
    simp only [true_and]
    rw [show a.y.v ^ 2 = a.y.v * a.y.v by ring, show a.x.v ^ 3 = a.x.v * a.x.v * a.x.v by ring]

theorem setXquad_runs {x : FElem} {X : Fp} (hx : Fe x 8 X) :
    Runs (setXquad x) (fun r => r.1.x = x ∧ r.1.infinity = false ∧ ∃ Y, Fe r.1.y 1 Y ∧ (r.2 = true ↔ IsSquare (X ^ 3 + 7)) ∧
      (IsSquare (X ^ 3 + 7) → Y ^ 2 = X ^ 3 + 7)) := by
  unfold setXquad
  refine Runs.bind (fe_sqr hx (by norm_num)) fun x2 h2 => ?_
  refine Runs.bind (fe_mul hx h2.1 (by norm_num) (by norm_num)) fun x3 h3 => ?_
  refine Runs.bind fe_seven fun c hc => ?_
  refine Runs.bind (fe_add hc h3.1 (by norm_num)) fun c hc => ?_
  have hc' : Fe c 2 (X ^ 3 + 7) := hc.1.cast (by norm_num) (by ring)
  refine Runs.bind (fe_sqrt hc' (by norm_num)) fun v ⟨y, hv⟩ => runs_pure ⟨rfl, rfl, y, hv⟩

theorem neg_parity {y : Fp} (h : y ≠ 0) : (-y).val % 2 = 1 ↔ y.val % 2 = 0 := by
  have : NeZero y := ⟨h⟩
  rw [ZMod.val_neg_of_ne_zero]
  have := ZMod.val_lt y
  have hp : p % 2 = 1 := by decide +kernel
  have : y.val ≠ 0 := by rw [ne_eq, ZMod.val_eq_zero]; exact h
  omega

theorem fixParity_runs {a : Affine} {Y : Fp} (hy : Fe a.y 1 Y) (h0 : Y ≠ 0) (odd : Bool) :
    Runs (fixParity a odd) (fun r => r.x = a.x ∧ r.infinity = a.infinity ∧ ∃ Y', Fe r.y 2 Y' ∧ Y' ^ 2 = Y ^ 2 ∧
      (Y'.val % 2 = 1 ↔ odd = true)) := by
  unfold fixParity
  refine Runs.bind (fe_normalizeVar hy (by norm_num)) fun y hy => ?_
  refine Runs.bind (isOdd_runs hy.1) fun o ho => ?_
  have e := neg_parity h0
  by_cases hc : o = odd
  · rw [if_neg (by simp [hc])]
    refine runs_pure ⟨rfl, rfl, Y, hy.1.fe.mono (by norm_num), rfl, ?_⟩
    rw [← hc, ho, decide_eq_true_eq]
  · rw [if_pos (by simpa using hc)]
    refine Runs.bind (fe_neg (m := 1) hy.1.fe rfl (by norm_num)) fun y' hy' => runs_pure ⟨rfl, rfl, -Y, hy'.1, by ring, ?_⟩
    rw [e]
    cases odd with
    | true =>
      have : o = false := by cases o <;> simp_all
      rw [this] at ho
      have := of_decide_eq_false ho.symm
      simp; omega
    | false =>
      have : o = true := by cases o <;> simp_all
      rw [this] at ho
      have := of_decide_eq_true ho.symm
      simp; omega

theorem setXoVar_runs {x : FElem} {X : Fp} (hx : Fe x 8 X) (odd : Bool) :
    Runs (setXoVar x odd) (fun r => r.1.x = x ∧ r.1.infinity = false ∧ r.1.y.Ok 2 ∧ (r.2 = true ↔ IsSquare (X ^ 3 + 7)) ∧
      (IsSquare (X ^ 3 + 7) → r.1.y.v ^ 2 = X ^ 3 + 7 ∧ (r.1.y.v.val % 2 = 1 ↔ odd = true))) := by
  unfold setXoVar
  refine Runs.bind (setXquad_runs hx) fun s hs => ?_
  obtain ⟨h1, h2, Y, h3, h4, h5⟩ := hs
  cases hb : s.2 with
  | true =>
    have hsq := h4.1 hb
    have hY := h5 hsq
    have hY0 : Y ≠ 0 := by
      rintro rfl
      exact no_cube X (by rw [← hY]; ring)
    rw [if_pos rfl]
    refine Runs.bind (fixParity_runs h3 hY0 odd) fun a ha => runs_pure ?_
    obtain ⟨g1, g2, Y', g3, g4, g5⟩ := ha
    refine ⟨g1.trans h1, g2.trans h2, g3.ok (by norm_num), by simp [hsq], fun _ => ⟨?_, ?_⟩⟩
    · rw [g3.v, g4, hY]
    · rw [g3.v]; exact g5
  | false =>
    rw [if_neg (by simp)]
    have hsq : ¬ IsSquare (X ^ 3 + 7) := by rw [← h4, hb]; simp
    exact runs_pure ⟨h1, h2, h3.ok (by norm_num), by simp [hsq], fun h => absurd h hsq⟩

end Affine

/-- A storage entry holds the coordinates of the finite point `P`. -/
def Sto (s : AffineStorage) (P : Pt) : Prop := ∃ x y, IsPt P x y ∧ s.x.val = x.val ∧ s.y.val = y.val

theorem Sto.ne_zero {s : AffineStorage} {P : Pt} (h : Sto s P) : P ≠ 0 := by
  obtain ⟨_, _, h, _⟩ := h; exact h.ne_zero

theorem Affine.toStorage_runs {a : Affine} {P : Pt} (h : Aff a P) (hi : a.infinity = false) :
    Runs (toStorage a) (fun s => Sto s P) := by
  unfold toStorage
  refine runs_dassert (by rw [hi]; rfl) ?_
  refine Runs.bind (fe_normalize h.x (by norm_num)) fun x hx => ?_
  refine Runs.bind (fe_normalize h.y (by norm_num)) fun y hy => ?_
  refine Runs.bind (FieldStorage.ofField_runs hx.1) fun sx hsx => ?_
  refine Runs.bind (FieldStorage.ofField_runs hy.1) fun sy hsy => runs_pure ⟨_, _, h.isPt hi, hsx, hsy⟩

theorem Affine.ofStorage_aff {s : AffineStorage} {P : Pt} (h : Sto s P) : Aff (ofStorage s) P ∧ (ofStorage s).infinity = false ∧
    (ofStorage s).x.Ok 1 ∧ (ofStorage s).y.Ok 1 := by
  obtain ⟨x, y, h, hx, hy⟩ := h
  have h1 : FeN (ofStorage s).x x := FieldStorage.toField_feN hx
  have h2 : FeN (ofStorage s).y y := FieldStorage.toField_feN hy
  exact ⟨aff_of_isPt rfl h1.fe h2.fe (by norm_num) (by norm_num) h, rfl, h1.fe.ok le_rfl, h2.fe.ok le_rfl⟩

theorem AffineStorage.cmov_eq (s a : AffineStorage) (b : Bool) : cmov s a b = if b then a else s := by
  unfold cmov; rw [FieldStorage.cmov_eq, FieldStorage.cmov_eq]; cases b <;> rfl

namespace Jacobian

theorem eqXVar_runs {a : Jacobian} {P : Pt} {x : FElem} {X : Fp} {m : ℕ} (h : Jac a P) (hi : a.infinity = false) (hx : Fe x m X) (hm : m ≤ 8) :
    Runs (eqXVar a x) (fun r => r = true ↔ ∃ y, IsPt P X y) := by
  have hr := h.rep
  rw [hi, mul_one] at hr
  obtain ⟨hw, x0, y0, hP, hX, hY⟩ := hr.fin
  unfold eqXVar
  refine runs_dassert (by rw [hi]; rfl) ?_
  refine Runs.bind (fe_sqr h.z (by norm_num)) fun r hr => ?_
  refine Runs.bind (fe_mul hr.1 hx (by norm_num) hm) fun r hr => ?_
  refine Runs.bind (fe_normalizeWeak h.x (by norm_num)) fun r2 hr2 => ?_
  refine (eqVar_runs hr.1 hr2.1 (by norm_num)).mono fun b hb => ?_
  rw [hb, decide_eq_true_eq, hX]
  constructor
  · intro e
    have : X = x0 := by
      apply mul_left_cancel₀ (pow_ne_zero 2 hw)
      linear_combination e
    rw [this]; exact ⟨y0, hP⟩
  · rintro ⟨y, hy⟩
    rw [(hy.inj hP).1]; ring

theorem hasQuadYVar_runs {a : Jacobian} {P : Pt} (h : Jac a P) :
    Runs (hasQuadYVar a) (fun r => r = true ↔ ∃ x y, IsPt P x y ∧ IsSquare y) := by
  unfold hasQuadYVar
  cases hi : a.infinity with
  | true =>
    rw [if_pos rfl]
    have hP : P = 0 := h.inf_iff.1 hi
    refine runs_pure ⟨fun h => by simp at h, fun ⟨x, y, h, _⟩ => absurd hP h.ne_zero⟩
  | false =>
    rw [if_neg (by simp)]
    have hr := h.rep
    rw [hi, mul_one] at hr
    obtain ⟨hw, x0, y0, hP, hX, hY⟩ := hr.fin
    refine Runs.bind (fe_mul h.y h.z (by norm_num) (by norm_num)) fun yz hyz => ?_
    refine (fe_isQuadVar hyz.1 (by norm_num)).mono fun r hr => ?_
    rw [hr, hY, show y0 * a.z.v ^ 3 * a.z.v = y0 * (a.z.v ^ 2) ^ 2 by ring]
    constructor
    · rintro ⟨t, ht⟩
      refine ⟨x0, y0, hP, t / a.z.v ^ 2, ?_⟩
      field_simp; linear_combination ht
    · rintro ⟨x, y, h, t, ht⟩
      have := (h.inj hP).2
      exact ⟨t * a.z.v ^ 2, by rw [← this, ht]; ring⟩

theorem rescale_runs {a : Jacobian} {Z : Fp} {P : Pt} {s : FElem} {k : Fp} (h : JacZ a Z P) (hs : FeN s k) (hk : k ≠ 0) :
    Runs (rescale a s) (fun r => JacZ r Z P) := by
  unfold rescale
  refine runs_dassertE (Runs.bind (isZero_runs hs) fun z hz => runs_pure (by rw [hz]; simp [hk])) ?_
  have hs1 := hs.fe
  refine Runs.bind (fe_sqr hs1 (by norm_num)) fun zz hzz => ?_
  refine Runs.bind (fe_mul h.x hzz.1 (by norm_num) (by norm_num)) fun x hx => ?_
  refine Runs.bind (fe_mul h.y hzz.1 (by norm_num) (by norm_num)) fun y hy => ?_
  refine Runs.bind (fe_mul hy.1 hs1 (by norm_num) (by norm_num)) fun y hy => ?_
  refine Runs.bind (fe_mul h.z hs1 (by norm_num) (by norm_num)) fun z hz => runs_pure ?_
  refine jacZ_of hx.1 hy.1 hz.1 (by norm_num) (by norm_num) (by norm_num) ((rep_scale h.rep hk).congr ?_ ?_ ?_ rfl) <;> ring

theorem setInfinity_jac (a : Jacobian) (Z : Fp) : JacZ (setInfinity a) Z 0 := by
  have : ∀ f, Fe (FElem.clear f) 1 0 := fun f => zero_fe
  exact ⟨(this a.x).ok (by norm_num), (this a.y).ok (by norm_num), (this a.z).ok (by norm_num), rep_inf ..⟩

end Jacobian

end Verif
