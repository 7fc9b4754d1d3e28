import Verif.Model.Group
import Verif.Proofs.GroupAlg
import Verif.Proofs.FieldBytes
import Verif.Proofs.FieldInv

/-! Correctness of the group operations. -/

namespace Verif

open Spec FElem

/-- The residue a field element stands for. -/
def FElem.v (f : FElem) : Fp := (f.val : Fp)

theorem FElem.Fe.v {f : FElem} {m : ℕ} {x : Fp} (h : Fe f m x) : f.v = x := h.2.2

theorem FElem.Fe.self {f : FElem} {m : ℕ} {x : Fp} (h : Fe f m x) (m' : ℕ) (hm : m ≤ m') : Fe f m' f.v :=
  ⟨h.1, h.2.1.trans hm, rfl⟩

theorem FElem.Fe.cast {f : FElem} {m m' : ℕ} {x y : Fp} (h : Fe f m x) (hm : m ≤ m') (hx : x = y) : Fe f m' y := by
  subst hx; exact h.mono hm

/-- `f` is well formed with magnitude at most `m`. -/
def FElem.Ok (f : FElem) (m : ℕ) : Prop := Fe f m f.v

theorem FElem.Fe.ok {f : FElem} {m : ℕ} {x : Fp} (h : Fe f m x) {m' : ℕ} (hm : m ≤ m') : f.Ok m' := h.self m' hm

/-- A Jacobian point stands for `P` when its `z` is multiplied by `Z`.  The coordinates are well
formed even at infinity. -/
structure JacZ (J : Jacobian) (Z : Fp) (P : Pt) : Prop where
  x : J.x.Ok 8
  y : J.y.Ok 8
  z : J.z.Ok 8
  rep : Rep J.infinity J.x.v J.y.v (J.z.v * Z) P

/-- An affine point stands for `P` on the isomorphic curve scaled by `Z`. -/
structure AffZ (A : Affine) (Z : Fp) (P : Pt) : Prop where
  x : A.x.Ok 8
  y : A.y.Ok 8
  rep : Rep A.infinity A.x.v A.y.v Z P

abbrev Jac (J : Jacobian) (P : Pt) : Prop := JacZ J 1 P
abbrev Aff (A : Affine) (P : Pt) : Prop := AffZ A 1 P

theorem jacZ_of {J : Jacobian} {Z X Y W : Fp} {P : Pt} {a b c : ℕ} (hx : Fe J.x a X) (hy : Fe J.y b Y) (hz : Fe J.z c W)
    (ha : a ≤ 8) (hb : b ≤ 8) (hc : c ≤ 8) (h : Rep J.infinity X Y (W * Z) P) : JacZ J Z P :=
  ⟨hx.self _ ha, hy.self _ hb, hz.self _ hc, by rw [hx.v, hy.v, hz.v]; exact h⟩

theorem affZ_of {A : Affine} {Z X Y : Fp} {P : Pt} {a b : ℕ} (hx : Fe A.x a X) (hy : Fe A.y b Y)
    (ha : a ≤ 8) (hb : b ≤ 8) (h : Rep A.infinity X Y Z P) : AffZ A Z P :=
  ⟨hx.self _ ha, hy.self _ hb, by rw [hx.v, hy.v]; exact h⟩

theorem FElem.zero_fe : Fe FElem.zero 1 0 := zero_feN.fe

theorem fe_one : Runs (setInt 1) (fun r => Fe r 1 1) := by
  refine (setInt_runs (a := 1) (by decide)).mono fun r hr => ?_
  have := hr.1.fe; rwa [show (1 : UInt32).toNat = 1 from rfl, Nat.cast_one] at this

theorem fe_zeroInt : Runs (setInt 0) (fun r => Fe r 1 0) := by
  refine (setInt_runs (a := 0) (by decide)).mono fun r hr => ?_
  have := hr.1.fe; rwa [show (0 : UInt32).toNat = 0 from rfl, Nat.cast_zero] at this

theorem fe_seven : Runs (setInt curveB) (fun r => Fe r 1 7) := by
  refine (setInt_runs (a := curveB) (by decide)).mono fun r hr => ?_
  have := hr.1.fe
  rw [show curveB.toNat = 7 from rfl] at this
  exact_mod_cast this

namespace Jacobian

/-- What happens to the `rzr` argument. -/
def RzrOk (a r : Jacobian) (rzr out : Option FElem) : Prop :=
  (rzr = none ∧ out = none) ∨ (∃ f, out = some f ∧ rzr.isSome = true ∧ f.Ok 3 ∧
    (r.infinity = true ∨ r.z.v = a.z.v * f.v))

theorem rzrSetInt_runs (rzr : Option FElem) {v : UInt32} (hv : v.toNat ≤ 67108863) :
    Runs (rzrSetInt rzr v) (fun out => (rzr = none ∧ out = none) ∨ (∃ f, out = some f ∧ rzr.isSome = true ∧ Fe f 1 (v.toNat : Fp))) := by
  unfold rzrSetInt
  cases rzr with
  | none => exact runs_pure (Or.inl ⟨rfl, rfl⟩)
  | some _ =>
    refine Runs.bind (setInt_runs hv) fun r hr => runs_pure (Or.inr ⟨r, rfl, rfl, hr.1.fe⟩)

theorem doubleCore_runs {a : Jacobian} {Z : Fp} {P : Pt} (h : JacZ a Z P) (hi : a.infinity = false) :
    Runs (doubleCore a) (fun r => (Fe r.x 6 r.x.v ∧ Fe r.y 4 r.y.v ∧ Fe r.z 2 r.z.v) ∧ r.infinity = false ∧
      r.z.v = a.z.v * (2 * a.y.v) ∧ JacZ r Z (P + P)) := by
  obtain ⟨hx, hy, hz, hr⟩ := h
  rw [hi] at hr
  have hd := rep_double hr
  unfold doubleCore
  refine Runs.bind (fe_mul hz hy (by norm_num) (by norm_num)) fun z0 hz0 => ?_
  refine Runs.bind (fe_mulInt (a := 2) 2 hz0.1 rfl (by norm_num)) fun z hz' => ?_
  refine Runs.bind (fe_sqr hx (by norm_num)) fun t1 h1 => ?_
  refine Runs.bind (fe_mulInt (a := 3) 3 h1.1 rfl (by norm_num)) fun t1 h1 => ?_
  refine Runs.bind (fe_sqr h1.1 (by norm_num)) fun t2 h2 => ?_
  refine Runs.bind (fe_sqr hy (by norm_num)) fun t3 h3 => ?_
  refine Runs.bind (fe_mulInt (a := 2) 2 h3.1 rfl (by norm_num)) fun t3 h3 => ?_
  refine Runs.bind (fe_sqr h3.1 (by norm_num)) fun t4 h4 => ?_
  refine Runs.bind (fe_mulInt (a := 2) 2 h4.1 rfl (by norm_num)) fun t4 h4 => ?_
  refine Runs.bind (fe_mul h3.1 hx (by norm_num) (by norm_num)) fun t3 h3 => ?_
  refine Runs.bind (fe_mulInt (a := 4) 4 h3.1 rfl (by norm_num)) fun x h5 => ?_
  refine Runs.bind (fe_neg (m := 4) h5.1 rfl (by norm_num)) fun x h5 => ?_
  refine Runs.bind (fe_add h5.1 h2.1 (by norm_num)) fun x h5 => ?_
  refine Runs.bind (fe_neg (m := 1) h2.1 rfl (by norm_num)) fun t2 h2 => ?_
  refine Runs.bind (fe_mulInt (a := 6) 6 h3.1 rfl (by norm_num)) fun t3 h3 => ?_
  refine Runs.bind (fe_add h3.1 h2.1 (by norm_num)) fun t3 h3 => ?_
  refine Runs.bind (fe_mul h1.1 h3.1 (by norm_num) (by norm_num)) fun y h6 => ?_
  refine Runs.bind (fe_neg (m := 2) h4.1 rfl (by norm_num)) fun t2 h2 => ?_
  refine Runs.bind (fe_add h6.1 h2.1 (by norm_num)) fun y h6 => runs_pure ?_
  refine ⟨⟨h5.1.self _ (by norm_num), h6.1.self _ (by norm_num), hz'.1.self _ (by norm_num)⟩, rfl, ?_,
    jacZ_of h5.1 h6.1 hz'.1 (by norm_num) (by norm_num) (by norm_num) ?_⟩
  · rw [hz'.1.v]; push_cast; ring
  · refine hd.congr ?_ ?_ ?_ rfl <;> push_cast <;> ring

theorem doubleVarInPlace_runs {self a : Jacobian} {Z : Fp} {P : Pt} (rzr : Option FElem) (h : JacZ a Z P)
    (hs : self.x.Ok 8 ∧ self.y.Ok 8 ∧ self.z.Ok 8) :
    Runs (doubleVarInPlace self a rzr) (fun r => JacZ r.1 Z (P + P) ∧ RzrOk a r.1 rzr r.2) := by
  unfold doubleVarInPlace
  cases hi : a.infinity with
  | true =>
    rw [if_pos rfl]
    refine Runs.bind (rzrSetInt_runs rzr (v := 1) (by decide)) fun out ho => runs_pure ?_
    have hP : P = 0 := by have := h.rep; rw [hi] at this; exact this.inf
    refine ⟨⟨hs.1, hs.2.1, hs.2.2, ?_⟩, ?_⟩
    · rw [hP, add_zero]; exact rep_inf ..
    · rcases ho with ho | ⟨f, rfl, h1, h2⟩
      · exact Or.inl ho
      · exact Or.inr ⟨f, rfl, h1, h2.ok (by norm_num), Or.inl rfl⟩
  | false =>
    rw [if_neg (by simp)]
    have hz : Runs (rzrDouble rzr a.y) (fun out => (rzr = none ∧ out = none) ∨ (∃ f, out = some f ∧ rzr.isSome = true ∧ Fe f 2 (2 * a.y.v))) := by
      unfold rzrDouble
      cases rzr with
      | none => exact runs_pure (Or.inl ⟨rfl, rfl⟩)
      | some _ =>
        refine Runs.bind (fe_normalizeWeak h.y (by norm_num)) fun r hr => ?_
        refine Runs.bind (fe_mulInt (a := 2) 2 hr.1 rfl (by norm_num)) fun r hr => runs_pure (Or.inr ⟨r, rfl, rfl, ?_⟩)
        exact hr.1.cast (by norm_num) (by push_cast; ring)
    refine Runs.bind hz fun out ho => ?_
    refine Runs.bind (doubleCore_runs h hi) fun r hr => runs_pure ⟨hr.2.2.2, ?_⟩
    rcases ho with ho | ⟨f, rfl, h1, h2⟩
    · exact Or.inl ho
    · exact Or.inr ⟨f, rfl, h1, h2.ok (by norm_num), Or.inr (by rw [hr.2.2.1, h2.v])⟩

theorem default_ok : default.x.Ok 8 ∧ default.y.Ok 8 ∧ default.z.Ok 8 :=
  ⟨zero_fe.ok (by norm_num), zero_fe.ok (by norm_num), zero_fe.ok (by norm_num)⟩

theorem doubleVar_runs {a : Jacobian} {Z : Fp} {P : Pt} (rzr : Option FElem) (h : JacZ a Z P) :
    Runs (doubleVar a rzr) (fun r => JacZ r.1 Z (P + P) ∧ RzrOk a r.1 rzr r.2) :=
  doubleVarInPlace_runs rzr h default_ok

/-- The doubling of a finite point keeps explicit coordinates. -/
theorem doubleVar_fin {a : Jacobian} {Z : Fp} {P : Pt} (h : JacZ a Z P) (hi : a.infinity = false) :
    Runs (doubleVar a none) (fun r => r.2 = none ∧ r.1.infinity = false ∧ r.1.z.v = a.z.v * (2 * a.y.v) ∧ JacZ r.1 Z (P + P)) := by
  unfold doubleVar doubleVarInPlace
  rw [hi, if_neg (by simp)]
  refine Runs.bind (x := rzrDouble none a.y) (runs_pure (P := fun r => r = none) rfl) fun out ho => ?_
  refine Runs.bind (doubleCore_runs h hi) fun r hr => runs_pure ⟨ho, hr.2⟩

theorem addEqualX_runs {self a : Jacobian} {i : FElem} {Z U1 S1 U2 S2 s : Fp} {P Q : Pt} (rzr : Option FElem) (h : JacZ a Z P)
    (hs : self.x.Ok 8 ∧ self.y.Ok 8 ∧ self.z.Ok 8) (h1 : Rep false U1 S1 s P) (h2 : Rep false U2 S2 s Q)
    (hh : U2 - U1 = 0) (hi : Fe i 3 (S2 - S1)) :
    Runs (addEqualX self a i rzr) (fun r => JacZ r.1 Z (P + Q) ∧ RzrOk a r.1 rzr r.2) := by
  unfold addEqualX
  refine Runs.bind (fe_normalizesToZeroVar hi (by norm_num)) fun zi hzi => ?_
  by_cases h0 : S2 - S1 = 0
  · rw [hzi, decide_eq_true h0, if_pos rfl]
    rw [← rep_same h1 h2 hh h0]
    exact doubleVarInPlace_runs rzr h hs
  · rw [hzi, decide_eq_false h0, if_neg (by simp)]
    refine Runs.bind (rzrSetInt_runs rzr (v := 0) (by decide)) fun out ho => runs_pure ?_
    rw [rep_opp h1 h2 hh h0]
    refine ⟨⟨hs.1, hs.2.1, hs.2.2, rep_inf ..⟩, ?_⟩
    rcases ho with ho | ⟨f, rfl, h1, h2⟩
    · exact Or.inl ho
    · exact Or.inr ⟨f, rfl, h1, h2.ok (by norm_num), Or.inl rfl⟩

theorem addTail_runs {u1 s1 h2 h3 i i2 z : FElem} {Z U1 S1 U2 S2 s W : Fp} {P Q : Pt} (h1' : Rep false U1 S1 s P) (h2' : Rep false U2 S2 s Q)
    (hh : U2 - U1 ≠ 0) (hu1 : Fe u1 1 U1) (hs1 : Fe s1 1 S1) (hh2 : Fe h2 1 ((U2 - U1) ^ 2)) (hh3 : Fe h3 1 ((U2 - U1) ^ 3))
    (hi : Fe i 3 (S2 - S1)) (hi2 : Fe i2 1 ((S2 - S1) ^ 2)) (hz : Fe z 1 W) (hW : W * Z = s * (U2 - U1)) :
    Runs (addTail u1 s1 h2 h3 i i2 z) (fun r => JacZ r Z (P + Q) ∧ r.z = z) := by
  have hd := rep_add h1' h2' hh
  unfold addTail
  refine Runs.bind (fe_mul hu1 hh2 (by norm_num) (by norm_num)) fun t ht => ?_
  refine Runs.bind (fe_mulInt (a := 2) 2 ht.1 rfl (by norm_num)) fun x hx => ?_
  refine Runs.bind (fe_add hx.1 hh3 (by norm_num)) fun x hx => ?_
  refine Runs.bind (fe_neg (m := 3) hx.1 rfl (by norm_num)) fun x hx => ?_
  refine Runs.bind (fe_add hx.1 hi2 (by norm_num)) fun x hx => ?_
  refine Runs.bind (fe_neg (m := 5) hx.1 rfl (by norm_num)) fun y hy => ?_
  refine Runs.bind (fe_add hy.1 ht.1 (by norm_num)) fun y hy => ?_
  refine Runs.bind (fe_mul hy.1 hi (by norm_num) (by norm_num)) fun y hy => ?_
  refine Runs.bind (fe_mul hh3 hs1 (by norm_num) (by norm_num)) fun h3 hh3' => ?_
  refine Runs.bind (fe_neg (m := 1) hh3'.1 rfl (by norm_num)) fun h3 hh3' => ?_
  refine Runs.bind (fe_add hy.1 hh3'.1 (by norm_num)) fun y hy => runs_pure ⟨?_, rfl⟩
  refine jacZ_of hx.1 hy.1 hz (by norm_num) (by norm_num) (by norm_num) (hd.congr ?_ ?_ hW.symm rfl) <;> push_cast <;> ring

theorem rzrSet_ok {a r : Jacobian} {h : FElem} (rzr : Option FElem) (hh : h.Ok 3) (hr : r.z.v = a.z.v * h.v) :
    RzrOk a r rzr (rzrSet rzr h) := by
  cases rzr with
  | none => exact Or.inl ⟨rfl, rfl⟩
  | some f => exact Or.inr ⟨h, rfl, rfl, hh, Or.inr hr⟩

theorem addVarCore_runs {self a b : Jacobian} {Z : Fp} {P Q : Pt} (rzr : Option FElem) (ha : JacZ a Z P) (hb : JacZ b Z Q)
    (hs : self.x.Ok 8 ∧ self.y.Ok 8 ∧ self.z.Ok 8) (hai : a.infinity = false) (hbi : b.infinity = false) :
    Runs (addVarCore self a b rzr) (fun r => JacZ r.1 Z (P + Q) ∧ RzrOk a r.1 rzr r.2) := by
  have ra := ha.rep; have rb := hb.rep
  rw [hai] at ra; rw [hbi] at rb
  have wa : a.z.v ≠ 0 := fun e => ra.fin.1 (by rw [e, zero_mul])
  have wb : b.z.v ≠ 0 := fun e => rb.fin.1 (by rw [e, zero_mul])
  have r1 := rep_scale ra wb
  have r2 : Rep false (b.x.v * a.z.v ^ 2) (b.y.v * a.z.v ^ 3) (a.z.v * Z * b.z.v) Q :=
    (rep_scale rb wa).congr rfl rfl (by ring) rfl
  unfold addVarCore
  refine Runs.bind (fe_sqr hb.z (by norm_num)) fun z22 h22 => ?_
  refine Runs.bind (fe_sqr ha.z (by norm_num)) fun z12 h12 => ?_
  refine Runs.bind (fe_mul ha.x h22.1 (by norm_num) (by norm_num)) fun u1 hu1 => ?_
  refine Runs.bind (fe_mul hb.x h12.1 (by norm_num) (by norm_num)) fun u2 hu2 => ?_
  refine Runs.bind (fe_mul ha.y h22.1 (by norm_num) (by norm_num)) fun s1 hs1 => ?_
  refine Runs.bind (fe_mul hs1.1 hb.z (by norm_num) (by norm_num)) fun s1 hs1 => ?_
  refine Runs.bind (fe_mul hb.y h12.1 (by norm_num) (by norm_num)) fun s2 hs2 => ?_
  refine Runs.bind (fe_mul hs2.1 ha.z (by norm_num) (by norm_num)) fun s2 hs2 => ?_
  refine Runs.bind (fe_neg (m := 1) hu1.1 rfl (by norm_num)) fun h hh => ?_
  refine Runs.bind (fe_add hh.1 hu2.1 (by norm_num)) fun h hh => ?_
  refine Runs.bind (fe_neg (m := 1) hs1.1 rfl (by norm_num)) fun i hi => ?_
  refine Runs.bind (fe_add hi.1 hs2.1 (by norm_num)) fun i hi => ?_
  have hh' : Fe h 3 (b.x.v * a.z.v ^ 2 - a.x.v * b.z.v ^ 2) := hh.1.cast (by norm_num) (by ring)
  have hi' : Fe i 3 (b.y.v * a.z.v ^ 3 - a.y.v * b.z.v ^ 3) := hi.1.cast (by norm_num) (by ring)
  refine Runs.bind (fe_normalizesToZeroVar hh' (by norm_num)) fun zh hzh => ?_
  by_cases h0 : b.x.v * a.z.v ^ 2 - a.x.v * b.z.v ^ 2 = 0
  · rw [hzh, decide_eq_true h0, if_pos rfl]
    exact addEqualX_runs rzr ha hs r1 r2 h0 hi'
  · rw [hzh, decide_eq_false h0, if_neg (by simp)]
    refine Runs.bind (fe_sqr hi' (by norm_num)) fun i2 hi2 => ?_
    refine Runs.bind (fe_sqr hh' (by norm_num)) fun h2 hh2 => ?_
    refine Runs.bind (fe_mul hh' hh2.1 (by norm_num) (by norm_num)) fun h3 hh3 => ?_
    refine Runs.bind (fe_mul hh' hb.z (by norm_num) (by norm_num)) fun h hhb => ?_
    refine Runs.bind (fe_mul ha.z hhb.1 (by norm_num) (by norm_num)) fun z hz => ?_
    refine Runs.bind (addTail_runs (Z := Z) r1 r2 h0 (hu1.1.cast le_rfl (by ring)) (hs1.1.cast le_rfl (by ring)) (hh2.1.cast le_rfl (by ring))
      (hh3.1.cast le_rfl (by ring)) hi' (hi2.1.cast le_rfl (by ring)) hz.1 (by ring)) fun r hr => runs_pure ⟨hr.1, ?_⟩
    exact rzrSet_ok rzr (hhb.1.ok (by norm_num)) (by rw [hr.2, hz.1.v, hhb.1.v])

theorem addVar_runs {a b : Jacobian} {Z : Fp} {P Q : Pt} (rzr : Option FElem) (ha : JacZ a Z P) (hb : JacZ b Z Q)
    (hr : a.infinity = true → rzr = none) :
    Runs (addVar a b rzr) (fun r => JacZ r.1 Z (P + Q) ∧ RzrOk a r.1 rzr r.2) := by
  unfold addVar addVarInPlace
  cases hai : a.infinity with
  | true =>
    have hP : P = 0 := by have := ha.rep; rw [hai] at this; exact this.inf
    rw [if_pos rfl, hr hai]
    refine runs_dassert rfl (runs_pure ⟨?_, Or.inl ⟨rfl, rfl⟩⟩)
    rw [hP, zero_add]; exact hb
  | false =>
    rw [if_neg (by simp)]
    cases hbi : b.infinity with
    | true =>
      have hQ : Q = 0 := by have := hb.rep; rw [hbi] at this; exact this.inf
      rw [if_pos rfl]
      refine Runs.bind (rzrSetInt_runs rzr (v := 1) (by decide)) fun out ho => runs_pure ⟨?_, ?_⟩
      · rw [hQ, add_zero]; exact ha
      · rcases ho with ho | ⟨f, rfl, h1, h2⟩
        · exact Or.inl ho
        · refine Or.inr ⟨f, rfl, h1, h2.ok (by norm_num), Or.inr ?_⟩
          rw [h2.v, show (1 : UInt32).toNat = 1 from rfl, Nat.cast_one, mul_one]
    | false =>
      rw [if_neg (by simp)]
      exact addVarCore_runs rzr ha hb default_ok hai hbi

theorem setGe_runs {b : Affine} {Z : Fp} {Q : Pt} (hb : AffZ b Z Q) : Runs (setGe b) (fun r => JacZ r Z Q ∧ r.x = b.x ∧ r.y = b.y ∧ r.z.v = 1 ∧ r.infinity = b.infinity) := by
  unfold setGe
  refine Runs.bind fe_one fun z hz => runs_pure ⟨⟨hb.x, hb.y, hz.ok (by norm_num), ?_⟩, rfl, rfl, hz.v, rfl⟩
  exact hb.rep.congr rfl rfl (by rw [hz.v, one_mul]) rfl

theorem addGeVarCore_runs {self a : Jacobian} {b : Affine} {Z : Fp} {P Q : Pt} (rzr : Option FElem) (ha : JacZ a Z P) (hb : AffZ b Z Q)
    (hs : self.x.Ok 8 ∧ self.y.Ok 8 ∧ self.z.Ok 8) (hai : a.infinity = false) (hbi : b.infinity = false) :
    Runs (addGeVarCore self a b rzr) (fun r => JacZ r.1 Z (P + Q) ∧ RzrOk a r.1 rzr r.2) := by
  have ra := ha.rep; have rb := hb.rep
  rw [hai] at ra; rw [hbi] at rb
  have wa : a.z.v ≠ 0 := fun e => ra.fin.1 (by rw [e, zero_mul])
  have r2 : Rep false (b.x.v * a.z.v ^ 2) (b.y.v * a.z.v ^ 3) (a.z.v * Z) Q :=
    (rep_scale rb wa).congr rfl rfl (by ring) rfl
  unfold addGeVarCore
  refine Runs.bind (fe_sqr ha.z (by norm_num)) fun z12 h12 => ?_
  refine Runs.bind (fe_normalizeWeak ha.x (by norm_num)) fun u1 hu1 => ?_
  refine Runs.bind (fe_mul hb.x h12.1 (by norm_num) (by norm_num)) fun u2 hu2 => ?_
  refine Runs.bind (fe_normalizeWeak ha.y (by norm_num)) fun s1 hs1 => ?_
  refine Runs.bind (fe_mul hb.y h12.1 (by norm_num) (by norm_num)) fun s2 hs2 => ?_
  refine Runs.bind (fe_mul hs2.1 ha.z (by norm_num) (by norm_num)) fun s2 hs2 => ?_
  refine Runs.bind (fe_neg (m := 1) hu1.1 rfl (by norm_num)) fun h hh => ?_
  refine Runs.bind (fe_add hh.1 hu2.1 (by norm_num)) fun h hh => ?_
  refine Runs.bind (fe_neg (m := 1) hs1.1 rfl (by norm_num)) fun i hi => ?_
  refine Runs.bind (fe_add hi.1 hs2.1 (by norm_num)) fun i hi => ?_
  have hh' : Fe h 3 (b.x.v * a.z.v ^ 2 - a.x.v) := hh.1.cast (by norm_num) (by ring)
  have hi' : Fe i 3 (b.y.v * a.z.v ^ 3 - a.y.v) := hi.1.cast (by norm_num) (by ring)
  refine Runs.bind (fe_normalizesToZeroVar hh' (by norm_num)) fun zh hzh => ?_
  by_cases h0 : b.x.v * a.z.v ^ 2 - a.x.v = 0
  · rw [hzh, decide_eq_true h0, if_pos rfl]
    exact addEqualX_runs rzr ha hs ra r2 h0 hi'
  · rw [hzh, decide_eq_false h0, if_neg (by simp)]
    refine Runs.bind (fe_sqr hi' (by norm_num)) fun i2 hi2 => ?_
    refine Runs.bind (fe_sqr hh' (by norm_num)) fun h2 hh2 => ?_
    refine Runs.bind (fe_mul hh' hh2.1 (by norm_num) (by norm_num)) fun h3 hh3 => ?_
    refine Runs.bind (fe_mul ha.z hh' (by norm_num) (by norm_num)) fun z hz => ?_
    refine Runs.bind (addTail_runs (Z := Z) ra r2 h0 hu1.1 hs1.1 (hh2.1.cast le_rfl (by ring))
      (hh3.1.cast le_rfl (by ring)) hi' (hi2.1.cast le_rfl (by ring)) hz.1 (by ring)) fun r hr => runs_pure ⟨hr.1, ?_⟩
    exact rzrSet_ok rzr (hh'.ok (by norm_num)) (by rw [hr.2, hz.1.v, hh'.v])

theorem addGeVar_runs {a : Jacobian} {b : Affine} {Z : Fp} {P Q : Pt} (rzr : Option FElem) (ha : JacZ a Z P) (hb : AffZ b Z Q)
    (hr : a.infinity = true → rzr = none) :
    Runs (addGeVar a b rzr) (fun r => JacZ r.1 Z (P + Q) ∧ RzrOk a r.1 rzr r.2) := by
  unfold addGeVar addGeVarInPlace
  cases hai : a.infinity with
  | true =>
    have hP : P = 0 := by have := ha.rep; rw [hai] at this; exact this.inf
    rw [if_pos rfl, hr hai]
    refine runs_dassert rfl (Runs.bind (setGe_runs hb) fun r hr => runs_pure ⟨?_, Or.inl ⟨rfl, rfl⟩⟩)
    rw [hP, zero_add]; exact hr.1
  | false =>
    rw [if_neg (by simp)]
    cases hbi : b.infinity with
    | true =>
      have hQ : Q = 0 := by have := hb.rep; rw [hbi] at this; exact this.inf
      rw [if_pos rfl]
      refine Runs.bind (rzrSetInt_runs rzr (v := 1) (by decide)) fun out ho => runs_pure ⟨?_, ?_⟩
      · rw [hQ, add_zero]; exact ha
      · rcases ho with ho | ⟨f, rfl, h1, h2⟩
        · exact Or.inl ho
        · refine Or.inr ⟨f, rfl, h1, h2.ok (by norm_num), Or.inr ?_⟩
          rw [h2.v, show (1 : UInt32).toNat = 1 from rfl, Nat.cast_one, mul_one]
    | false =>
      rw [if_neg (by simp)]
      exact addGeVarCore_runs rzr ha hb default_ok hai hbi

theorem addZinvVarCore_runs {self a : Jacobian} {b : Affine} {bzinv : FElem} {P Q : Pt} (ha : JacZ a bzinv.v P) (hb : Aff b Q)
    (hzi : bzinv.Ok 8)
    (hs : self.x.Ok 8 ∧ self.y.Ok 8 ∧ self.z.Ok 8) (hai : a.infinity = false) (hbi : b.infinity = false) :
    Runs (addZinvVarCore self a b bzinv) (fun r => JacZ r bzinv.v (P + Q)) := by
  have ra := ha.rep; have rb := hb.rep
  rw [hai] at ra; rw [hbi] at rb
  have r2 : Rep false (b.x.v * (a.z.v * bzinv.v) ^ 2) (b.y.v * (a.z.v * bzinv.v) ^ 3) (a.z.v * bzinv.v) Q :=
    (rep_scale rb ra.fin.1).congr rfl rfl (by ring) rfl
  unfold addZinvVarCore
  refine Runs.bind (fe_mul ha.z hzi (by norm_num) (by norm_num)) fun az haz => ?_
  refine Runs.bind (fe_sqr haz.1 (by norm_num)) fun z12 h12 => ?_
  refine Runs.bind (fe_normalizeWeak ha.x (by norm_num)) fun u1 hu1 => ?_
  refine Runs.bind (fe_mul hb.x h12.1 (by norm_num) (by norm_num)) fun u2 hu2 => ?_
  refine Runs.bind (fe_normalizeWeak ha.y (by norm_num)) fun s1 hs1 => ?_
  refine Runs.bind (fe_mul hb.y h12.1 (by norm_num) (by norm_num)) fun s2 hs2 => ?_
  refine Runs.bind (fe_mul hs2.1 haz.1 (by norm_num) (by norm_num)) fun s2 hs2 => ?_
  refine Runs.bind (fe_neg (m := 1) hu1.1 rfl (by norm_num)) fun h hh => ?_
  refine Runs.bind (fe_add hh.1 hu2.1 (by norm_num)) fun h hh => ?_
  refine Runs.bind (fe_neg (m := 1) hs1.1 rfl (by norm_num)) fun i hi => ?_
  refine Runs.bind (fe_add hi.1 hs2.1 (by norm_num)) fun i hi => ?_
  have hh' : Fe h 3 (b.x.v * (a.z.v * bzinv.v) ^ 2 - a.x.v) := hh.1.cast (by norm_num) (by ring)
  have hi' : Fe i 3 (b.y.v * (a.z.v * bzinv.v) ^ 3 - a.y.v) := hi.1.cast (by norm_num) (by ring)
  refine Runs.bind (fe_normalizesToZeroVar hh' (by norm_num)) fun zh hzh => ?_
  by_cases h0 : b.x.v * (a.z.v * bzinv.v) ^ 2 - a.x.v = 0
  · rw [hzh, decide_eq_true h0, if_pos rfl]
    refine Runs.bind (addEqualX_runs none ha hs ra r2 h0 hi') fun r hr => runs_pure hr.1
  · rw [hzh, decide_eq_false h0, if_neg (by simp)]
    refine Runs.bind (fe_sqr hi' (by norm_num)) fun i2 hi2 => ?_
    refine Runs.bind (fe_sqr hh' (by norm_num)) fun h2 hh2 => ?_
    refine Runs.bind (fe_mul hh' hh2.1 (by norm_num) (by norm_num)) fun h3 hh3 => ?_
    refine Runs.bind (fe_mul ha.z hh' (by norm_num) (by norm_num)) fun z hz => ?_
    exact (addTail_runs (Z := bzinv.v) ra r2 h0 hu1.1 hs1.1 (hh2.1.cast le_rfl (by ring))
      (hh3.1.cast le_rfl (by ring)) hi' (hi2.1.cast le_rfl (by ring)) hz.1 (by ring)).mono fun r hr => hr.1

theorem addZinvVar_runs {a : Jacobian} {b : Affine} {bzinv : FElem} {P Q : Pt} (ha : JacZ a bzinv.v P) (hb : Aff b Q)
    (hzi : bzinv.Ok 8) (hz : bzinv.v ≠ 0) :
    Runs (addZinvVar a b bzinv) (fun r => JacZ r bzinv.v (P + Q)) := by
  unfold addZinvVar addZinvVarInPlace
  cases hbi : b.infinity with
  | true =>
    have hQ : Q = 0 := by have := hb.rep; rw [hbi] at this; exact this.inf
    rw [if_pos rfl, hQ, add_zero]; exact runs_pure ha
  | false =>
    rw [if_neg (by simp)]
    cases hai : a.infinity with
    | true =>
      have hP : P = 0 := by have := ha.rep; rw [hai] at this; exact this.inf
      rw [if_pos rfl, hP, zero_add]
      refine Runs.bind (fe_sqr hzi (by norm_num)) fun z2 h2 => ?_
      refine Runs.bind (fe_mul h2.1 hzi (by norm_num) (by norm_num)) fun z3 h3 => ?_
      refine Runs.bind (fe_mul hb.x h2.1 (by norm_num) (by norm_num)) fun x hx => ?_
      refine Runs.bind (fe_mul hb.y h3.1 (by norm_num) (by norm_num)) fun y hy => ?_
      refine Runs.bind fe_one fun z hz1 => runs_pure ?_
      refine jacZ_of hx.1 hy.1 hz1 (by norm_num) (by norm_num) (by norm_num) ?_
      have rb := hb.rep
      rw [hbi] at rb
      refine (rep_scale rb hz).congr ?_ ?_ ?_ rfl <;> ring
    | false =>
      rw [if_neg (by simp)]
      exact addZinvVarCore_runs ha hb hzi default_ok hai hbi

/-! `add_ge`. -/

end Jacobian

/-- Limbs that `normalize_weak` accepts, whatever the recorded magnitude says.  The constant
`GEN_INITIAL` of `ecmult.rs` has such coordinates. -/
def FElem.FeL (f : FElem) (x : Fp) : Prop :=
  f.n.LB 4160749506 260046786 ∧ (f.normalized = true → WF f) ∧ f.v = x

theorem FElem.Fe.loose {f : FElem} {m : ℕ} {x : Fp} (h : Fe f m x) (hm : m ≤ 31) : FeL f x :=
  ⟨h.1.lb31 (h.2.1.trans hm), fun _ => h.1, h.2.2⟩


theorem FElem.fe_normalizeWeak_loose {f : FElem} {x : Fp} (h : FeL f x) :
    Runs (normalizeWeak f) (fun r => Fe r 1 x ∧ r.magnitude = 1) := by
  obtain ⟨hl, hn', hv⟩ := h
  unfold normalizeWeak
  refine Runs.bind (pass_runs hl) fun t ⟨ht, z, hz⟩ => ?_
  refine runs_dassert (top_zero ht) ?_
  have hw : WF { f with n := t, magnitude := 1 } := by
    refine ⟨ht.mono (by simp) (by simp), by simp, fun hn => ?_⟩
    obtain ⟨_, hlb, hv⟩ := (hn' hn).norm hn
    have : f.val = f.n.val := rfl
    have hlt : t.val < p := by omega
    refine ⟨by simp, ?_, hlt⟩
    obtain ⟨g0, g1, g2, g3, g4, g5, g6, g7, g8, g9⟩ := ht
    refine ⟨g0, g1, g2, g3, g4, g5, g6, g7, g8, ?_⟩
    have e : (1 : UInt32).toNat = 1 := rfl
    simp only [Limbs10.val, p] at hlt
    dsimp only; rw [e]; omega
  refine runs_dassertE (verify_runs hw) (runs_pure ⟨⟨hw, le_refl 1, ?_⟩, rfl⟩)
  rw [← hv]
  show ((t.val : ℕ) : Fp) = ((f.n.val : ℕ) : Fp)
  rw [← cast_mod, mod_of_add hz, cast_mod]

/-- A constant written with normalised limbs. -/
theorem FElem.feN_const {t : Limbs10} {v : ℕ}
    (h : (t.n0.toNat ≤ 67108863 ∧ t.n1.toNat ≤ 67108863 ∧ t.n2.toNat ≤ 67108863 ∧ t.n3.toNat ≤ 67108863 ∧
      t.n4.toNat ≤ 67108863 ∧ t.n5.toNat ≤ 67108863 ∧ t.n6.toNat ≤ 67108863 ∧ t.n7.toNat ≤ 67108863 ∧
      t.n8.toNat ≤ 67108863 ∧ t.n9.toNat ≤ 4194303) ∧ t.val = v ∧ v < p) :
    FeN { n := t, magnitude := 1, normalized := true } (v : Fp) := by
  obtain ⟨⟨h0, h1, h2, h3, h4, h5, h6, h7, h8, h9⟩, hv, hp⟩ := h
  refine ⟨wf_normal ⟨h0, h1, h2, h3, h4, h5, h6, h7, h8, h9⟩ (hv ▸ hp), rfl, ?_⟩
  rw [ZMod.val_natCast_of_lt hp]; exact hv

theorem fe1_fe : Fe Jacobian.fe1 1 1 := by
  have : FeN Jacobian.fe1 ((1 : ℕ) : Fp) := feN_const (by decide +kernel)
  rw [Nat.cast_one] at this; exact this.fe

theorem FElem.fe_cmov {f g : FElem} {m : ℕ} {x y : Fp} (b : Bool) (hf : Fe f m x) (hg : Fe g m y) :
    Fe (f.cmov g b) m (if b then y else x) := by
  rw [cmov_eq]; cases b <;> assumption

namespace Jacobian

theorem bothZero_runs {m rr : FElem} {x y : Fp} (hm : Fe m 2 x) (hr : Fe rr 2 y) :
    Runs (bothZero m rr) (fun b => b = decide (x = 0 ∧ y = 0)) := by
  unfold bothZero
  refine Runs.bind (fe_normalizesToZero hm (by norm_num)) fun a ha => ?_
  by_cases h0 : x = 0
  · rw [ha, decide_eq_true h0, if_pos rfl]
    refine (fe_normalizesToZero hr (by norm_num)).mono fun b hb => ?_
    rw [hb]; simp [h0]
  · rw [ha, decide_eq_false h0, if_neg (by simp)]
    exact runs_pure (by simp [h0])

/-- The outcome of the complete addition in terms of the values of the coordinates. -/
theorem complete_rep {X1 Y1 W Z X2 Y2 : Fp} {P Q : Pt} (h1 : Rep false X1 Y1 (W * Z) P) (h2 : Rep false X2 Y2 Z Q)
    {U2 S2 T M RR RA MA N : Fp} {d : Prop} [Decidable d] (hU2 : U2 = X2 * W ^ 2) (hS2 : S2 = Y2 * W ^ 3) (hT : T = X1 + U2) (hM : M = Y1 + S2)
    (hRR : RR = T ^ 2 - X1 * U2) (hd : d ↔ (M = 0 ∧ RR = 0)) (hRA : RA = if d then 2 * Y1 else RR)
    (hMA : MA = if d then X1 - U2 else M) (hN : N = if d then M else MA ^ 4) :
    (W * MA = 0 → P + Q = 0) ∧ (W * MA ≠ 0 →
      Rep false (4 * (RA ^ 2 - MA ^ 2 * T)) (-4 * (RA * (2 * (RA ^ 2 - MA ^ 2 * T) - MA ^ 2 * T) + N)) (2 * (W * MA) * Z) (P + Q)) := by
  have hZ := h2.fin.1
  obtain ⟨hw, x1, y1, hP, hX1, hY1⟩ := h1.fin
  have hW : W ≠ 0 := fun e => hw (by rw [e, zero_mul])
  obtain ⟨_, x2, y2, hQ, hX2, hY2⟩ := h2.fin
  clear h1 h2; rename' hP => h1, hQ => h2
  have hU : U2 = x2 * (W * Z) ^ 2 := by rw [hU2, hX2]; ring
  have hS : S2 = y2 * (W * Z) ^ 3 := by rw [hS2, hY2]; ring
  set s := W * Z with hs
  have e1 := h1.eqn
  have e2 := h2.eqn
  have hs2 : s ^ 2 ≠ 0 := pow_ne_zero _ hw
  have hs3 : s ^ 3 ≠ 0 := pow_ne_zero _ hw
  have hs4 : s ^ 4 ≠ 0 := pow_ne_zero _ hw
  have hT' : T = (x1 + x2) * s ^ 2 := by rw [hT, hX1, hU]; ring
  have hM' : M = (y1 + y2) * s ^ 3 := by rw [hM, hY1, hS]; ring
  have hR' : RR = (x1 ^ 2 + x1 * x2 + x2 ^ 2) * s ^ 4 := by rw [hRR, hT', hX1, hU]; ring
  have cub : (y1 - y2) * (y1 + y2) = (x1 - x2) * (x1 ^ 2 + x1 * x2 + x2 ^ 2) := by linear_combination e1 - e2
  by_cases hdd : d
  · obtain ⟨hm0, hr0⟩ := hd.1 hdd
    rw [if_pos hdd] at hRA hMA hN
    have hy : y1 + y2 = 0 := (mul_eq_zero.1 (hM'.symm.trans hm0)).resolve_right hs3
    have hr : x1 ^ 2 + x1 * x2 + x2 ^ 2 = 0 := (mul_eq_zero.1 (hR'.symm.trans hr0)).resolve_right hs4
    have hx : x1 ≠ x2 := by
      rintro rfl
      have h3 : (3 : Fp) * x1 ^ 2 = 0 := by linear_combination hr
      rcases mul_eq_zero.1 h3 with h | h
      · have h7 : ((3 : ℕ) : Fp) = 0 := by exact_mod_cast h
        rw [ZMod.natCast_eq_zero_iff] at h7
        revert h7; decide +kernel
      · exact h1.x_ne (pow_eq_zero_iff (two_ne_zero)|>.1 h)
    have hMA' : MA = (x1 - x2) * s ^ 2 := by rw [hMA, hX1, hU]; ring
    have hMA0 : MA ≠ 0 := by rw [hMA']; exact mul_ne_zero (sub_ne_zero.2 hx) hs2
    refine ⟨fun h => absurd h (mul_ne_zero hW hMA0), fun _ => ?_⟩
    have key := rep_complete (M := MA) (R := RA) (N := N) h1 h2 hw hMA0 ?_ (Or.inl ⟨hx, ?_⟩)
    · refine key.congr (by rw [hT']) (by rw [hT']) (by rw [hs]; ring) rfl
    · rw [hN, hm0, hy]; ring
    · rw [hRA, hMA', hY1]
      have : y2 = -y1 := by linear_combination hy
      rw [this]; ring
  · rw [if_neg hdd] at hRA hMA hN
    by_cases hm0 : M = 0
    · have hy : y1 + y2 = 0 := (mul_eq_zero.1 (hM'.symm.trans hm0)).resolve_right hs3
      have hr0 : RR ≠ 0 := fun h => hdd (hd.2 ⟨hm0, h⟩)
      have hr : x1 ^ 2 + x1 * x2 + x2 ^ 2 ≠ 0 := by rintro h; apply hr0; rw [hR', h, zero_mul]
      have hx : x1 = x2 := by
        rw [hy, mul_zero] at cub
        exact sub_eq_zero.1 ((mul_eq_zero.1 cub.symm).resolve_right hr)
      subst hx
      have hy2 : y2 = -y1 := by linear_combination hy
      subst hy2
      refine ⟨fun _ => isPt_add_neg h1 h2, fun h => absurd (by rw [hMA, hm0, mul_zero]) h⟩
    · have hMA0 : MA ≠ 0 := by rw [hMA]; exact hm0
      refine ⟨fun h => absurd h (mul_ne_zero hW hMA0), fun _ => ?_⟩
      have key := rep_complete (M := MA) (R := RA) (N := N) h1 h2 hw hMA0 ?_ ?_
      · exact key.congr (by rw [hT']) (by rw [hT']) (by rw [hs]; ring) rfl
      · rw [hN, hMA, hM']; ring
      · by_cases hx : x1 = x2
        · subst hx
          right
          have hyy : y1 = y2 := by
            rcases h1.same_x h2 with h | h
            · exact h.symm
            · exact absurd (by rw [hM', h]; ring) hm0
          subst hyy
          refine ⟨rfl, rfl, ?_⟩
          rw [hRA, hMA, hM', hR']; ring
        · left
          refine ⟨hx, ?_⟩
          rw [hRA, hMA, hM', hR']
          linear_combination (-s ^ 6) * cub

theorem addGe_loose {a : Jacobian} {b : Affine} {Z X Y W : Fp} {P Q : Pt} (hx : FeL a.x X) (hy : FeL a.y Y) (hz : Fe a.z 8 W)
    (ha : Rep a.infinity X Y (W * Z) P) (hb : AffZ b Z Q) (hbi : b.infinity = false) :
    Runs (addGe a b) (fun r => JacZ r Z (P + Q)) := by
  have rb := hb.rep
  rw [hbi] at rb
  unfold addGe
  refine runs_dassert (by rw [hbi]; rfl) ?_
  refine Runs.bind (fe_sqr hz (by norm_num)) fun zz hzz => ?_
  refine Runs.bind (fe_normalizeWeak_loose hx) fun u1 hu1 => ?_
  refine Runs.bind (fe_mul hb.x hzz.1 (by norm_num) (by norm_num)) fun u2 hu2 => ?_
  refine Runs.bind (fe_normalizeWeak_loose hy) fun s1 hs1 => ?_
  refine Runs.bind (fe_mul hb.y hzz.1 (by norm_num) (by norm_num)) fun s2 hs2 => ?_
  refine Runs.bind (fe_mul hs2.1 hz (by norm_num) (by norm_num)) fun s2 hs2 => ?_
  refine Runs.bind (fe_add hu1.1 hu2.1 (by norm_num)) fun t ht => ?_
  refine Runs.bind (fe_add hs1.1 hs2.1 (by norm_num)) fun m hm => ?_
  refine Runs.bind (fe_sqr ht.1 (by norm_num)) fun rr hrr => ?_
  refine Runs.bind (fe_neg (m := 1) hu2.1 rfl (by norm_num)) fun mAlt hmA => ?_
  refine Runs.bind (fe_mul hu1.1 hmA.1 (by norm_num) (by norm_num)) fun tt htt => ?_
  refine Runs.bind (fe_add hrr.1 htt.1 (by norm_num)) fun rr hrr => ?_
  refine Runs.bind (bothZero_runs hm.1 hrr.1) fun d hd => ?_
  refine Runs.bind (fe_mulInt (a := 2) 2 hs1.1 rfl (by norm_num)) fun rrAlt hrA => ?_
  refine Runs.bind (fe_add hmA.1 hu1.1 (by norm_num)) fun mAlt hmA => ?_
  have hrC := fe_cmov (!d) hrA.1 (hrr.1.mono (show 1 + 1 ≤ 1 * 2 by norm_num))
  have hmC := fe_cmov (!d) hmA.1 (hm.1.mono (show 1 + 1 ≤ 1 + 1 + 1 by norm_num))
  rw [pure_bind, pure_bind]
  refine Runs.bind (fe_sqr hmC (by norm_num)) fun n hn => ?_
  refine Runs.bind (fe_mul hn.1 ht.1 (by norm_num) (by norm_num)) fun q hq => ?_
  refine Runs.bind (fe_sqr hn.1 (by norm_num)) fun n hn => ?_
  have hnC := fe_cmov d (hn.1.mono (show 1 ≤ 1 + 1 by norm_num)) hm.1
  rw [pure_bind]
  refine Runs.bind (fe_sqr hrC (by norm_num)) fun t2 ht2 => ?_
  refine Runs.bind (fe_mul hz hmC (by norm_num) (by norm_num)) fun z hz' => ?_
  refine Runs.bind (fe_normalizesToZero hz'.1 (by norm_num)) fun zz0 hz0 => ?_
  rw [pure_bind]
  refine Runs.bind (fe_mulInt (a := 2) 2 hz'.1 rfl (by norm_num)) fun z hz2 => ?_
  refine Runs.bind (fe_neg (m := 1) hq.1 rfl (by norm_num)) fun q hq => ?_
  refine Runs.bind (fe_add ht2.1 hq.1 (by norm_num)) fun t2 ht2 => ?_
  refine Runs.bind (fe_normalizeWeak ht2.1 (by norm_num)) fun x hx' => ?_
  rw [pure_bind]
  refine Runs.bind (fe_mulInt (a := 2) 2 hx'.1 rfl (by norm_num)) fun t3 ht3 => ?_
  refine Runs.bind (fe_add ht3.1 hq.1 (by norm_num)) fun t3 ht3 => ?_
  refine Runs.bind (fe_mul ht3.1 hrC (by norm_num) (by norm_num)) fun t3 ht3 => ?_
  refine Runs.bind (fe_add ht3.1 hnC (by norm_num)) fun t3 ht3 => ?_
  refine Runs.bind (fe_neg (m := 3) ht3.1 rfl (by norm_num)) fun y hy' => ?_
  refine Runs.bind (fe_normalizeWeak hy'.1 (by norm_num)) fun y hy' => ?_
  refine Runs.bind (fe_mulInt (a := 4) 4 hx'.1 rfl (by norm_num)) fun x hx' => ?_
  refine Runs.bind (fe_mulInt (a := 4) 4 hy'.1 rfl (by norm_num)) fun y hy' => runs_pure ?_
  refine jacZ_of (fe_cmov a.infinity (hx'.1.mono (show 1 * 4 ≤ 8 by norm_num)) hb.x)
    (fe_cmov a.infinity (hy'.1.mono (show 1 * 4 ≤ 8 by norm_num)) hb.y)
    (fe_cmov a.infinity hz2.1 (fe1_fe.mono (show 1 ≤ 1 * 2 by norm_num))) (by norm_num) (by norm_num) (by norm_num) ?_
  cases hai : a.infinity with
  | true =>
    rw [hai] at ha
    have hP := ha.inf
    simp only [Bool.not_true, Bool.and_false, if_true, hP, zero_add, one_mul]
    exact rb
  | false =>
    rw [hai] at ha
    simp only [Bool.not_false, Bool.and_true, Bool.false_eq_true, if_false]
    have key := complete_rep ha rb (d := d = true) (U2 := b.x.v * (W * W)) (S2 := b.y.v * (W * W) * W) (T := X + b.x.v * (W * W))
      (M := Y + b.y.v * (W * W) * W) (RR := (X + b.x.v * (W * W)) * (X + b.x.v * (W * W)) + X * -(b.x.v * (W * W)))
      (RA := if d = true then 2 * Y else (X + b.x.v * (W * W)) * (X + b.x.v * (W * W)) + X * -(b.x.v * (W * W)))
      (MA := if d = true then X - b.x.v * (W * W) else Y + b.y.v * (W * W) * W)
      (N := if d = true then Y + b.y.v * (W * W) * W else (if d = true then X - b.x.v * (W * W) else Y + b.y.v * (W * W) * W) ^ 4)
      (by ring) (by ring) rfl rfl (by ring) (by rw [hd, decide_eq_true_eq]) rfl rfl rfl
    have eM : (if (!d) = true then Y + b.y.v * (W * W) * W else -(b.x.v * (W * W)) + X) =
        (if d = true then X - b.x.v * (W * W) else Y + b.y.v * (W * W) * W) := by
      cases d <;> simp [sub_eq_neg_add]
    have eR : (if (!d) = true then (X + b.x.v * (W * W)) * (X + b.x.v * (W * W)) + X * -(b.x.v * (W * W)) else Y * ((2 : ℕ) : Fp)) =
        (if d = true then 2 * Y else (X + b.x.v * (W * W)) * (X + b.x.v * (W * W)) + X * -(b.x.v * (W * W))) := by
      cases d <;> simp [mul_comm]
    rw [eM] at hz0 hnC ⊢
    rw [eR]
    generalize (if d = true then X - b.x.v * (W * W) else Y + b.y.v * (W * W) * W) = MA at *
    generalize (if d = true then 2 * Y else (X + b.x.v * (W * W)) * (X + b.x.v * (W * W)) + X * -(b.x.v * (W * W))) = RA at *
    by_cases h0 : W * MA = 0
    · rw [hz0, decide_eq_true h0, key.1 h0]; exact rep_inf ..
    · rw [hz0, decide_eq_false h0]
      refine (key.2 h0).congr ?_ ?_ ?_ rfl
      · push_cast; ring
      · cases d
        · simp only [Bool.false_eq_true, if_false]; push_cast; ring
        · simp only [if_true]; push_cast; ring
      · push_cast; ring

theorem addGe_runs {a : Jacobian} {b : Affine} {Z : Fp} {P Q : Pt} (ha : JacZ a Z P) (hb : AffZ b Z Q)
    (hbi : b.infinity = false) : Runs (addGe a b) (fun r => JacZ r Z (P + Q)) :=
  addGe_loose (ha.x.loose (by norm_num)) (ha.y.loose (by norm_num)) ha.z ha.rep hb hbi

theorem neg_runs {a : Jacobian} {Z : Fp} {P : Pt} (h : JacZ a Z P) : Runs (neg a) (fun r => JacZ r Z (-P)) := by
  unfold neg
  refine Runs.bind (fe_normalizeWeak h.y (by norm_num)) fun y hy => ?_
  refine Runs.bind (fe_neg (m := 1) hy.1 rfl (by norm_num)) fun y hy => runs_pure ?_
  exact jacZ_of h.x hy.1 h.z (by norm_num) (by norm_num) (by norm_num) (rep_neg h.rep)

end Jacobian

end Verif
