import Verif.Proofs.Points

/-!
# Properties of the point operations (C16, C17)

`DenotesJ`/`DenotesA` (Spec/Points.lean) say which curve point a representation stands for.
-/

namespace Verif.Props
open Verif Spec

/-- C16. `add_zinv_var` works on the curve scaled by `bzinv`: `a` and the result are read with
their `z` multiplied by `bzinv`. -/
theorem C16_point_ops_var (a b : Jacobian) (c : Affine) (P Q : Pt) (ha : DenotesJ a P) :
    (∃ r, Jacobian.doubleVar a none = pure (r, none) ∧ DenotesJ r (P + P)) ∧
    (DenotesJ b Q → ∃ r, Jacobian.addVar a b none = pure (r, none) ∧ DenotesJ r (P + Q)) ∧
    (DenotesA c Q → ∃ r, Jacobian.addGeVar a c none = pure (r, none) ∧ DenotesJ r (P + Q)) ∧
    (∃ r, Jacobian.neg a = pure r ∧ DenotesJ r (-P)) := by
  rw [denotesJ_iff] at ha
  refine ⟨?_, fun hb => ?_, fun hc => ?_, ?_⟩
  · obtain ⟨⟨r, o⟩, hr, h, ho⟩ := Jacobian.doubleVar_runs none ha
    have : o = none := by
      rcases ho with h | ⟨f, _, h, _⟩
      · exact h.2
      · simp at h
    subst this
    exact ⟨r, hr, denotesJ_iff.2 h⟩
  · obtain ⟨⟨r, o⟩, hr, h, ho⟩ := Jacobian.addVar_runs none ha (denotesJ_iff.1 hb) (fun _ => rfl)
    have : o = none := by
      rcases ho with h | ⟨f, _, h, _⟩
      · exact h.2
      · simp at h
    subst this
    exact ⟨r, hr, denotesJ_iff.2 h⟩
  · obtain ⟨⟨r, o⟩, hr, h, ho⟩ := Jacobian.addGeVar_runs none ha (denotesA_iff.1 hc) (fun _ => rfl)
    have : o = none := by
      rcases ho with h | ⟨f, _, h, _⟩
      · exact h.2
      · simp at h
    subst this
    exact ⟨r, hr, denotesJ_iff.2 h⟩
  · obtain ⟨r, hr, h⟩ := Jacobian.neg_runs ha
    exact ⟨r, hr, denotesJ_iff.2 h⟩

/-- C16, addition with a known inverse of `z`. -/
theorem C16_add_zinv_var (a : Jacobian) (b : Affine) (bzinv : FElem) (P Q : Pt)
    (hz : Coord bzinv) (hz0 : (bzinv.val : Fp) ≠ 0)
    (ha : DenotesScaled a (bzinv.val : Fp) P) (hb : DenotesA b Q) :
    ∃ r, Jacobian.addZinvVar a b bzinv = pure r ∧ DenotesScaled r (bzinv.val : Fp) (P + Q) := by
  obtain ⟨r, hr, h⟩ := Jacobian.addZinvVar_runs (denotesScaled_iff.1 ha) (denotesA_iff.1 hb) (coord_iff.1 hz) hz0
  exact ⟨r, hr, denotesScaled_iff.2 h⟩

/-- C16, the ratio of the `z` coordinates.  Given a place to store it, the operations return the
factor by which `z` was multiplied (any factor will do when the result is infinity). -/
theorem C16_z_ratio (a b : Jacobian) (c : Affine) (f : FElem) (P Q : Pt) (ha : DenotesJ a P) :
    (∃ r f', Jacobian.doubleVar a (some f) = pure (r, some f') ∧ DenotesJ r (P + P) ∧ Coord f' ∧
      (P + P ≠ 0 → (r.z.val : Fp) = a.z.val * f'.val)) ∧
    (P ≠ 0 → DenotesJ b Q → ∃ r f', Jacobian.addVar a b (some f) = pure (r, some f') ∧ DenotesJ r (P + Q) ∧ Coord f' ∧
      (P + Q ≠ 0 → (r.z.val : Fp) = a.z.val * f'.val)) ∧
    (P ≠ 0 → DenotesA c Q → ∃ r f', Jacobian.addGeVar a c (some f) = pure (r, some f') ∧ DenotesJ r (P + Q) ∧ Coord f' ∧
      (P + Q ≠ 0 → (r.z.val : Fp) = a.z.val * f'.val)) := by
  rw [denotesJ_iff] at ha
  have key : ∀ {r : Jacobian} {o : Option FElem} {R : Pt}, Jac r R → Jacobian.RzrOk a r (some f) o →
      ∃ f', o = some f' ∧ Coord f' ∧ (R ≠ 0 → (r.z.val : Fp) = a.z.val * f'.val) := by
    intro r o R hr h
    rcases h with ⟨h, _⟩ | ⟨f', rfl, _, h2, h3⟩
    · simp at h
    · refine ⟨f', rfl, coord_iff.2 (h2.ok (by norm_num)), fun hR => ?_⟩
      rcases h3 with h3 | h3
      · exact absurd (hr.inf_iff.1 h3) hR
      · exact h3
  have inf : P ≠ 0 → ¬ a.infinity = true := fun hP h => hP (ha.inf_iff.1 h)
  refine ⟨?_, fun hP hb => ?_, fun hP hc => ?_⟩
  · obtain ⟨⟨r, o⟩, hr, h, ho⟩ := Jacobian.doubleVar_runs (some f) ha
    obtain ⟨f', rfl, h1, h2⟩ := key h ho
    exact ⟨r, f', hr, denotesJ_iff.2 h, h1, h2⟩
  · obtain ⟨⟨r, o⟩, hr, h, ho⟩ := Jacobian.addVar_runs (some f) ha (denotesJ_iff.1 hb) (fun h => absurd h (inf hP))
    obtain ⟨f', rfl, h1, h2⟩ := key h ho
    exact ⟨r, f', hr, denotesJ_iff.2 h, h1, h2⟩
  · obtain ⟨⟨r, o⟩, hr, h, ho⟩ := Jacobian.addGeVar_runs (some f) ha (denotesA_iff.1 hc) (fun h => absurd h (inf hP))
    obtain ⟨f', rfl, h1, h2⟩ := key h ho
    exact ⟨r, f', hr, denotesJ_iff.2 h, h1, h2⟩

/-- Every point is denoted by an affine and by a Jacobian representation. -/
theorem exists_denotes (P : Pt) : (∃ a, DenotesA a P) ∧ ∃ j, DenotesJ j P := by
  have hA : ∃ a, Aff a P := by
    by_cases hP : P = 0
    · exact ⟨⟨FElem.zero, FElem.zero, true⟩, FElem.zero_fe.ok (by norm_num), FElem.zero_fe.ok (by norm_num), by rw [hP]; exact rep_inf ..⟩
    · obtain ⟨x, y, h⟩ := IsPt.of_ne_zero hP
      obtain ⟨fx, hx⟩ := exists_feN x
      obtain ⟨fy, hy⟩ := exists_feN y
      exact ⟨⟨fx, fy, false⟩, aff_of_isPt rfl hx.fe hy.fe (by norm_num) (by norm_num) h⟩
  obtain ⟨a, ha⟩ := hA
  obtain ⟨j, _, hj⟩ := Jacobian.setGe_runs ha
  exact ⟨⟨a, denotesA_iff.2 ha⟩, j, denotesJ_iff.2 hj.1⟩

/-- The hypotheses cover equal points, opposite points and infinity. -/
example : (∃ a b, DenotesJ a G ∧ DenotesJ b G) ∧ (∃ a b, DenotesJ a G ∧ DenotesJ b (-G)) ∧ (∃ a, DenotesJ a (0 : Pt)) :=
  ⟨⟨_, _, (exists_denotes G).2.choose_spec, (exists_denotes G).2.choose_spec⟩,
    ⟨_, _, (exists_denotes G).2.choose_spec, (exists_denotes (-G)).2.choose_spec⟩, (exists_denotes 0).2⟩

/-- C17. -/
theorem C17_add_ge_complete (a : Jacobian) (b : Affine) (P Q : Pt) (ha : DenotesJ a P) (hb : DenotesA b Q) (hQ : Q ≠ 0) :
    ∃ r, Jacobian.addGe a b = pure r ∧ DenotesJ r (P + Q) := by
  have hb' := denotesA_iff.1 hb
  obtain ⟨r, hr, h⟩ := Jacobian.addGe_runs (denotesJ_iff.1 ha) hb' (hb'.inf_false hQ)
  exact ⟨r, hr, denotesJ_iff.2 h⟩

/-- A cube root of unity. -/
def beta : ℕ := 0x7ae96a2b657c07106e64479eac3434e99cf0497512f58995c1396c28719501ee

/-- The hypotheses of C17 cover the degenerate case of the formula: opposite `y`, different `x`. -/
example : ∃ a b P Q x₁ x₂ y, DenotesJ a P ∧ DenotesA b Q ∧ Q ≠ 0 ∧ IsPt P x₁ y ∧ IsPt Q x₂ (-y) ∧ x₁ ≠ x₂ := by
  have h3 : (beta : Fp) ^ 3 = 1 := by
    have : ((beta ^ 3 : ℕ) : Fp) = ((1 : ℕ) : Fp) := (ZMod.natCast_eq_natCast_iff' _ _ _).2 (by decide +kernel)
    push_cast at this; exact this
  have hG := isPt_G.eqn
  obtain ⟨Q, hQ⟩ := isPt_of_eqn (x := (beta : Fp) * Gx) (y := -(Gy : Fp)) (by linear_combination hG - (Gx : Fp) ^ 3 * h3)
  refine ⟨_, _, G, Q, _, _, _, (exists_denotes G).2.choose_spec, (exists_denotes Q).1.choose_spec, hQ.ne_zero, isPt_G, hQ, ?_⟩
  have : ((Gx : ℕ) : Fp) ≠ ((beta * Gx : ℕ) : Fp) := by
    rw [ne_eq, ZMod.natCast_eq_natCast_iff']; decide +kernel
  push_cast at this; exact this

end Verif.Props
