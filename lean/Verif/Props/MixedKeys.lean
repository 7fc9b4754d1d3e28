import Verif.Proofs.Mixed
import Verif.Props.ZeroSecret

/-!
# Combining valid keys with the key of a zero secret (C113)

The point at infinity is not the neutral element of `combine`: in a release build `add_ge` reads its coordinates, which are
zero (C108), as those of a finite point.
-/

namespace Verif.Props
open Spec
open FElem hiding n

/-- The pair a release build returns in place of the point `(x, y)`. -/
def Strayed (k : PublicKey) (x y : Fp) : Prop :=
  Coord k.pt.x ∧ Coord k.pt.y ∧ k.pt.infinity = false ∧
    (k.pt.x.val : Fp) = -7 * x / y ^ 2 ∧ (k.pt.y.val : Fp) = -7 * (7 - x ^ 3) / (2 * y ^ 3)

theorem setGej_values {a : Jacobian} {X Y : Fp} (hx : a.x.Ok 8) (hy : a.y.Ok 8) (hz : a.z.Ok 8) (h0 : a.z.v ≠ 0)
    (eX : a.x.v = X * a.z.v ^ 2) (eY : a.y.v = Y * a.z.v ^ 3) :
    Runs (Affine.setGej a) (fun r => Fe r.x 8 X ∧ Fe r.y 8 Y ∧ r.infinity = a.infinity) := by
  unfold Affine.setGej
  refine Runs.bind (fe_inv hz (by norm_num)) fun z hz => ?_
  refine Runs.bind (fe_sqr hz (by norm_num)) fun z2 h2 => ?_
  refine Runs.bind (fe_mul hz h2.1 (by norm_num) (by norm_num)) fun z3 h3 => ?_
  refine Runs.bind (fe_mul hx h2.1 (by norm_num) (by norm_num)) fun x hx => ?_
  refine Runs.bind (fe_mul hy h3.1 (by norm_num) (by norm_num)) fun y hy => ?_
  refine Runs.bind fe_one fun _ _ => runs_pure ⟨hx.1.cast (by norm_num) ?_, hy.1.cast (by norm_num) ?_, rfl⟩
  · rw [eX]; field_simp
  · rw [eY]; field_simp

/-- The sum, then one more step with the zero key. -/
theorem strayed_end {r : Jacobian} {x y : Fp} (h : r.x.Ok 8 ∧ r.y.Ok 8 ∧ r.z.Ok 8 ∧ r.infinity = false ∧ r.z.v ≠ 0 ∧
      r.x.v = -7 * x / y ^ 2 * r.z.v ^ 2 ∧ r.y.v = -7 * (7 - x ^ 3) / (2 * y ^ 3) * r.z.v ^ 3) :
    ∃ a, Affine.setGej r = pure a ∧ Strayed ⟨a⟩ x y := by
  obtain ⟨h1, h2, h3, h4, h5, h6, h7⟩ := h
  obtain ⟨a, ea, ax, ay, ai⟩ := setGej_values h1 h2 h3 h5 h6 h7
  exact ⟨a, ea, ⟨ax.1, ax.2.1⟩, ⟨ay.1, ay.2.1⟩, ai.trans h4, ax.v, ay.v⟩

theorem combineLoop_append (l l' : List PublicKey) : ∀ q, PublicKey.combineLoop (l ++ l') q = PublicKey.combineLoop l q >>= PublicKey.combineLoop l' := by
  induction l with
  | nil => intro q; exact (pure_bind q _).symm
  | cons k l ih =>
    intro q
    rw [List.cons_append]
    unfold PublicKey.combineLoop
    rw [bind_assoc]
    exact congrArg _ (funext fun r => ih r)

theorem loop_valid {l : List PublicKey} {pts : List Pt} (h : List.Forall₂ IsKey l pts) :
    ∃ q, PublicKey.combineLoop l (Jacobian.setInfinity Jacobian.default) = pure q ∧ Jac q pts.sum := by
  obtain ⟨q, e, hq⟩ := combineLoop_runs (h.imp fun _ _ => isKey_iff.1) (Jacobian.setInfinity_jac _ _)
  rw [zero_add] at hq
  exact ⟨q, e, hq⟩

/-- C113. A debug build panics as soon as it comes to the key of a zero secret. -/
theorem C113_combine_debug (l l' : List PublicKey) (hl : ∀ k ∈ l, ValidKey k) (z : PublicKey) (hz : Blank z) :
    PublicKey.combine (l ++ z :: l') .debug = none := by
  obtain ⟨pts, h⟩ : ∃ pts, List.Forall₂ IsKey l pts := by
    induction l with
    | nil => exact ⟨[], .nil⟩
    | cons k ks ih =>
      obtain ⟨P, hP⟩ := hl k (by simp)
      obtain ⟨pts, h⟩ := ih fun k hk => hl k (by simp [hk])
      exact ⟨P :: pts, .cons hP h⟩
  obtain ⟨q, e, _⟩ := loop_valid h
  unfold PublicKey.combine
  rw [combineLoop_append, e, pure_bind]
  unfold PublicKey.combineLoop Jacobian.addGe
  rw [hz.2.2.1]
  rfl

/-- C113. Valid keys with the finite sum `(x, y)`, and then the key of a zero secret: a release build returns a pair that
is not `(x, y)`. -/
theorem C113_combine_last (l : List PublicKey) (pts : List Pt) (h : List.Forall₂ IsKey l pts) (x y : Fp) (hs : IsPt pts.sum x y)
    (z : PublicKey) (hz : Blank z) : ∃ k, PublicKey.combine (l ++ [z]) .release = some (.ok k) ∧ Strayed k x y := by
  obtain ⟨q, e, hq⟩ := loop_valid h
  obtain ⟨r, er, hr⟩ := Jacobian.addGe_origin (b := { z.pt with infinity := false }) hq hs hz.x hz.y rfl
  obtain ⟨a, ea, ha⟩ := strayed_end hr
  refine ⟨⟨a⟩, ?_, ha⟩
  unfold PublicKey.combine
  rw [combineLoop_append, e, pure_bind, exec_bind]
  unfold PublicKey.combineLoop
  rw [exec_bind, Jacobian.addGe_flag, er]
  show (if r.infinity then _ else _ : Exec _) .release = _
  rw [if_neg (by rw [hr.2.2.2.1]; decide), ea]
  rfl

/-- C113. If the valid keys sum to infinity, so that `combine` refuses them, one more key of a zero secret makes it return
(0, 0). -/
theorem C113_combine_cancel (l : List PublicKey) (pts : List Pt) (h : List.Forall₂ IsKey l pts) (hs : pts.sum = 0)
    (z : PublicKey) (hz : Blank z) : PublicKey.combine l .release = some (.error .invalidPublicKey) ∧
    ∃ k, PublicKey.combine (l ++ [z]) .release = some (.ok k) ∧ Origin k.pt := by
  obtain ⟨q, e, hq⟩ := loop_valid h
  refine ⟨by rw [(C32_combine l pts h).1 hs]; rfl, ?_⟩
  obtain ⟨r, er, hx, hy, hzz, hv, _⟩ := Jacobian.addGe_values (b := { z.pt with infinity := false }) hq.x hq.y hq.z
    (hz.x.ok le_rfl) (hz.y.ok le_rfl) rfl rfl rfl rfl
  obtain ⟨vx, vy, vz, vi⟩ := hv (hq.inf_iff.2 hs)
  obtain ⟨a, ea, ax, ay, ai⟩ := setGej_values (X := 0) (Y := 0) hx hy hzz (by rw [vz]; exact one_ne_zero)
    (by rw [vx, zero_mul]; exact hz.x.v) (by rw [vy, zero_mul]; exact hz.y.v)
  refine ⟨⟨a⟩, ?_, ⟨ax.1, ax.2.1⟩, ⟨ay.1, ay.2.1⟩, ai.trans vi, ax.v, ay.v⟩
  unfold PublicKey.combine
  rw [combineLoop_append, e, pure_bind, exec_bind]
  unfold PublicKey.combineLoop
  rw [exec_bind, Jacobian.addGe_flag, er]
  show (if r.infinity then _ else _ : Exec _) .release = _
  rw [if_neg (by rw [vi]; decide), ea]
  rfl

/-- C113. The other order, for one valid key: the same pair. -/
theorem C113_combine_first (k : PublicKey) (P : Pt) (hk : IsKey k P) (x y : Fp) (hs : IsPt P x y) (z : PublicKey) (hz : Blank z) :
    ∃ k', PublicKey.combine [z, k] .release = some (.ok k') ∧ Strayed k' x y := by
  obtain ⟨ha, hP⟩ := isKey_iff.1 hk
  obtain ⟨q, e, hq⟩ := loop_valid List.Forall₂.nil
  obtain ⟨r, er, hx, hy, hzz, hv, _⟩ := Jacobian.addGe_values (b := { z.pt with infinity := false }) hq.x hq.y hq.z
    (hz.x.ok le_rfl) (hz.y.ok le_rfl) rfl rfl rfl rfl
  obtain ⟨vx, vy, vz, vi⟩ := hv (hq.inf_iff.2 rfl)
  have vx : r.x.v = 0 := vx.trans hz.x.v
  have vy : r.y.v = 0 := vy.trans hz.y.v
  have hki := ha.inf_false hP
  obtain ⟨ex, ey⟩ := (ha.isPt hki).inj hs
  obtain ⟨s, es, sx, sy, sz, _, hv⟩ := Jacobian.addGe_values hx hy hzz ha.x ha.y hki rfl rfl rfl
  have hy0 := hs.y_ne
  have h2 : (2 : Fp) ≠ 0 := two_ne_zero_fp
  have he := hs.eqn
  rw [vx, vy, vz, ex, ey] at hv
  simp only [mul_one, zero_add, zero_mul, add_zero] at hv
  obtain ⟨e1, e2, e3, e4⟩ := hv vi hy0 one_ne_zero
  obtain ⟨a, ea, hst⟩ := strayed_end (x := x) (y := y) ⟨sx, sy, sz, e1, by rw [e2]; exact mul_ne_zero h2 hy0,
    by rw [e3, e2]; field_simp; linear_combination (-4 * x) * he,
    by rw [e4, e2]; field_simp; linear_combination (-4 * (y ^ 2 - 2 * x ^ 3 + 7)) * he⟩
  refine ⟨⟨a⟩, ?_, hst⟩
  have e0 : Jacobian.setInfinity Jacobian.default = q := pure_inj' e
  unfold PublicKey.combine
  rw [e0, exec_bind]
  unfold PublicKey.combineLoop
  rw [exec_bind, Jacobian.addGe_flag, er]
  show ((PublicKey.combineLoop [k] r .release).bind fun r : Jacobian => (if r.infinity then _ else _ : Exec _) .release) = _
  unfold PublicKey.combineLoop
  rw [es, pure_bind]
  show (if s.infinity then _ else _ : Exec _) .release = _
  rw [if_neg (by rw [e1]; decide), ea]
  rfl

/-- C113. The pair lies on the curve `y² = x³ + 49 / (4 y₀²)`, which is never the curve of the library. -/
theorem C113_off_curve (k : PublicKey) (P : Pt) (x y : Fp) (hs : IsPt P x y) (hk : Strayed k x y) :
    (k.pt.y.val : Fp) ^ 2 = (k.pt.x.val : Fp) ^ 3 + 49 / (4 * y ^ 2) ∧ (49 / (4 * y ^ 2) : Fp) ≠ 7 ∧ ¬ ValidKey k := by
  obtain ⟨_, _, hi, hx, hy⟩ := hk
  have hy0 := hs.y_ne
  have h2 : (2 : Fp) ≠ 0 := two_ne_zero_fp
  have h4 : (4 : Fp) ≠ 0 := by rw [show (4 : Fp) = 2 * 2 by norm_num]; exact mul_ne_zero h2 h2
  have h7 : (7 : Fp) ≠ 0 := fun h => no_sqrt7 0 (by rw [h]; ring)
  have he := hs.eqn
  have e1 : (k.pt.y.val : Fp) ^ 2 = (k.pt.x.val : Fp) ^ 3 + 49 / (4 * y ^ 2) := by
    rw [hx, hy]; field_simp; linear_combination (-196 * (y ^ 2 + x ^ 3 + 7)) * he
  have e2 : (49 / (4 * y ^ 2) : Fp) ≠ 7 := by
    intro h
    rw [div_eq_iff (mul_ne_zero h4 (pow_ne_zero _ hy0))] at h
    refine no_sqrt7 (2 * y) (mul_left_cancel₀ h7 ?_)
    linear_combination -h
  refine ⟨e1, e2, ?_⟩
  rintro ⟨Q, ⟨_, _, ⟨h, _⟩ | ⟨_, h⟩⟩, _⟩
  · rw [hi] at h; exact Bool.noConfusion h
  · have := h.eqn
    rw [e1] at this
    exact e2 (add_left_cancel this)

theorem tagged (t : UInt8) (u v : List UInt8) : (#v[t]).toList ++ u ++ v = t :: (u ++ v) := by
  rw [List.append_assoc]; rfl

/-- C113. So the pair is no key: it is refused as an affine point, and its own encoding is refused by the parser. -/
theorem C113_refused (k : PublicKey) (P : Pt) (x y : Fp) (hs : IsPt P x y) (hk : Strayed k x y) :
    PublicKey.tryFrom k.pt = pure (.error .invalidAffine) ∧
    ∃ b, PublicKey.serialize k = pure b ∧ Encodes65 b.toList (-7 * x / y ^ 2) (-7 * (7 - x ^ 3) / (2 * y ^ 3)) ∧
      PublicKey.parse b = pure (.error .invalidPublicKey) := by
  obtain ⟨e1, e2, hv⟩ := C113_off_curve k P x y hs hk
  obtain ⟨cx, cy, hi, hx, hy⟩ := hk
  refine ⟨(C53_public_try_from k.pt cx cy).2.1 fun ⟨Q, hQ, h0⟩ => hv ⟨Q, hQ, h0⟩, ?_⟩
  obtain ⟨fx, ex, hfx, _⟩ := FElem.fe_normalizeVar (coord_iff.1 cx) (by norm_num)
  obtain ⟨fy, ey, hfy, _⟩ := FElem.fe_normalizeVar (coord_iff.1 cy) (by norm_num)
  obtain ⟨bx, ebx, hbx⟩ := FElem.b32_runs hfx
  obtain ⟨b_y, eby, hby⟩ := FElem.b32_runs hfy
  have h1 : PublicKey.serialize k = pure (#v[(0x04 : UInt8)] ++ bx ++ b_y) := by
    unfold PublicKey.serialize
    rw [hi, ex, pure_bind, ey, pure_bind, ebx, pure_bind, eby, pure_bind]
    funext p; cases p <;> rfl
  have he : Encodes65 (#v[(0x04 : UInt8)] ++ bx ++ b_y).toList (-7 * x / y ^ 2) (-7 * (7 - x ^ 3) / (2 * y ^ 3)) := by
    rw [← hx, ← hy]
    change Encodes65 _ k.pt.x.v k.pt.y.v
    refine ⟨0x04, ?_, .inl rfl⟩
    rw [Vector.toList_append, Vector.toList_append, hbx, hby]
    exact tagged _ _ _
  refine ⟨_, h1, he, (C19_parse _).2 ?_⟩
  rintro ⟨Q, x', y', hQ, he'⟩
  obtain ⟨ux, uy⟩ := enc65_unique he he'
  have := hQ.eqn
  rw [← ux, ← uy, ← hx, ← hy, e1] at this
  exact e2 (add_left_cancel this)

/-- Keys to which these apply: the generator, and the key of a cleared secret. -/
example (k : SecretKey) : ∃ z g, PublicKey.fromSecretKey (SecretKey.clear k) = pure z ∧ IsKey g G ∧
    PublicKey.combine [g, z] .debug = none ∧
    ∃ r, PublicKey.combine [g, z] .release = some (.ok r) ∧ Strayed r Gx Gy ∧ ¬ ValidKey r := by
  obtain ⟨z, e, hz⟩ := C108_from_secret_key _ (dvd_clear k)
  obtain ⟨g, hg⟩ := exists_key (P := G) G_ne_zero
  have hG : IsPt ([G].sum) Gx Gy := by rw [List.sum_singleton]; exact isPt_G
  obtain ⟨r, er, hr⟩ := C113_combine_last [g] [G] (.cons hg .nil) _ _ hG z hz
  exact ⟨z, g, e, hg, C113_combine_debug [g] [] (by simpa using ⟨G, hg⟩) z hz, r, er, hr,
    (C113_off_curve r _ _ _ hG hr).2.2⟩

end Verif.Props
