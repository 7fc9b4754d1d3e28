import Verif.Proofs.Core
import Verif.Props.Group
import Verif.Props.Arith
import Verif.Props.Bytes

/-!
# Field elements, scalars and point conversions (C61–C64)
-/

namespace Verif.Props
open Verif Spec

/-! ## Field elements -/

/-- The integer with the given 32-bit words, most significant first. -/
def words (d7 d6 d5 d4 d3 d2 d1 d0 : UInt32) : ℕ :=
  d0.toNat + 2 ^ 32 * (d1.toNat + 2 ^ 32 * (d2.toNat + 2 ^ 32 * (d3.toNat + 2 ^ 32 * (d4.toNat +
    2 ^ 32 * (d5.toNat + 2 ^ 32 * (d6.toNat + 2 ^ 32 * d7.toNat))))))

/-- C61: `verify` accepts exactly the well-formed elements. -/
theorem C61_verify (f : FElem) :
    (FElem.verify f = pure true ↔ FElem.WF f) ∧ (FElem.verify f .release = some true ↔ FElem.WF f) :=
  ⟨FElem.verify_iff f, FElem.wf_of_verify_release, fun h => by rw [(FElem.verify_iff f).2 h]; rfl⟩

example : FElem.WF bigElem ∧ ¬ FElem.WF { bigElem with magnitude := 7 } := by
  refine ⟨bigElem_wf.1, fun h => ?_⟩
  have := h.lb.h0
  revert this; decide

/-- C61: the constructors. -/
theorem C61_construct (d7 d6 d5 d4 d3 d2 d1 d0 a : UInt32) :
    ((FElem.new d7 d6 d5 d4 d3 d2 d1 d0).val = words d7 d6 d5 d4 d3 d2 d1 d0 ∧
      (FElem.new d7 d6 d5 d4 d3 d2 d1 d0).normalized = true ∧
      (FElem.WF (FElem.new d7 d6 d5 d4 d3 d2 d1 d0) ↔ words d7 d6 d5 d4 d3 d2 d1 d0 < p)) ∧
    ((FieldStorage.toField (FieldStorage.new d7 d6 d5 d4 d3 d2 d1 d0)).val = words d7 d6 d5 d4 d3 d2 d1 d0) ∧
    (a.toNat < 2 ^ 26 → ∃ r, FElem.fromInt a = pure r ∧ FElem.WF r ∧ r.normalized = true ∧ r.val = a.toNat) ∧
    (2 ^ 26 ≤ a.toNat → FElem.fromInt a .debug = none ∧
      ∃ r, FElem.fromInt a .release = some r ∧ r.val = a.toNat ∧ ¬ FElem.WF r) := by
  have hw : FieldStorage.val ⟨d0, d1, d2, d3, d4, d5, d6, d7⟩ = words d7 d6 d5 d4 d3 d2 d1 d0 := by
    unfold FieldStorage.val words; ring
  have hv : (FElem.new d7 d6 d5 d4 d3 d2 d1 d0).val = words d7 d6 d5 d4 d3 d2 d1 d0 := by
    rw [FElem.new_eq_toField, ← hw]; exact (FieldStorage.toField_limbs _).1
  refine ⟨⟨hv, rfl, ?_⟩, ?_, fun h => ?_, fun h => ?_⟩
  · rw [FElem.new_eq_toField, FElem.toField_wf_iff, hw]
  · rw [← hw]; exact (FieldStorage.toField_limbs _).1
  · obtain ⟨r, hr, h1, _⟩ := FElem.setInt_runs (a := a) (by omega)
    refine ⟨r, hr, h1.1, h1.2.1, ?_⟩
    rw [h1.2.2, ZMod.val_natCast, Nat.mod_eq_of_lt]
    unfold p; omega
  · have hle : decide (a ≤ 0x3ffffff * 1) = false := by
      rw [decide_eq_false_iff_not, UInt32.le_iff_toNat_le, show ((0x3ffffff : UInt32) * 1).toNat = 67108863 from rfl]; omega
    have hv : FElem.verify ⟨⟨a, 0, 0, 0, 0, 0, 0, 0, 0, 0⟩, 1, true⟩ = pure false := by
      have e0 : mul32 1 1 = pure 1 := by funext π; cases π <;> rfl
      have e1 : FElem.leMul a 0x3ffffff 1 = pure false := by
        have e : mul32 0x3ffffff 1 = pure (0x3ffffff * 1) := by funext π; cases π <;> rfl
        unfold FElem.leMul
        rw [e, pure_bind, hle]
      unfold FElem.verify
      simp only [if_true, e0, e1, pure_bind, FElem.andThen, Bool.false_eq_true, if_false, Bool.false_and]
    refine ⟨?_, _, rfl, ?_, ?_⟩
    · show FElem.setInt a .debug = none
      unfold FElem.setInt
      rw [hv]; rfl
    · simp [FElem.val, Limbs10.val]
    · intro h'
      have := (h'.norm rfl).2.1.h0
      simp only at this
      have e : (1 : UInt32).toNat = 1 := rfl
      rw [e] at this
      omega

/-- The value of a normalized element as a residue. -/
theorem feN_self {f : FElem} (hf : FElem.WF f) (hn : f.normalized = true) : FElem.FeN f (f.val : Fp) :=
  ⟨hf, hn, by rw [ZMod.val_natCast, Nat.mod_eq_of_lt (hf.norm hn).2.2]⟩

/-- C61: predicates and comparison on normalized elements, the integer they hold being the least
residue; without normalization the debug build panics. -/
theorem C61_inspect (f g : FElem) (hf : FElem.WF f) (hg : FElem.WF g) :
    (f.normalized = true →
      (∃ b, FElem.isZero f = pure b ∧ (b = true ↔ f.val = 0)) ∧
      (∃ b, FElem.isOdd f = pure b ∧ (b = true ↔ f.val % 2 = 1)) ∧
      (g.normalized = true → FElem.cmpVar f g = pure (compare f.val g.val))) ∧
    (f.normalized = false → FElem.isZero f .debug = none ∧ FElem.isOdd f .debug = none ∧ FElem.cmpVar f g .debug = none) ∧
    (f.magnitude.toNat ≤ 1 → g.magnitude.toNat ≤ 29 →
      ∃ b, FElem.eqVar f g = pure b ∧ (b = true ↔ f.val % p = g.val % p)) ∧
    (f.magnitude.toNat ≤ 8 → ∃ b, FElem.isQuadVar f = pure b ∧ (b = true ↔ ∃ z : ℕ, z ^ 2 % p = f.val % p)) ∧
    (∀ b, FElem.cmov f g b = if b then g else f) := by
  refine ⟨fun hn => ⟨?_, ?_, fun hn' => ?_⟩, fun hn => ?_, fun h1 h2 => ?_, fun h => ?_, fun b => FElem.cmov_eq f g b⟩
  · obtain ⟨b, hb, h⟩ := FElem.isZero_runs (feN_self hf hn)
    refine ⟨b, hb, ?_⟩
    rw [h, decide_eq_true_eq, ← FElem.mod_eq_zero_iff, Nat.mod_eq_of_lt (hf.norm hn).2.2]
  · obtain ⟨b, hb, h⟩ := FElem.isOdd_runs (feN_self hf hn)
    refine ⟨b, hb, ?_⟩
    rw [h, decide_eq_true_eq, ZMod.val_natCast, Nat.mod_eq_of_lt (hf.norm hn).2.2]
  · obtain ⟨b, hb, h⟩ := FElem.cmpVar_runs (feN_self hf hn) (feN_self hg hn')
    rw [hb, h, ZMod.val_natCast, ZMod.val_natCast, Nat.mod_eq_of_lt (hf.norm hn).2.2, Nat.mod_eq_of_lt (hg.norm hn').2.2]
  · have : (dassert f.normalized : Exec Unit) .debug = none := by rw [hn]; rfl
    refine ⟨?_, ?_, ?_⟩
    · unfold FElem.isZero; simp only [bind, ReaderT.bind, this]; rfl
    · unfold FElem.isOdd; simp only [bind, ReaderT.bind, this]; rfl
    · unfold FElem.cmpVar; simp only [bind, ReaderT.bind, this]; rfl
  · obtain ⟨b, hb, h⟩ := FElem.eqVar_runs (x := f.val) (y := g.val) ⟨hf, h1, rfl⟩ ⟨hg, le_rfl, rfl⟩ h2
    exact ⟨b, hb, by rw [h, decide_eq_true_eq]; exact ZMod.natCast_eq_natCast_iff' _ _ _⟩
  · obtain ⟨b, hb, h⟩ := FElem.fe_isQuadVar (x := f.val) ⟨hf, h, rfl⟩ le_rfl
    refine ⟨b, hb, h.trans ⟨?_, ?_⟩⟩
    · rintro ⟨z, hz⟩
      refine ⟨z.val, ?_⟩
      rw [← ZMod.natCast_eq_natCast_iff', hz, Nat.cast_pow, ZMod.natCast_zmod_val, pow_two]
    · rintro ⟨z, hz⟩
      refine ⟨z, ?_⟩
      rw [← ZMod.natCast_eq_natCast_iff'] at hz
      rw [← hz, Nat.cast_pow, pow_two]

example : (∃ f : FElem, FElem.WF f ∧ f.normalized = true ∧ f.val = p - 1) ∧
    (FElem.WF bigElem ∧ bigElem.normalized = false ∧ bigElem.magnitude.toNat ≤ 8) := by
  refine ⟨?_, bigElem_wf.1, rfl, bigElem_wf.2⟩
  obtain ⟨f, hf⟩ := exists_feN ((p - 1 : ℕ) : Fp)
  refine ⟨f, hf.1, hf.2.1, ?_⟩
  rw [hf.2.2, ZMod.val_natCast]; decide +kernel

/-! ## Points -/

/-- C62, the `Default` implementations: zero everywhere, and points that are finite. -/
theorem C62_defaults :
    Scalar.zero.val = 0 ∧ (FElem.WF FElem.zero ∧ FElem.zero.val = 0 ∧ FElem.zero.magnitude = 0 ∧ FElem.zero.normalized = true) ∧
    FieldStorage.zero.val = 0 ∧ (AffineStorage.default.x.val = 0 ∧ AffineStorage.default.y.val = 0) ∧
    (Affine.default.x.val = 0 ∧ Affine.default.y.val = 0 ∧ Affine.default.infinity = false) ∧
    (Jacobian.default.x.val = 0 ∧ Jacobian.default.y.val = 0 ∧ Jacobian.default.z.val = 0 ∧ Jacobian.default.infinity = false) := by
  have h0 : FElem.zero.val = 0 := by decide
  have h1 : FieldStorage.zero.val = 0 := by decide
  exact ⟨Scalar.zero_val, ⟨FElem.zero_feN.1, h0, rfl, rfl⟩, h1, ⟨h1, h1⟩, ⟨h0, h0, rfl⟩, ⟨h0, h0, h0, rfl⟩⟩

/-- C62: the generator and the constants. -/
theorem C62_constants : DenotesA Affine.g G ∧ DenotesA Affine.infinityPoint 0 ∧ DenotesJ Jacobian.infinityPoint 0 ∧
    (∀ j, DenotesJ (Jacobian.setInfinity j) 0) ∧
    (∀ x y P, DenotesA (Affine.new x y) P → DenotesJ (Jacobian.new x y) P) := by
  refine ⟨denotesA_iff.2 Affine.g_aff, ?_, ?_, fun j => denotesJ_iff.2 (Jacobian.setInfinity_jac j 1), fun x y P h => ?_⟩
  · have h : FElem.Fe (FElem.new 0 0 0 0 0 0 0 0) 1 ((0 : ℕ) : Fp) := (FElem.feN_const (v := 0) (by decide +kernel)).fe
    exact ⟨coord_iff.2 (h.ok (by norm_num)), coord_iff.2 (h.ok (by norm_num)), Or.inl ⟨rfl, rfl⟩⟩
  · have h : FElem.Fe (FElem.new 0 0 0 0 0 0 0 0) 1 ((0 : ℕ) : Fp) := (FElem.feN_const (v := 0) (by decide +kernel)).fe
    exact ⟨coord_iff.2 (h.ok (by norm_num)), coord_iff.2 (h.ok (by norm_num)), coord_iff.2 (h.ok (by norm_num)), Or.inl ⟨rfl, rfl⟩⟩
  · have h1 : FElem.Fe (FElem.new 0 0 0 0 0 0 0 1) 1 ((1 : ℕ) : Fp) := (FElem.feN_const (v := 1) (by decide +kernel)).fe
    rw [Nat.cast_one] at h1
    rw [denotesA_iff] at h; rw [denotesJ_iff]
    unfold Jacobian.new
    generalize FElem.new 0 0 0 0 0 0 0 1 = o at h1
    refine ⟨h.x, h.y, h1.ok (by norm_num), ?_⟩
    exact h.rep.congr rfl rfl ((congrArg (· * (1 : Fp)) h1.v).trans (one_mul 1)).symm rfl

/-- C62: conversions between the two representations keep the point. -/
theorem C62_convert (a self : Affine) (j : Jacobian) (P : Pt) (hs : Coord self.x ∧ Coord self.y) :
    (DenotesA a P → ∃ r, Jacobian.setGe a = pure r ∧ DenotesJ r P) ∧
    (DenotesJ j P → ∃ r, Affine.setGej j = pure r ∧ DenotesA r P) ∧
    (DenotesJ j P → ∃ r, Affine.setGejVar self j = pure r ∧ DenotesA r P) ∧
    (DenotesA a P → ∃ r, Affine.neg a = pure r ∧ DenotesA r (-P)) ∧
    (DenotesJ j P → ∀ s, FElem.WF s → s.normalized = true → s.val ≠ 0 →
      ∃ r, Jacobian.rescale j s = pure r ∧ DenotesJ r P ∧ (r.z.val : Fp) = j.z.val * s.val) ∧
    (DenotesA a P → P ≠ 0 → ∃ s, Affine.toStorage a = pure s ∧ DenotesA (Affine.ofStorage s) P) := by
  refine ⟨fun h => ?_, fun h => ?_, fun h => ?_, fun h => ?_, fun h s hs hn h0 => ?_, fun h hP => ?_⟩
  · obtain ⟨r, hr, h'⟩ := Jacobian.setGe_runs (denotesA_iff.1 h)
    exact ⟨r, hr, denotesJ_iff.2 h'.1⟩
  · obtain ⟨r, hr, h'⟩ := Affine.setGej_runs (denotesJ_iff.1 h)
    exact ⟨r, hr, denotesA_iff.2 h'.1⟩
  · obtain ⟨r, hr, h'⟩ := Affine.setGejVar_runs (denotesJ_iff.1 h) ⟨coord_iff.1 hs.1, coord_iff.1 hs.2⟩
    exact ⟨r, hr, denotesA_iff.2 h'.1⟩
  · obtain ⟨r, hr, h'⟩ := Affine.neg_runs (denotesA_iff.1 h)
    exact ⟨r, hr, denotesA_iff.2 h'.1⟩
  · have hf := feN_self hs hn
    have hk : (s.val : Fp) ≠ 0 := by
      rw [ne_eq, ← FElem.mod_eq_zero_iff, Nat.mod_eq_of_lt (hs.norm hn).2.2]; exact h0
    obtain ⟨r, hr, h', hz⟩ := Jacobian.rescale_z (denotesJ_iff.1 h) hf hk
    exact ⟨r, hr, denotesJ_iff.2 h', hz⟩
  · have h' := denotesA_iff.1 h
    obtain ⟨s, hs, h2⟩ := Affine.toStorage_runs h' (h'.inf_false hP)
    exact ⟨s, hs, denotesA_iff.2 (Affine.ofStorage_aff h2).1⟩

example : (∃ a, DenotesA a G) ∧ (∃ j, DenotesJ j G) ∧ G ≠ 0 ∧ (∃ a, DenotesA a (0 : Pt)) ∧ (∃ j, DenotesJ j (0 : Pt)) ∧
    Coord Affine.g.x ∧ Coord Affine.g.y :=
  ⟨(exists_denotes G).1, (exists_denotes G).2, G_ne_zero, (exists_denotes 0).1, (exists_denotes 0).2,
    C62_constants.1.1, C62_constants.1.2.1⟩

/-- C62: points from an `x` coordinate.  `set_xquad` finds a point exactly when one exists, with
a square `y`; `set_xo_var` finds the one with the requested parity. -/
theorem C62_from_x (x : FElem) (hx : Coord x) (odd : Bool) :
    (∃ r ok, Affine.setXquad x = pure (r, ok) ∧ (ok = true ↔ ∃ P y, IsPt P (x.val : Fp) y) ∧
      (ok = true → ∃ P y, DenotesA r P ∧ IsPt P (x.val : Fp) y ∧ IsSquare y)) ∧
    (∃ r ok, Affine.setXoVar x odd = pure (r, ok) ∧ (ok = true ↔ ∃ P y, IsPt P (x.val : Fp) y) ∧
      (ok = true → ∃ P y, DenotesA r P ∧ IsPt P (x.val : Fp) y ∧ (y.val % 2 = 1 ↔ odd = true))) := by
  have hx' : FElem.Fe x 8 (x.val : Fp) := ⟨hx.1, hx.2, rfl⟩
  have hsq : IsSquare ((x.val : Fp) ^ 3 + 7) ↔ ∃ P y, IsPt P (x.val : Fp) y := by
    constructor
    · rintro ⟨y, hy⟩
      obtain ⟨P, hP⟩ := isPt_of_eqn (x := (x.val : Fp)) (y := y) (by rw [pow_two, hy])
      exact ⟨P, y, hP⟩
    · rintro ⟨P, y, h⟩
      exact ⟨y, by rw [← pow_two, h.eqn]⟩
  constructor
  · obtain ⟨⟨r, ok⟩, hr, h1, h2, h3⟩ := Affine.setXquad_sq hx'
    dsimp only at h1 h2 h3
    obtain ⟨Y, hY, hok, hsol⟩ := h3
    refine ⟨r, ok, hr, hok.trans hsq, fun h => ?_⟩
    obtain ⟨he, hq⟩ := hsol (hok.1 h)
    obtain ⟨P, hP⟩ := isPt_of_eqn he
    refine ⟨P, Y, denotesA_iff.2 (aff_of_isPt h2 (h1 ▸ hx') hY le_rfl (by norm_num) hP), hP, hq⟩
  · obtain ⟨⟨r, ok⟩, hr, h1, h2, h3, hok, hsol⟩ := Affine.setXoVar_runs hx' odd
    dsimp only at h1 h2 h3 hok hsol
    refine ⟨r, ok, hr, hok.trans hsq, fun h => ?_⟩
    obtain ⟨he, hq⟩ := hsol (hok.1 h)
    obtain ⟨P, hP⟩ := isPt_of_eqn he
    exact ⟨P, _, denotesA_iff.2 (aff_of_isPt h2 (h1 ▸ hx') h3 le_rfl (by norm_num) hP), hP, hq⟩

/-- There are `x` with a point and `x` without one. -/
example : (∃ x, Coord x ∧ ∃ P y, IsPt P (x.val : Fp) y) ∧ (∃ x, Coord x ∧ ¬ ∃ P y, IsPt P (x.val : Fp) y) := by
  constructor
  · obtain ⟨f, hf⟩ := exists_feN (Gx : Fp)
    refine ⟨f, coord_iff.2 (hf.fe.ok (by norm_num)), G, Gy, ?_⟩
    rw [hf.fe.2.2]; exact isPt_G
  · refine ⟨FElem.zero, coord_iff.2 (FElem.zero_fe.ok (by norm_num)), ?_⟩
    rintro ⟨P, y, h⟩
    exact h.x_ne Nat.cast_zero

/-- C62: predicates on points. -/
theorem C62_predicates (a b : Affine) (j : Jacobian) (x : FElem) (P Q : Pt) (hx : Coord x) :
    (Coord a.x → Coord a.y →
      ∃ r, Affine.isValidVar a = pure r ∧ (r = true ↔ ∃ P, P ≠ 0 ∧ DenotesA a P)) ∧
    (DenotesA a P → DenotesA b Q → P ≠ 0 → ∃ r, Affine.eq a b = pure r ∧ (r = true ↔ P = Q)) ∧
    (DenotesJ j P → P ≠ 0 → ∃ r, Jacobian.eqXVar j x = pure r ∧ (r = true ↔ ∃ y, IsPt P (x.val : Fp) y)) ∧
    (DenotesJ j P → ∃ r, Jacobian.hasQuadYVar j = pure r ∧ (r = true ↔ ∃ x y, IsPt P x y ∧ IsSquare y)) := by
  refine ⟨fun h1 h2 => ?_, fun h1 h2 hP => ?_, fun h hP => ?_, fun h => ?_⟩
  · obtain ⟨r, hr, h⟩ := Affine.isValidVar_runs (coord_iff.1 h1) (coord_iff.1 h2)
    refine ⟨r, hr, ?_⟩
    rw [h, decide_eq_true_eq]
    constructor
    · rintro ⟨hi, he⟩
      obtain ⟨P, hP⟩ := isPt_of_eqn he
      exact ⟨P, hP.ne_zero, h1, h2, Or.inr ⟨hi, hP⟩⟩
    · rintro ⟨P, hP, hD⟩
      have hA := denotesA_iff.1 hD
      exact ⟨hA.inf_false hP, (hA.isPt (hA.inf_false hP)).eqn⟩
  · have hA := denotesA_iff.1 h1; have hB := denotesA_iff.1 h2
    obtain ⟨r, hr, h⟩ := Affine.eq_runs hA.x hA.y hB.x hB.y
    refine ⟨r, hr, ?_⟩
    rw [h, decide_eq_true_eq]
    have hai := hA.inf_false hP
    have hPa := hA.isPt hai
    constructor
    · rintro ⟨e1, e2, e3⟩
      have hPb := hB.isPt (e3 ▸ hai)
      rw [← e1, ← e2] at hPb
      exact hPa.unique hPb
    · rintro rfl
      have hbi := hB.inf_false hP
      have hPb := hB.isPt hbi
      obtain ⟨e1, e2⟩ := hPa.inj hPb
      exact ⟨e1, e2, hai.trans hbi.symm⟩
  · have hJ := denotesJ_iff.1 h
    exact Jacobian.eqXVar_runs hJ (hJ.inf_false hP) ⟨hx.1, hx.2, rfl⟩ le_rfl
  · exact Jacobian.hasQuadYVar_runs (denotesJ_iff.1 h)

example : ∃ a b j x, DenotesA a G ∧ DenotesA b (-G) ∧ DenotesJ j G ∧ Coord x ∧ G ≠ 0 ∧ Coord a.x ∧ Coord a.y := by
  obtain ⟨b, hb⟩ := (exists_denotes (-G)).1
  obtain ⟨j, hj⟩ := (exists_denotes G).2
  exact ⟨Affine.g, b, j, Affine.g.x, C62_constants.1, hb, hj, C62_constants.1.1, G_ne_zero, C62_constants.1.1, C62_constants.1.2.1⟩

/-! ## Scalars -/

/-- C63: predicates and constructors of scalars, for all limbs. -/
theorem C63_scalar_basics (a b : Scalar) (v : UInt32) :
    (Scalar.fromInt v).val = v.toNat ∧ (a.isZero = true ↔ a.val = 0) ∧ (a.isOne = true ↔ a.val = 1) ∧
    (a.isEven = true ↔ a.val % 2 = 0) ∧ (a.checkOverflow = true ↔ n ≤ a.val) ∧ (a.val = b.val ↔ a = b) ∧
    (∃ k, SecretKey.default = pure k ∧ secretInt k = 1) := by
  refine ⟨Scalar.fromInt_val v, Scalar.isZero_iff a, Scalar.isOne_iff a, Scalar.isEven_iff a, Scalar.checkOverflow_iff a,
    ⟨Scalar.val_inj, fun h => h ▸ rfl⟩, ?_⟩
  obtain ⟨r, hr, h1, h2⟩ := Scalar.setB32_runs
    #v[0, 0, 0, 0, 0, 0, 0, 0, 0, 0, 0, 0, 0, 0, 0, 0, 0, 0, 0, 0, 0, 0, 0, 0, 0, 0, 0, 0, 0, 0, 0, 1]
  have e : beNat (#v[0, 0, 0, 0, 0, 0, 0, 0, 0, 0, 0, 0, 0, 0, 0, 0, 0, 0, 0, 0, 0, 0, 0, 0, 0, 0, 0, 0, 0, 0, 0, 1] : Vector UInt8 32).toList = 1 := by
    decide
  rw [e] at h1 h2
  rw [Nat.mod_eq_of_lt (by decide)] at h2
  have hz : r.1.isZero = false := by rw [Bool.eq_false_iff, ne_eq, Scalar.isZero_iff, h2]; decide
  have h1' : r.2 = false := by rw [h1]; decide
  refine ⟨⟨r.1⟩, ?_, h2⟩
  unfold SecretKey.default
  rw [hr, pure_bind, h1', hz, Bool.not_false, dassert_true rfl, pure_bind, pure_bind]

example : (Scalar.fromInt 7).val = 7 ∧ ¬ (Scalar.fromInt 7).isEven = true := by decide +kernel

/-- C50: `clear` of scalars, field elements and points leaves nothing of the previous value: all
results coincide, and every limb is zero. -/
theorem C50_clear_all (s s' : Scalar) (f f' : FElem) (a a' : Affine) (j j' : Jacobian) :
    (s.clear = s'.clear ∧ s.clear.val = 0) ∧
    (f.clear = f'.clear ∧ f.clear.val = 0 ∧ FElem.WF f.clear) ∧
    (a.clear = a'.clear ∧ a.clear.x.val = 0 ∧ a.clear.y.val = 0 ∧ a.clear.infinity = false) ∧
    (j.clear = j'.clear ∧ j.clear.x.val = 0 ∧ j.clear.y.val = 0 ∧ j.clear.z.val = 0 ∧ j.clear.infinity = false) := by
  have h : ∀ f : FElem, f.clear = FElem.zero := fun _ => rfl
  have h0 : FElem.zero.val = 0 := by decide
  refine ⟨⟨rfl, Scalar.zero_val⟩, ⟨rfl, (h f) ▸ h0, (h f) ▸ FElem.zero_feN.1⟩, ⟨rfl, ?_, ?_, rfl⟩, ⟨rfl, ?_, ?_, ?_, rfl⟩⟩
  all_goals exact h0

/-- C64: distinct errors have distinct messages. -/
theorem C64_error_messages (e e' : Error) (h : e.display = e'.display) : e = e' := by
  cases e <;> cases e' <;> first | rfl | (revert h; decide)

example : Error.invalidSignature.display ≠ Error.invalidMessage.display := by decide

end Verif.Props
