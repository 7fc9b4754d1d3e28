import Mathlib.Algebra.Field.TransferInstance
import Verif.Props.Debug
import Verif.Props.Ecdsa
import Verif.Props.Core

/-!
# Laws of the operators (C103, C104)
-/

namespace Verif.Props
open Verif Spec

/-! ## `Eq` and `Ord` -/

theorem natCast_eq_mod {a b : ℕ} : ((a : ℕ) : Fp) = b ↔ a % p = b % p := ZMod.natCast_eq_natCast_iff' a b p

/-- C103: `==` of field elements is equality modulo `p`, while the magnitudes add up to 30 at most. -/
theorem C103_field_eq (f g : FElem) (hf : FElem.WF f) (hg : FElem.WF g) (h : f.magnitude.toNat + g.magnitude.toNat ≤ 30) :
    FElem.eq f g = pure (decide (f.val % p = g.val % p)) := by
  obtain ⟨r, hr, h⟩ := FElem.eq_runs (f := f) (g := g) ⟨hf, le_rfl, rfl⟩ ⟨hg, le_rfl, rfl⟩ (by omega)
  rw [hr, h, decide_eq_decide.2 natCast_eq_mod]

/-- Two representations of zero. -/
example : ∃ f g : FElem, f ≠ g ∧ FElem.WF f ∧ FElem.WF g ∧ f.magnitude.toNat + g.magnitude.toNat ≤ 30 ∧ f.val % p = g.val % p := by
  refine ⟨⟨⟨0, 0, 0, 0, 0, 0, 0, 0, 0, 0⟩, 15, false⟩, FElem.zero, by decide, (C61_verify _).2.1 ?_, (C61_verify _).2.1 ?_, ?_, ?_⟩ <;>
    decide +kernel

/-- The element zero with magnitude 15. -/
def zero15 : FElem := ⟨⟨0, 0, 0, 0, 0, 0, 0, 0, 0, 0⟩, 15, false⟩

/-- The largest limbs allowed by the magnitude 16. -/
def max16 : FElem :=
  ⟨⟨0x7fffffe0, 0x7fffffe0, 0x7fffffe0, 0x7fffffe0, 0x7fffffe0, 0x7fffffe0, 0x7fffffe0, 0x7fffffe0, 0x7fffffe0, 0x7ffffe0⟩, 16, false⟩

/-- C103: with magnitudes that add up to 31 a debug build can panic in `==`. -/
theorem C103_field_eq_panics : FElem.WF zero15 ∧ FElem.WF max16 ∧ FElem.eq zero15 max16 .debug = none ∧
    FElem.eq zero15 max16 .release ≠ none := by
  refine ⟨(C61_verify _).2.1 ?_, (C61_verify _).2.1 ?_, ?_, ?_⟩ <;> decide +kernel

/-- C103: on normalized elements `cmp` is the order of the least residues; so it is a total order that agrees with `==`. -/
theorem C103_field_ord (f g h : FElem) (hf : FElem.WF f ∧ f.normalized = true) (hg : FElem.WF g ∧ g.normalized = true)
    (hh : FElem.WF h ∧ h.normalized = true) :
    ∃ o, FElem.cmpVar f g = pure o ∧ FElem.cmpVar g f = pure o.swap ∧
      (o = .eq ↔ FElem.eq f g = pure true) ∧
      (FElem.cmpVar f g = pure .lt → FElem.cmpVar g h = pure .lt → FElem.cmpVar f h = pure .lt) := by
  have C : ∀ {f g : FElem}, FElem.WF f ∧ f.normalized = true → FElem.WF g ∧ g.normalized = true →
      FElem.cmpVar f g = pure (compare f.val g.val) :=
    fun {f g} hf hg => ((C61_inspect f g hf.1 hg.1).1 hf.2).2.2 hg.2
  have L : ∀ {f : FElem}, FElem.WF f ∧ f.normalized = true → f.val < p ∧ f.magnitude.toNat ≤ 1 := by
    intro f hf
    obtain ⟨h1, _, h2⟩ := hf.1.norm hf.2
    exact ⟨h2, h1⟩
  refine ⟨compare f.val g.val, C hf hg, ?_, ?_, ?_⟩
  · rw [C hg hf, Nat.compare_swap]
  · rw [C103_field_eq f g hf.1 hg.1 (by have := (L hf).2; have := (L hg).2; omega), Nat.compare_eq_eq,
      Nat.mod_eq_of_lt (L hf).1, Nat.mod_eq_of_lt (L hg).1]
    constructor
    · intro e; rw [decide_eq_true e]
    · intro e; exact of_decide_eq_true (pure_inj' e)
  · rw [C hf hg, C hg hh, C hf hh]
    intro h1 h2
    have h1 := Nat.compare_eq_lt.1 (pure_inj' h1)
    have h2 := Nat.compare_eq_lt.1 (pure_inj' h2)
    rw [Nat.compare_eq_lt.2 (h1.trans h2)]

/-- Three different normalized elements. -/
example : (FElem.WF FElem.zero ∧ FElem.zero.normalized = true) ∧ (FElem.WF Affine.g.x ∧ Affine.g.x.normalized = true) ∧
    (FElem.WF Affine.g.y ∧ Affine.g.y.normalized = true) ∧ Affine.g.y.val < Affine.g.x.val := by
  refine ⟨⟨(C61_verify _).2.1 ?_, ?_⟩, ⟨(C61_verify _).2.1 ?_, ?_⟩, ⟨(C61_verify _).2.1 ?_, ?_⟩, ?_⟩ <;> decide +kernel

/-- The limbs of `p`. -/
def pLimbs : FElem :=
  ⟨⟨0x3fffc2f, 0x3ffffbf, 0x3ffffff, 0x3ffffff, 0x3ffffff, 0x3ffffff, 0x3ffffff, 0x3ffffff, 0x3ffffff, 0x3fffff⟩, 1, false⟩

/-- C103: without normalization `cmp` and `==` disagree in a release build, and `cmp` panics in a debug build. -/
theorem C103_ord_unnormalized : FElem.WF pLimbs ∧ FElem.WF FElem.zero ∧ FElem.eq pLimbs FElem.zero = pure true ∧
    FElem.cmpVar pLimbs FElem.zero .release = some .gt ∧ FElem.cmpVar pLimbs FElem.zero .debug = none := by
  have h1 : FElem.WF pLimbs := (C61_verify _).2.1 (by decide +kernel)
  have h2 : FElem.WF FElem.zero := (C61_verify _).2.1 (by decide +kernel)
  refine ⟨h1, h2, ?_, by decide +kernel, by decide +kernel⟩
  rw [C103_field_eq _ _ h1 h2 (by decide)]
  exact congrArg pure (by decide +kernel)

/-- C103: `==` of affine points compares the coordinates, also of points at infinity. -/
theorem C103_affine_eq (a b : Affine) (ha : Coord a.x ∧ Coord a.y) (hb : Coord b.x ∧ Coord b.y) :
    Affine.eq a b = pure (decide (a.x.val % p = b.x.val % p ∧ a.y.val % p = b.y.val % p ∧ a.infinity = b.infinity)) := by
  unfold Affine.eq
  have c : ∀ {f : FElem}, Coord f → f.magnitude.toNat ≤ 8 := fun h => h.2
  rw [C103_field_eq _ _ ha.1.1 hb.1.1 (by have := c ha.1; have := c hb.1; omega), pure_bind]
  by_cases hx : a.x.val % p = b.x.val % p
  · rw [decide_eq_true hx, if_pos rfl, C103_field_eq _ _ ha.2.1 hb.2.1 (by have := c ha.2; have := c hb.2; omega), pure_bind]
    refine congrArg pure ?_
    rw [Bool.eq_iff_iff]
    simp [hx]
  · rw [decide_eq_false hx, if_neg (by decide), pure_bind]
    refine congrArg pure ?_
    rw [Bool.eq_iff_iff]
    simp [hx]

/-- C103: two representations of the point at infinity that are not `==`. -/
theorem C103_infinities : DenotesA ⟨Affine.g.x, Affine.g.y, true⟩ 0 ∧ DenotesA Affine.infinityPoint 0 ∧
    Affine.eq ⟨Affine.g.x, Affine.g.y, true⟩ Affine.infinityPoint = pure false := by
  have h1 := C62_constants.1
  have h2 := C62_constants.2.1
  refine ⟨⟨h1.1, h1.2.1, Or.inl ⟨rfl, rfl⟩⟩, h2, ?_⟩
  refine (C103_affine_eq ⟨Affine.g.x, Affine.g.y, true⟩ _ ⟨h1.1, h1.2.1⟩ ⟨h2.1, h2.2.1⟩).trans ?_
  exact congrArg pure (by decide +kernel)

/-! ## Field laws -/

/-- Scalars below the group order. -/
abbrev Canon := {a : Scalar // a.val < n}

/-- The value of a canonical scalar, as a bijection. -/
noncomputable def canonEquiv : Canon ≃ ZMod n :=
  Equiv.ofBijective (fun a => (a.1.val : ZMod n)) ⟨fun a b h => by
    have h : ((a.1.val : ℕ) : ZMod n) = (b.1.val : ℕ) := h
    have := congrArg ZMod.val h
    rw [ZMod.val_natCast_of_lt a.2, ZMod.val_natCast_of_lt b.2] at this
    exact Subtype.ext (Scalar.val_inj this), fun z => by
    obtain ⟨a, ha⟩ := exists_scalar (ZMod.val_lt z)
    exact ⟨⟨a, ha ▸ ZMod.val_lt z⟩, by show ((a.val : ℕ) : ZMod n) = z; rw [ha, ZMod.natCast_zmod_val]⟩⟩

theorem canon_eq {r : Scalar} {z : ZMod n} (h : Sc r z) : r = (canonEquiv.symm z).1 := by
  have : (⟨r, h.lt⟩ : Canon) = canonEquiv.symm z := by
    rw [Equiv.eq_symm_apply]
    exact h.cast
  rw [← this]

/-- C104: the scalars below `n` with the operators of the code are a field, isomorphic to the integers modulo `n`. -/
theorem C104_scalars : ∃ (_ : Field Canon) (e : Canon ≃+* ZMod n), (∀ a, e a = (a.1.val : ZMod n)) ∧
    (∀ a b : Canon, Scalar.add a.1 b.1 = pure (a + b).1) ∧
    (∀ a b : Canon, Scalar.mul a.1 b.1 = pure (a * b).1) ∧
    (∀ a : Canon, Scalar.sqr a.1 = pure (a ^ 2).1) ∧
    (∀ a : Canon, Scalar.neg a.1 = pure (-a).1) ∧
    (∀ a : Canon, Scalar.inv a.1 = pure (a⁻¹).1) ∧
    (0 : Canon).1 = Scalar.zero ∧ (1 : Canon).1 = Scalar.fromInt 1 := by
  let F := canonEquiv.field
  have S : ∀ a : Canon, Sc a.1 (canonEquiv a) := fun a => sc_of a.2
  refine ⟨F, canonEquiv.ringEquiv, fun _ => rfl, fun a b => ?_, fun a b => ?_, fun a => ?_, fun a => ?_, fun a => ?_, ?_, ?_⟩
  · obtain ⟨r, hr, h⟩ := sc_add (S a) (S b)
    rw [hr, canon_eq h]; rfl
  · obtain ⟨r, hr, h⟩ := sc_mul (S a) (S b)
    rw [hr, canon_eq h]; rfl
  · obtain ⟨r, hr, h⟩ := Scalar.sqr_runs a.1
    have h := sc_mod h
    rw [Nat.cast_mul, (S a).cast] at h
    rw [hr, canon_eq h, pow_two]; rfl
  · obtain ⟨r, hr, h⟩ := sc_neg (S a)
    rw [hr, canon_eq h]; rfl
  · obtain ⟨r, hr, h⟩ := sc_inv (S a)
    rw [hr, canon_eq h]; rfl
  · refine (canon_eq (z := 0) ?_).symm
    unfold Sc
    rw [Scalar.zero_val, ZMod.val_zero]
  · refine (canon_eq (z := 1) ?_).symm
    refine sc_of_cast (by decide +kernel) ?_
    rw [Scalar.fromInt_val]
    exact Nat.cast_one

/-- Normalized field elements, as `set_b32` and `normalize` leave them. -/
abbrev Normal := {f : FElem // FElem.WF f ∧ f.normalized = true ∧ f.magnitude = 1}

theorem normal_feN (f : Normal) : FElem.FeN f.1 (f.1.val : Fp) := feN_self f.2.1 f.2.2.1

/-- The value of a normalized field element, as a bijection. -/
noncomputable def normalEquiv : Normal ≃ Fp :=
  Equiv.ofBijective (fun a => (a.1.val : Fp)) ⟨fun a b h => by
    have h : ((a.1.val : ℕ) : Fp) = (b.1.val : ℕ) := h
    have ha := normal_feN a
    rw [h] at ha
    exact Subtype.ext (ha.ext (normal_feN b) (a.2.2.2.trans b.2.2.2.symm)), fun z => by
    obtain ⟨b, hb⟩ := exists_b32 (v := z.val) ((ZMod.val_lt z).trans (by decide +kernel))
    obtain ⟨r, _, h1, h2⟩ := FElem.setB32_runs FElem.zero b
    rw [hb] at h1 h2
    obtain ⟨h3, h4⟩ := h2 (by rw [h1]; exact decide_eq_true (ZMod.val_lt z))
    rw [ZMod.natCast_zmod_val] at h3
    exact ⟨⟨r.1, h3.1, h3.2.1, h4⟩, h3.fe.2.2⟩⟩

theorem normal_eq {r : FElem} {z : Fp} (h : FElem.FeN r z) (hm : r.magnitude = 1) : r = (normalEquiv.symm z).1 := by
  have : (⟨r, h.1, h.2.1, hm⟩ : Normal) = normalEquiv.symm z := by
    rw [Equiv.eq_symm_apply]
    exact h.fe.2.2
  rw [← this]

theorem then_normalize {x : Exec FElem} {m : ℕ} {z : Fp} (h : Runs x fun r => FElem.Fe r m z) (hm : m ≤ 31) :
    x >>= FElem.normalize = pure (normalEquiv.symm z).1 := by
  obtain ⟨r, hr, h⟩ := h
  obtain ⟨s, hs, h1, h2⟩ := FElem.fe_normalize h hm
  rw [hr, pure_bind, hs, normal_eq h1 h2]

/-- C104: the normalized field elements with the operators of the code, followed by `normalize`, are a field, isomorphic to the integers
modulo `p`. -/
theorem C104_field : ∃ (_ : Field Normal) (e : Normal ≃+* ZMod p), (∀ a, e a = (a.1.val : ZMod p)) ∧
    (∀ a b : Normal, FElem.add a.1 b.1 >>= FElem.normalize = pure (a + b).1) ∧
    (∀ a b : Normal, FElem.mul a.1 b.1 >>= FElem.normalize = pure (a * b).1) ∧
    (∀ a : Normal, FElem.sqr a.1 >>= FElem.normalize = pure (a ^ 2).1) ∧
    (∀ a : Normal, FElem.neg a.1 1 >>= FElem.normalize = pure (-a).1) ∧
    (∀ a : Normal, FElem.inv a.1 >>= FElem.normalize = pure (a⁻¹).1) ∧
    (∀ v : UInt32, v.toNat < 2 ^ 26 → ∃ r, FElem.fromInt v = pure r ∧ FElem.normalize r = pure ((v.toNat : ℕ) : Normal).1) := by
  let F := normalEquiv.field
  have S : ∀ a : Normal, FElem.Fe a.1 1 (normalEquiv a) := fun a => (normal_feN a).fe
  refine ⟨F, normalEquiv.ringEquiv, fun _ => rfl, fun a b => ?_, fun a b => ?_, fun a => ?_, fun a => ?_, fun a => ?_, fun v hv => ?_⟩
  · exact then_normalize ((FElem.fe_add (S a) (S b) (by norm_num)).mono fun _ h => h.1) (by norm_num)
  · exact then_normalize ((FElem.fe_mul (S a) (S b) (by norm_num) (by norm_num)).mono fun _ h => h.1) (by norm_num)
  · rw [pow_two]
    exact then_normalize ((FElem.fe_sqr (S a) (by norm_num)).mono fun _ h => h.1) (m := 1) (by norm_num)
  · exact then_normalize ((FElem.fe_neg (M := 1) (S a) rfl (by norm_num)).mono fun _ h => h.1) (by norm_num)
  · exact then_normalize (FElem.fe_inv (S a) (by norm_num)) (by norm_num)
  · obtain ⟨r, hr, h1, h2, h3⟩ := (C61_construct 0 0 0 0 0 0 0 0 v).2.2.1 hv
    refine ⟨r, hr, ?_⟩
    have e := then_normalize (m := 1) ⟨r, rfl, (feN_self h1 h2).fe⟩ (by norm_num)
    rw [pure_bind, h3] at e
    rw [e]
    have : normalEquiv.ringEquiv.symm ((v.toNat : ℕ) : Fp) = ((v.toNat : ℕ) : Normal) := map_natCast _ _
    exact congrArg (fun a : Normal => (pure a.1 : Exec FElem)) this

end Verif.Props
