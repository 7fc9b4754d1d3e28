import Verif.Proofs.FieldInv
import Verif.Proofs.ScalarBits

/-!
# Properties of scalar and field arithmetic (C07–C10, C12–C15, C51, C55)

`f x = pure r` says that the call returns `r` in both build profiles, without panic.
`Scalar.val`/`FElem.val` is the integer denoted by the limbs.
-/

namespace Verif.Props
open Verif Spec

/-! ## Scalars -/

/-- C07. -/
theorem C07_scalar_add (a b : Scalar) (ha : a.val < n) (hb : b.val < n) :
    ∃ r, Scalar.add a b = pure r ∧ r.val = (a.val + b.val) % n :=
  Scalar.add_runs ha hb

example : (⟨0xD0364140, 0xBFD25E8C, 0xAF48A03B, 0xBAAEDCE6, 0xFFFFFFFE, 0xFFFFFFFF, 0xFFFFFFFF, 0xFFFFFFFF⟩ : Scalar).val < n := by
  decide +kernel

/-- C08. -/
theorem C08_scalar_mul (a b : Scalar) :
    (∃ r, Scalar.mul a b = pure r ∧ r.val = a.val * b.val % n) ∧
    (∃ r, Scalar.sqr a = pure r ∧ r.val = a.val * a.val % n) :=
  ⟨Scalar.mul_runs a b, Scalar.sqr_runs a⟩

/-- C09. -/
theorem C09_scalar_neg (a : Scalar) (ha : a.val < n) :
    (∃ r s, Scalar.neg a = pure r ∧ r.val = (n - a.val) % n ∧ Scalar.add a r = pure s ∧ s = Scalar.zero) ∧
    Scalar.condNeg a false = pure a ∧ Scalar.condNeg a true = Scalar.neg a := by
  refine ⟨?_, Scalar.condNeg_false a, rfl⟩
  obtain ⟨r, hr, hv⟩ := Scalar.neg_runs ha
  have hrn : r.val < n := by rw [hv]; exact Nat.mod_lt _ (by decide +kernel)
  obtain ⟨s, hs, hsv⟩ := Scalar.add_runs ha hrn
  refine ⟨r, s, hr, hv, hs, ?_⟩
  rw [← Scalar.isZero_zero_iff, Scalar.isZero_iff, hsv, hv, Nat.add_mod_mod, Nat.add_sub_cancel' ha.le, Nat.mod_self]

/-- C10, scalars. -/
theorem C10_scalar_inv (a : Scalar) (ha : a.val < n) :
    ∃ r, Scalar.inv a = pure r ∧ r.val < n ∧
      (a.val = 0 → r.val = 0) ∧
      (a.val ≠ 0 → ∃ s, Scalar.mul r a = pure s ∧ s.val = 1) := by
  obtain ⟨r, hr, hlt, hv⟩ := Scalar.inv_val (a := a)
  refine ⟨r, hr, hlt, ?_, ?_⟩
  · intro h0
    rw [h0, Nat.cast_zero, inv_zero, ZMod.natCast_eq_zero_iff] at hv
    exact Nat.eq_zero_of_dvd_of_lt hv hlt
  · intro h0
    obtain ⟨s, hs, hsv⟩ := Scalar.mul_runs r a
    refine ⟨s, hs, ?_⟩
    have hne : (a.val : ZMod n) ≠ 0 := by
      rw [ne_eq, ZMod.natCast_eq_zero_iff]
      exact fun hd => h0 (Nat.eq_zero_of_dvd_of_lt hd ha)
    have h1 : ((r.val * a.val : ℕ) : ZMod n) = ((1 : ℕ) : ZMod n) := by
      push_cast; rw [hv]; exact inv_mul_cancel₀ hne
    rw [hsv, (ZMod.natCast_eq_natCast_iff' _ _ _).1 h1]
    decide +kernel

/-- C51: bit access and shifts. -/
theorem C51_scalar_bits (a : Scalar) :
    (∀ offset count : ℕ, 0 < count → count < 32 → offset < 256 → offset % 32 + count ≤ 32 →
      ∃ r, Scalar.bits a offset count = pure r ∧ r.toNat = a.val / 2 ^ offset % 2 ^ count) ∧
    (∀ offset count : ℕ, 0 < count → count < 32 → offset + count ≤ 256 →
      ∃ r, Scalar.bitsVar a offset count = pure r ∧ r.toNat = a.val / 2 ^ offset % 2 ^ count) ∧
    (∀ k : ℕ, 0 < k → k < 16 →
      ∃ r, Scalar.shrInt a k = pure r ∧ r.1.toNat = a.val % 2 ^ k ∧ r.2.val = a.val / 2 ^ k) ∧
    (∀ (bit : ℕ) (flag : Bool), bit < 256 → a.val + (if flag then 2 ^ bit else 0) < n →
      ∃ r, Scalar.caddBit a bit flag = pure r ∧ r.val = a.val + if flag then 2 ^ bit else 0) :=
  ⟨fun _ _ h1 h2 h3 h4 => Scalar.bits_runs a h1 h2 h3 h4, fun _ _ h1 h2 h3 => Scalar.bitsVar_runs a h1 h2 h3,
    fun _ h1 h2 => Scalar.shrInt_runs a h1 h2, fun _ flag h1 h2 => Scalar.caddBit_runs a flag h1 h2⟩

/-! ## Field elements

`FElem.WF f` is the representation invariant checked by `Field::verify` (field.rs:74-118): limbs
bounded by the magnitude, magnitude at most 32, and for normalized elements the least residue. -/

/-- A field element that is well-formed and far from trivial: magnitude 8, all limbs maximal. -/
def bigElem : FElem :=
  { n := ⟨1073741808, 1073741808, 1073741808, 1073741808, 1073741808, 1073741808, 1073741808, 1073741808, 1073741808, 67108848⟩
    magnitude := 8, normalized := false }

theorem bigElem_wf : FElem.WF bigElem ∧ bigElem.magnitude.toNat ≤ 8 := by
  refine ⟨⟨?_, by decide, fun h => by cases h⟩, by decide⟩
  constructor <;> decide

/-- C12. -/
theorem C12_field_mul (f g : FElem) (hf : FElem.WF f) (hg : FElem.WF g)
    (mf : f.magnitude.toNat ≤ 8) (mg : g.magnitude.toNat ≤ 8) :
    (∃ r, FElem.mul f g = pure r ∧ FElem.WF r ∧ r.magnitude = 1 ∧ (r.val : Fp) = f.val * g.val) ∧
    (∃ r, FElem.sqr f = pure r ∧ FElem.WF r ∧ r.magnitude = 1 ∧ (r.val : Fp) = f.val * f.val) := by
  constructor
  · obtain ⟨r, hr, h1, h2, _⟩ := FElem.fe_mul ⟨hf, mf, rfl⟩ ⟨hg, mg, rfl⟩ le_rfl le_rfl
    exact ⟨r, hr, h1.1, h2, h1.2.2⟩
  · obtain ⟨r, hr, h1, h2, _⟩ := FElem.fe_sqr ⟨hf, mf, rfl⟩ le_rfl
    exact ⟨r, hr, h1.1, h2, h1.2.2⟩

example : FElem.WF bigElem ∧ bigElem.magnitude.toNat ≤ 8 := bigElem_wf

/-- C12, the linear operations and their magnitudes. -/
theorem C12_field_linear (f g : FElem) (hf : FElem.WF f) (hg : FElem.WF g) :
    (f.magnitude.toNat + g.magnitude.toNat ≤ 32 →
      ∃ r, FElem.add f g = pure r ∧ FElem.WF r ∧
        r.magnitude.toNat = f.magnitude.toNat + g.magnitude.toNat ∧ (r.val : Fp) = f.val + g.val) ∧
    (∀ m : UInt32, f.magnitude.toNat ≤ m.toNat → m.toNat ≤ 31 →
      ∃ r, FElem.neg f m = pure r ∧ FElem.WF r ∧ r.magnitude.toNat = m.toNat + 1 ∧ (r.val : Fp) = -(f.val : Fp)) ∧
    (∀ a : UInt32, f.magnitude.toNat * a.toNat ≤ 32 →
      ∃ r, FElem.mulInt f a = pure r ∧ FElem.WF r ∧ r.magnitude.toNat = f.magnitude.toNat * a.toNat ∧
        (r.val : Fp) = f.val * a.toNat) := by
  refine ⟨fun h => ?_, fun m h1 h2 => ?_, fun a h => ?_⟩
  · obtain ⟨r, hr, h1, h2⟩ := FElem.fe_add ⟨hf, le_rfl, rfl⟩ ⟨hg, le_rfl, rfl⟩ h
    exact ⟨r, hr, h1.1, h2, h1.2.2⟩
  · obtain ⟨r, hr, h3, h4⟩ := FElem.fe_neg (M := m.toNat) ⟨hf, h1, rfl⟩ rfl h2
    exact ⟨r, hr, h3.1, h4, h3.2.2⟩
  · obtain ⟨r, hr, h3, h4⟩ := FElem.fe_mulInt (M := f.magnitude.toNat) a.toNat ⟨hf, le_rfl, rfl⟩ rfl h
    exact ⟨r, hr, h3.1, h4, h3.2.2⟩

/-- C13. -/
theorem C13_field_normalize (f g : FElem) (hf : FElem.WF f) (hg : FElem.WF g) (mf : f.magnitude.toNat ≤ 31) :
    (∃ r, FElem.normalize f = pure r ∧ FElem.WF r ∧ r.normalized = true ∧ r.magnitude = 1 ∧ r.val = f.val % p) ∧
    (∃ r, FElem.normalizeVar f = pure r ∧ FElem.WF r ∧ r.normalized = true ∧ r.magnitude = 1 ∧ r.val = f.val % p) ∧
    (∃ r, FElem.normalizeWeak f = pure r ∧ FElem.WF r ∧ r.magnitude = 1 ∧ r.val % p = f.val % p) ∧
    (∃ b, FElem.normalizesToZero f = pure b ∧ (b = true ↔ f.val % p = 0)) ∧
    (∃ b, FElem.normalizesToZeroVar f = pure b ∧ (b = true ↔ f.val % p = 0)) ∧
    (f.magnitude.toNat + 1 + g.magnitude.toNat ≤ 31 →
      ∃ b, FElem.eq f g = pure b ∧ (b = true ↔ f.val % p = g.val % p)) := by
  refine ⟨?_, ?_, ?_, ?_, ?_, fun h => ?_⟩
  · exact FElem.normalize_runs hf mf
  · exact FElem.normalizeVar_runs hf mf
  · obtain ⟨r, hr, h1, h2, h3, _⟩ := FElem.normalizeWeak_runs hf mf
    exact ⟨r, hr, h1, h2, h3⟩
  · obtain ⟨b, hb, h⟩ := FElem.normalizesToZero_runs hf mf
    exact ⟨b, hb, by rw [h, decide_eq_true_eq]⟩
  · obtain ⟨b, hb, h⟩ := FElem.normalizesToZeroVar_runs hf mf
    exact ⟨b, hb, by rw [h, decide_eq_true_eq]⟩
  · obtain ⟨b, hb, h⟩ := FElem.eq_runs (x := f.val) (y := g.val) ⟨hf, le_rfl, rfl⟩ ⟨hg, le_rfl, rfl⟩ h
    exact ⟨b, hb, by rw [h, decide_eq_true_eq]; exact ZMod.natCast_eq_natCast_iff' _ _ _⟩

example : FElem.WF bigElem ∧ bigElem.magnitude.toNat ≤ 31 := ⟨bigElem_wf.1, by decide⟩

/-- C14. -/
theorem C14_field_inv_sqrt (f : FElem) (hf : FElem.WF f) (mf : f.magnitude.toNat ≤ 8) :
    (∃ r, FElem.inv f = pure r ∧ FElem.WF r ∧ r.magnitude.toNat ≤ 1 ∧ (r.val : Fp) = (f.val : Fp)⁻¹) ∧
    (∃ r ok, FElem.sqrt f = pure (r, ok) ∧ FElem.WF r ∧ r.magnitude.toNat ≤ 1 ∧ (ok = true ↔ IsSquare (f.val : Fp)) ∧
      (ok = true → (r.val : Fp) ^ 2 = f.val)) := by
  constructor
  · obtain ⟨r, hr, h⟩ := FElem.fe_inv ⟨hf, mf, rfl⟩ le_rfl
    exact ⟨r, hr, h.1, h.2.1, h.2.2⟩
  · obtain ⟨⟨r, ok⟩, hr, y, h1, h2, h3⟩ := FElem.fe_sqrt ⟨hf, mf, rfl⟩ le_rfl
    refine ⟨r, ok, hr, h1.1, h1.2.1, h2, fun h => ?_⟩
    rw [h1.2.2]; exact h3 (h2.1 h)

example : FElem.WF bigElem ∧ bigElem.magnitude.toNat ≤ 8 := bigElem_wf

/-- C15. -/
theorem C15_field_bytes :
    (∀ (f : FElem) (b : Vector UInt8 32), ∃ r ok, FElem.setB32 f b = pure (r, ok) ∧
      (ok = true ↔ beNat b.toList < p) ∧
      (ok = true → FElem.WF r ∧ r.normalized = true ∧ r.val = beNat b.toList)) ∧
    (∀ f : FElem, FElem.WF f → f.normalized = true →
      (∃ b, FElem.b32 f = pure b ∧ b.toList = beBytes 32 f.val) ∧
      (∃ s, FieldStorage.ofField f = pure s ∧ (FieldStorage.toField s).normalized = true ∧
        FElem.WF (FieldStorage.toField s) ∧ (FieldStorage.toField s).val = f.val)) := by
  constructor
  · intro f b
    obtain ⟨⟨r, ok⟩, hr, h1, h2⟩ := FElem.setB32_runs f b
    dsimp only at h1 h2
    refine ⟨r, ok, hr, by rw [h1, decide_eq_true_eq], fun h => ?_⟩
    obtain ⟨h3, _⟩ := h2 h
    have hlt : beNat b.toList < p := by rwa [h1, decide_eq_true_eq] at h
    refine ⟨h3.1, h3.2.1, ?_⟩
    rw [h3.2.2, ZMod.val_natCast, Nat.mod_eq_of_lt hlt]
  · intro f hf hn
    have hlt := (hf.norm hn).2.2
    have hv : f.val = (f.val : Fp).val := by rw [ZMod.val_natCast, Nat.mod_eq_of_lt hlt]
    have hF : FElem.FeN f (f.val : Fp) := ⟨hf, hn, hv⟩
    constructor
    · obtain ⟨b, hb, h⟩ := FElem.b32_runs hF
      exact ⟨b, hb, by rw [h, ← hv]⟩
    · obtain ⟨s, hs, h⟩ := FieldStorage.ofField_runs hF
      have := FieldStorage.toField_feN h
      exact ⟨s, hs, this.2.1, this.1, by rw [this.2.2, ← hv]⟩

example : ∃ f : FElem, FElem.WF f ∧ f.normalized = true ∧ f.val = Gx := by
  have h := (FieldStorage.toField_feN (a := FieldStorage.new 0x79BE667E 0xF9DCBBAC 0x55A06295 0xCE870B07 0x029BFCDB 0x2DCE28D9 0x59F2815B 0x16F81798)
    (x := (Gx : Fp)) (by rw [ZMod.val_natCast]; decide +kernel))
  exact ⟨_, h.1, h.2.1, by rw [h.2.2, ZMod.val_natCast]; decide +kernel⟩

/-! ## The group -/

/-- C55: the curve has exactly `n` points, `n` is prime, and every point is a multiple of `G`. -/
theorem C55_group_order : n.Prime ∧ p.Prime ∧ Nat.card Pt = n ∧ (∀ P : Pt, n • P = 0) ∧
    (∀ P : Pt, ∃ k < n, P = k • G) ∧ (∀ P : Pt, P ≠ 0 → ∀ k : ℕ, k • P = 0 ↔ n ∣ k) :=
  ⟨n_prime, p_prime, card_pt, n_smul, exists_smul_G, fun _ h _ => smul_eq_zero_iff h⟩

example : G ≠ 0 := G_ne_zero

end Verif.Props
