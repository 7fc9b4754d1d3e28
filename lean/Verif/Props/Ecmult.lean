import Verif.Proofs.Points
import Verif.Proofs.Ecmult
import Verif.Proofs.Gen
import Verif.Props.Group

/-!
# Properties of the multiplication algorithms (C34–C38, C52)
-/

namespace Verif.Props
open Verif Spec Ecmult

/-- C34. -/
theorem C34_ecmult : ∃ ctx, newContext = pure ctx ∧
    ∀ (a : Jacobian) (na ng : Scalar) (A : Pt), DenotesJ a A → A ≠ 0 → na.val < n → ng.val < n →
      ∃ r, ecmult ctx a na ng = pure r ∧ DenotesJ r (na.val • A + ng.val • G) := by
  obtain ⟨ctx, hctx, h⟩ := newContext_runs
  refine ⟨ctx, hctx, fun a na ng A ha hA hna hng => ?_⟩
  obtain ⟨r, hr, h⟩ := ecmult_runs h (denotesJ_iff.1 ha) hA hna hng
  exact ⟨r, hr, denotesJ_iff.2 h⟩

/-- The scalar `n - 1`. -/
def scalarMax : Scalar := ⟨0xD0364140, 0xBFD25E8C, 0xAF48A03B, 0xBAAEDCE6, 0xFFFFFFFE, 0xFFFFFFFF, 0xFFFFFFFF, 0xFFFFFFFF⟩

/-- The scalar 1. -/
def scalarOne : Scalar := ⟨1, 0, 0, 0, 0, 0, 0, 0⟩

theorem scalarMax_val : scalarMax.val = n - 1 := by decide +kernel

/-- The hypotheses of C34 cover a result at infinity with both scalars nonzero. -/
example : ∃ a A, DenotesJ a A ∧ A ≠ 0 ∧ scalarMax.val < n ∧ scalarOne.val < n ∧ scalarMax.val • A + scalarOne.val • G = 0 := by
  refine ⟨_, G, (exists_denotes G).2.choose_spec, G_ne_zero, by decide +kernel, by decide +kernel, ?_⟩
  rw [← add_nsmul, show scalarMax.val + scalarOne.val = n by decide +kernel, n_smul]

/-- C35. Canonical scalars include 0, whose multiple is infinity. -/
theorem C35_ecmult_const (a : Affine) (s : Scalar) (A : Pt) (ha : DenotesA a A) (hA : A ≠ 0) (hs : s.val < n) :
    ∃ r, ecmultConst a s = pure r ∧ DenotesJ r (s.val • A) := by
  obtain ⟨r, hr, h⟩ := ecmultConst_runs (denotesA_iff.1 ha) hA hs
  exact ⟨r, hr, denotesJ_iff.2 h⟩

example : ∃ a, DenotesA a G ∧ G ≠ 0 ∧ scalarMax.val < n := ⟨_, (exists_denotes G).1.choose_spec, G_ne_zero, by decide +kernel⟩

/-- C36, for all limbs, reduced or not. The context is the generated one: its blinding scalar and initial point are the constants
of the source. -/
theorem C36_ecmult_gen : ∃ ctx, newGenContext = pure ctx ∧
    ctx.blind.val ≠ 0 ∧ (∀ k : Scalar, ∃ r, ecmultGen ctx k = pure r ∧ DenotesJ r (k.val • G)) := by
  obtain ⟨ctx, hctx, h1, h2, h3⟩ := newGenContext_runs
  refine ⟨ctx, hctx, by rw [h2]; decide +kernel, fun k => ?_⟩
  obtain ⟨r, hr, h⟩ := ecmultGen_runs h1 h2 h3
  exact ⟨r, hr, denotesJ_iff.2 h⟩

example : Scalar.zero.val < n ∧ scalarMax.val < n := by decide +kernel

theorem sto_denotes {s : AffineStorage} {P : Pt} (h : Sto s P) : DenotesA (Affine.ofStorage s) P ∧ P ≠ 0 :=
  ⟨denotesA_iff.2 (Affine.ofStorage_aff h).1, h.ne_zero⟩

/-- C37. Both tables hold finite points only. -/
theorem C37_contexts :
    (∃ ctx, newContext = pure ctx ∧ ctx.length = 16384 ∧
      ∀ i (h : i < ctx.length), DenotesA (Affine.ofStorage ctx[i]) ((2 * i + 1) • G) ∧ (2 * i + 1) • G ≠ 0) ∧
    (∃ ctx, ∃ u : ℕ → Pt, newGenContext = pure ctx ∧ ctx.prec.length = 64 ∧ ∑ j ∈ Finset.range 64, u j = 0 ∧
      ∀ j (hj : j < ctx.prec.length), ctx.prec[j].length = 16 ∧ ∀ i (hi : i < ctx.prec[j].length),
        DenotesA (Affine.ofStorage ctx.prec[j][i]) (i • 16 ^ j • G + u j) ∧ i • 16 ^ j • G + u j ≠ 0) := by
  constructor
  · obtain ⟨ctx, hctx, h1, h2⟩ := newContext_runs
    exact ⟨ctx, hctx, h1, fun i hi => sto_denotes (h2 i hi)⟩
  · obtain ⟨ctx, hctx, h1, h2, h3⟩ := newGenContext_runs
    refine ⟨ctx, rowOff, hctx, h1.rows, ?_, fun j hj => ⟨h1.cols j hj, fun i hi => sto_denotes (h1.entry j hj i hi)⟩⟩
    have : ∀ k, ∑ j ∈ Finset.range k, rowOff j = offSum k := by
      intro k
      induction k with
      | zero => rfl
      | succ k ih => rw [Finset.sum_range_succ, ih, offSum]
    rw [this, offSum_64]

/-- C38, `ecmult_wnaf`: the digits sum to the scalar modulo `n`. -/
theorem C38_wnaf (a : Scalar) (w : ℕ) (ha : a.val < n) (hw : 2 ≤ w) (hw' : w ≤ 30) :
    ∃ digits len, ecmultWnaf 256 a w = pure (digits, len) ∧ digits.length = 256 ∧
      0 ≤ len ∧ len ≤ 256 ∧
      ((digitSum 2 digits : ℤ) : ZMod n) = (a.val : ZMod n) ∧
      (∀ i (h : i < digits.length), len ≤ i → digits[i] = 0) ∧
      (∀ d ∈ digits, d ≠ 0 → d % 2 = 1 ∧ |d| < 2 ^ (w - 1)) := by
  obtain ⟨⟨ds, len⟩, hr, h⟩ := ecmultWnaf_runs (L := 256) ha hw hw' le_rfl (Or.inl rfl)
  refine ⟨ds, len, hr, h.len, h.lo, h.hi, ?_, h.zero, fun d hd h0 => ?_⟩
  · have := h.sum
    dsimp only at this
    rw [this]
    unfold signedVal
    split <;> simp
  · obtain ⟨i, hi, rfl⟩ := List.mem_iff_getElem.1 hd
    obtain ⟨h1, h2, h3⟩ := h.dig i hi h0
    exact ⟨h1, abs_lt.2 ⟨h2, h3⟩⟩

example : scalarMax.val < n ∧ 2 ≤ 5 ∧ 5 ≤ 30 := by decide +kernel

/-- C38, boundary: the assertion of `ecmult_wnaf` admits a window of 31 bits, but then the digit
arithmetic overflows (a panic in the debug profile). -/
theorem C38_wnaf_31_panics : ecmultWnaf 256 ⟨0x40000001, 0, 0, 0, 0, 0, 0, 0⟩ 31 .debug = none := by decide +kernel

/-- C38, `ecmult_wnaf_const` with the window used by the library: 65 odd digits of at most 4 bits
and a sign, whose sum is the scalar plus the skew modulo `n`. -/
theorem C38_wnaf_const (a : Scalar) (ha : a.val < n) :
    ∃ digits skew, ecmultWnafConst (List.replicate 65 0) a 4 = pure (digits, skew) ∧ digits.length = 65 ∧ (skew = 1 ∨ skew = 2) ∧
      ((digitSum 16 digits : ℤ) : ZMod n) = (a.val : ZMod n) + skew ∧
      (∀ d ∈ digits, d % 2 = 1 ∧ |d| ≤ 15) := by
  obtain ⟨⟨ds, skew⟩, hr, h⟩ := ecmultWnafConst_runs (w := 4) (wnaf := List.replicate 65 0) ha (by norm_num) (by norm_num) (by rw [List.length_replicate])
  refine ⟨ds, skew, hr, h.len, h.skew, ?_, fun d hd => ?_⟩
  · have := h.sum
    dsimp only at this
    norm_num at this
    rcases this with e | e <;> rw [e] <;> simp
  · obtain ⟨h1, h2, h3⟩ := h.dig d hd
    norm_num at h2 h3
    exact ⟨h1, abs_le.2 ⟨by omega, by omega⟩⟩

/-- C52. -/
theorem C52_batch :
    (∀ fields : List FElem, (∀ f ∈ fields, Coord f ∧ (f.val : Fp) ≠ 0) →
      ∃ r, invAllVar fields = pure r ∧ r.length = fields.length ∧
        ∀ i (h : i < r.length) (h' : i < fields.length), Coord r[i] ∧ (r[i].val : Fp) = (fields[i].val : Fp)⁻¹) ∧
    (∀ (js : List Jacobian) (P : ℕ → Pt), (∀ i (h : i < js.length), DenotesJ js[i] (P i)) →
      ∃ r, setAllGejVar js = pure r ∧ r.length = js.length ∧ ∀ i (h : i < r.length), DenotesA r[i] (P i)) := by
  constructor
  · intro fields hf
    obtain ⟨r, hr, h1, h2⟩ := invAllVar_runs (fields := fields) (fun i hi => by
      have := hf fields[i] (List.getElem_mem _)
      exact ⟨coord_iff.1 this.1, this.2⟩)
    exact ⟨r, hr, h1, fun i h h' => ⟨coord_iff.2 ((h2 i h h').ok (by norm_num)), (h2 i h h').v⟩⟩
  · intro js P hj
    obtain ⟨r, hr, h1, h2⟩ := setAllGejVar_runs (a := js) (P := P) (fun i hi => denotesJ_iff.1 (hj i hi))
    exact ⟨r, hr, h1, fun i h => denotesA_iff.2 (h2 i h)⟩

/-- The hypotheses cover lists mixing finite points and infinity. -/
example : ∃ a b c, ∀ i (h : i < [a, b, c].length), DenotesJ [a, b, c][i] (if i = 1 then 0 else G) := by
  refine ⟨(exists_denotes G).2.choose, (exists_denotes 0).2.choose, (exists_denotes G).2.choose, ?_⟩
  intro i h
  simp only [List.length_cons, List.length_nil] at h
  interval_cases i
  · exact (exists_denotes G).2.choose_spec
  · exact (exists_denotes 0).2.choose_spec
  · exact (exists_denotes G).2.choose_spec

example : ∀ f ∈ [Affine.g.x, Affine.g.y], Coord f ∧ (f.val : Fp) ≠ 0 := by
  intro f hf
  rcases List.mem_pair.1 hf with rfl | rfl
  · exact ⟨coord_iff.2 (Affine.g_x.fe.ok (by norm_num)), by
      rw [show (Affine.g.x.val : Fp) = _ from Affine.g_x.fe.v]; exact isPt_G.x_ne⟩
  · exact ⟨coord_iff.2 (Affine.g_y.fe.ok (by norm_num)), by
      rw [show (Affine.g.y.val : Fp) = _ from Affine.g_y.fe.v]; exact isPt_G.y_ne⟩

end Verif.Props
