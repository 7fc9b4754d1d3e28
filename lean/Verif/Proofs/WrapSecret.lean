import Verif.Proofs.AnySecret
import Verif.Proofs.Total

/-! `ecmult_const` in a release build for the two scalars to which the skew cannot be added in 256 bits. -/

namespace Verif

open Spec Ecmult Ecdsa

theorem rel_dassert {α : Type} {b : Bool} {x : Exec α} {P : α → Prop} (h : Rel x P) : Rel (dassert b >>= fun _ => x) P :=
  Rel.bind (P := fun _ => True) ⟨(), rfl, trivial⟩ fun _ _ => h

theorem u32_sub_sub (c x : UInt32) : c - (c - x) = x := by
  apply UInt32.toNat_inj.1
  have h1 := c.toNat_lt; have h2 := x.toNat_lt
  rw [UInt32.toNat_sub, UInt32.toNat_sub]; omega

namespace FElem

/-- In a release build `neg(1)` twice gives back the limbs. -/
theorem neg_neg_release {f g : FElem} (h : neg f 1 = pure g) : neg g 1 .release = some { n := f.n, magnitude := 2, normalized := false } := by
  have h := congrFun h .release
  have e : ∀ k : FElem, neg k 1 .release = some (⟨⟨0x3fffc2f * 2 * (1 + 1) - k.n.n0, 0x3ffffbf * 2 * (1 + 1) - k.n.n1,
      0x3ffffff * 2 * (1 + 1) - k.n.n2, 0x3ffffff * 2 * (1 + 1) - k.n.n3, 0x3ffffff * 2 * (1 + 1) - k.n.n4, 0x3ffffff * 2 * (1 + 1) - k.n.n5,
      0x3ffffff * 2 * (1 + 1) - k.n.n6, 0x3ffffff * 2 * (1 + 1) - k.n.n7, 0x3ffffff * 2 * (1 + 1) - k.n.n8, 0x03fffff * 2 * (1 + 1) - k.n.n9⟩,
      1 + 1, false⟩ : FElem) := fun _ => rfl
  rw [e] at h
  obtain rfl := Option.some.inj h
  rw [e]
  simp only [u32_sub_sub]
  rfl

theorem fe_raise {f : FElem} {x : Fp} (h : Fe f 1 x) : Fe { n := f.n, magnitude := 2, normalized := false } 2 x := by
  obtain ⟨wf, mf, vf⟩ := h
  refine ⟨wf_unnormal ?_ (by decide), le_rfl, vf⟩
  have F := wf.lb
  have e : (2 : UInt32).toNat = 2 := rfl
  rw [e]
  refine ⟨?_, ?_, ?_, ?_, ?_, ?_, ?_, ?_, ?_, ?_⟩
  · exact F.h0.trans (by omega)
  · exact F.h1.trans (by omega)
  · exact F.h2.trans (by omega)
  · exact F.h3.trans (by omega)
  · exact F.h4.trans (by omega)
  · exact F.h5.trans (by omega)
  · exact F.h6.trans (by omega)
  · exact F.h7.trans (by omega)
  · exact F.h8.trans (by omega)
  · exact F.h9.trans (by omega)

end FElem

namespace Ecmult

/-- The digits for a skewed scalar that wraps to zero. -/
def wrapDigits : List ℤ := -16 :: (List.replicate 63 (-15) ++ [1])

/-- A destination of `table_get_ge_const` after the digit `-15`. -/
structure Held (z : Fp) (A : Pt) (t : Affine) : Prop where
  y : ∃ y0, y0.Ok 1 ∧ FElem.neg y0 1 = pure t.y ∧ Rep false t.x.v y0.v z ((15 : ℤ) • A)
  x : t.x.Ok 8

theorem tableGetGeConst_held {r : Affine} {pre : List Affine} {z : Fp} {A : Pt} (hl : pre.length = 8)
    (hp : ∀ j (hj : j < pre.length), AffZ pre[j] z ((2 * j + 1) • A) ∧ pre[j].infinity = false ∧ pre[j].y.Ok 1) :
    Runs (tableGetGeConst r pre (-15) windowA) (fun r => (AffZ r z ((-15 : ℤ) • A) ∧ r.infinity = false) ∧ Held z A r) := by
  obtain ⟨t, ht, h⟩ := tableGetGeConst_runs (r := r) hl hp (d := -15) (by norm_num) (by norm_num) (by norm_num)
  refine ⟨t, ht, h, ?_⟩
  unfold tableGetGeConst at ht
  rw [show (-15 : ℤ) * ((if (-15 : ℤ) > 0 then 1 else 0) * 2 - 1) = 15 by norm_num, i32_pure (by norm_num) (by norm_num), pure_bind,
    digitCheck_runs (by norm_num) (by norm_num [windowA]) (by norm_num [windowA]), pure_bind, show ((15 : ℤ) / 2).toNat = 7 from rfl] at ht
  obtain ⟨c, hc, hx, hy⟩ := cmovLoop_runs (pre := pre) (r := r) (k := 7) (by omega)
  obtain ⟨g1, g2, g3⟩ := hp 7 (by omega)
  rw [hc, pure_bind] at ht
  obtain ⟨ny, hny, _⟩ := FElem.fe_neg (m := 1) g3 rfl (by norm_num)
  rw [hy, hny, pure_bind] at ht
  have ht := pure_inj' ht
  subst ht
  have hrep := g1.rep
  rw [g2] at hrep
  have e15 : (2 * 7 + 1) • A = (15 : ℤ) • A := by rw [← natCast_zsmul]; norm_num
  rw [e15] at hrep
  refine ⟨⟨pre[7].y, g3, ?_, ?_⟩, ?_⟩ <;> dsimp only
  · rw [hny, FElem.cmov_eq, if_pos (by decide)]
  · rw [hx]; exact hrep
  · rw [hx]; exact g1.x

theorem cmovLoop_none {pre : List Affine} {k : ℕ} {r : Affine} (hk : pre.length ≤ k) : Runs (cmovLoop pre k r) (fun s => s.x = r.x ∧ s.y = r.y) := by
  unfold cmovLoop
  refine (forN_runs (fun _ (s : Affine) => s.x = r.x ∧ s.y = r.y) pre.length r ⟨rfl, rfl⟩ ?_)
  intro m s hm h
  rw [idx_pure hm, pure_bind]
  refine runs_pure ?_
  have : (m == k) = false := by rw [beq_eq_false_iff_ne]; omega
  rw [this, FElem.cmov_eq, FElem.cmov_eq]
  exact h

/-- The digit `-16` has no entry in the table: a release build negates what the destination held. -/
theorem tableGetGeConst_miss {r : Affine} {pre : List Affine} {z : Fp} {A : Pt} (hl : pre.length = 8) (h : Held z A r) :
    Rel (tableGetGeConst r pre (-16) windowA) (fun r => AffZ r z ((15 : ℤ) • A) ∧ r.infinity = false) := by
  unfold tableGetGeConst
  rw [show (-16 : ℤ) * ((if (-16 : ℤ) > 0 then 1 else 0) * 2 - 1) = 16 by norm_num, i32_pure (by norm_num) (by norm_num), pure_bind,
    show ((16 : ℤ) / 2).toNat = 8 from rfl]
  refine Rel.bind (P := fun _ => True) ⟨(), rfl, trivial⟩ fun _ _ => ?_
  refine Rel.bind (rel_of_runs (cmovLoop_none (by omega))) fun s ⟨hx, hy⟩ => ?_
  obtain ⟨⟨y0, hy0, hn, hrep⟩, hxo⟩ := h
  rw [hy]
  refine Rel.bind (P := fun q => q = { n := y0.n, magnitude := 2, normalized := false }) ⟨_, FElem.neg_neg_release hn, rfl⟩ fun q hq => rel_pure ⟨?_, rfl⟩
  subst hq
  rw [FElem.cmov_eq, if_pos (by decide)]
  rw [← hx] at hrep hxo
  exact affZ_of hxo (FElem.fe_raise hy0) le_rfl (by norm_num) hrep

theorem rel_forRev_any {σ : Type} {f : ℕ → σ → Exec σ} (I : ℕ → σ → Prop) :
    ∀ (n : ℕ) (s : σ), I n s → (∀ i s, i < n → I (i + 1) s → Rel (f i s) (I i)) → Rel (forRev n f s) (I 0)
  | 0, s, h0, _ => rel_pure h0
  | n + 1, s, h0, hs => by
    unfold forRev
    exact Rel.bind (hs n s (by omega) h0) fun a ha => rel_forRev_any I n a ha (fun i s hi => hs i s (by omega))

theorem wrapDigits_get : wrapDigits.length = 65 ∧ wrapDigits[64]? = some 1 ∧ wrapDigits[0]? = some (-16) ∧
    ∀ i : Fin 64, i.val ≠ 0 → wrapDigits[i.val]? = some (-15) := by decide +kernel

theorem getElem_of {α : Type} {l : List α} {i : ℕ} {a : α} (h : l[i]? = some a) : idx l i = pure a := by
  obtain ⟨hi, e⟩ := List.getElem?_eq_some_iff.1 h
  rw [idx_pure hi, e]

theorem constStep_wrap {preA : List Affine} {z : Fp} {A : Pt} {i : ℕ} {s : Jacobian × Affine} (hA : A ≠ 0) (hl : preA.length = 8)
    (hp : ∀ j (hj : j < preA.length), AffZ preA[j] z ((2 * j + 1) • A) ∧ preA[j].infinity = false ∧ preA[j].y.Ok 1)
    (hi : i < 64) (hs : JacZ s.1 z A ∧ (i ≠ 63 → Held z A s.2)) :
    Rel (constStep preA wrapDigits i s) (fun s => if i = 0 then JacZ s.1 z ((31 : ℤ) • A) else JacZ s.1 z A ∧ Held z A s.2) := by
  obtain ⟨_, _, d0, dk⟩ := wrapDigits_get
  unfold constStep
  refine Rel.bind (rel_of_runs (constDoubles_runs hs.1 hA)) fun r hr => ?_
  by_cases h0 : i = 0
  · subst h0
    rw [getElem_of d0, pure_bind]
    refine Rel.bind (tableGetGeConst_miss hl (hs.2 (by norm_num))) fun t ht => ?_
    refine rel_dassert ?_
    refine Rel.bind (rel_of_runs (Jacobian.addGe_runs hr ht.1 ht.2)) fun r' hr' => rel_pure ?_
    rw [if_pos rfl]
    rw [← add_zsmul] at hr'
    exact hr'
  · rw [getElem_of (dk ⟨i, hi⟩ h0), pure_bind]
    refine Rel.bind (rel_of_runs (tableGetGeConst_held hl hp)) fun t ⟨ht, hh⟩ => ?_
    refine rel_dassert ?_
    refine Rel.bind (rel_of_runs (Jacobian.addGe_runs hr ht.1 ht.2)) fun r' hr' => rel_pure ?_
    rw [if_neg h0]
    rw [← add_zsmul, show (16 : ℤ) + -15 = 1 by norm_num, one_zsmul] at hr'
    exact ⟨hr', hh⟩

/-- `ecmult_const` on these digits: the result does not depend on the scalar but for the skew. -/
theorem ecmultConst_wrap {a : Affine} {A : Pt} {s : Scalar} {skew : ℤ} (ha : Aff a A) (hA : A ≠ 0) (hskew : skew = 1 ∨ skew = 2)
    (hw : ecmultWnafConst (List.replicate (1 + wnafSize) 0) s (windowA - 1) .release = some (wrapDigits, skew)) :
    Rel (ecmultConst a s) (fun r => Jac r ((31 - skew) • A)) := by
  unfold ecmultConst
  refine Rel.bind (P := fun w => w = (wrapDigits, skew)) ⟨_, hw, rfl⟩ fun w hw => ?_
  subst hw
  obtain ⟨_, d64, _, _⟩ := wrapDigits_get
  have e64 : wnafSize = 64 := rfl
  refine Rel.bind (rel_of_runs (Jacobian.setGe_runs ha)) fun r0 hr0 => ?_
  refine Rel.bind (rel_of_runs (oddMultiplesTableGlobalz_runs hr0.1 hA)) fun t ⟨hl, hz, hz0, ht⟩ => ?_
  refine Rel.bind (rel_of_runs (weakTable_runs hl ht)) fun preA ⟨hl', hp⟩ => ?_
  rw [e64, getElem_of d64, pure_bind]
  refine rel_dassert ?_
  refine Rel.bind (rel_of_runs (tableGetGeConst_runs hl' hp (d := 1) (by norm_num) (by norm_num) (by norm_num))) fun tm htm => ?_
  refine Rel.bind (rel_of_runs (Jacobian.setGe_runs htm.1)) fun r1 hr1 => ?_
  refine Rel.bind (rel_forRev_any (fun i (s : Jacobian × Affine) => if i = 0 then JacZ s.1 t.2.v ((31 : ℤ) • A) else
    JacZ s.1 t.2.v A ∧ (i ≠ 64 → Held t.2.v A s.2)) 64 _ ?_ (fun i s hi h => ?_)) fun q hs' => ?_
  · rw [if_neg (by norm_num)]
    have := hr1.1
    rw [one_zsmul] at this
    exact ⟨this, fun h => absurd rfl h⟩
  · rw [if_neg (by omega)] at h
    refine (constStep_wrap hA hl' hp hi ⟨h.1, fun h' => h.2 (by omega)⟩).mono fun s hs => ?_
    by_cases h0 : i = 0
    · rw [if_pos h0] at hs ⊢; exact hs
    · rw [if_neg h0] at hs ⊢; exact ⟨hs.1, fun _ => hs.2⟩
  · rw [if_pos rfl] at hs'
    have e : Runs (FElem.mul q.1.z t.2 >>= fun z => (pure ({ q.1 with z := z } : Jacobian)) >>= constCorrect a skew)
        (fun r => Jac r ((31 : ℤ) • A + -(skew • A))) := by
      have := Runs.bind (unscale_runs hs' hz) (fun r hr => constCorrect_runs (skew := skew) ha hA hskew hr)
      rwa [bind_assoc] at this
    simp only [pure_bind] at e
    refine (rel_of_runs e).mono fun r hr => ?_
    rwa [sub_zsmul]

end Ecmult

namespace Ecdsa
open FElem hiding n

theorem ecdhRaw_of_rel {D : Digest} {a : Affine} {Q : Pt} {s : Scalar} (h : Rel (ecmultConst a s) (fun r => Jac r Q)) (hne : Q ≠ 0) (h0 : s.val ≠ 0) :
    Rel (ecdhRaw D a s) (fun o => ∃ x y, IsPt Q x y ∧ o = some (D.finalize (D.update D.init (sec1Compressed x y)))) := by
  unfold ecdhRaw
  rw [if_neg (fun h => h0 ((Scalar.isZero_iff _).1 h))]
  refine Rel.bind h fun res hres => rel_of_runs ?_
  refine Runs.bind (Affine.setGej_runs hres) fun r ⟨hr, _, hrx, hry⟩ => ?_
  have hrP := hr.isPt (hr.inf_false hne)
  refine Runs.bind (fe_normalize hrx (by norm_num)) fun fx ⟨hfx, _⟩ => ?_
  refine Runs.bind (fe_normalize hry (by norm_num)) fun fy ⟨hfy, _⟩ => ?_
  refine Runs.bind (b32_runs hfx) fun b hb => ?_
  refine Runs.bind (isOdd_runs hfy) fun odd hodd => ?_
  refine runs_pure ⟨_, _, hrP, ?_⟩
  rw [D.update_append, hb]
  unfold sec1Compressed
  congr 4
  rw [List.singleton_append]
  congr 1
  rw [hodd]
  by_cases h : r.y.v.val % 2 = 1
  · rw [if_pos (decide_eq_true h), if_pos h]; rfl
  · rw [if_neg (by simpa using h), if_neg h]; rfl

end Ecdsa

end Verif
