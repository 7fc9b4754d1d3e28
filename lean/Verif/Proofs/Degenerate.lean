import Verif.Proofs.Total
import Verif.Proofs.Raw

/-! The release build of `ecmult` on the point at infinity: every table entry and every finite
intermediate result is the pair (0, 0), which is not on the curve. -/

namespace Verif

open Spec
open FElem hiding n

/-- Finite with both coordinates zero. -/
structure Nil (a : Jacobian) : Prop where
  x : Fe a.x 8 0
  y : Fe a.y 8 0
  z : a.z.Ok 8
  inf : a.infinity = false

structure NilA (a : Affine) : Prop where
  x : Fe a.x 8 0
  y : Fe a.y 8 0
  inf : a.infinity = false

namespace Jacobian

theorem nil_default : Nil default := ⟨zero_fe.mono (by norm_num), zero_fe.mono (by norm_num), zero_fe.ok (by norm_num), rfl⟩

theorem nil_doubleCore {a : Jacobian} (h : Nil a) : Runs (doubleCore a) fun r => Nil r ∧ Fe r.z 8 0 := by
  unfold doubleCore
  refine Runs.bind (fe_mul h.z h.y (by norm_num) (by norm_num)) fun z0 hz0 => ?_
  refine Runs.bind (fe_mulInt (a := 2) 2 hz0.1 rfl (by norm_num)) fun z hz' => ?_
  refine Runs.bind (fe_sqr h.x (by norm_num)) fun t1 h1 => ?_
  refine Runs.bind (fe_mulInt (a := 3) 3 h1.1 rfl (by norm_num)) fun t1 h1 => ?_
  refine Runs.bind (fe_sqr h1.1 (by norm_num)) fun t2 h2 => ?_
  refine Runs.bind (fe_sqr h.y (by norm_num)) fun t3 h3 => ?_
  refine Runs.bind (fe_mulInt (a := 2) 2 h3.1 rfl (by norm_num)) fun t3 h3 => ?_
  refine Runs.bind (fe_sqr h3.1 (by norm_num)) fun t4 h4 => ?_
  refine Runs.bind (fe_mulInt (a := 2) 2 h4.1 rfl (by norm_num)) fun t4 h4 => ?_
  refine Runs.bind (fe_mul h3.1 h.x (by norm_num) (by norm_num)) fun t3 h3 => ?_
  refine Runs.bind (fe_mulInt (a := 4) 4 h3.1 rfl (by norm_num)) fun x h5 => ?_
  refine Runs.bind (fe_neg (m := 4) h5.1 rfl (by norm_num)) fun x h5 => ?_
  refine Runs.bind (fe_add h5.1 h2.1 (by norm_num)) fun x h5 => ?_
  refine Runs.bind (fe_neg (m := 1) h2.1 rfl (by norm_num)) fun t2 h2 => ?_
  refine Runs.bind (fe_mulInt (a := 6) 6 h3.1 rfl (by norm_num)) fun t3 h3 => ?_
  refine Runs.bind (fe_add h3.1 h2.1 (by norm_num)) fun t3 h3 => ?_
  refine Runs.bind (fe_mul h1.1 h3.1 (by norm_num) (by norm_num)) fun y h6 => ?_
  refine Runs.bind (fe_neg (m := 2) h4.1 rfl (by norm_num)) fun t2 h2 => ?_
  refine Runs.bind (fe_add h6.1 h2.1 (by norm_num)) fun y h6 => runs_pure ?_
  exact ⟨⟨h5.1.cast (by norm_num) (by ring), h6.1.cast (by norm_num) (by ring), hz'.1.ok (by norm_num), rfl⟩, hz'.1.cast (by norm_num) (by ring)⟩

theorem nil_doubleVarInPlace {self a : Jacobian} (rzr : Option FElem) (h : Nil a) :
    Runs (doubleVarInPlace self a rzr) fun r => Nil r.1 ∧ Fe r.1.z 8 0 ∧ ∀ f, r.2 = some f → f.Ok 8 := by
  unfold doubleVarInPlace
  rw [h.inf, if_neg (by decide)]
  have hz : Runs (rzrDouble rzr a.y) fun r => ∀ f, r = some f → f.Ok 8 := by
    unfold rzrDouble
    cases rzr with
    | none => exact runs_pure (by simp)
    | some f =>
      refine Runs.bind (fe_normalizeWeak h.y (by norm_num)) fun r hr => ?_
      refine Runs.bind (fe_mulInt (a := 2) 2 hr.1 rfl (by norm_num)) fun r hr => runs_pure fun f hf => ?_
      obtain rfl : r = f := by simpa using hf
      exact hr.1.ok (by norm_num)
  refine Runs.bind hz fun r hr => Runs.bind (nil_doubleCore h) fun d hd => runs_pure ⟨hd.1, hd.2, hr⟩

theorem nil_addEqualX {self a : Jacobian} {i : FElem} (rzr : Option FElem) (h : Nil a) (hi : Fe i 3 0) :
    Runs (addEqualX self a i rzr) fun r => Nil r.1 ∧ ∀ f, r.2 = some f → f.Ok 8 := by
  unfold addEqualX
  refine Runs.bind (fe_normalizesToZeroVar hi (by norm_num)) fun c hc => ?_
  rw [hc, if_pos (by simp)]
  exact (nil_doubleVarInPlace rzr h).mono fun _ h => ⟨h.1, h.2.2⟩

theorem nil_addGeVarInPlace {self a : Jacobian} {b : Affine} (rzr : Option FElem) (h : Nil a) (hb : NilA b) :
    Runs (addGeVarInPlace self a b rzr) fun r => Nil r.1 ∧ ∀ f, r.2 = some f → f.Ok 8 := by
  unfold addGeVarInPlace
  rw [h.inf, if_neg (by decide), hb.inf, if_neg (by decide)]
  unfold addGeVarCore
  refine Runs.bind (fe_sqr h.z (by norm_num)) fun z12 h12 => ?_
  refine Runs.bind (fe_normalizeWeak h.x (by norm_num)) fun u1 hu1 => ?_
  refine Runs.bind (fe_mul hb.x h12.1 (by norm_num) (by norm_num)) fun u2 hu2 => ?_
  refine Runs.bind (fe_normalizeWeak h.y (by norm_num)) fun s1 hs1 => ?_
  refine Runs.bind (fe_mul hb.y h12.1 (by norm_num) (by norm_num)) fun s2 hs2 => ?_
  refine Runs.bind (fe_mul hs2.1 h.z (by norm_num) (by norm_num)) fun s2 hs2 => ?_
  refine Runs.bind (fe_neg (m := 1) hu1.1 rfl (by norm_num)) fun d hh => ?_
  refine Runs.bind (fe_add hh.1 hu2.1 (by norm_num)) fun d hh => ?_
  refine Runs.bind (fe_neg (m := 1) hs1.1 rfl (by norm_num)) fun i hi => ?_
  refine Runs.bind (fe_add hi.1 hs2.1 (by norm_num)) fun i hi => ?_
  have hh' : Fe d 3 0 := hh.1.cast (by norm_num) (by ring)
  have hi' : Fe i 3 0 := hi.1.cast (by norm_num) (by ring)
  refine Runs.bind (fe_normalizesToZeroVar hh' (by norm_num)) fun zh hzh => ?_
  rw [hzh, if_pos (by simp)]
  exact nil_addEqualX rzr h hi'

theorem nil_setGe {b : Affine} (hb : NilA b) : Runs (setGe b) Nil := by
  unfold setGe
  exact Runs.bind fe_one fun z hz => runs_pure ⟨hb.x, hb.y, hz.ok (by norm_num), hb.inf⟩

theorem nil_addGeVar {a : Jacobian} {b : Affine} (h : a.infinity = true ∨ Nil a) (hb : NilA b) :
    Runs (addGeVar a b none) fun r => Nil r.1 := by
  rcases h with h | h
  · unfold addGeVar addGeVarInPlace
    rw [if_pos h, dassert_true (show (none : Option FElem).isNone = true from rfl), pure_bind]
    exact Runs.bind (nil_setGe hb) fun r hr => runs_pure hr
  · exact (nil_addGeVarInPlace none h hb).mono fun _ hr => hr.1

theorem nil_addZinvVar {a : Jacobian} {b : Affine} {z : FElem} (h : a.infinity = true ∨ Nil a) (hx : b.x.Ok 8) (hy : b.y.Ok 8)
    (hb : b.infinity = false) (hz : Fe z 8 0) : Runs (addZinvVar a b z) Nil := by
  unfold addZinvVar addZinvVarInPlace
  rw [hb, if_neg (by decide)]
  rcases h with h | h
  · rw [if_pos h]
    refine Runs.bind (fe_sqr hz (by norm_num)) fun z2 h2 => ?_
    refine Runs.bind (fe_mul h2.1 hz (by norm_num) (by norm_num)) fun z3 h3 => ?_
    refine Runs.bind (fe_mul hx h2.1 (by norm_num) (by norm_num)) fun x hx => ?_
    refine Runs.bind (fe_mul hy h3.1 (by norm_num) (by norm_num)) fun y hy => ?_
    refine Runs.bind fe_one fun o ho => runs_pure ?_
    exact ⟨hx.1.cast (by norm_num) (by ring), hy.1.cast (by norm_num) (by ring), ho.ok (by norm_num), rfl⟩
  · rw [h.inf, if_neg (by decide)]
    unfold addZinvVarCore
    refine Runs.bind (fe_mul h.z hz (by norm_num) (by norm_num)) fun az haz => ?_
    refine Runs.bind (fe_sqr haz.1 (by norm_num)) fun z12 h12 => ?_
    refine Runs.bind (fe_normalizeWeak h.x (by norm_num)) fun u1 hu1 => ?_
    refine Runs.bind (fe_mul hx h12.1 (by norm_num) (by norm_num)) fun u2 hu2 => ?_
    refine Runs.bind (fe_normalizeWeak h.y (by norm_num)) fun s1 hs1 => ?_
    refine Runs.bind (fe_mul hy h12.1 (by norm_num) (by norm_num)) fun s2 hs2 => ?_
    refine Runs.bind (fe_mul hs2.1 haz.1 (by norm_num) (by norm_num)) fun s2 hs2 => ?_
    refine Runs.bind (fe_neg (m := 1) hu1.1 rfl (by norm_num)) fun d hh => ?_
    refine Runs.bind (fe_add hh.1 hu2.1 (by norm_num)) fun d hh => ?_
    refine Runs.bind (fe_neg (m := 1) hs1.1 rfl (by norm_num)) fun i hi => ?_
    refine Runs.bind (fe_add hi.1 hs2.1 (by norm_num)) fun i hi => ?_
    have hh' : Fe d 3 0 := hh.1.cast (by norm_num) (by ring)
    have hi' : Fe i 3 0 := hi.1.cast (by norm_num) (by ring)
    refine Runs.bind (fe_normalizesToZeroVar hh' (by norm_num)) fun zh hzh => ?_
    rw [hzh, if_pos (by simp)]
    unfold addEqualXNone
    exact Runs.bind (nil_addEqualX none h hi') fun r hr => runs_pure hr.1

end Jacobian

theorem nil_neg {a : Affine} (h : NilA a) : Runs (Affine.neg a) NilA := by
  unfold Affine.neg
  refine Runs.bind (fe_normalizeWeak h.y (by norm_num)) fun y hy => ?_
  refine Runs.bind (fe_neg (m := 1) hy.1 rfl (by norm_num)) fun y hy => runs_pure ?_
  exact ⟨h.x, hy.1.cast (by norm_num) (by ring), h.inf⟩

theorem nil_setGejZinv {a : Jacobian} {zi : FElem} (h : Nil a) (hz : zi.Ok 8) : Runs (Affine.setGejZinv a zi) NilA := by
  unfold Affine.setGejZinv
  refine Runs.bind (fe_sqr hz (by norm_num)) fun z2 h2 => ?_
  refine Runs.bind (fe_mul h2.1 hz (by norm_num) (by norm_num)) fun z3 h3 => ?_
  refine Runs.bind (fe_mul h.x h2.1 (by norm_num) (by norm_num)) fun x hx => ?_
  refine Runs.bind (fe_mul h.y h3.1 (by norm_num) (by norm_num)) fun y hy => runs_pure ?_
  exact ⟨hx.1.cast (by norm_num) (by ring), hy.1.cast (by norm_num) (by ring), h.inf⟩

theorem runs_idx {α : Type} {l : List α} {i : ℕ} (h : i < l.length) : Runs (idx l i) fun a => a ∈ l := by
  rw [idx_pure h]; exact runs_pure (List.getElem_mem h)

theorem runs_setIdx {α : Type} {l : List α} {i : ℕ} (v : α) (h : i < l.length) : Runs (setIdx l i v) fun r => r = l.set i v := by
  rw [setIdx_pure v h]; exact runs_pure rfl

theorem nil_globalzLoop {a : List Jacobian} {zr : List FElem} (ha : ∀ x ∈ a, Nil x) (hzr : ∀ x ∈ zr, x.Ok 8) {i : ℕ} {zs : FElem} {r : List Affine}
    (hia : i < a.length) (hiz : i < zr.length) (hir : i < r.length) (hz : zs.Ok 8) (hr : ∀ j (hj : j < r.length), i ≤ j → NilA r[j]) :
    Runs (globalzLoop a zr i zs r) fun t => t.length = r.length ∧ ∀ x ∈ t, NilA x := by
  induction i generalizing zs r with
  | zero =>
    refine runs_pure ⟨rfl, fun x hx => ?_⟩
    obtain ⟨j, hj, rfl⟩ := List.mem_iff_getElem.1 hx
    exact hr j hj (Nat.zero_le _)
  | succ i ih =>
    unfold globalzLoop
    have hstep : Runs (globalzStep zr r.length (i + 1) zs) fun z => z.Ok 8 := by
      unfold globalzStep
      split
      · refine Runs.bind (runs_idx hiz) fun z hz' => ?_
        exact (fe_mul hz (hzr z hz') (by norm_num) (by norm_num)).mono fun _ h => h.1.ok (by norm_num)
      · exact runs_pure hz
    refine Runs.bind hstep fun zs hz => Runs.bind (runs_idx (show i < a.length by omega)) fun ai hai => ?_
    refine Runs.bind (nil_setGejZinv (ha ai hai) hz) fun v hv => ?_
    refine Runs.bind (runs_setIdx _ (by omega)) fun t ht => ?_
    subst ht
    refine (ih (by omega) (by omega) (by rw [List.length_set]; omega) hz ?_).mono fun t' ht' => ⟨by rw [ht'.1, List.length_set], ht'.2⟩
    intro j hj hij
    rw [List.getElem_set]
    split
    · exact hv
    · exact hr j (by rw [List.length_set] at hj; exact hj) (by omega)

namespace Ecmult

/-- The state of the loop of `odd_multiples_table`. -/
structure NilOdd (L : ℕ) (s : List Jacobian × List FElem) : Prop where
  l1 : s.1.length = L
  l2 : s.2.length = L
  j : ∀ x ∈ s.1, Nil x
  z : ∀ x ∈ s.2, x.Ok 8

theorem nil_oddStep {dGe : Affine} {L k : ℕ} {s : List Jacobian × List FElem} (hd : NilA dGe) (hk : k + 1 < L) (h : NilOdd L s) :
    Runs (oddStep dGe k s) (NilOdd L) := by
  unfold oddStep
  have h1 := h.l1; have h2 := h.l2
  refine Runs.bind (runs_idx (by omega)) fun prev hp => Runs.bind (runs_idx (by omega)) fun z hz => ?_
  refine Runs.bind (Jacobian.nil_addGeVarInPlace (self := Jacobian.default) (some z) (h.j prev hp) hd) fun r hr => ?_
  refine Runs.bind (runs_setIdx _ (by omega)) fun t1 ht1 => Runs.bind (runs_setIdx _ (by omega)) fun t2 ht2 => runs_pure ?_
  subst ht1 ht2
  refine ⟨by rw [List.length_set, h1], by rw [List.length_set, h2], fun x hx => ?_, fun x hx => ?_⟩
  · rcases List.mem_or_eq_of_mem_set hx with hx | rfl
    exacts [h.j x hx, hr.1]
  · rcases List.mem_or_eq_of_mem_set hx with hx | rfl
    · exact h.z x hx
    · cases he : r.2 with
      | none => exact h.z z hz
      | some f => exact hr.2 f he

/-- The point at infinity, or the pair (0, 0); its coordinates are in range. -/
structure Bad (a : Jacobian) : Prop where
  x : a.x.Ok 8
  y : a.y.Ok 8
  z : a.z.Ok 8
  inf : a.infinity = true ∨ Nil a

/-- Doubling such a point leaves zero in all coordinates. -/
theorem bad_double {a : Jacobian} (h : Bad a) : Runs (Jacobian.doubleVar a none) fun d => Fe d.1.x 8 0 ∧ Fe d.1.y 8 0 ∧ Fe d.1.z 8 0 := by
  rcases h.inf with hi | hn
  · have hd : Jacobian.doubleVar a none = pure ({ Jacobian.default with infinity := true }, none) := by
      unfold Jacobian.doubleVar Jacobian.doubleVarInPlace
      rw [if_pos hi]; rfl
    rw [hd]
    exact runs_pure ⟨zero_fe.mono (by norm_num), zero_fe.mono (by norm_num), zero_fe.mono (by norm_num)⟩
  · exact (Jacobian.nil_doubleVarInPlace none hn).mono fun d hd => ⟨hd.1.x, hd.1.y, hd.2.1⟩

/-- `odd_multiples_table` after its assertions (ecmult.rs:266-287). -/
theorem nil_odd {a : Jacobian} (h : Bad a) :
    ∃ x, oddMultiplesTable (List.replicate 8 Jacobian.default) (List.replicate 8 FElem.zero) a = (dassert (!a.infinity) >>= fun _ => x) ∧
      Runs x fun s => NilOdd 8 s ∧ ∀ h : 7 < s.1.length, Fe s.1[7].z 8 0 := by
  unfold oddMultiplesTable
  rw [dassert_true (by simp), pure_bind, dassert_true (by rfl), pure_bind]
  refine ⟨_, rfl, ?_⟩
  refine Runs.bind (bad_double h) fun d ⟨hdx, hdy, hdz⟩ => ?_
  dsimp only
  have hag : Runs (Affine.setGejZinv a d.1.z) fun r => Fe r.x 8 0 ∧ Fe r.y 8 0 := by
    unfold Affine.setGejZinv
    refine Runs.bind (fe_sqr hdz (by norm_num)) fun z2 h2 => ?_
    refine Runs.bind (fe_mul h2.1 hdz (by norm_num) (by norm_num)) fun z3 h3 => ?_
    refine Runs.bind (fe_mul h.x h2.1 (by norm_num) (by norm_num)) fun x hx => ?_
    refine Runs.bind (fe_mul h.y h3.1 (by norm_num) (by norm_num)) fun y hy => runs_pure ?_
    exact ⟨hx.1.cast (by norm_num) (by ring), hy.1.cast (by norm_num) (by ring)⟩
  refine Runs.bind hag fun g hg => ?_
  refine Runs.bind (runs_setIdx _ (by simp)) fun t1 ht1 => Runs.bind (runs_setIdx _ (by simp)) fun t2 ht2 => ?_
  have h0 : NilOdd 8 (t1, t2) := by
    subst ht1 ht2
    refine ⟨by simp, by simp, fun x hx => ?_, fun x hx => ?_⟩
    · rcases List.mem_or_eq_of_mem_set hx with hx | rfl
      · rw [List.eq_of_mem_replicate hx]; exact Jacobian.nil_default
      · exact ⟨hg.1, hg.2, h.z, rfl⟩
    · rcases List.mem_or_eq_of_mem_set hx with hx | rfl
      · rw [List.eq_of_mem_replicate hx]; exact zero_fe.ok (by norm_num)
      · exact hdz.ok le_rfl
  have hl : t1.length = 8 := h0.l1
  rw [hl]
  have hdge : NilA ⟨d.1.x, d.1.y, false⟩ := ⟨hdx, hdy, rfl⟩
  refine Runs.bind (forN_runs (fun _ s => NilOdd 8 s) 7 _ h0 fun i s hi hs => nil_oddStep hdge (by omega) hs) fun s hs => ?_
  refine Runs.bind (runs_idx (by rw [hs.l1]; norm_num)) fun last hlast => ?_
  refine Runs.bind (fe_mul (hs.j last hlast).z hdz (by norm_num) (by norm_num)) fun l hlz => ?_
  have hlz : Fe l 8 0 := hlz.1.cast (by norm_num) (by ring)
  refine Runs.bind (runs_setIdx _ (by rw [hs.l1]; norm_num)) fun t ht => runs_pure ?_
  subst ht
  refine ⟨⟨by rw [List.length_set, hs.l1], hs.l2, fun x hx => ?_, hs.z⟩, fun h => ?_⟩
  · rcases List.mem_or_eq_of_mem_set hx with hx | rfl
    · exact hs.j x hx
    · have := hs.j last hlast
      exact ⟨this.x, this.y, hlz.ok le_rfl, this.inf⟩
  · dsimp only
    rw [List.getElem_set_self]; exact hlz

/-- The table for such a point consists of pairs (0, 0), with common denominator zero. -/
theorem nil_table {a : Jacobian} (h : Bad a) :
    ∃ x, oddMultiplesTableGlobalz a = (dassert (!a.infinity) >>= fun _ => x) ∧
      Runs x fun t => t.1.length = 8 ∧ (∀ x ∈ t.1, NilA x) ∧ Fe t.2 8 0 := by
  obtain ⟨x, hx, hodd⟩ := nil_odd h
  unfold oddMultiplesTableGlobalz
  rw [show tableSizeA = 8 from rfl, hx, bind_assoc]
  refine ⟨_, rfl, ?_⟩
  refine Runs.bind hodd fun s ⟨hs, h7⟩ => ?_
  unfold globalzSetTableGej
  have h1 := hs.l1; have h2 := hs.l2
  rw [dassert_true (by simp [h1, h2]), pure_bind]
  rw [subNat_pure (by simp), pure_bind, if_neg (by simp), List.length_replicate]
  rw [idx_pure (show 8 - 1 < s.1.length by omega), pure_bind]
  have hn := hs.j _ (List.getElem_mem (show 8 - 1 < s.1.length by omega))
  refine Runs.bind (runs_setIdx _ (by simp)) fun t ht => ?_
  subst ht
  refine Runs.bind (runs_idx (by omega)) fun zs hzs => ?_
  refine Runs.bind (nil_globalzLoop hs.j hs.z (by omega) (by omega) (by simp) (hs.z zs hzs) ?_) fun t ht => runs_pure ?_
  · intro j hj hij
    rw [List.getElem_set]
    split
    · exact ⟨hn.x, hn.y, rfl⟩
    · rw [List.length_set, List.length_replicate] at hj; omega
  · exact ⟨by rw [ht.1, List.length_set, List.length_replicate], ht.2, h7 _⟩

/-- What the loop of `ecmult` keeps: infinite while all digits so far are zero, else (0, 0). -/
def NilState (wa wg : List ℤ) (i : ℕ) (r : Jacobian) : Prop :=
  ((∀ d ∈ wa.drop i, d = 0) ∧ (∀ d ∈ wg.drop i, d = 0) ∧ r.infinity = true) ∨
  (¬((∀ d ∈ wa.drop i, d = 0) ∧ ∀ d ∈ wg.drop i, d = 0) ∧ Nil r)

theorem nil_addA {preA : List Affine} (hl : preA.length = 8) (hA : ∀ x ∈ preA, NilA x) {va : ℤ} {wa : List ℤ × ℤ} (hwa : Wnaf 256 5 va wa)
    {i : ℕ} (hi : i < wa.1.length) {r : Jacobian} (hr : r.infinity = true ∨ Nil r) :
    Runs (ecmultAddA preA wa.1[i] i wa.2 r) fun r' => (wa.1[i] = 0 → r' = r) ∧ (wa.1[i] ≠ 0 → Nil r') := by
  unfold ecmultAddA
  by_cases h0 : wa.1[i] = 0
  · rw [if_neg (fun h => h.2 h0)]; exact runs_pure ⟨fun _ => rfl, fun h => absurd h0 h⟩
  · have hlt : (i : ℤ) < wa.2 := by by_contra hlt; exact h0 (hwa.zero i hi (by omega))
    rw [if_pos ⟨hlt, h0⟩]
    obtain ⟨d1, d2, d3⟩ := hwa.dig i hi h0
    generalize wa.1[i] = d at *
    norm_num at d2 d3
    have ht : Runs (tableGetGe preA d windowA) NilA := by
      unfold tableGetGe
      rw [digitCheck_runs d1 (by simp [windowA]; omega) (by simp [windowA]; omega), pure_bind]
      split
      · rw [idx_pure (by omega)]; exact runs_pure (hA _ (List.getElem_mem _))
      · rw [idx_pure (by omega), pure_bind]; exact nil_neg (hA _ (List.getElem_mem _))
    exact Runs.bind ht fun t ht => Runs.bind (Jacobian.nil_addGeVar hr ht) fun r hr => runs_pure ⟨fun h => absurd h h0, fun _ => hr⟩

theorem nil_addG {preG : List AffineStorage} {z : FElem} (hG : StoTable 16384 G preG) (hz : Fe z 8 0) {vg : ℤ} {wg : List ℤ × ℤ} (hwg : Wnaf 256 16 vg wg)
    {i : ℕ} (hi : i < wg.1.length) {r : Jacobian} (hr : r.infinity = true ∨ Nil r) :
    Runs (ecmultAddG preG z wg.1[i] i wg.2 r) fun r' => (wg.1[i] = 0 → r' = r) ∧ (wg.1[i] ≠ 0 → Nil r') := by
  unfold ecmultAddG
  by_cases h0 : wg.1[i] = 0
  · rw [if_neg (fun h => h.2 h0)]; exact runs_pure ⟨fun _ => rfl, fun h => absurd h0 h⟩
  · have hlt : (i : ℤ) < wg.2 := by by_contra hlt; exact h0 (hwg.zero i hi (by omega))
    rw [if_pos ⟨hlt, h0⟩]
    obtain ⟨d1, d2, d3⟩ := hwg.dig i hi h0
    refine Runs.bind (tableGetGeStorage_runs (w := windowG) hG (by norm_num [windowG]) d1 d2 d3) fun t ht => ?_
    exact (Jacobian.nil_addZinvVar hr ht.1.x ht.1.y ht.2 hz).mono fun _ hr => ⟨fun h => absurd h h0, fun _ => hr⟩

theorem forall_drop {l : List ℤ} {i : ℕ} (h : i < l.length) : (∀ d ∈ l.drop i, d = 0) ↔ l[i] = 0 ∧ ∀ d ∈ l.drop (i + 1), d = 0 := by
  rw [List.drop_eq_getElem_cons h, List.forall_mem_cons]

theorem nil_step {preG : List AffineStorage} {preA : List Affine} {z : FElem} {wa wg : List ℤ × ℤ} {va vg : ℤ} {i : ℕ} {r : Jacobian}
    (hG : StoTable 16384 G preG) (hl : preA.length = 8) (hA : ∀ x ∈ preA, NilA x) (hz : Fe z 8 0)
    (hwa : Wnaf 256 5 va wa) (hwg : Wnaf 256 16 vg wg) (hi : i < 256) (hr : NilState wa.1 wg.1 (i + 1) r) :
    Runs (ecmultStep preG preA z wa.1 wg.1 wa.2 wg.2 i r) (NilState wa.1 wg.1 i) := by
  unfold ecmultStep
  have hla : i < wa.1.length := by rw [hwa.len]; exact hi
  have hlg : i < wg.1.length := by rw [hwg.len]; exact hi
  have hdbl : Runs (Jacobian.doubleVar r none) fun r' => NilState wa.1 wg.1 (i + 1) r'.1 := by
    rcases hr with ⟨h1, h2, h3⟩ | ⟨h1, h2⟩
    · unfold Jacobian.doubleVar Jacobian.doubleVarInPlace
      rw [if_pos h3]
      exact runs_pure (Or.inl ⟨h1, h2, rfl⟩)
    · exact (Jacobian.nil_doubleVarInPlace none h2).mono fun _ h => Or.inr ⟨h1, h.1⟩
  refine Runs.bind hdbl fun r1 h1 => ?_
  have hor : r1.1.infinity = true ∨ Nil r1.1 := h1.imp (fun h => h.2.2) fun h => h.2
  rw [idx_pure hla, pure_bind]
  refine Runs.bind (nil_addA hl hA hwa hla hor) fun r2 h2 => ?_
  have hor2 : r2.infinity = true ∨ Nil r2 := by
    by_cases ha : wa.1[i] = 0
    · rw [h2.1 ha]; exact hor
    · exact Or.inr (h2.2 ha)
  rw [idx_pure hlg, pure_bind]
  refine (nil_addG hG hz hwg hlg hor2).mono fun r3 h3 => ?_
  unfold NilState
  rw [forall_drop hla, forall_drop hlg]
  by_cases hg : wg.1[i] = 0
  · rw [h3.1 hg]
    by_cases ha : wa.1[i] = 0
    · rw [h2.1 ha]
      rcases h1 with ⟨a, b, c⟩ | ⟨a, b⟩
      · exact Or.inl ⟨⟨ha, a⟩, ⟨hg, b⟩, c⟩
      · exact Or.inr ⟨fun h => a ⟨h.1.2, h.2.2⟩, b⟩
    · exact Or.inr ⟨fun h => ha h.1.1, h2.2 ha⟩
  · exact Or.inr ⟨fun h => hg h.2.1, h3.2 hg⟩

theorem digits_zero_iff {l : List ℤ} (h : ∀ i (h : i < l.length), l[i] ≠ 0 → l[i] % 2 = 1) : (∀ d ∈ l, d = 0) ↔ digitSum 2 l = 0 := by
  refine ⟨digitSum_of_zero 2 l, ?_⟩
  induction l with
  | nil => simp
  | cons d l ih =>
    intro hs
    rw [digitSum] at hs
    have h0 : d = 0 := by
      by_contra h0
      have := h 0 (by simp) h0
      simp only [List.getElem_cons_zero] at this
      omega
    have ih := ih (fun i hi h0 => h (i + 1) (by simpa using hi) h0) (by omega)
    intro x hx
    rcases List.mem_cons.1 hx with rfl | hx
    exacts [h0, ih x hx]

theorem wnaf_zero_iff {L w : ℕ} {a : ℕ} (ha : a < n) {r : List ℤ × ℤ} (h : Wnaf L w (signedVal a) r) : (∀ d ∈ r.1, d = 0) ↔ a = 0 := by
  rw [digits_zero_iff fun i hi h0 => (h.dig i hi h0).1, h.sum]
  unfold signedVal
  split <;> omega

/-- `ecmult` of such a point: the debug assertion on infinity, and then (0, 0), or infinity when both scalars are zero. -/
theorem nil_ecmult {preG : List AffineStorage} {a : Jacobian} {na ng : Scalar} (hG : StoTable 16384 G preG) (h : Bad a)
    (hna : na.val < n) (hng : ng.val < n) :
    ∃ r, ecmult preG a na ng = (dassert (!a.infinity) >>= fun _ => pure r) ∧
      (na.val = 0 ∧ ng.val = 0 → r.infinity = true) ∧ (¬(na.val = 0 ∧ ng.val = 0) → Nil r ∧ Fe r.z 8 0) := by
  unfold ecmult
  obtain ⟨wa, ea, hwa⟩ := ecmultWnaf_runs (w := windowA) (L := 256) hna (by decide) (by decide) le_rfl (Or.inl rfl)
  obtain ⟨x, ex, t, et, hl, ht, htz⟩ := nil_table h
  obtain ⟨wg, eg, hwg⟩ := ecmultWnaf_runs (w := windowG) (L := 256) hng (by decide) (by decide) le_rfl (Or.inl rfl)
  rw [ea, pure_bind, ex, bind_assoc, et, eg]
  simp only [pure_bind]
  have hba := hwa.hi; have hbg := hwg.hi; have hla := hwa.lo; have hlg := hwg.lo
  generalize hbits : (if wg.2 > wa.2 then wg.2 else wa.2) = bits
  have hb1 : wa.2 ≤ bits := by split at hbits <;> omega
  have hb2 : wg.2 ≤ bits := by split at hbits <;> omega
  have hb3 : bits ≤ 256 := by split at hbits <;> omega
  have hdrop : ∀ {w : ℕ} {v : ℤ} {r : List ℤ × ℤ}, Wnaf 256 w v r → r.2 ≤ bits → ∀ d ∈ r.1.drop bits.toNat, d = 0 := by
    intro w v r h hr d hd
    obtain ⟨j, hj, rfl⟩ := List.mem_iff_getElem.1 hd
    rw [List.length_drop] at hj
    rw [List.getElem_drop]
    exact h.zero (bits.toNat + j) (by omega) (by push_cast; omega)
  obtain ⟨r, er, hr⟩ := forRev_runs (f := ecmultStep preG t.1 t.2 wa.1 wg.1 wa.2 wg.2) (NilState wa.1 wg.1) bits.toNat
    (Jacobian.setInfinity Jacobian.default) (Or.inl ⟨hdrop hwa hb1, hdrop hwg hb2, rfl⟩)
    (fun i r hi hr => nil_step hG hl ht htz hwa hwg (by omega) hr)
  rw [er, pure_bind]
  unfold NilState at hr
  rw [List.drop_zero, List.drop_zero, wnaf_zero_iff hna hwa, wnaf_zero_iff hng hwg] at hr
  have hfin : Runs (ecmultFinish r t.2) fun r => (na.val = 0 ∧ ng.val = 0 → r.infinity = true) ∧ (¬(na.val = 0 ∧ ng.val = 0) → Nil r ∧ Fe r.z 8 0) := by
    unfold ecmultFinish
    rcases hr with ⟨h1, h2, h3⟩ | ⟨h1, h2⟩
    · rw [if_pos h3]; exact runs_pure ⟨fun _ => h3, fun h => absurd ⟨h1, h2⟩ h⟩
    · rw [h2.inf, if_neg (by decide)]
      refine Runs.bind (fe_mul h2.z htz (by norm_num) (by norm_num)) fun z hz => runs_pure ?_
      have hz : Fe z 8 0 := hz.1.cast (by norm_num) (by ring)
      exact ⟨fun h => absurd h h1, fun _ => ⟨⟨h2.x, h2.y, hz.ok le_rfl, rfl⟩, hz⟩⟩
  obtain ⟨q, eq, hq⟩ := hfin
  exact ⟨q, by rw [eq], hq⟩

end Ecmult

namespace Ecdsa
open Ecmult

/-- `eq_x_var` of (0, 0) with denominator zero accepts every x coordinate. -/
theorem nil_eqXVar {a : Jacobian} {x : FElem} {m : ℕ} {v : Fp} (h : Nil a) (hz : Fe a.z 8 0) (hx : Fe x m v) (hm : m ≤ 8) :
    Runs (Jacobian.eqXVar a x) fun b => b = true := by
  unfold Jacobian.eqXVar
  rw [h.inf, dassert_true (show (!false) = true from rfl), pure_bind]
  refine Runs.bind (fe_sqr hz (by norm_num)) fun r hr => ?_
  refine Runs.bind (fe_mul hr.1 hx (by norm_num) hm) fun r hr => ?_
  refine Runs.bind (fe_normalizeWeak h.x (by norm_num)) fun r2 hr2 => ?_
  refine (eqVar_runs hr.1 hr2.1 (by norm_num)).mono fun b hb => ?_
  rw [hb, decide_eq_true_eq]; ring

theorem nil_verifyTail {pr : Jacobian} {sigr : Scalar} (h : Nil pr) (hz : Fe pr.z 8 0) :
    verifyTail sigr pr .release = some true ∧ (sigr.val < p → verifyTail sigr pr = pure true) := by
  unfold verifyTail
  rw [h.inf, if_neg (by decide)]
  obtain ⟨xr, e, h1, h2, h3⟩ := FElem.setB32_any FElem.zero sigr.b32
  rw [e, pure_bind]
  rw [Scalar.beNat_b32] at h1
  cases hb : xr.2 with
  | true =>
    obtain ⟨b, hb, hb'⟩ := nil_eqXVar h hz (h2 hb).1.fe (by norm_num)
    rw [hb, hb', pure_bind]
    exact ⟨rfl, fun _ => rfl⟩
  | false =>
    obtain ⟨t, ht, hlb, hv⟩ := h3 hb
    have hfe : Fe { n := t, magnitude := 1, normalized := false } 1 ((t.val : ℕ) : Fp) := by
      refine ⟨⟨?_, (by decide : (1 : UInt32).toNat ≤ 32), fun h => by simp at h⟩, (by decide : (1 : UInt32).toNat ≤ 1), rfl⟩
      obtain ⟨l0, l1, l2, l3, l4, l5, l6, l7, l8, l9⟩ := hlb
      refine ⟨l0.trans ?_, l1.trans ?_, l2.trans ?_, l3.trans ?_, l4.trans ?_, l5.trans ?_, l6.trans ?_, l7.trans ?_, l8.trans ?_, l9.trans ?_⟩ <;> first | exact (by decide : 67108863 ≤ 134217726 * (1 : UInt32).toNat) | exact (by decide : 4194303 ≤ 8388606 * (1 : UInt32).toNat)
    have key : Jacobian.eqXVar pr xr.1 .release = some true := by
      obtain ⟨b, hb, hb'⟩ := nil_eqXVar h hz hfe (by norm_num)
      rw [eqXVar_release pr _ { n := t, magnitude := 1, normalized := false } (by rw [ht]), hb, hb']; rfl
    refine ⟨by rw [exec_bind, key]; rfl, fun hlt => ?_⟩
    rw [hb] at h1
    exact absurd hlt (decide_eq_false_iff_not.1 h1.symm)

/-- `verify_raw` under the point at infinity or the pair (0, 0). -/
theorem nil_verifyRaw {ctx : List AffineStorage} {sigr sigs m : Scalar} {q : Affine} (hG : StoTable 16384 G ctx)
    (hx : q.x.Ok 8) (hy : q.y.Ok 8) (hq : q.infinity = true ∨ NilA q) (h0 : sigr.val ≠ 0) (h1 : sigs.val ≠ 0) :
    (q.infinity = true → verifyRaw ctx sigr sigs q m .debug = none) ∧
    verifyRaw ctx sigr sigs q m .release = some (decide (¬(n ∣ sigs.val) ∧ ¬(n ∣ sigr.val ∧ n ∣ m.val))) ∧
    (q.infinity = false → sigr.val < p → verifyRaw ctx sigr sigs q m = pure (decide (¬(n ∣ sigs.val) ∧ ¬(n ∣ sigr.val ∧ n ∣ m.val)))) := by
  unfold verifyRaw
  rw [if_neg (by rw [Bool.or_eq_true, Scalar.isZero_iff, Scalar.isZero_iff]; tauto)]
  obtain ⟨sn, e1, hsn⟩ := rs_inv (a := sigs) rfl
  obtain ⟨u1, e2, hu1⟩ := rs_mul hsn.rs (b := m) rfl
  obtain ⟨u2, e3, hu2⟩ := rs_mul hsn.rs (b := sigr) rfl
  obtain ⟨z, e4, hz⟩ := fe_one
  have e5 : Jacobian.setGe q = pure ⟨q.x, q.y, z, q.infinity⟩ := by
    unfold Jacobian.setGe
    rw [e4]; rfl
  have hbad : Bad ⟨q.x, q.y, z, q.infinity⟩ :=
    ⟨hx, hy, hz.ok (by norm_num), hq.imp id fun h => ⟨h.x, h.y, hz.ok (by norm_num), h.inf⟩⟩
  obtain ⟨pr, hp, hr1, hr2⟩ := nil_ecmult hG hbad hu2.lt hu1.lt
  rw [e1, pure_bind, e2, pure_bind, e3, pure_bind, e5, pure_bind, hp, bind_assoc, pure_bind]
  have key : (u2.val = 0 ∧ u1.val = 0) ↔ ¬(¬(n ∣ sigs.val) ∧ ¬(n ∣ sigr.val ∧ n ∣ m.val)) := by
    rw [hu1, hu2, ZMod.val_eq_zero, ZMod.val_eq_zero, mul_eq_zero, mul_eq_zero, inv_eq_zero, ZMod.natCast_eq_zero_iff,
      ZMod.natCast_eq_zero_iff, ZMod.natCast_eq_zero_iff]
    tauto
  obtain ⟨b, hb⟩ : ∃ b, b = decide (¬(n ∣ sigs.val) ∧ ¬(n ∣ sigr.val ∧ n ∣ m.val)) := ⟨_, rfl⟩
  rw [← hb]
  have htail : verifyTail sigr pr .release = some b ∧ (sigr.val < p → verifyTail sigr pr = pure b) := by
    by_cases hc : u2.val = 0 ∧ u1.val = 0
    · rw [decide_eq_false (key.1 hc)] at hb
      have e : verifyTail sigr pr = pure false := by unfold verifyTail; rw [if_pos (hr1 hc)]
      rw [e, hb]; exact ⟨rfl, fun _ => rfl⟩
    · have h := hr2 hc
      rw [decide_eq_true (by by_contra h'; exact hc (key.2 h'))] at hb
      rw [hb]; exact nil_verifyTail h.1 h.2
  refine ⟨fun hi => ?_, ?_, fun hi hlt => ?_⟩
  · dsimp only
    rw [hi]; rfl
  · exact htail.1
  · dsimp only
    rw [hi, dassert_true (by rfl), pure_bind]
    exact htail.2 hlt

end Ecdsa

end Verif
