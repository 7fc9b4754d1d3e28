import Verif.Proofs.FieldBytes
import Verif.Proofs.Points

/-! The converse of `verify_runs`, and the value of `Field::new`. -/

namespace Verif
open Spec FElem

theorem release_bind {α β : Type} {x : Exec α} {f : α → Exec β} {a : α} (h : x .release = some a) :
    (x >>= f) .release = f a .release := by
  show (x .release).bind (fun a => f a .release) = _
  rw [h]; rfl

namespace FElem

theorem leMul_release (x c m : UInt32) : leMul x c m .release = some (decide (x ≤ c * m)) := rfl

theorem andThen_release {r : Bool} {x : Exec Bool} {b : Bool} (h : x .release = some b) :
    andThen r x .release = some (r && b) := by
  cases r
  · rfl
  · exact h

theorem le_mul_nat {x c m : UInt32} {C M : ℕ} (hc : c.toNat = C) (hm : m.toNat = M) (hb : C * M < 2 ^ 32)
    (h : x ≤ c * m) : x.toNat ≤ C * M := by
  rw [UInt32.le_iff_toNat_le, UInt32.toNat_mul, hc, hm, Nat.mod_eq_of_lt hb] at h
  exact h

theorem wf_of_verify_release {f : FElem} (h' : verify f .release = some true) : WF f := by
  unfold verify at h'
  rw [release_bind (a := (if f.normalized then 1 else 2) * f.magnitude) rfl] at h'
  repeat rw [release_bind (andThen_release (leMul_release _ _ _))] at h'
  rw [release_bind (andThen_release (b := decide (f.magnitude ≤ 32)) rfl)] at h'
  have c1 : (0x3ffffff : UInt32).toNat = 67108863 := rfl
  have c2 : (0x3fffff : UInt32).toNat = 4194303 := rfl
  cases hb : f.normalized with
  | false =>
    rw [hb] at h'
    simp only [Bool.false_eq_true, if_false] at h'
    have h'' : (_ : Bool) = true := Option.some.inj h'
    simp only [Bool.and_eq_true, decide_eq_true_eq, true_and] at h''
    obtain ⟨⟨⟨⟨⟨⟨⟨⟨⟨⟨h0, h1⟩, h2⟩, h3⟩, h4⟩, h5⟩, h6⟩, h7⟩, h8⟩, h9⟩, hm⟩ := h''
    have hm' : f.magnitude.toNat ≤ 32 := by rw [UInt32.le_iff_toNat_le] at hm; exact hm
    have em : (2 * f.magnitude).toNat = 2 * f.magnitude.toNat := by
      rw [UInt32.toNat_mul, Nat.mod_eq_of_lt]
      · rfl
      · show 2 * f.magnitude.toNat < 2 ^ 32; omega
    have b1 : 67108863 * (2 * f.magnitude.toNat) < 2 ^ 32 := by omega
    have b2 : 4194303 * (2 * f.magnitude.toNat) < 2 ^ 32 := by omega
    replace h0 := le_mul_nat c1 em b1 h0
    replace h1 := le_mul_nat c1 em b1 h1
    replace h2 := le_mul_nat c1 em b1 h2
    replace h3 := le_mul_nat c1 em b1 h3
    replace h4 := le_mul_nat c1 em b1 h4
    replace h5 := le_mul_nat c1 em b1 h5
    replace h6 := le_mul_nat c1 em b1 h6
    replace h7 := le_mul_nat c1 em b1 h7
    replace h8 := le_mul_nat c1 em b1 h8
    replace h9 := le_mul_nat c2 em b2 h9
    refine ⟨⟨by omega, by omega, by omega, by omega, by omega, by omega, by omega, by omega, by omega, by omega⟩, hm', ?_⟩
    intro h; rw [hb] at h; simp at h
  | true =>
    rw [hb] at h'
    simp only [if_true] at h'
    rw [release_bind (andThen_release (b := decide (f.magnitude ≤ 1)) rfl)] at h'
    generalize hr : (_ && decide (f.magnitude ≤ 1)) = r at h'
    have hrt : r = true := by
      cases r with
      | true => rfl
      | false => simp [pure, ReaderT.pure] at h'
    subst hrt
    simp only [Bool.and_eq_true, decide_eq_true_eq, true_and] at hr
    obtain ⟨⟨⟨⟨⟨⟨⟨⟨⟨⟨⟨h0, h1⟩, h2⟩, h3⟩, h4⟩, h5⟩, h6⟩, h7⟩, h8⟩, h9⟩, -⟩, hm⟩ := hr
    have hm' : f.magnitude.toNat ≤ 1 := by rw [UInt32.le_iff_toNat_le] at hm; exact hm
    have em : (1 * f.magnitude).toNat = f.magnitude.toNat := by rw [UInt32.one_mul]
    have b1 : 67108863 * f.magnitude.toNat < 2 ^ 32 := by omega
    have b2 : 4194303 * f.magnitude.toNat < 2 ^ 32 := by omega
    replace h0 := le_mul_nat c1 em b1 h0
    replace h1 := le_mul_nat c1 em b1 h1
    replace h2 := le_mul_nat c1 em b1 h2
    replace h3 := le_mul_nat c1 em b1 h3
    replace h4 := le_mul_nat c1 em b1 h4
    replace h5 := le_mul_nat c1 em b1 h5
    replace h6 := le_mul_nat c1 em b1 h6
    replace h7 := le_mul_nat c1 em b1 h7
    replace h8 := le_mul_nat c1 em b1 h8
    replace h9 := le_mul_nat c2 em b2 h9
    refine ⟨⟨by omega, by omega, by omega, by omega, by omega, by omega, by omega, by omega, by omega, by omega⟩, by omega, fun _ => ?_⟩
    refine ⟨hm', ⟨h0, h1, h2, h3, h4, h5, h6, h7, h8, h9⟩, ?_⟩
    have hlb : f.n.LB 67108863 4194303 :=
      ⟨by omega, by omega, by omega, by omega, by omega, by omega, by omega, by omega, by omega, by omega⟩
    rw [mid_beq hlb] at h'
    show f.n.val < p
    by_contra hp
    obtain ⟨e9, em', hs⟩ := (geP hlb).1 (not_lt.1 hp)
    have e9' : (f.n.n9 == 0x3fffff) = true := by
      have : (0x3fffff : UInt32) = UInt32.ofNat 4194303 := rfl
      rw [this, beq_lit (by norm_num), decide_eq_true_eq]; exact e9
    rw [e9', Bool.true_and, if_pos rfl, if_pos (by rw [decide_eq_true_eq]; exact em'), andThen_true] at h'
    obtain ⟨s, es, hs'⟩ := lowSum_runs hlb.h0 hlb.h1
    rw [es, pure_bind] at h'
    have := Option.some.inj h'
    rw [decide_eq_true_eq, UInt32.le_iff_toNat_le, hs', c1] at this
    omega

theorem verify_iff (f : FElem) : verify f = pure true ↔ WF f := by
  constructor
  · intro h; exact wf_of_verify_release (by rw [h]; rfl)
  · intro h
    obtain ⟨b, e, rfl⟩ := verify_runs h
    exact e

theorem and_shl (d : UInt32) (l : ℕ) (hl : l < 26) (m : UInt32) (hm : m = UInt32.ofNat (2 ^ (26 - l) - 1)) :
    (d &&& m) <<< UInt32.ofNat l = (d <<< UInt32.ofNat l) &&& 0x3ffffff := by
  apply UInt32.toNat_inj.1
  have e : ((d <<< UInt32.ofNat l) &&& 0x3ffffff).toNat = (d <<< UInt32.ofNat l).toNat % 2 ^ 26 := u32_lo _ 26 (by norm_num)
  have e' : (d &&& m).toNat = d.toNat % 2 ^ (26 - l) := by rw [hm]; exact u32_lo _ _ (by omega)
  rw [e, u32_shl _ _ (by omega), u32_shl _ _ (by omega), e']
  have h1 : (2 : ℕ) ^ 26 = 2 ^ (26 - l) * 2 ^ l := by rw [← pow_add]; congr 1; omega
  have h2 : (2 : ℕ) ^ 32 = 2 ^ 6 * 2 ^ 26 := by norm_num
  rw [h2, Nat.mod_mul_left_mod, h1, Nat.mul_mod_mul_right]
  apply Nat.mod_eq_of_lt
  have : d.toNat % 2 ^ (26 - l) < 2 ^ (26 - l) := Nat.mod_lt _ (by positivity)
  calc d.toNat % 2 ^ (26 - l) * 2 ^ l < 2 ^ (26 - l) * 2 ^ l := Nat.mul_lt_mul_of_pos_right this (by positivity)
    _ ≤ 2 ^ 6 * (2 ^ (26 - l) * 2 ^ l) := by rw [← h1]; norm_num

theorem new_eq_toField (d7 d6 d5 d4 d3 d2 d1 d0 : UInt32) :
    FElem.new d7 d6 d5 d4 d3 d2 d1 d0 = FieldStorage.toField ⟨d0, d1, d2, d3, d4, d5, d6, d7⟩ := by
  unfold FElem.new FieldStorage.toField
  have e1 : (d1 &&& 0xfffff) <<< 6 = (d1 <<< 6) &&& 0x3ffffff := and_shl d1 6 (by norm_num) _ rfl
  have e2 : (d2 &&& 0x3fff) <<< 12 = (d2 <<< 12) &&& 0x3ffffff := and_shl d2 12 (by norm_num) _ rfl
  have e3 : (d3 &&& 0xff) <<< 18 = (d3 <<< 18) &&& 0x3ffffff := and_shl d3 18 (by norm_num) _ rfl
  have e4 : (d4 &&& 0x3) <<< 24 = (d4 <<< 24) &&& 0x3ffffff := and_shl d4 24 (by norm_num) _ rfl
  have e6 : (d5 &&& 0x3fffff) <<< 4 = (d5 <<< 4) &&& 0x3ffffff := and_shl d5 4 (by norm_num) _ rfl
  have e7 : (d6 &&& 0xffff) <<< 10 = (d6 <<< 10) &&& 0x3ffffff := and_shl d6 10 (by norm_num) _ rfl
  have e8 : (d7 &&& 0x3ff) <<< 16 = (d7 <<< 16) &&& 0x3ffffff := and_shl d7 16 (by norm_num) _ rfl
  rw [e1, e2, e3, e4, e6, e7, e8]

theorem toField_wf_iff (s : FieldStorage) : WF (FieldStorage.toField s) ↔ s.val < p := by
  obtain ⟨hv, hlb⟩ := FieldStorage.toField_limbs s
  constructor
  · intro h
    have := (h.norm rfl).2.2
    show s.val < p
    rw [← hv]; exact this
  · intro h
    exact wf_normal hlb (hv ▸ h)

theorem fe_sqrt_sq {f : FElem} {m : ℕ} {x : Fp} (h : Fe f m x) (hm : m ≤ 8) :
    Runs (sqrt f) (fun r => ∃ y, Fe r.1 1 y ∧ (r.2 = true ↔ IsSquare x) ∧ (IsSquare x → y ^ 2 = x ∧ IsSquare y)) := by
  refine (sqrt_pow h hm).mono fun r hr => ⟨_, hr.1, ?_, fun hs => ⟨(sqrt_iff x).2 hs, ?_⟩⟩
  · rw [hr.2, decide_eq_true_eq, sqrt_iff]
  · refine ⟨x ^ ((p + 1) / 8), ?_⟩
    rw [← pow_add]; rfl

end FElem

open FElem

theorem Affine.setXquad_sq {x : FElem} {X : Fp} (hx : Fe x 8 X) :
    Runs (setXquad x) (fun r => r.1.x = x ∧ r.1.infinity = false ∧ ∃ Y, Fe r.1.y 1 Y ∧ (r.2 = true ↔ IsSquare (X ^ 3 + 7)) ∧
      (IsSquare (X ^ 3 + 7) → Y ^ 2 = X ^ 3 + 7 ∧ IsSquare Y)) := by
  unfold setXquad
  refine Runs.bind (fe_sqr hx (by norm_num)) fun x2 h2 => ?_
  refine Runs.bind (fe_mul hx h2.1 (by norm_num) (by norm_num)) fun x3 h3 => ?_
  refine Runs.bind fe_seven fun c hc => ?_
  refine Runs.bind (fe_add hc h3.1 (by norm_num)) fun c hc => ?_
  refine Runs.bind (fe_sqrt_sq hc.1 (by norm_num)) fun v hv => runs_pure ⟨rfl, rfl, ?_⟩
  rwa [show 7 + X * (X * X) = X ^ 3 + 7 by ring] at hv

theorem Jacobian.rescale_z {a : Jacobian} {Z : Fp} {P : Pt} {s : FElem} {k : Fp} (h : JacZ a Z P) (hs : FeN s k) (hk : k ≠ 0) :
    Runs (rescale a s) (fun r => JacZ r Z P ∧ r.z.v = a.z.v * k) := by
  refine (rescale_runs h hs hk).and ?_
  unfold rescale
  refine runs_dassertE (Runs.bind (isZero_runs hs) fun z hz => runs_pure (by rw [hz]; simp [hk])) ?_
  have hs1 := hs.fe
  refine Runs.bind (fe_sqr hs1 (by norm_num)) fun zz hzz => ?_
  refine Runs.bind (fe_mul h.x hzz.1 (by norm_num) (by norm_num)) fun x hx => ?_
  refine Runs.bind (fe_mul h.y hzz.1 (by norm_num) (by norm_num)) fun y hy => ?_
  refine Runs.bind (fe_mul hy.1 hs1 (by norm_num) (by norm_num)) fun y hy => ?_
  refine Runs.bind (fe_mul h.z hs1 (by norm_num) (by norm_num)) fun z hz => runs_pure hz.1.v

end Verif
