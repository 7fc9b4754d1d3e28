import Verif.Proofs.Endo
import Verif.Proofs.Gen

/-! The first four additions of the fixed-base multiplication are never degenerate: a checked computation. -/

namespace Verif
open Spec

namespace Chain

/-- Mixed addition without inversion; the point is `(X / Z ^ 2, Y / Z ^ 3)`. -/
def madd (Q : ℕ × ℕ) (P : ℕ × ℕ × ℕ) : ℕ × ℕ × ℕ :=
  let zz := P.2.2 * P.2.2 % p
  let h := (Q.1 * zz + (p - P.1)) % p
  let r := (Q.2 * (zz * P.2.2 % p) + (p - P.2.1)) % p
  let hh := h * h % p
  let h3 := hh * h % p
  let v := P.1 * hh % p
  let x := (r * r + (p - h3) + (p - v) + (p - v)) % p
  (x, (r * (v + (p - x)) + (p - P.2.1) * h3) % p, P.2.2 * h % p)

/-- The triple represents `A`, unless its last entry is zero. -/
def IsJ (A : Pt) (P : ℕ × ℕ × ℕ) : Prop :=
  P.1 ≤ p ∧ P.2.1 ≤ p ∧ ((P.2.2 : Fp) ≠ 0 → IsPt A ((P.1 : Fp) / (P.2.2 : Fp) ^ 2) ((P.2.1 : Fp) / (P.2.2 : Fp) ^ 3))

theorem madd_spec {Q : ℕ × ℕ} {P : ℕ × ℕ × ℕ} {A B : Pt} (hA : IsJ A P) (hB : IsPt B (Q.1 : Fp) Q.2) : IsJ (B + A) (madd Q P) := by
  have hp : ((p : ℕ) : Fp) = 0 := ZMod.natCast_self p
  obtain ⟨X, Y, Z⟩ := P
  obtain ⟨gx, gy, hA⟩ := hA
  dsimp only at gx gy hA
  unfold madd
  dsimp only
  generalize hzz : Z * Z % p = zz
  generalize hh : (Q.1 * zz + (p - X)) % p = h
  generalize hr : (Q.2 * (zz * Z % p) + (p - Y)) % p = r
  generalize hhh : h * h % p = hh2
  generalize hh3 : hh2 * h % p = h3
  generalize hv : X * hh2 % p = v
  generalize hx : (r * r + (p - h3) + (p - v) + (p - v)) % p = x
  have m : ∀ a : ℕ, a % p ≤ p := fun a => (Nat.mod_lt a p_pos').le
  have lx : x ≤ p := hx ▸ m _
  have lv : v ≤ p := hv ▸ m _
  have l3 : h3 ≤ p := hh3 ▸ m _
  have ezz : (zz : Fp) = (Z : Fp) ^ 2 := by rw [← hzz, cast_mod_p hp]; push_cast; ring
  have eh : (h : Fp) = Q.1 * (Z : Fp) ^ 2 - X := by rw [← hh, cast_mod_p hp]; push_cast; rw [cast_sub_p hp gx, ezz]; ring
  have er : (r : Fp) = Q.2 * (Z : Fp) ^ 3 - Y := by
    rw [← hr, cast_mod_p hp]; push_cast; rw [cast_sub_p hp gy, cast_mod_p hp]; push_cast; rw [ezz]; ring
  have ehh : (hh2 : Fp) = (h : Fp) ^ 2 := by rw [← hhh, cast_mod_p hp]; push_cast; ring
  have eh3 : (h3 : Fp) = (h : Fp) ^ 3 := by rw [← hh3, cast_mod_p hp]; push_cast; rw [ehh]; ring
  have ev : (v : Fp) = X * (h : Fp) ^ 2 := by rw [← hv, cast_mod_p hp]; push_cast; rw [ehh]
  have ex : (x : Fp) = (r : Fp) ^ 2 - (h : Fp) ^ 3 - 2 * X * (h : Fp) ^ 2 := by
    rw [← hx, cast_mod_p hp]; push_cast; rw [cast_sub_p hp l3, cast_sub_p hp lv, eh3, ev]; ring
  refine ⟨lx, m _, fun hz => ?_⟩
  dsimp only at hz ⊢
  rw [cast_mod_p hp] at hz ⊢
  rw [cast_mod_p hp]
  push_cast at hz ⊢
  have hZ := left_ne_zero_of_mul hz
  have hh0 := right_ne_zero_of_mul hz
  have hA := hA hZ
  rw [cast_sub_p hp lx, cast_sub_p hp gy, eh3, ev, add_comm B A]
  have hne : (X : Fp) / (Z : Fp) ^ 2 ≠ (Q.1 : Fp) := by
    intro e
    apply hh0
    rw [eh, ← e, div_mul_cancel₀ _ (pow_ne_zero 2 hZ), sub_self]
  refine (isPt_add ((r : Fp) / (Z * h)) hA hB hne ?_).congr ?_ ?_
  · have : (X : Fp) / (Z : Fp) ^ 2 - Q.1 = -(h : Fp) / (Z : Fp) ^ 2 := by rw [eh]; field_simp; ring
    rw [this, er]; field_simp; ring
  · rw [ex]
    have e : (Q.1 : Fp) = ((h : Fp) + X) / (Z : Fp) ^ 2 := by rw [eh]; field_simp; ring
    rw [e]; field_simp; ring
  · rw [ex]
    have e : (Q.1 : Fp) = ((h : Fp) + X) / (Z : Fp) ^ 2 := by rw [eh]; field_simp; ring
    rw [e]; field_simp; ring

/-- The y-coordinates of `U, U + B, …`. -/
def rowYs (B : ℕ × ℕ) : ℕ → ℕ × ℕ → Option (List ℕ)
  | 0, _ => some []
  | k + 1, U => (addP U B).bind fun R => (rowYs B k R).map fun l => U.2 :: l

theorem rowYs_spec {B : ℕ × ℕ} {PB : Pt} (hg : Good B) (hB : IsPt PB (B.1 : Fp) B.2) : ∀ (k : ℕ) (U : ℕ × ℕ) (PU : Pt) (l : List ℕ),
    rowYs B k U = some l → Good U → IsPt PU (U.1 : Fp) U.2 → ∀ d < k, ∃ y ∈ l, ∃ x : Fp, IsPt (d • PB + PU) x (y : Fp)
  | 0, _, _, _, _, _, _, d, hd => by omega
  | k + 1, U, PU, l, h, gU, hU, d, hd => by
    simp only [rowYs, Option.bind_eq_some_iff, Option.map_eq_some_iff] at h
    obtain ⟨R, hR, l', hl', rfl⟩ := h
    obtain ⟨gR, iR⟩ := addP_spec hR gU hg hU hB
    rcases d with _ | d
    · exact ⟨U.2, List.mem_cons_self, U.1, by rw [zero_nsmul, zero_add]; exact hU⟩
    · obtain ⟨y, hy, x, hx⟩ := rowYs_spec hg hB k R _ l' hl' gR iR d (by omega)
      refine ⟨y, List.mem_cons_of_mem _ hy, x, ?_⟩
      rwa [show (d + 1) • PB + PU = d • PB + (PU + PB) by rw [add_smul, one_smul]; abel]

/-- The y-coordinate is the opposite of one of `ys`. -/
def clash (ys : List ℕ) (P : ℕ × ℕ × ℕ) : Bool :=
  let z3 := P.2.2 * P.2.2 % p * P.2.2 % p
  ys.any fun y => Nat.beq ((P.2.1 + y * z3) % p) 0

/-- `P, P + Q, …` are finite, and none of their y-coordinates is the opposite of one of `ys`. -/
def walk (ys : List ℕ) (Q : ℕ × ℕ) : ℕ → ℕ × ℕ × ℕ → Bool
  | 0, _ => true
  | k + 1, P => !Nat.beq (P.2.2 % p) 0 && !clash ys P && walk ys Q k (madd Q P)

theorem clash_spec {ys : List ℕ} {P : ℕ × ℕ × ℕ} (h : clash ys P = false) (hz : (P.2.2 : Fp) ≠ 0) :
    ∀ y ∈ ys, (P.2.1 : Fp) / (P.2.2 : Fp) ^ 3 + y ≠ 0 := by
  have hp : ((p : ℕ) : Fp) = 0 := ZMod.natCast_self p
  intro y hy e
  unfold clash at h
  dsimp only at h
  rw [List.any_eq_false] at h
  apply h y hy
  rw [Nat.beq_eq]
  refine Nat.mod_eq_zero_of_dvd ((ZMod.natCast_eq_zero_iff _ p).1 ?_)
  push_cast
  rw [cast_mod_p hp]
  push_cast
  rw [cast_mod_p hp]
  push_cast
  field_simp at e
  linear_combination e

theorem walk_spec {ys : List ℕ} {Q : ℕ × ℕ} {B : Pt} (hB : IsPt B (Q.1 : Fp) Q.2) : ∀ (k : ℕ) (P : ℕ × ℕ × ℕ) (A : Pt), walk ys Q k P = true → IsJ A P →
    ∀ u < k, ∃ x y : Fp, IsPt (u • B + A) x y ∧ ∀ y' ∈ ys, y + (y' : Fp) ≠ 0
  | 0, _, _, _, _, u, hu => by omega
  | k + 1, P, A, h, hA, u, hu => by
    rw [walk, Bool.and_eq_true, Bool.and_eq_true, Bool.not_eq_true', Bool.not_eq_true'] at h
    obtain ⟨⟨h0, hc⟩, hw⟩ := h
    rcases u with _ | u
    · have hz : (P.2.2 : Fp) ≠ 0 := by
        intro e
        have := Nat.mod_eq_zero_of_dvd ((ZMod.natCast_eq_zero_iff _ p).1 e)
        rw [this] at h0; exact absurd h0 (by decide)
      refine ⟨_, _, by rw [zero_nsmul, zero_add]; exact hA.2.2 hz, clash_spec hc hz⟩
    · obtain ⟨x, y, h1, h2⟩ := walk_spec hB k _ _ hw (madd_spec hA hB) u (by omega)
      refine ⟨x, y, ?_, h2⟩
      rwa [show (u + 1) • B + A = u • B + (B + A) by rw [add_smul, one_smul, add_assoc]]

/-- Row `d`, the first `k` multiples of the generator, added to `P`. -/
def stage (d : (ℕ × ℕ) × (ℕ × ℕ)) (k : ℕ) (P : ℕ × ℕ × ℕ) : Bool :=
  match rowYs d.1 16 d.2 with
  | none => false
  | some ys => walk ys data0.1 k P

/-- The bases and offsets of rows 0 to 3. -/
def rowData : ℕ → (ℕ × ℕ) × (ℕ × ℕ)
  | 0 => data0
  | j + 1 => chunk0.getD j data0

/-- Start of row `j`: minus the blinding point plus the offsets of the rows before. -/
def rowStart : ℕ → ℕ × ℕ × ℕ
  | 0 => (0x79fbca1da9be26c041739a35cce4b4ca0e3e20572aa5f56174c5c3cbc98c655,
      p - 0xa058737c5a3a8fd8db21187cb648d2ab9cb52c2df011d0ebf451c980547f4919, 1)
  | j + 1 => madd (rowData j).2 (rowStart j)

theorem rows4_ok : rowsOk data0 (chunk0.take 3) = true := by decide +kernel

set_option maxRecDepth 1000000 in
theorem stages_ok : stage (rowData 0) 1 (rowStart 0) = true ∧ stage (rowData 1) 16 (rowStart 1) = true ∧
    stage (rowData 2) 256 (rowStart 2) = true ∧ stage (rowData 3) 4096 (rowStart 3) = true := by
  refine ⟨?_, ?_, ?_, ?_⟩ <;> decide +kernel

end Chain

namespace Ecmult

theorem blind_isPt : IsPt (-(genBlind.val • G)) (((Chain.rowStart 0).1 : ℕ) : Fp) (((Chain.rowStart 0).2.1 : ℕ) : Fp) := by
  have hp : ((p : ℕ) : Fp) = 0 := ZMod.natCast_self p
  have : Chain.mulG 256 genBlind.val = some (0x79fbca1da9be26c041739a35cce4b4ca0e3e20572aa5f56174c5c3cbc98c655,
    0xa058737c5a3a8fd8db21187cb648d2ab9cb52c2df011d0ebf451c980547f4919) := by decide +kernel
  obtain ⟨g, hi⟩ := Chain.mulG_spec (K := Fp) hp isPt_G 256 _ _ this
  refine hi.neg.congr rfl ?_
  show _ = (((p - 0xa058737c5a3a8fd8db21187cb648d2ab9cb52c2df011d0ebf451c980547f4919 : ℕ)) : Fp)
  rw [Chain.cast_sub_p hp (by decide +kernel)]

theorem rowData_spec : ∀ j < 4, Chain.Good (Chain.rowData j).1 ∧ Chain.Good (Chain.rowData j).2 ∧
    IsPt (16 ^ j • G) ((Chain.rowData j).1.1 : Fp) (Chain.rowData j).1.2 ∧ IsPt (2 ^ j • off) ((Chain.rowData j).2.1 : Fp) (Chain.rowData j).2.2 := by
  have hp : ((p : ℕ) : Fp) = 0 := ZMod.natCast_self p
  have gG : Chain.Good Chain.data0.1 := ⟨by decide +kernel, by decide +kernel⟩
  obtain ⟨gU, iU⟩ := Chain.addG_spec hp Chain.data0_ok ⟨by decide +kernel, by decide +kernel⟩ isPt_nums isPt_G
  intro j hj
  have key : ∀ l, Chain.rowsOk Chain.data0 l = true → l.length = j → l.getLastD Chain.data0 = Chain.rowData j →
      Chain.Good (Chain.rowData j).1 ∧ Chain.Good (Chain.rowData j).2 ∧
      IsPt (16 ^ j • G) ((Chain.rowData j).1.1 : Fp) (Chain.rowData j).1.2 ∧ IsPt (2 ^ j • off) ((Chain.rowData j).2.1 : Fp) (Chain.rowData j).2.2 := by
    intro l hl hj hd
    obtain ⟨_, h⟩ := Chain.rows_spec l Chain.data0 G off hl gG gU isPt_G iU
    rwa [hd, hj] at h
  have sub : ∀ i, i ≤ 3 → Chain.rowsOk Chain.data0 (Chain.chunk0.take i) = true := by
    intro i hi
    have := Chain.rows4_ok
    rw [← List.take_append_drop i (Chain.chunk0.take 3), Chain.rowsOk_append, Bool.and_eq_true, List.take_take, min_eq_left hi] at this
    exact this.1
  have hj' : j = 0 ∨ j = 1 ∨ j = 2 ∨ j = 3 := by omega
  refine key _ (sub j (by omega)) ?_ ?_ <;> rcases hj' with rfl | rfl | rfl | rfl <;> rfl

theorem rowStart_spec : ∀ j < 4, Chain.IsJ (-(genBlind.val • G) + offSum j) (Chain.rowStart j)
  | 0, _ => by
    refine ⟨by decide +kernel, by decide +kernel, fun _ => ?_⟩
    rw [offSum, add_zero]
    refine blind_isPt.congr ?_ ?_
    · show _ = _ / ((1 : ℕ) : Fp) ^ 2; simp
    · show _ = _ / ((1 : ℕ) : Fp) ^ 3; simp
  | j + 1, h => by
    have := Chain.madd_spec (rowStart_spec j (by omega)) (rowData_spec j (by omega)).2.2.2
    rw [offSum, rowOff_low j (by omega), show -(genBlind.val • G) + (offSum j + 2 ^ j • off) = 2 ^ j • off + (-(genBlind.val • G) + offSum j) by abel]
    exact this

theorem low_steps {j : ℕ} (hj : j < 4) {u d : ℕ} (hu : u < 16 ^ j) (hd : d < 16) :
    -(genBlind.val • G) + (u • G + offSum j) ≠ 0 ∧ ¬OppY (-(genBlind.val • G) + (u • G + offSum j)) (d • (16 ^ j • G) + rowOff j) := by
  obtain ⟨g1, g2, i1, i2⟩ := rowData_spec j hj
  have hs : Chain.stage (Chain.rowData j) (16 ^ j) (Chain.rowStart j) = true := by
    obtain ⟨s0, s1, s2, s3⟩ := Chain.stages_ok
    have hj' : j = 0 ∨ j = 1 ∨ j = 2 ∨ j = 3 := by omega
    rcases hj' with rfl | rfl | rfl | rfl
    · exact s0
    · exact s1
    · exact s2
    · exact s3
  unfold Chain.stage at hs
  split at hs
  · cases hs
  rename_i ys hys
  obtain ⟨x, y, h1, h2⟩ := Chain.walk_spec isPt_G _ _ _ hs (rowStart_spec j hj) u hu
  obtain ⟨y', hy', x', h3⟩ := Chain.rowYs_spec g1 i1 16 _ _ ys hys g2 i2 d hd
  rw [show u • G + (-(genBlind.val • G) + offSum j) = -(genBlind.val • G) + (u • G + offSum j) by abel] at h1
  rw [rowOff_low j (by omega)]
  refine ⟨h1.ne_zero, ?_⟩
  rintro ⟨a, b, c, k1, k2⟩
  obtain ⟨_, rfl⟩ := h1.inj k1
  obtain ⟨_, e⟩ := h3.inj k2
  apply h2 y' hy'
  rw [e]; ring

end Ecmult

end Verif
