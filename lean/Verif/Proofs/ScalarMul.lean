import Verif.Proofs.ScalarMacros
import Mathlib.Tactic.LinearCombination

/-! 512-bit products and their reduction modulo n. -/

namespace Verif.Scalar
open Verif Spec

theorem nC0_le : nC0.toNat ≤ 801750719 := le_of_eq rfl
theorem nC1_le : nC1.toNat ≤ 1076732275 := le_of_eq rfl
theorem nC2_le : nC2.toNat ≤ 1354194884 := le_of_eq rfl
theorem nC3_le : nC3.toNat ≤ 1162945305 := le_of_eq rfl

/-- Integer denoted by the 16-limb buffer. -/
def Limbs16.val (l : Limbs16) : ℕ :=
  l.l0.toNat * 2 ^ 0 + l.l1.toNat * 2 ^ 32 + l.l2.toNat * 2 ^ 64 + l.l3.toNat * 2 ^ 96 + l.l4.toNat * 2 ^ 128 + l.l5.toNat * 2 ^ 160 + l.l6.toNat * 2 ^ 192 + l.l7.toNat * 2 ^ 224 + l.l8.toNat * 2 ^ 256 + l.l9.toNat * 497323236409786642155382248146820840100456150797347717440463976893159497012533375533056 + l.l10.toNat * 2135987035920910082395021706169552114602704522356652769947041607822219725780640550022962086936576 + l.l11.toNat * 9173994463960286046443283581208347763186259956673124494950355357547691504353939232280074212440502746218496 + l.l12.toNat * 39402006196394479212279040100143613805079739270465446667948293404245721771497210611414266254884915640806627990306816 + l.l13.toNat * 169230328010303641331690318856389386196071598838855992136870091590247882556495704531248437872567112920983350278405979725889536 + l.l14.toNat * 726838724295606890549323807888004534353641360687318060281490199180639288113397923326191050713763565560762521606266177933534601628614656 + l.l15.toNat * 3121748550315992231381597229793166305748598142664971150859156959625371738819765620120306103063491971159826931121406622895447975679288285306290176

/-- Integer denoted by `m0..m12`. -/
def Limbs13.val (m : Limbs13) : ℕ :=
  m.m0.toNat * 2 ^ 0 + m.m1.toNat * 2 ^ 32 + m.m2.toNat * 2 ^ 64 + m.m3.toNat * 2 ^ 96 + m.m4.toNat * 2 ^ 128 + m.m5.toNat * 2 ^ 160 + m.m6.toNat * 2 ^ 192 + m.m7.toNat * 2 ^ 224 + m.m8.toNat * 2 ^ 256 + m.m9.toNat * 497323236409786642155382248146820840100456150797347717440463976893159497012533375533056 + m.m10.toNat * 2135987035920910082395021706169552114602704522356652769947041607822219725780640550022962086936576 + m.m11.toNat * 9173994463960286046443283581208347763186259956673124494950355357547691504353939232280074212440502746218496 + m.m12.toNat * 39402006196394479212279040100143613805079739270465446667948293404245721771497210611414266254884915640806627990306816

/-- Integer denoted by `p0..p8`. -/
def Limbs9.val (p : Limbs9) : ℕ :=
  p.p0.toNat * 2 ^ 0 + p.p1.toNat * 2 ^ 32 + p.p2.toNat * 2 ^ 64 + p.p3.toNat * 2 ^ 96 + p.p4.toNat * 2 ^ 128 + p.p5.toNat * 2 ^ 160 + p.p6.toNat * 2 ^ 192 + p.p7.toNat * 2 ^ 224 + p.p8.toNat * 2 ^ 256

theorem acc_zero_le : (Acc.mk 0 0 0).val ≤ 0 := le_of_eq rfl

theorem acc_c0 {c : Acc} (h : c.val ≤ 4294967295) : c.c0.toNat = c.val ∧ c.c1.toNat = 0 := by
  unfold Acc.val at *; omega

theorem mul512_runs (a b : Scalar) :
    Runs (mul512 a b) (fun l => l.val = a.val * b.val) := by
  unfold mul512
  refine Runs.bind (muladdFast_runs 18446744065119617025 acc_zero_le (u32_le _) (u32_le _) (by norm_num) (by norm_num)) fun c1 h1 => ?_
  refine Runs.bind (extractFast_runs 4294967294 h1.2 (by norm_num) (by norm_num)) fun ⟨l0, c2⟩ h2 => ?_
  have col0 : l0.toNat + 2 ^ 32 * c2.val = (Acc.mk 0 0 0).val + a.d0.toNat * b.d0.toNat := by rw [h2.1, h1.1]
  refine Runs.bind (muladd_runs 18446744069414584319 h2.2 (u32_le _) (u32_le _) (by norm_num) (by norm_num)) fun c3 h3 => ?_
  refine Runs.bind (muladd_runs 36893488134534201344 h3.2 (u32_le _) (u32_le _) (by norm_num) (by norm_num)) fun c4 h4 => ?_
  refine Runs.bind (extract_runs 8589934589 h4.2 (by norm_num)) fun ⟨l1, c5⟩ h5 => ?_
  have col1 : l1.toNat + 2 ^ 32 * c5.val = c2.val + a.d0.toNat * b.d1.toNat + a.d1.toNat * b.d0.toNat := by rw [h5.1, h4.1, h3.1]
  refine Runs.bind (muladd_runs 18446744073709551614 h5.2 (u32_le _) (u32_le _) (by norm_num) (by norm_num)) fun c6 h6 => ?_
  refine Runs.bind (muladd_runs 36893488138829168639 h6.2 (u32_le _) (u32_le _) (by norm_num) (by norm_num)) fun c7 h7 => ?_
  refine Runs.bind (muladd_runs 55340232203948785664 h7.2 (u32_le _) (u32_le _) (by norm_num) (by norm_num)) fun c8 h8 => ?_
  refine Runs.bind (extract_runs 12884901884 h8.2 (by norm_num)) fun ⟨l2, c9⟩ h9 => ?_
  have col2 : l2.toNat + 2 ^ 32 * c9.val = c5.val + a.d0.toNat * b.d2.toNat + a.d1.toNat * b.d1.toNat + a.d2.toNat * b.d0.toNat := by rw [h9.1, h8.1, h7.1, h6.1]
  refine Runs.bind (muladd_runs 18446744078004518909 h9.2 (u32_le _) (u32_le _) (by norm_num) (by norm_num)) fun c10 h10 => ?_
  refine Runs.bind (muladd_runs 36893488143124135934 h10.2 (u32_le _) (u32_le _) (by norm_num) (by norm_num)) fun c11 h11 => ?_
  refine Runs.bind (muladd_runs 55340232208243752959 h11.2 (u32_le _) (u32_le _) (by norm_num) (by norm_num)) fun c12 h12 => ?_
  refine Runs.bind (muladd_runs 73786976273363369984 h12.2 (u32_le _) (u32_le _) (by norm_num) (by norm_num)) fun c13 h13 => ?_
  refine Runs.bind (extract_runs 17179869179 h13.2 (by norm_num)) fun ⟨l3, c14⟩ h14 => ?_
  have col3 : l3.toNat + 2 ^ 32 * c14.val = c9.val + a.d0.toNat * b.d3.toNat + a.d1.toNat * b.d2.toNat + a.d2.toNat * b.d1.toNat + a.d3.toNat * b.d0.toNat := by rw [h14.1, h13.1, h12.1, h11.1, h10.1]
  refine Runs.bind (muladd_runs 18446744082299486204 h14.2 (u32_le _) (u32_le _) (by norm_num) (by norm_num)) fun c15 h15 => ?_
  refine Runs.bind (muladd_runs 36893488147419103229 h15.2 (u32_le _) (u32_le _) (by norm_num) (by norm_num)) fun c16 h16 => ?_
  refine Runs.bind (muladd_runs 55340232212538720254 h16.2 (u32_le _) (u32_le _) (by norm_num) (by norm_num)) fun c17 h17 => ?_
  refine Runs.bind (muladd_runs 73786976277658337279 h17.2 (u32_le _) (u32_le _) (by norm_num) (by norm_num)) fun c18 h18 => ?_
  refine Runs.bind (muladd_runs 92233720342777954304 h18.2 (u32_le _) (u32_le _) (by norm_num) (by norm_num)) fun c19 h19 => ?_
  refine Runs.bind (extract_runs 21474836474 h19.2 (by norm_num)) fun ⟨l4, c20⟩ h20 => ?_
  have col4 : l4.toNat + 2 ^ 32 * c20.val = c14.val + a.d0.toNat * b.d4.toNat + a.d1.toNat * b.d3.toNat + a.d2.toNat * b.d2.toNat + a.d3.toNat * b.d1.toNat + a.d4.toNat * b.d0.toNat := by rw [h20.1, h19.1, h18.1, h17.1, h16.1, h15.1]
  refine Runs.bind (muladd_runs 18446744086594453499 h20.2 (u32_le _) (u32_le _) (by norm_num) (by norm_num)) fun c21 h21 => ?_
  refine Runs.bind (muladd_runs 36893488151714070524 h21.2 (u32_le _) (u32_le _) (by norm_num) (by norm_num)) fun c22 h22 => ?_
  refine Runs.bind (muladd_runs 55340232216833687549 h22.2 (u32_le _) (u32_le _) (by norm_num) (by norm_num)) fun c23 h23 => ?_
  refine Runs.bind (muladd_runs 73786976281953304574 h23.2 (u32_le _) (u32_le _) (by norm_num) (by norm_num)) fun c24 h24 => ?_
  refine Runs.bind (muladd_runs 92233720347072921599 h24.2 (u32_le _) (u32_le _) (by norm_num) (by norm_num)) fun c25 h25 => ?_
  refine Runs.bind (muladd_runs 110680464412192538624 h25.2 (u32_le _) (u32_le _) (by norm_num) (by norm_num)) fun c26 h26 => ?_
  refine Runs.bind (extract_runs 25769803769 h26.2 (by norm_num)) fun ⟨l5, c27⟩ h27 => ?_
  have col5 : l5.toNat + 2 ^ 32 * c27.val = c20.val + a.d0.toNat * b.d5.toNat + a.d1.toNat * b.d4.toNat + a.d2.toNat * b.d3.toNat + a.d3.toNat * b.d2.toNat + a.d4.toNat * b.d1.toNat + a.d5.toNat * b.d0.toNat := by rw [h27.1, h26.1, h25.1, h24.1, h23.1, h22.1, h21.1]
  refine Runs.bind (muladd_runs 18446744090889420794 h27.2 (u32_le _) (u32_le _) (by norm_num) (by norm_num)) fun c28 h28 => ?_
  refine Runs.bind (muladd_runs 36893488156009037819 h28.2 (u32_le _) (u32_le _) (by norm_num) (by norm_num)) fun c29 h29 => ?_
  refine Runs.bind (muladd_runs 55340232221128654844 h29.2 (u32_le _) (u32_le _) (by norm_num) (by norm_num)) fun c30 h30 => ?_
  refine Runs.bind (muladd_runs 73786976286248271869 h30.2 (u32_le _) (u32_le _) (by norm_num) (by norm_num)) fun c31 h31 => ?_
  refine Runs.bind (muladd_runs 92233720351367888894 h31.2 (u32_le _) (u32_le _) (by norm_num) (by norm_num)) fun c32 h32 => ?_
  refine Runs.bind (muladd_runs 110680464416487505919 h32.2 (u32_le _) (u32_le _) (by norm_num) (by norm_num)) fun c33 h33 => ?_
  refine Runs.bind (muladd_runs 129127208481607122944 h33.2 (u32_le _) (u32_le _) (by norm_num) (by norm_num)) fun c34 h34 => ?_
  refine Runs.bind (extract_runs 30064771064 h34.2 (by norm_num)) fun ⟨l6, c35⟩ h35 => ?_
  have col6 : l6.toNat + 2 ^ 32 * c35.val = c27.val + a.d0.toNat * b.d6.toNat + a.d1.toNat * b.d5.toNat + a.d2.toNat * b.d4.toNat + a.d3.toNat * b.d3.toNat + a.d4.toNat * b.d2.toNat + a.d5.toNat * b.d1.toNat + a.d6.toNat * b.d0.toNat := by rw [h35.1, h34.1, h33.1, h32.1, h31.1, h30.1, h29.1, h28.1]
  refine Runs.bind (muladd_runs 18446744095184388089 h35.2 (u32_le _) (u32_le _) (by norm_num) (by norm_num)) fun c36 h36 => ?_
  refine Runs.bind (muladd_runs 36893488160304005114 h36.2 (u32_le _) (u32_le _) (by norm_num) (by norm_num)) fun c37 h37 => ?_
  refine Runs.bind (muladd_runs 55340232225423622139 h37.2 (u32_le _) (u32_le _) (by norm_num) (by norm_num)) fun c38 h38 => ?_
  refine Runs.bind (muladd_runs 73786976290543239164 h38.2 (u32_le _) (u32_le _) (by norm_num) (by norm_num)) fun c39 h39 => ?_
  refine Runs.bind (muladd_runs 92233720355662856189 h39.2 (u32_le _) (u32_le _) (by norm_num) (by norm_num)) fun c40 h40 => ?_
  refine Runs.bind (muladd_runs 110680464420782473214 h40.2 (u32_le _) (u32_le _) (by norm_num) (by norm_num)) fun c41 h41 => ?_
  refine Runs.bind (muladd_runs 129127208485902090239 h41.2 (u32_le _) (u32_le _) (by norm_num) (by norm_num)) fun c42 h42 => ?_
  refine Runs.bind (muladd_runs 147573952551021707264 h42.2 (u32_le _) (u32_le _) (by norm_num) (by norm_num)) fun c43 h43 => ?_
  refine Runs.bind (extract_runs 34359738359 h43.2 (by norm_num)) fun ⟨l7, c44⟩ h44 => ?_
  have col7 : l7.toNat + 2 ^ 32 * c44.val = c35.val + a.d0.toNat * b.d7.toNat + a.d1.toNat * b.d6.toNat + a.d2.toNat * b.d5.toNat + a.d3.toNat * b.d4.toNat + a.d4.toNat * b.d3.toNat + a.d5.toNat * b.d2.toNat + a.d6.toNat * b.d1.toNat + a.d7.toNat * b.d0.toNat := by rw [h44.1, h43.1, h42.1, h41.1, h40.1, h39.1, h38.1, h37.1, h36.1]
  refine Runs.bind (muladd_runs 18446744099479355384 h44.2 (u32_le _) (u32_le _) (by norm_num) (by norm_num)) fun c45 h45 => ?_
  refine Runs.bind (muladd_runs 36893488164598972409 h45.2 (u32_le _) (u32_le _) (by norm_num) (by norm_num)) fun c46 h46 => ?_
  refine Runs.bind (muladd_runs 55340232229718589434 h46.2 (u32_le _) (u32_le _) (by norm_num) (by norm_num)) fun c47 h47 => ?_
  refine Runs.bind (muladd_runs 73786976294838206459 h47.2 (u32_le _) (u32_le _) (by norm_num) (by norm_num)) fun c48 h48 => ?_
  refine Runs.bind (muladd_runs 92233720359957823484 h48.2 (u32_le _) (u32_le _) (by norm_num) (by norm_num)) fun c49 h49 => ?_
  refine Runs.bind (muladd_runs 110680464425077440509 h49.2 (u32_le _) (u32_le _) (by norm_num) (by norm_num)) fun c50 h50 => ?_
  refine Runs.bind (muladd_runs 129127208490197057534 h50.2 (u32_le _) (u32_le _) (by norm_num) (by norm_num)) fun c51 h51 => ?_
  refine Runs.bind (extract_runs 30064771065 h51.2 (by norm_num)) fun ⟨l8, c52⟩ h52 => ?_
  have col8 : l8.toNat + 2 ^ 32 * c52.val = c44.val + a.d1.toNat * b.d7.toNat + a.d2.toNat * b.d6.toNat + a.d3.toNat * b.d5.toNat + a.d4.toNat * b.d4.toNat + a.d5.toNat * b.d3.toNat + a.d6.toNat * b.d2.toNat + a.d7.toNat * b.d1.toNat := by rw [h52.1, h51.1, h50.1, h49.1, h48.1, h47.1, h46.1, h45.1]
  refine Runs.bind (muladd_runs 18446744095184388090 h52.2 (u32_le _) (u32_le _) (by norm_num) (by norm_num)) fun c53 h53 => ?_
  refine Runs.bind (muladd_runs 36893488160304005115 h53.2 (u32_le _) (u32_le _) (by norm_num) (by norm_num)) fun c54 h54 => ?_
  refine Runs.bind (muladd_runs 55340232225423622140 h54.2 (u32_le _) (u32_le _) (by norm_num) (by norm_num)) fun c55 h55 => ?_
  refine Runs.bind (muladd_runs 73786976290543239165 h55.2 (u32_le _) (u32_le _) (by norm_num) (by norm_num)) fun c56 h56 => ?_
  refine Runs.bind (muladd_runs 92233720355662856190 h56.2 (u32_le _) (u32_le _) (by norm_num) (by norm_num)) fun c57 h57 => ?_
  refine Runs.bind (muladd_runs 110680464420782473215 h57.2 (u32_le _) (u32_le _) (by norm_num) (by norm_num)) fun c58 h58 => ?_
  refine Runs.bind (extract_runs 25769803770 h58.2 (by norm_num)) fun ⟨l9, c59⟩ h59 => ?_
  have col9 : l9.toNat + 2 ^ 32 * c59.val = c52.val + a.d2.toNat * b.d7.toNat + a.d3.toNat * b.d6.toNat + a.d4.toNat * b.d5.toNat + a.d5.toNat * b.d4.toNat + a.d6.toNat * b.d3.toNat + a.d7.toNat * b.d2.toNat := by rw [h59.1, h58.1, h57.1, h56.1, h55.1, h54.1, h53.1]
  refine Runs.bind (muladd_runs 18446744090889420795 h59.2 (u32_le _) (u32_le _) (by norm_num) (by norm_num)) fun c60 h60 => ?_
  refine Runs.bind (muladd_runs 36893488156009037820 h60.2 (u32_le _) (u32_le _) (by norm_num) (by norm_num)) fun c61 h61 => ?_
  refine Runs.bind (muladd_runs 55340232221128654845 h61.2 (u32_le _) (u32_le _) (by norm_num) (by norm_num)) fun c62 h62 => ?_
  refine Runs.bind (muladd_runs 73786976286248271870 h62.2 (u32_le _) (u32_le _) (by norm_num) (by norm_num)) fun c63 h63 => ?_
  refine Runs.bind (muladd_runs 92233720351367888895 h63.2 (u32_le _) (u32_le _) (by norm_num) (by norm_num)) fun c64 h64 => ?_
  refine Runs.bind (extract_runs 21474836475 h64.2 (by norm_num)) fun ⟨l10, c65⟩ h65 => ?_
  have col10 : l10.toNat + 2 ^ 32 * c65.val = c59.val + a.d3.toNat * b.d7.toNat + a.d4.toNat * b.d6.toNat + a.d5.toNat * b.d5.toNat + a.d6.toNat * b.d4.toNat + a.d7.toNat * b.d3.toNat := by rw [h65.1, h64.1, h63.1, h62.1, h61.1, h60.1]
  refine Runs.bind (muladd_runs 18446744086594453500 h65.2 (u32_le _) (u32_le _) (by norm_num) (by norm_num)) fun c66 h66 => ?_
  refine Runs.bind (muladd_runs 36893488151714070525 h66.2 (u32_le _) (u32_le _) (by norm_num) (by norm_num)) fun c67 h67 => ?_
  refine Runs.bind (muladd_runs 55340232216833687550 h67.2 (u32_le _) (u32_le _) (by norm_num) (by norm_num)) fun c68 h68 => ?_
  refine Runs.bind (muladd_runs 73786976281953304575 h68.2 (u32_le _) (u32_le _) (by norm_num) (by norm_num)) fun c69 h69 => ?_
  refine Runs.bind (extract_runs 17179869180 h69.2 (by norm_num)) fun ⟨l11, c70⟩ h70 => ?_
  have col11 : l11.toNat + 2 ^ 32 * c70.val = c65.val + a.d4.toNat * b.d7.toNat + a.d5.toNat * b.d6.toNat + a.d6.toNat * b.d5.toNat + a.d7.toNat * b.d4.toNat := by rw [h70.1, h69.1, h68.1, h67.1, h66.1]
  refine Runs.bind (muladd_runs 18446744082299486205 h70.2 (u32_le _) (u32_le _) (by norm_num) (by norm_num)) fun c71 h71 => ?_
  refine Runs.bind (muladd_runs 36893488147419103230 h71.2 (u32_le _) (u32_le _) (by norm_num) (by norm_num)) fun c72 h72 => ?_
  refine Runs.bind (muladd_runs 55340232212538720255 h72.2 (u32_le _) (u32_le _) (by norm_num) (by norm_num)) fun c73 h73 => ?_
  refine Runs.bind (extract_runs 12884901885 h73.2 (by norm_num)) fun ⟨l12, c74⟩ h74 => ?_
  have col12 : l12.toNat + 2 ^ 32 * c74.val = c70.val + a.d5.toNat * b.d7.toNat + a.d6.toNat * b.d6.toNat + a.d7.toNat * b.d5.toNat := by rw [h74.1, h73.1, h72.1, h71.1]
  refine Runs.bind (muladd_runs 18446744078004518910 h74.2 (u32_le _) (u32_le _) (by norm_num) (by norm_num)) fun c75 h75 => ?_
  refine Runs.bind (muladd_runs 36893488143124135935 h75.2 (u32_le _) (u32_le _) (by norm_num) (by norm_num)) fun c76 h76 => ?_
  refine Runs.bind (extract_runs 8589934590 h76.2 (by norm_num)) fun ⟨l13, c77⟩ h77 => ?_
  have col13 : l13.toNat + 2 ^ 32 * c77.val = c74.val + a.d6.toNat * b.d7.toNat + a.d7.toNat * b.d6.toNat := by rw [h77.1, h76.1, h75.1]
  refine Runs.bind (muladdFast_runs 18446744073709551615 h77.2 (u32_le _) (u32_le _) (by norm_num) (by norm_num)) fun c78 h78 => ?_
  refine Runs.bind (extractFast_runs 4294967295 h78.2 (by norm_num) (by norm_num)) fun ⟨l14, c79⟩ h79 => ?_
  have col14 : l14.toNat + 2 ^ 32 * c79.val = c77.val + a.d7.toNat * b.d7.toNat := by rw [h79.1, h78.1]
  have hb := le_trans h79.2 (by norm_num : 4294967295 ≤ 4294967295)
  dsimp only at hb
  obtain ⟨hc0, hc1⟩ := acc_c0 hb
  refine runs_dassert (eq_zero_beq hc1) (runs_pure ?_)
  have hz : (Acc.mk 0 0 0).val = 0 := rfl
  rw [hz] at col0
  simp only [Limbs16.val, val, hc0]
  clear h1 h2 h3 h4 h5 h6 h7 h8 h9 h10 h11 h12 h13 h14 h15 h16 h17 h18 h19 h20 h21 h22 h23 h24 h25 h26 h27 h28 h29 h30 h31 h32 h33 h34 h35 h36 h37 h38 h39 h40 h41 h42 h43 h44 h45 h46 h47 h48 h49 h50 h51 h52 h53 h54 h55 h56 h57 h58 h59 h60 h61 h62 h63 h64 h65 h66 h67 h68 h69 h70 h71 h72 h73 h74 h75 h76 h77 h78 h79
  zify at *
  linear_combination 2 ^ 0 * col0 + 2 ^ 32 * col1 + 2 ^ 64 * col2 + 2 ^ 96 * col3 + 2 ^ 128 * col4 + 2 ^ 160 * col5 + 2 ^ 192 * col6 + 2 ^ 224 * col7 + 2 ^ 256 * col8 + 497323236409786642155382248146820840100456150797347717440463976893159497012533375533056 * col9 + 2135987035920910082395021706169552114602704522356652769947041607822219725780640550022962086936576 * col10 + 9173994463960286046443283581208347763186259956673124494950355357547691504353939232280074212440502746218496 * col11 + 39402006196394479212279040100143613805079739270465446667948293404245721771497210611414266254884915640806627990306816 * col12 + 169230328010303641331690318856389386196071598838855992136870091590247882556495704531248437872567112920983350278405979725889536 * col13 + 726838724295606890549323807888004534353641360687318060281490199180639288113397923326191050713763565560762521606266177933534601628614656 * col14

theorem sqr512_runs (a : Scalar) :
    Runs (sqr512 a) (fun l => l.val = a.val * a.val) := by
  unfold sqr512
  refine Runs.bind (muladdFast_runs 18446744065119617025 acc_zero_le (u32_le _) (u32_le _) (by norm_num) (by norm_num)) fun c1 h1 => ?_
  refine Runs.bind (extractFast_runs 4294967294 h1.2 (by norm_num) (by norm_num)) fun ⟨l0, c2⟩ h2 => ?_
  have col0 : l0.toNat + 2 ^ 32 * c2.val = (Acc.mk 0 0 0).val + a.d0.toNat * a.d0.toNat := by rw [h2.1, h1.1]
  refine Runs.bind (muladd2_runs 36893488134534201344 h2.2 (u32_le _) (u32_le _) (by norm_num) (by norm_num)) fun c3 h3 => ?_
  refine Runs.bind (extract_runs 8589934589 h3.2 (by norm_num)) fun ⟨l1, c4⟩ h4 => ?_
  have col1 : l1.toNat + 2 ^ 32 * c4.val = c2.val + 2 * (a.d0.toNat * a.d1.toNat) := by rw [h4.1, h3.1]
  refine Runs.bind (muladd2_runs 36893488138829168639 h4.2 (u32_le _) (u32_le _) (by norm_num) (by norm_num)) fun c5 h5 => ?_
  refine Runs.bind (muladd_runs 55340232203948785664 h5.2 (u32_le _) (u32_le _) (by norm_num) (by norm_num)) fun c6 h6 => ?_
  refine Runs.bind (extract_runs 12884901884 h6.2 (by norm_num)) fun ⟨l2, c7⟩ h7 => ?_
  have col2 : l2.toNat + 2 ^ 32 * c7.val = c4.val + 2 * (a.d0.toNat * a.d2.toNat) + a.d1.toNat * a.d1.toNat := by rw [h7.1, h6.1, h5.1]
  refine Runs.bind (muladd2_runs 36893488143124135934 h7.2 (u32_le _) (u32_le _) (by norm_num) (by norm_num)) fun c8 h8 => ?_
  refine Runs.bind (muladd2_runs 73786976273363369984 h8.2 (u32_le _) (u32_le _) (by norm_num) (by norm_num)) fun c9 h9 => ?_
  refine Runs.bind (extract_runs 17179869179 h9.2 (by norm_num)) fun ⟨l3, c10⟩ h10 => ?_
  have col3 : l3.toNat + 2 ^ 32 * c10.val = c7.val + 2 * (a.d0.toNat * a.d3.toNat) + 2 * (a.d1.toNat * a.d2.toNat) := by rw [h10.1, h9.1, h8.1]
  refine Runs.bind (muladd2_runs 36893488147419103229 h10.2 (u32_le _) (u32_le _) (by norm_num) (by norm_num)) fun c11 h11 => ?_
  refine Runs.bind (muladd2_runs 73786976277658337279 h11.2 (u32_le _) (u32_le _) (by norm_num) (by norm_num)) fun c12 h12 => ?_
  refine Runs.bind (muladd_runs 92233720342777954304 h12.2 (u32_le _) (u32_le _) (by norm_num) (by norm_num)) fun c13 h13 => ?_
  refine Runs.bind (extract_runs 21474836474 h13.2 (by norm_num)) fun ⟨l4, c14⟩ h14 => ?_
  have col4 : l4.toNat + 2 ^ 32 * c14.val = c10.val + 2 * (a.d0.toNat * a.d4.toNat) + 2 * (a.d1.toNat * a.d3.toNat) + a.d2.toNat * a.d2.toNat := by rw [h14.1, h13.1, h12.1, h11.1]
  refine Runs.bind (muladd2_runs 36893488151714070524 h14.2 (u32_le _) (u32_le _) (by norm_num) (by norm_num)) fun c15 h15 => ?_
  refine Runs.bind (muladd2_runs 73786976281953304574 h15.2 (u32_le _) (u32_le _) (by norm_num) (by norm_num)) fun c16 h16 => ?_
  refine Runs.bind (muladd2_runs 110680464412192538624 h16.2 (u32_le _) (u32_le _) (by norm_num) (by norm_num)) fun c17 h17 => ?_
  refine Runs.bind (extract_runs 25769803769 h17.2 (by norm_num)) fun ⟨l5, c18⟩ h18 => ?_
  have col5 : l5.toNat + 2 ^ 32 * c18.val = c14.val + 2 * (a.d0.toNat * a.d5.toNat) + 2 * (a.d1.toNat * a.d4.toNat) + 2 * (a.d2.toNat * a.d3.toNat) := by rw [h18.1, h17.1, h16.1, h15.1]
  refine Runs.bind (muladd2_runs 36893488156009037819 h18.2 (u32_le _) (u32_le _) (by norm_num) (by norm_num)) fun c19 h19 => ?_
  refine Runs.bind (muladd2_runs 73786976286248271869 h19.2 (u32_le _) (u32_le _) (by norm_num) (by norm_num)) fun c20 h20 => ?_
  refine Runs.bind (muladd2_runs 110680464416487505919 h20.2 (u32_le _) (u32_le _) (by norm_num) (by norm_num)) fun c21 h21 => ?_
  refine Runs.bind (muladd_runs 129127208481607122944 h21.2 (u32_le _) (u32_le _) (by norm_num) (by norm_num)) fun c22 h22 => ?_
  refine Runs.bind (extract_runs 30064771064 h22.2 (by norm_num)) fun ⟨l6, c23⟩ h23 => ?_
  have col6 : l6.toNat + 2 ^ 32 * c23.val = c18.val + 2 * (a.d0.toNat * a.d6.toNat) + 2 * (a.d1.toNat * a.d5.toNat) + 2 * (a.d2.toNat * a.d4.toNat) + a.d3.toNat * a.d3.toNat := by rw [h23.1, h22.1, h21.1, h20.1, h19.1]
  refine Runs.bind (muladd2_runs 36893488160304005114 h23.2 (u32_le _) (u32_le _) (by norm_num) (by norm_num)) fun c24 h24 => ?_
  refine Runs.bind (muladd2_runs 73786976290543239164 h24.2 (u32_le _) (u32_le _) (by norm_num) (by norm_num)) fun c25 h25 => ?_
  refine Runs.bind (muladd2_runs 110680464420782473214 h25.2 (u32_le _) (u32_le _) (by norm_num) (by norm_num)) fun c26 h26 => ?_
  refine Runs.bind (muladd2_runs 147573952551021707264 h26.2 (u32_le _) (u32_le _) (by norm_num) (by norm_num)) fun c27 h27 => ?_
  refine Runs.bind (extract_runs 34359738359 h27.2 (by norm_num)) fun ⟨l7, c28⟩ h28 => ?_
  have col7 : l7.toNat + 2 ^ 32 * c28.val = c23.val + 2 * (a.d0.toNat * a.d7.toNat) + 2 * (a.d1.toNat * a.d6.toNat) + 2 * (a.d2.toNat * a.d5.toNat) + 2 * (a.d3.toNat * a.d4.toNat) := by rw [h28.1, h27.1, h26.1, h25.1, h24.1]
  refine Runs.bind (muladd2_runs 36893488164598972409 h28.2 (u32_le _) (u32_le _) (by norm_num) (by norm_num)) fun c29 h29 => ?_
  refine Runs.bind (muladd2_runs 73786976294838206459 h29.2 (u32_le _) (u32_le _) (by norm_num) (by norm_num)) fun c30 h30 => ?_
  refine Runs.bind (muladd2_runs 110680464425077440509 h30.2 (u32_le _) (u32_le _) (by norm_num) (by norm_num)) fun c31 h31 => ?_
  refine Runs.bind (muladd_runs 129127208490197057534 h31.2 (u32_le _) (u32_le _) (by norm_num) (by norm_num)) fun c32 h32 => ?_
  refine Runs.bind (extract_runs 30064771065 h32.2 (by norm_num)) fun ⟨l8, c33⟩ h33 => ?_
  have col8 : l8.toNat + 2 ^ 32 * c33.val = c28.val + 2 * (a.d1.toNat * a.d7.toNat) + 2 * (a.d2.toNat * a.d6.toNat) + 2 * (a.d3.toNat * a.d5.toNat) + a.d4.toNat * a.d4.toNat := by rw [h33.1, h32.1, h31.1, h30.1, h29.1]
  refine Runs.bind (muladd2_runs 36893488160304005115 h33.2 (u32_le _) (u32_le _) (by norm_num) (by norm_num)) fun c34 h34 => ?_
  refine Runs.bind (muladd2_runs 73786976290543239165 h34.2 (u32_le _) (u32_le _) (by norm_num) (by norm_num)) fun c35 h35 => ?_
  refine Runs.bind (muladd2_runs 110680464420782473215 h35.2 (u32_le _) (u32_le _) (by norm_num) (by norm_num)) fun c36 h36 => ?_
  refine Runs.bind (extract_runs 25769803770 h36.2 (by norm_num)) fun ⟨l9, c37⟩ h37 => ?_
  have col9 : l9.toNat + 2 ^ 32 * c37.val = c33.val + 2 * (a.d2.toNat * a.d7.toNat) + 2 * (a.d3.toNat * a.d6.toNat) + 2 * (a.d4.toNat * a.d5.toNat) := by rw [h37.1, h36.1, h35.1, h34.1]
  refine Runs.bind (muladd2_runs 36893488156009037820 h37.2 (u32_le _) (u32_le _) (by norm_num) (by norm_num)) fun c38 h38 => ?_
  refine Runs.bind (muladd2_runs 73786976286248271870 h38.2 (u32_le _) (u32_le _) (by norm_num) (by norm_num)) fun c39 h39 => ?_
  refine Runs.bind (muladd_runs 92233720351367888895 h39.2 (u32_le _) (u32_le _) (by norm_num) (by norm_num)) fun c40 h40 => ?_
  refine Runs.bind (extract_runs 21474836475 h40.2 (by norm_num)) fun ⟨l10, c41⟩ h41 => ?_
  have col10 : l10.toNat + 2 ^ 32 * c41.val = c37.val + 2 * (a.d3.toNat * a.d7.toNat) + 2 * (a.d4.toNat * a.d6.toNat) + a.d5.toNat * a.d5.toNat := by rw [h41.1, h40.1, h39.1, h38.1]
  refine Runs.bind (muladd2_runs 36893488151714070525 h41.2 (u32_le _) (u32_le _) (by norm_num) (by norm_num)) fun c42 h42 => ?_
  refine Runs.bind (muladd2_runs 73786976281953304575 h42.2 (u32_le _) (u32_le _) (by norm_num) (by norm_num)) fun c43 h43 => ?_
  refine Runs.bind (extract_runs 17179869180 h43.2 (by norm_num)) fun ⟨l11, c44⟩ h44 => ?_
  have col11 : l11.toNat + 2 ^ 32 * c44.val = c41.val + 2 * (a.d4.toNat * a.d7.toNat) + 2 * (a.d5.toNat * a.d6.toNat) := by rw [h44.1, h43.1, h42.1]
  refine Runs.bind (muladd2_runs 36893488147419103230 h44.2 (u32_le _) (u32_le _) (by norm_num) (by norm_num)) fun c45 h45 => ?_
  refine Runs.bind (muladd_runs 55340232212538720255 h45.2 (u32_le _) (u32_le _) (by norm_num) (by norm_num)) fun c46 h46 => ?_
  refine Runs.bind (extract_runs 12884901885 h46.2 (by norm_num)) fun ⟨l12, c47⟩ h47 => ?_
  have col12 : l12.toNat + 2 ^ 32 * c47.val = c44.val + 2 * (a.d5.toNat * a.d7.toNat) + a.d6.toNat * a.d6.toNat := by rw [h47.1, h46.1, h45.1]
  refine Runs.bind (muladd2_runs 36893488143124135935 h47.2 (u32_le _) (u32_le _) (by norm_num) (by norm_num)) fun c48 h48 => ?_
  refine Runs.bind (extract_runs 8589934590 h48.2 (by norm_num)) fun ⟨l13, c49⟩ h49 => ?_
  have col13 : l13.toNat + 2 ^ 32 * c49.val = c47.val + 2 * (a.d6.toNat * a.d7.toNat) := by rw [h49.1, h48.1]
  refine Runs.bind (muladdFast_runs 18446744073709551615 h49.2 (u32_le _) (u32_le _) (by norm_num) (by norm_num)) fun c50 h50 => ?_
  refine Runs.bind (extractFast_runs 4294967295 h50.2 (by norm_num) (by norm_num)) fun ⟨l14, c51⟩ h51 => ?_
  have col14 : l14.toNat + 2 ^ 32 * c51.val = c49.val + a.d7.toNat * a.d7.toNat := by rw [h51.1, h50.1]
  have hb := le_trans h51.2 (by norm_num : 4294967295 ≤ 4294967295)
  dsimp only at hb
  obtain ⟨hc0, hc1⟩ := acc_c0 hb
  refine runs_dassert (eq_zero_beq hc1) (runs_pure ?_)
  have hz : (Acc.mk 0 0 0).val = 0 := rfl
  rw [hz] at col0
  simp only [Limbs16.val, val, hc0]
  clear h1 h2 h3 h4 h5 h6 h7 h8 h9 h10 h11 h12 h13 h14 h15 h16 h17 h18 h19 h20 h21 h22 h23 h24 h25 h26 h27 h28 h29 h30 h31 h32 h33 h34 h35 h36 h37 h38 h39 h40 h41 h42 h43 h44 h45 h46 h47 h48 h49 h50 h51
  zify at *
  linear_combination 2 ^ 0 * col0 + 2 ^ 32 * col1 + 2 ^ 64 * col2 + 2 ^ 96 * col3 + 2 ^ 128 * col4 + 2 ^ 160 * col5 + 2 ^ 192 * col6 + 2 ^ 224 * col7 + 2 ^ 256 * col8 + 497323236409786642155382248146820840100456150797347717440463976893159497012533375533056 * col9 + 2135987035920910082395021706169552114602704522356652769947041607822219725780640550022962086936576 * col10 + 9173994463960286046443283581208347763186259956673124494950355357547691504353939232280074212440502746218496 * col11 + 39402006196394479212279040100143613805079739270465446667948293404245721771497210611414266254884915640806627990306816 * col12 + 169230328010303641331690318856389386196071598838855992136870091590247882556495704531248437872567112920983350278405979725889536 * col13 + 726838724295606890549323807888004534353641360687318060281490199180639288113397923326191050713763565560762521606266177933534601628614656 * col14

theorem reduce512a_runs (l : Limbs16) :
    Runs (reduce512a l) (fun m => m.m12.toNat ≤ 1 ∧
      m.val + 2 ^ 256 * (l.l8.toNat * 2 ^ 0 + l.l9.toNat * 2 ^ 32 + l.l10.toNat * 2 ^ 64 + l.l11.toNat * 2 ^ 96 + l.l12.toNat * 2 ^ 128 + l.l13.toNat * 2 ^ 160 + l.l14.toNat * 2 ^ 192 + l.l15.toNat * 2 ^ 224) = l.val + (l.l8.toNat * 2 ^ 0 + l.l9.toNat * 2 ^ 32 + l.l10.toNat * 2 ^ 64 + l.l11.toNat * 2 ^ 96 + l.l12.toNat * 2 ^ 128 + l.l13.toNat * 2 ^ 160 + l.l14.toNat * 2 ^ 192 + l.l15.toNat * 2 ^ 224) * (2 ^ 256 - n)) := by
  unfold reduce512a
  have hval : (Acc.mk l.l0 0 0).val = l.l0.toNat := by simp [Acc.val]
  have hinit : (Acc.mk l.l0 0 0).val ≤ 4294967295 := by rw [hval]; exact u32_le _
  refine Runs.bind (muladdFast_runs 3443493121142702400 hinit (u32_le _) nC0_le (by norm_num) (by norm_num)) fun c1 h1 => ?_
  refine Runs.bind (extractFast_runs 801750719 h1.2 (by norm_num) (by norm_num)) fun ⟨m0, c2⟩ h2 => ?_
  have col0 : m0.toNat + 2 ^ 32 * c2.val = l.l0.toNat + l.l8.toNat * nC0.toNat := by rw [h2.1, h1.1, hval]
  refine Runs.bind (sumaddFast_runs 5096718014 h2.2 (u32_le _) (by norm_num) (by norm_num)) fun c3 h3 => ?_
  refine Runs.bind (muladd_runs 3443493121944453119 h3.2 (u32_le _) nC0_le (by norm_num) (by norm_num)) fun c4 h4 => ?_
  refine Runs.bind (muladd_runs 8068023028540399244 h4.2 (u32_le _) nC1_le (by norm_num) (by norm_num)) fun c5 h5 => ?_
  refine Runs.bind (extract_runs 1878482994 h5.2 (by norm_num)) fun ⟨m1, c6⟩ h6 => ?_
  have col1 : m1.toNat + 2 ^ 32 * c6.val = c2.val + l.l1.toNat + l.l9.toNat * nC0.toNat + l.l8.toNat * nC1.toNat := by rw [h6.1, h5.1, h4.1, h3.1]
  refine Runs.bind (sumadd_runs 6173450289 h6.2 (u32_le _) (by norm_num) (by norm_num)) fun c7 h7 => ?_
  refine Runs.bind (muladd_runs 3443493123021185394 h7.2 (u32_le _) nC0_le (by norm_num) (by norm_num)) fun c8 h8 => ?_
  refine Runs.bind (muladd_runs 8068023029617131519 h8.2 (u32_le _) nC1_le (by norm_num) (by norm_num)) fun c9 h9 => ?_
  refine Runs.bind (muladd_runs 13884245767453450299 h9.2 (u32_le _) nC2_le (by norm_num) (by norm_num)) fun c10 h10 => ?_
  refine Runs.bind (extract_runs 3232677878 h10.2 (by norm_num)) fun ⟨m2, c11⟩ h11 => ?_
  have col2 : m2.toNat + 2 ^ 32 * c11.val = c6.val + l.l2.toNat + l.l10.toNat * nC0.toNat + l.l9.toNat * nC1.toNat + l.l8.toNat * nC2.toNat := by rw [h11.1, h10.1, h9.1, h8.1, h7.1]
  refine Runs.bind (sumadd_runs 7527645173 h11.2 (u32_le _) (by norm_num) (by norm_num)) fun c12 h12 => ?_
  refine Runs.bind (muladd_runs 3443493124375380278 h12.2 (u32_le _) nC0_le (by norm_num) (by norm_num)) fun c13 h13 => ?_
  refine Runs.bind (muladd_runs 8068023030971326403 h13.2 (u32_le _) nC1_le (by norm_num) (by norm_num)) fun c14 h14 => ?_
  refine Runs.bind (muladd_runs 13884245768807645183 h14.2 (u32_le _) nC2_le (by norm_num) (by norm_num)) fun c15 h15 => ?_
  refine Runs.bind (muladd_runs 18879057819656445158 h15.2 (u32_le _) nC3_le (by norm_num) (by norm_num)) fun c16 h16 => ?_
  refine Runs.bind (extract_runs 4395623183 h16.2 (by norm_num)) fun ⟨m3, c17⟩ h17 => ?_
  have col3 : m3.toNat + 2 ^ 32 * c17.val = c11.val + l.l3.toNat + l.l11.toNat * nC0.toNat + l.l10.toNat * nC1.toNat + l.l9.toNat * nC2.toNat + l.l8.toNat * nC3.toNat := by rw [h17.1, h16.1, h15.1, h14.1, h13.1, h12.1]
  refine Runs.bind (sumadd_runs 8690590478 h17.2 (u32_le _) (by norm_num) (by norm_num)) fun c18 h18 => ?_
  refine Runs.bind (muladd_runs 3443493125538325583 h18.2 (u32_le _) nC0_le (by norm_num) (by norm_num)) fun c19 h19 => ?_
  refine Runs.bind (muladd_runs 8068023032134271708 h19.2 (u32_le _) nC1_le (by norm_num) (by norm_num)) fun c20 h20 => ?_
  refine Runs.bind (muladd_runs 13884245769970590488 h20.2 (u32_le _) nC2_le (by norm_num) (by norm_num)) fun c21 h21 => ?_
  refine Runs.bind (muladd_runs 18879057820819390463 h21.2 (u32_le _) nC3_le (by norm_num) (by norm_num)) fun c22 h22 => ?_
  refine Runs.bind (sumadd_runs 18879057825114357758 h22.2 (u32_le _) (by norm_num) (by norm_num)) fun c23 h23 => ?_
  refine Runs.bind (extract_runs 4395623184 h23.2 (by norm_num)) fun ⟨m4, c24⟩ h24 => ?_
  have col4 : m4.toNat + 2 ^ 32 * c24.val = c17.val + l.l4.toNat + l.l12.toNat * nC0.toNat + l.l11.toNat * nC1.toNat + l.l10.toNat * nC2.toNat + l.l9.toNat * nC3.toNat + l.l8.toNat := by rw [h24.1, h23.1, h22.1, h21.1, h20.1, h19.1, h18.1]
  refine Runs.bind (sumadd_runs 8690590479 h24.2 (u32_le _) (by norm_num) (by norm_num)) fun c25 h25 => ?_
  refine Runs.bind (muladd_runs 3443493125538325584 h25.2 (u32_le _) nC0_le (by norm_num) (by norm_num)) fun c26 h26 => ?_
  refine Runs.bind (muladd_runs 8068023032134271709 h26.2 (u32_le _) nC1_le (by norm_num) (by norm_num)) fun c27 h27 => ?_
  refine Runs.bind (muladd_runs 13884245769970590489 h27.2 (u32_le _) nC2_le (by norm_num) (by norm_num)) fun c28 h28 => ?_
  refine Runs.bind (muladd_runs 18879057820819390464 h28.2 (u32_le _) nC3_le (by norm_num) (by norm_num)) fun c29 h29 => ?_
  refine Runs.bind (sumadd_runs 18879057825114357759 h29.2 (u32_le _) (by norm_num) (by norm_num)) fun c30 h30 => ?_
  refine Runs.bind (extract_runs 4395623184 h30.2 (by norm_num)) fun ⟨m5, c31⟩ h31 => ?_
  have col5 : m5.toNat + 2 ^ 32 * c31.val = c24.val + l.l5.toNat + l.l13.toNat * nC0.toNat + l.l12.toNat * nC1.toNat + l.l11.toNat * nC2.toNat + l.l10.toNat * nC3.toNat + l.l9.toNat := by rw [h31.1, h30.1, h29.1, h28.1, h27.1, h26.1, h25.1]
  refine Runs.bind (sumadd_runs 8690590479 h31.2 (u32_le _) (by norm_num) (by norm_num)) fun c32 h32 => ?_
  refine Runs.bind (muladd_runs 3443493125538325584 h32.2 (u32_le _) nC0_le (by norm_num) (by norm_num)) fun c33 h33 => ?_
  refine Runs.bind (muladd_runs 8068023032134271709 h33.2 (u32_le _) nC1_le (by norm_num) (by norm_num)) fun c34 h34 => ?_
  refine Runs.bind (muladd_runs 13884245769970590489 h34.2 (u32_le _) nC2_le (by norm_num) (by norm_num)) fun c35 h35 => ?_
  refine Runs.bind (muladd_runs 18879057820819390464 h35.2 (u32_le _) nC3_le (by norm_num) (by norm_num)) fun c36 h36 => ?_
  refine Runs.bind (sumadd_runs 18879057825114357759 h36.2 (u32_le _) (by norm_num) (by norm_num)) fun c37 h37 => ?_
  refine Runs.bind (extract_runs 4395623184 h37.2 (by norm_num)) fun ⟨m6, c38⟩ h38 => ?_
  have col6 : m6.toNat + 2 ^ 32 * c38.val = c31.val + l.l6.toNat + l.l14.toNat * nC0.toNat + l.l13.toNat * nC1.toNat + l.l12.toNat * nC2.toNat + l.l11.toNat * nC3.toNat + l.l10.toNat := by rw [h38.1, h37.1, h36.1, h35.1, h34.1, h33.1, h32.1]
  refine Runs.bind (sumadd_runs 8690590479 h38.2 (u32_le _) (by norm_num) (by norm_num)) fun c39 h39 => ?_
  refine Runs.bind (muladd_runs 3443493125538325584 h39.2 (u32_le _) nC0_le (by norm_num) (by norm_num)) fun c40 h40 => ?_
  refine Runs.bind (muladd_runs 8068023032134271709 h40.2 (u32_le _) nC1_le (by norm_num) (by norm_num)) fun c41 h41 => ?_
  refine Runs.bind (muladd_runs 13884245769970590489 h41.2 (u32_le _) nC2_le (by norm_num) (by norm_num)) fun c42 h42 => ?_
  refine Runs.bind (muladd_runs 18879057820819390464 h42.2 (u32_le _) nC3_le (by norm_num) (by norm_num)) fun c43 h43 => ?_
  refine Runs.bind (sumadd_runs 18879057825114357759 h43.2 (u32_le _) (by norm_num) (by norm_num)) fun c44 h44 => ?_
  refine Runs.bind (extract_runs 4395623184 h44.2 (by norm_num)) fun ⟨m7, c45⟩ h45 => ?_
  have col7 : m7.toNat + 2 ^ 32 * c45.val = c38.val + l.l7.toNat + l.l15.toNat * nC0.toNat + l.l14.toNat * nC1.toNat + l.l13.toNat * nC2.toNat + l.l12.toNat * nC3.toNat + l.l11.toNat := by rw [h45.1, h44.1, h43.1, h42.1, h41.1, h40.1, h39.1]
  refine Runs.bind (muladd_runs 4624529910991569309 h45.2 (u32_le _) nC1_le (by norm_num) (by norm_num)) fun c46 h46 => ?_
  refine Runs.bind (muladd_runs 10440752648827888089 h46.2 (u32_le _) nC2_le (by norm_num) (by norm_num)) fun c47 h47 => ?_
  refine Runs.bind (muladd_runs 15435564699676688064 h47.2 (u32_le _) nC3_le (by norm_num) (by norm_num)) fun c48 h48 => ?_
  refine Runs.bind (sumadd_runs 15435564703971655359 h48.2 (u32_le _) (by norm_num) (by norm_num)) fun c49 h49 => ?_
  refine Runs.bind (extract_runs 3593872465 h49.2 (by norm_num)) fun ⟨m8, c50⟩ h50 => ?_
  have col8 : m8.toNat + 2 ^ 32 * c50.val = c45.val + l.l15.toNat * nC1.toNat + l.l14.toNat * nC2.toNat + l.l13.toNat * nC3.toNat + l.l12.toNat := by rw [h50.1, h49.1, h48.1, h47.1, h46.1]
  refine Runs.bind (muladd_runs 5816222741430191245 h50.2 (u32_le _) nC2_le (by norm_num) (by norm_num)) fun c51 h51 => ?_
  refine Runs.bind (muladd_runs 10811034792278991220 h51.2 (u32_le _) nC3_le (by norm_num) (by norm_num)) fun c52 h52 => ?_
  refine Runs.bind (sumadd_runs 10811034796573958515 h52.2 (u32_le _) (by norm_num) (by norm_num)) fun c53 h53 => ?_
  refine Runs.bind (extract_runs 2517140190 h53.2 (by norm_num)) fun ⟨m9, c54⟩ h54 => ?_
  have col9 : m9.toNat + 2 ^ 32 * c54.val = c50.val + l.l15.toNat * nC2.toNat + l.l14.toNat * nC3.toNat + l.l13.toNat := by rw [h54.1, h53.1, h52.1, h51.1]
  refine Runs.bind (muladd_runs 4994812053365940165 h54.2 (u32_le _) nC3_le (by norm_num) (by norm_num)) fun c55 h55 => ?_
  refine Runs.bind (sumadd_runs 4994812057660907460 h55.2 (u32_le _) (by norm_num) (by norm_num)) fun c56 h56 => ?_
  refine Runs.bind (extract_runs 1162945306 h56.2 (by norm_num)) fun ⟨m10, c57⟩ h57 => ?_
  have col10 : m10.toNat + 2 ^ 32 * c57.val = c54.val + l.l15.toNat * nC3.toNat + l.l14.toNat := by rw [h57.1, h56.1, h55.1]
  refine Runs.bind (sumaddFast_runs 5457912601 h57.2 (u32_le _) (by norm_num) (by norm_num)) fun c58 h58 => ?_
  refine Runs.bind (extractFast_runs 1 h58.2 (by norm_num) (by norm_num)) fun ⟨m11, c59⟩ h59 => ?_
  have col11 : m11.toNat + 2 ^ 32 * c59.val = c57.val + l.l15.toNat := by rw [h59.1, h58.1]
  have hb := h59.2
  dsimp only at hb
  obtain ⟨hc0, hc1⟩ := acc_c0 (le_trans hb (by norm_num))
  refine runs_dassert ?_ (runs_pure ?_)
  · rw [decide_eq_true_eq, UInt32.le_iff_toNat_le, hc0]; exact hb
  simp only [Limbs16.val, Limbs13.val, hc0]
  refine ⟨hb, ?_⟩
  have hn : 2 ^ 256 - n = nC0.toNat + nC1.toNat * 2 ^ 32 + nC2.toNat * 2 ^ 64 + nC3.toNat * 2 ^ 96 + 2 ^ 128 := by
    decide +kernel
  rw [hn]
  clear hn hval hinit h1 h2 h3 h4 h5 h6 h7 h8 h9 h10 h11 h12 h13 h14 h15 h16 h17 h18 h19 h20 h21 h22 h23 h24 h25 h26 h27 h28 h29 h30 h31 h32 h33 h34 h35 h36 h37 h38 h39 h40 h41 h42 h43 h44 h45 h46 h47 h48 h49 h50 h51 h52 h53 h54 h55 h56 h57 h58 h59
  zify at *
  linear_combination 2 ^ 0 * col0 + 2 ^ 32 * col1 + 2 ^ 64 * col2 + 2 ^ 96 * col3 + 2 ^ 128 * col4 + 2 ^ 160 * col5 + 2 ^ 192 * col6 + 2 ^ 224 * col7 + 2 ^ 256 * col8 + 497323236409786642155382248146820840100456150797347717440463976893159497012533375533056 * col9 + 2135987035920910082395021706169552114602704522356652769947041607822219725780640550022962086936576 * col10 + 9173994463960286046443283581208347763186259956673124494950355357547691504353939232280074212440502746218496 * col11

theorem reduce512b_runs (m : Limbs13) (hm12 : m.m12.toNat ≤ 1)
    (hm : m.val ≤ (2 ^ 256 - 1) * (1 + (2 ^ 256 - n))) :
    Runs (reduce512b m) (fun p => p.p8.toNat ≤ 2 ∧ p.val < 463168356949264781694283940034751631413079938662562256157830336031652518559744 ∧
      p.val % n = m.val % n ∧ p.val ≤ 2 ^ 256 - 1 + (1 + (2 ^ 256 - n)) * (2 ^ 256 - n)) := by
  unfold reduce512b
  obtain ⟨m0, m1, m2, m3, m4, m5, m6, m7, m8, m9, m10, m11, m12⟩ := m
  dsimp only at hm12 ⊢
  have hval : (Acc.mk m0 0 0).val = m0.toNat := by simp [Acc.val]
  have hinit : (Acc.mk m0 0 0).val ≤ 4294967295 := by rw [hval]; exact u32_le _
  refine Runs.bind (muladdFast_runs 3443493121142702400 hinit (u32_le _) nC0_le (by norm_num) (by norm_num)) fun c1 h1 => ?_
  refine Runs.bind (extractFast_runs 801750719 h1.2 (by norm_num) (by norm_num)) fun ⟨p0, c2⟩ h2 => ?_
  have col0 : p0.toNat + 2 ^ 32 * c2.val = m0.toNat + m8.toNat * nC0.toNat := by rw [h2.1, h1.1, hval]
  refine Runs.bind (sumaddFast_runs 5096718014 h2.2 (u32_le _) (by norm_num) (by norm_num)) fun c3 h3 => ?_
  refine Runs.bind (muladd_runs 3443493121944453119 h3.2 (u32_le _) nC0_le (by norm_num) (by norm_num)) fun c4 h4 => ?_
  refine Runs.bind (muladd_runs 8068023028540399244 h4.2 (u32_le _) nC1_le (by norm_num) (by norm_num)) fun c5 h5 => ?_
  refine Runs.bind (extract_runs 1878482994 h5.2 (by norm_num)) fun ⟨p1, c6⟩ h6 => ?_
  have col1 : p1.toNat + 2 ^ 32 * c6.val = c2.val + m1.toNat + m9.toNat * nC0.toNat + m8.toNat * nC1.toNat := by rw [h6.1, h5.1, h4.1, h3.1]
  refine Runs.bind (sumadd_runs 6173450289 h6.2 (u32_le _) (by norm_num) (by norm_num)) fun c7 h7 => ?_
  refine Runs.bind (muladd_runs 3443493123021185394 h7.2 (u32_le _) nC0_le (by norm_num) (by norm_num)) fun c8 h8 => ?_
  refine Runs.bind (muladd_runs 8068023029617131519 h8.2 (u32_le _) nC1_le (by norm_num) (by norm_num)) fun c9 h9 => ?_
  refine Runs.bind (muladd_runs 13884245767453450299 h9.2 (u32_le _) nC2_le (by norm_num) (by norm_num)) fun c10 h10 => ?_
  refine Runs.bind (extract_runs 3232677878 h10.2 (by norm_num)) fun ⟨p2, c11⟩ h11 => ?_
  have col2 : p2.toNat + 2 ^ 32 * c11.val = c6.val + m2.toNat + m10.toNat * nC0.toNat + m9.toNat * nC1.toNat + m8.toNat * nC2.toNat := by rw [h11.1, h10.1, h9.1, h8.1, h7.1]
  refine Runs.bind (sumadd_runs 7527645173 h11.2 (u32_le _) (by norm_num) (by norm_num)) fun c12 h12 => ?_
  refine Runs.bind (muladd_runs 3443493124375380278 h12.2 (u32_le _) nC0_le (by norm_num) (by norm_num)) fun c13 h13 => ?_
  refine Runs.bind (muladd_runs 8068023030971326403 h13.2 (u32_le _) nC1_le (by norm_num) (by norm_num)) fun c14 h14 => ?_
  refine Runs.bind (muladd_runs 13884245768807645183 h14.2 (u32_le _) nC2_le (by norm_num) (by norm_num)) fun c15 h15 => ?_
  refine Runs.bind (muladd_runs 18879057819656445158 h15.2 (u32_le _) nC3_le (by norm_num) (by norm_num)) fun c16 h16 => ?_
  refine Runs.bind (extract_runs 4395623183 h16.2 (by norm_num)) fun ⟨p3, c17⟩ h17 => ?_
  have col3 : p3.toNat + 2 ^ 32 * c17.val = c11.val + m3.toNat + m11.toNat * nC0.toNat + m10.toNat * nC1.toNat + m9.toNat * nC2.toNat + m8.toNat * nC3.toNat := by rw [h17.1, h16.1, h15.1, h14.1, h13.1, h12.1]
  refine Runs.bind (sumadd_runs 8690590478 h17.2 (u32_le _) (by norm_num) (by norm_num)) fun c18 h18 => ?_
  refine Runs.bind (muladd_runs 9492341197 h18.2 hm12 nC0_le (by norm_num) (by norm_num)) fun c19 h19 => ?_
  refine Runs.bind (muladd_runs 4624529916088287322 h19.2 (u32_le _) nC1_le (by norm_num) (by norm_num)) fun c20 h20 => ?_
  refine Runs.bind (muladd_runs 10440752653924606102 h20.2 (u32_le _) nC2_le (by norm_num) (by norm_num)) fun c21 h21 => ?_
  refine Runs.bind (muladd_runs 15435564704773406077 h21.2 (u32_le _) nC3_le (by norm_num) (by norm_num)) fun c22 h22 => ?_
  refine Runs.bind (sumadd_runs 15435564709068373372 h22.2 (u32_le _) (by norm_num) (by norm_num)) fun c23 h23 => ?_
  refine Runs.bind (extract_runs 3593872466 h23.2 (by norm_num)) fun ⟨p4, c24⟩ h24 => ?_
  have col4 : p4.toNat + 2 ^ 32 * c24.val = c17.val + m4.toNat + m12.toNat * nC0.toNat + m11.toNat * nC1.toNat + m10.toNat * nC2.toNat + m9.toNat * nC3.toNat + m8.toNat := by rw [h24.1, h23.1, h22.1, h21.1, h20.1, h19.1, h18.1]
  refine Runs.bind (sumadd_runs 7888839761 h24.2 (u32_le _) (by norm_num) (by norm_num)) fun c25 h25 => ?_
  refine Runs.bind (muladd_runs 8965572036 h25.2 hm12 nC1_le (by norm_num) (by norm_num)) fun c26 h26 => ?_
  refine Runs.bind (muladd_runs 5816222746801890816 h26.2 (u32_le _) nC2_le (by norm_num) (by norm_num)) fun c27 h27 => ?_
  refine Runs.bind (muladd_runs 10811034797650690791 h27.2 (u32_le _) nC3_le (by norm_num) (by norm_num)) fun c28 h28 => ?_
  refine Runs.bind (sumadd_runs 10811034801945658086 h28.2 (u32_le _) (by norm_num) (by norm_num)) fun c29 h29 => ?_
  refine Runs.bind (extract_runs 2517140191 h29.2 (by norm_num)) fun ⟨p5, c30⟩ h30 => ?_
  have col5 : p5.toNat + 2 ^ 32 * c30.val = c24.val + m5.toNat + m12.toNat * nC1.toNat + m11.toNat * nC2.toNat + m10.toNat * nC3.toNat + m9.toNat := by rw [h30.1, h29.1, h28.1, h27.1, h26.1, h25.1]
  refine Runs.bind (sumadd_runs 6812107486 h30.2 (u32_le _) (by norm_num) (by norm_num)) fun c31 h31 => ?_
  refine Runs.bind (muladd_runs 8166302370 h31.2 hm12 nC2_le (by norm_num) (by norm_num)) fun c32 h32 => ?_
  refine Runs.bind (muladd_runs 4994812059015102345 h32.2 (u32_le _) nC3_le (by norm_num) (by norm_num)) fun c33 h33 => ?_
  refine Runs.bind (sumadd_runs 4994812063310069640 h33.2 (u32_le _) (by norm_num) (by norm_num)) fun c34 h34 => ?_
  refine Runs.bind (extract_runs 1162945307 h34.2 (by norm_num)) fun ⟨p6, c35⟩ h35 => ?_
  have col6 : p6.toNat + 2 ^ 32 * c35.val = c30.val + m6.toNat + m12.toNat * nC2.toNat + m11.toNat * nC3.toNat + m10.toNat := by rw [h35.1, h34.1, h33.1, h32.1, h31.1]
  refine Runs.bind (sumaddFast_runs 5457912602 h35.2 (u32_le _) (by norm_num) (by norm_num)) fun c36 h36 => ?_
  refine Runs.bind (muladdFast_runs 6620857907 h36.2 hm12 nC3_le (by norm_num) (by norm_num)) fun c37 h37 => ?_
  refine Runs.bind (sumaddFast_runs 10915825202 h37.2 (u32_le _) (by norm_num) (by norm_num)) fun c38 h38 => ?_
  refine Runs.bind (extractFast_runs 2 h38.2 (by norm_num) (by norm_num)) fun ⟨p7, c39⟩ h39 => ?_
  have col7 : p7.toNat + 2 ^ 32 * c39.val = c35.val + m7.toNat + m12.toNat * nC3.toNat + m11.toNat := by rw [h39.1, h38.1, h37.1, h36.1]
  have hb := h39.2
  dsimp only at hb
  obtain ⟨hc0, hc1⟩ := acc_c0 (le_trans hb (by norm_num))
  refine Runs.bind (add32_runs 3 (hc0.le.trans hb) hm12 (by norm_num) (by norm_num)) fun p8 hp8 => ?_
  have hp8e := hp8.1
  rw [hc0] at hp8e
  have hn : 2 ^ 256 - n = nC0.toNat + nC1.toNat * 2 ^ 32 + nC2.toNat * 2 ^ 64 + nC3.toNat * 2 ^ 96 + 2 ^ 128 := by
    decide +kernel
  have hval9 : (Limbs9.mk p0 p1 p2 p3 p4 p5 p6 p7 p8).val = (m0.toNat + m1.toNat * 2 ^ 32 + m2.toNat * 2 ^ 64 + m3.toNat * 2 ^ 96 + m4.toNat * 2 ^ 128 + m5.toNat * 2 ^ 160 + m6.toNat * 2 ^ 192 + m7.toNat * 2 ^ 224)
      + (m8.toNat + m9.toNat * 2 ^ 32 + m10.toNat * 2 ^ 64 + m11.toNat * 2 ^ 96 + m12.toNat * 2 ^ 128) * (2 ^ 256 - n) := by
    simp only [Limbs9.val, hp8e]
    rw [hn]
    clear hn hval hinit hm hm12 hp8 hp8e hb hc0 hc1 h1 h2 h3 h4 h5 h6 h7 h8 h9 h10 h11 h12 h13 h14 h15 h16 h17 h18 h19 h20 h21 h22 h23 h24 h25 h26 h27 h28 h29 h30 h31 h32 h33 h34 h35 h36 h37 h38 h39
    zify at *
    linear_combination 2 ^ 0 * col0 + 2 ^ 32 * col1 + 2 ^ 64 * col2 + 2 ^ 96 * col3 + 2 ^ 128 * col4 + 2 ^ 160 * col5 + 2 ^ 192 * col6 + 2 ^ 224 * col7
  clear hn hval hinit h1 h2 h3 h4 h5 h6 h7 h8 h9 h10 h11 h12 h13 h14 h15 h16 h17 h18 h19 h20 h21 h22 h23 h24 h25 h26 h27 h28 h29 h30 h31 h32 h33 h34 h35 h36 h37 h38 h39 col0 col1 col2 col3 col4 col5 col6 col7
  have hlo : m0.toNat + m1.toNat * 2 ^ 32 + m2.toNat * 2 ^ 64 + m3.toNat * 2 ^ 96 + m4.toNat * 2 ^ 128 + m5.toNat * 2 ^ 160 + m6.toNat * 2 ^ 192 + m7.toNat * 2 ^ 224 < 2 ^ 256 :=
    val_lt ⟨m0, m1, m2, m3, m4, m5, m6, m7⟩
  have hmv : (Limbs13.mk m0 m1 m2 m3 m4 m5 m6 m7 m8 m9 m10 m11 m12).val = (m0.toNat + m1.toNat * 2 ^ 32 + m2.toNat * 2 ^ 64 + m3.toNat * 2 ^ 96 + m4.toNat * 2 ^ 128 + m5.toNat * 2 ^ 160 + m6.toNat * 2 ^ 192 + m7.toNat * 2 ^ 224)
      + 2 ^ 256 * (m8.toNat + m9.toNat * 2 ^ 32 + m10.toNat * 2 ^ 64 + m11.toNat * 2 ^ 96 + m12.toNat * 2 ^ 128) := by
    simp only [Limbs13.val]; ring
  rw [hmv] at hm ⊢
  generalize m0.toNat + m1.toNat * 2 ^ 32 + m2.toNat * 2 ^ 64 + m3.toNat * 2 ^ 96 + m4.toNat * 2 ^ 128 + m5.toNat * 2 ^ 160 + m6.toNat * 2 ^ 192 + m7.toNat * 2 ^ 224 = LO at *
  generalize m8.toNat + m9.toNat * 2 ^ 32 + m10.toNat * 2 ^ 64 + m11.toNat * 2 ^ 96 + m12.toNat * 2 ^ 128 = HI at *
  have hHI : HI ≤ 1 + (2 ^ 256 - n) := by unfold n at *; omega
  have hple : (Limbs9.mk p0 p1 p2 p3 p4 p5 p6 p7 p8).val ≤ 2 ^ 256 - 1 + (1 + (2 ^ 256 - n)) * (2 ^ 256 - n) := by
    rw [hval9]
    have := Nat.mul_le_mul_right (2 ^ 256 - n) hHI
    omega
  have hp8' : p8.toNat ≤ 2 := by
    have : p8.toNat * 2 ^ 256 ≤ (Limbs9.mk p0 p1 p2 p3 p4 p5 p6 p7 p8).val := by
      simp only [Limbs9.val]; omega
    unfold n at hple; omega
  refine runs_dassert ?_ (runs_pure ?_)
  · rw [decide_eq_true_eq, UInt32.le_iff_toNat_le]; exact hp8'
  refine ⟨hp8', ?_, ?_, hple⟩
  · exact lt_of_le_of_lt hple (by decide +kernel)
  · rw [hval9]
    have e : LO + 2 ^ 256 * HI = LO + HI * (2 ^ 256 - n) + n * HI := by
      have : 2 ^ 256 = (2 ^ 256 - n) + n := by decide +kernel
      calc LO + 2 ^ 256 * HI = LO + ((2 ^ 256 - n) + n) * HI := by rw [← this]
        _ = _ := by ring
    rw [e, Nat.add_mul_mod_self_left]

theorem reduce512c_runs (p : Limbs9) (h8 : p.p8.toNat ≤ 2)
    (hp : p.val ≤ 2 ^ 256 - 1 + (1 + (2 ^ 256 - n)) * (2 ^ 256 - n)) :
    Runs (reduce512c p) (fun r => r.val = p.val % n) := by
  unfold reduce512c
  have ho : p.p8.toUInt64.toNat ≤ 2 := by rw [u32_u64]; exact h8
  refine Runs.bind (addMul_runs 5898468733 (u32_le _) ho (by decide) (by norm_num)) fun x0 hx0 => ?_
  refine Runs.bind (carryStep_runs 5898468737 (t := 0) (T := 0) (by simp) hx0.2 (by norm_num) (by norm_num)) fun ⟨d0, t0⟩ ht0 => ?_
  refine Runs.bind (addMul_runs 6448431845 (u32_le _) ho (by decide) (by norm_num)) fun x1 hx1 => ?_
  refine Runs.bind (carryStep_runs 6448431849 ht0.2 hx1.2 (by norm_num) (by norm_num)) fun ⟨d1, t1⟩ ht1 => ?_
  refine Runs.bind (addMul_runs 7003357063 (u32_le _) ho (by decide) (by norm_num)) fun x2 hx2 => ?_
  refine Runs.bind (carryStep_runs 7003357067 ht1.2 hx2.2 (by norm_num) (by norm_num)) fun ⟨d2, t2⟩ ht2 => ?_
  refine Runs.bind (addMul_runs 6620857905 (u32_le _) ho (by decide) (by norm_num)) fun x3 hx3 => ?_
  refine Runs.bind (carryStep_runs 6620857909 ht2.2 hx3.2 (by norm_num) (by norm_num)) fun ⟨d3, t3⟩ ht3 => ?_
  refine Runs.bind (add64_runs 4294967297 (u32_u64_le _) ho (by norm_num) (by norm_num)) fun x4 hx4 => ?_
  refine Runs.bind (carryStep_runs 4294967301 ht3.2 hx4.2 (by norm_num) (by norm_num)) fun ⟨d4, t4⟩ ht4 => ?_
  refine Runs.bind (carryStep_runs 4294967301 ht4.2 (u32_u64_le _) (by norm_num) (by norm_num)) fun ⟨d5, t5⟩ ht5 => ?_
  refine Runs.bind (carryStep_runs 4294967301 ht5.2 (u32_u64_le _) (by norm_num) (by norm_num)) fun ⟨d6, t6⟩ ht6 => ?_
  refine Runs.bind (carryStep_runs 4294967301 ht6.2 (u32_u64_le _) (by norm_num) (by norm_num)) fun ⟨d7, t7⟩ ht7 => ?_
  simp only [u32_u64, UInt64.toNat_zero] at *
  have hsum : val ⟨d0, d1, d2, d3, d4, d5, d6, d7⟩ + 2 ^ 256 * t7.toNat + n * p.p8.toNat = p.val := by
    simp only [show nC0.toNat = 0x2FC9BEBF from rfl, show nC1.toNat = 0x402DA173 from rfl,
      show nC2.toNat = 0x50B75FC4 from rfl, show nC3.toNat = 0x45512319 from rfl] at *
    simp only [val, Limbs9.val, n]; omega
  have hlt : val ⟨d0, d1, d2, d3, d4, d5, d6, d7⟩ + 2 ^ 256 * t7.toNat < 2 * n := by
    have : p.val < 2 ^ 256 * (p.p8.toNat + 1) := by
      have := val_lt ⟨p.p0, p.p1, p.p2, p.p3, p.p4, p.p5, p.p6, p.p7⟩
      simp only [val, Limbs9.val] at *; omega
    unfold n at *; omega
  have h7 : t7.toNat ≤ 1 := by unfold n at *; omega
  have h8 : t7.toUInt8.toNat = t7.toNat := by
    rw [UInt64.toNat_toUInt8]; omega
  rw [choiceFrom_pure (by omega), pure_bind, ← hsum, Nat.add_mul_mod_self_left]
  refine reduce_final ?_ hlt
  by_cases e : t7.toNat = 1
  · rw [e] at h8
    have : t7.toUInt8 = 1 := UInt8.toNat_inj.1 h8
    rw [e, this]; rfl
  · have e : t7.toNat = 0 := by omega
    rw [e] at h8
    have : t7.toUInt8 = 0 := UInt8.toNat_inj.1 h8
    rw [e, this]; rfl

theorem reduce512_runs (l : Limbs16) : Runs (reduce512 l) (fun r => r.val = l.val % n) := by
  unfold reduce512
  refine Runs.bind (reduce512a_runs l) fun m hm => ?_
  obtain ⟨hm12, hm⟩ := hm
  have hlo := val_lt ⟨l.l0, l.l1, l.l2, l.l3, l.l4, l.l5, l.l6, l.l7⟩
  have hhi := val_lt ⟨l.l8, l.l9, l.l10, l.l11, l.l12, l.l13, l.l14, l.l15⟩
  have hlv : l.val = val ⟨l.l0, l.l1, l.l2, l.l3, l.l4, l.l5, l.l6, l.l7⟩ +
      2 ^ 256 * val ⟨l.l8, l.l9, l.l10, l.l11, l.l12, l.l13, l.l14, l.l15⟩ := by
    simp only [val, Limbs16.val]; ring
  have hm' : m.val + 2 ^ 256 * val ⟨l.l8, l.l9, l.l10, l.l11, l.l12, l.l13, l.l14, l.l15⟩ =
      l.val + val ⟨l.l8, l.l9, l.l10, l.l11, l.l12, l.l13, l.l14, l.l15⟩ * (2 ^ 256 - n) := by
    simp only [val]; simpa using hm
  generalize val ⟨l.l0, l.l1, l.l2, l.l3, l.l4, l.l5, l.l6, l.l7⟩ = LO at *
  generalize val ⟨l.l8, l.l9, l.l10, l.l11, l.l12, l.l13, l.l14, l.l15⟩ = HI at *
  have hmv : m.val = LO + HI * (2 ^ 256 - n) := by omega
  have hmb : m.val ≤ (2 ^ 256 - 1) * (1 + (2 ^ 256 - n)) := by
    have : HI * (2 ^ 256 - n) ≤ (2 ^ 256 - 1) * (2 ^ 256 - n) := Nat.mul_le_mul_right _ (by omega)
    rw [hmv, Nat.mul_add]; omega
  refine Runs.bind (reduce512b_runs m hm12 hmb) fun p hp => ?_
  refine (reduce512c_runs p hp.1 hp.2.2.2).mono fun r hr => ?_
  rw [hr, hp.2.2.1, hmv, hlv]
  have e : LO + 2 ^ 256 * HI = LO + HI * (2 ^ 256 - n) + n * HI := by
    have : 2 ^ 256 = (2 ^ 256 - n) + n := by decide +kernel
    calc LO + 2 ^ 256 * HI = LO + ((2 ^ 256 - n) + n) * HI := by rw [← this]
      _ = _ := by ring
  rw [e, Nat.add_mul_mod_self_left]

theorem mul_runs (a b : Scalar) : Runs (mul a b) (fun r => r.val = a.val * b.val % n) := by
  unfold mul
  refine Runs.bind (mul512_runs a b) fun l hl => ?_
  exact (reduce512_runs l).mono fun r hr => by rw [hr, hl]

theorem sqr_runs (a : Scalar) : Runs (sqr a) (fun r => r.val = a.val * a.val % n) := by
  unfold sqr
  refine Runs.bind (sqr512_runs a) fun l hl => ?_
  exact (reduce512_runs l).mono fun r hr => by rw [hr, hl]

end Verif.Scalar
