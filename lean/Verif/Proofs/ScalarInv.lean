import Verif.Proofs.ScalarMul

/-! Scalar inversion computes the power `n - 2`. -/

namespace Verif.Scalar
open Verif Spec

/-- `r` holds `x^k mod n`. -/
def Pw (x : Scalar) (k : ℕ) (r : Scalar) : Prop := r.val % n = x.val ^ k % n

theorem mul_pw {x a b : Scalar} {j k : ℕ} (e : ℕ) (ha : Pw x j a) (hb : Pw x k b) (h : j + k = e) :
    Runs (mul a b) (Pw x e) := by
  refine (mul_runs a b).mono fun r hr => ?_
  unfold Pw at *
  rw [hr, Nat.mod_mod, Nat.mul_mod, ha, hb, ← Nat.mul_mod, ← pow_add, h]

theorem mul_pw_eq {x a b : Scalar} {j k : ℕ} (e : ℕ) (ha : Pw x j a) (hb : Pw x k b) (h : j + k = e) :
    Runs (mul a b) (fun r => r.val = x.val ^ e % n) := by
  refine (mul_runs a b).mono fun r hr => ?_
  unfold Pw at *
  rw [hr, Nat.mul_mod, ha, hb, ← Nat.mul_mod, ← pow_add, h]

theorem sqr_pw {x a : Scalar} {j : ℕ} (e : ℕ) (ha : Pw x j a) (h : 2 * j = e) :
    Runs (sqr a) (Pw x e) := by
  refine (sqr_runs a).mono fun r hr => ?_
  unfold Pw at *
  rw [hr, Nat.mod_mod, Nat.mul_mod, ha, ← Nat.mul_mod, ← pow_add, ← h, two_mul]

theorem sqrN_pw {x a : Scalar} {j : ℕ} (m : ℕ) (e : ℕ) (ha : Pw x j a) (h : j * 2 ^ m = e) :
    Runs (sqrN m a) (Pw x e) := by
  unfold sqrN
  rw [← h]
  refine forN_runs (fun i s => Pw x (j * 2 ^ i) s) m a (by simpa using ha) ?_
  intro i s _ hs
  exact sqr_pw _ hs (by rw [pow_succ]; ring)

theorem pow_one_mod (x : Scalar) : Pw x 1 x := by unfold Pw; rw [pow_one]

theorem inv_runs (x : Scalar) : Runs (inv x) (fun r => r.val = x.val ^ (n - 2) % n) := by
  have hn : n - 2 = 115792089237316195423570985008687907852837564279074904382605163141518161494335 := rfl
  rw [hn]
  have hx := pow_one_mod x
  unfold inv
  refine Runs.bind (sqr_pw 2 hx (by norm_num)) fun u2_1 h1 => ?_
  refine Runs.bind (mul_pw 3 h1 hx (by norm_num)) fun x2_2 h2 => ?_
  refine Runs.bind (mul_pw 5 h1 h2 (by norm_num)) fun u5_3 h3 => ?_
  refine Runs.bind (mul_pw 7 h3 h1 (by norm_num)) fun x3_4 h4 => ?_
  refine Runs.bind (mul_pw 9 h4 h1 (by norm_num)) fun u9_5 h5 => ?_
  refine Runs.bind (mul_pw 11 h5 h1 (by norm_num)) fun u11_6 h6 => ?_
  refine Runs.bind (mul_pw 13 h6 h1 (by norm_num)) fun u13_7 h7 => ?_
  refine Runs.bind (sqr_pw 26 h7 (by norm_num)) fun x6_8 h8 => ?_
  refine Runs.bind (sqr_pw 52 h8 (by norm_num)) fun x6_9 h9 => ?_
  refine Runs.bind (mul_pw 63 h9 h6 (by norm_num)) fun x6_10 h10 => ?_
  refine Runs.bind (sqr_pw 126 h10 (by norm_num)) fun x8_11 h11 => ?_
  refine Runs.bind (sqr_pw 252 h11 (by norm_num)) fun x8_12 h12 => ?_
  refine Runs.bind (mul_pw 255 h12 h2 (by norm_num)) fun x8_13 h13 => ?_
  refine Runs.bind (sqr_pw 510 h13 (by norm_num)) fun x14_14 h14 => ?_
  refine Runs.bind (sqrN_pw 5 16320 h14 (by norm_num)) fun x14_15 h15 => ?_
  refine Runs.bind (mul_pw 16383 h15 h10 (by norm_num)) fun x14_16 h16 => ?_
  refine Runs.bind (sqr_pw 32766 h16 (by norm_num)) fun x28_17 h17 => ?_
  refine Runs.bind (sqrN_pw 13 268419072 h17 (by norm_num)) fun x28_18 h18 => ?_
  refine Runs.bind (mul_pw 268435455 h18 h16 (by norm_num)) fun x28_19 h19 => ?_
  refine Runs.bind (sqr_pw 536870910 h19 (by norm_num)) fun x56_20 h20 => ?_
  refine Runs.bind (sqrN_pw 27 72057593769492480 h20 (by norm_num)) fun x56_21 h21 => ?_
  refine Runs.bind (mul_pw 72057594037927935 h21 h19 (by norm_num)) fun x56_22 h22 => ?_
  refine Runs.bind (sqr_pw 144115188075855870 h22 (by norm_num)) fun x112_23 h23 => ?_
  refine Runs.bind (sqrN_pw 55 5192296858534827556472902291292160 h23 (by norm_num)) fun x112_24 h24 => ?_
  refine Runs.bind (mul_pw 5192296858534827628530496329220095 h24 h22 (by norm_num)) fun x112_25 h25 => ?_
  refine Runs.bind (sqr_pw 10384593717069655257060992658440190 h25 (by norm_num)) fun x126_26 h26 => ?_
  refine Runs.bind (sqrN_pw 13 85070591730234615865843651857942036480 h26 (by norm_num)) fun x126_27 h27 => ?_
  refine Runs.bind (mul_pw 85070591730234615865843651857942052863 h27 h16 (by norm_num)) fun x126_28 h28 => ?_
  refine Runs.bind (sqrN_pw 3 680564733841876926926749214863536422904 h28 (by norm_num)) fun t_30 h30 => ?_
  refine Runs.bind (mul_pw 680564733841876926926749214863536422909 h30 h3 (by norm_num)) fun t_31 h31 => ?_
  refine Runs.bind (sqrN_pw 4 10889035741470030830827987437816582766544 h31 (by norm_num)) fun t_32 h32 => ?_
  refine Runs.bind (mul_pw 10889035741470030830827987437816582766551 h32 h4 (by norm_num)) fun t_33 h33 => ?_
  refine Runs.bind (sqrN_pw 4 174224571863520493293247799005065324264816 h33 (by norm_num)) fun t_34 h34 => ?_
  refine Runs.bind (mul_pw 174224571863520493293247799005065324264821 h34 h3 (by norm_num)) fun t_35 h35 => ?_
  refine Runs.bind (sqrN_pw 5 5575186299632655785383929568162090376474272 h35 (by norm_num)) fun t_36 h36 => ?_
  refine Runs.bind (mul_pw 5575186299632655785383929568162090376474283 h36 h6 (by norm_num)) fun t_37 h37 => ?_
  refine Runs.bind (sqrN_pw 4 89202980794122492566142873090593446023588528 h37 (by norm_num)) fun t_38 h38 => ?_
  refine Runs.bind (mul_pw 89202980794122492566142873090593446023588539 h38 h6 (by norm_num)) fun t_39 h39 => ?_
  refine Runs.bind (sqrN_pw 4 1427247692705959881058285969449495136377416624 h39 (by norm_num)) fun t_40 h40 => ?_
  refine Runs.bind (mul_pw 1427247692705959881058285969449495136377416631 h40 h4 (by norm_num)) fun t_41 h41 => ?_
  refine Runs.bind (sqrN_pw 5 45671926166590716193865151022383844364077332192 h41 (by norm_num)) fun t_42 h42 => ?_
  refine Runs.bind (mul_pw 45671926166590716193865151022383844364077332199 h42 h4 (by norm_num)) fun t_43 h43 => ?_
  refine Runs.bind (sqrN_pw 6 2923003274661805836407369665432566039300949260736 h43 (by norm_num)) fun t_44 h44 => ?_
  refine Runs.bind (mul_pw 2923003274661805836407369665432566039300949260749 h44 h7 (by norm_num)) fun t_45 h45 => ?_
  refine Runs.bind (sqrN_pw 4 46768052394588893382517914646921056628815188171984 h45 (by norm_num)) fun t_46 h46 => ?_
  refine Runs.bind (mul_pw 46768052394588893382517914646921056628815188171989 h46 h3 (by norm_num)) fun t_47 h47 => ?_
  refine Runs.bind (sqrN_pw 3 374144419156711147060143317175368453030521505375912 h47 (by norm_num)) fun t_48 h48 => ?_
  refine Runs.bind (mul_pw 374144419156711147060143317175368453030521505375919 h48 h4 (by norm_num)) fun t_49 h49 => ?_
  refine Runs.bind (sqrN_pw 5 11972621413014756705924586149611790496976688172029408 h49 (by norm_num)) fun t_50 h50 => ?_
  refine Runs.bind (mul_pw 11972621413014756705924586149611790496976688172029417 h50 h5 (by norm_num)) fun t_51 h51 => ?_
  refine Runs.bind (sqrN_pw 6 766247770432944429179173513575154591806508043009882688 h51 (by norm_num)) fun t_52 h52 => ?_
  refine Runs.bind (mul_pw 766247770432944429179173513575154591806508043009882693 h52 h3 (by norm_num)) fun t_53 h53 => ?_
  refine Runs.bind (sqrN_pw 10 784637716923335095479473677900958302009864236042119877632 h53 (by norm_num)) fun t_54 h54 => ?_
  refine Runs.bind (mul_pw 784637716923335095479473677900958302009864236042119877639 h54 h4 (by norm_num)) fun t_55 h55 => ?_
  refine Runs.bind (sqrN_pw 4 12554203470773361527671578846415332832157827776673918042224 h55 (by norm_num)) fun t_56 h56 => ?_
  refine Runs.bind (mul_pw 12554203470773361527671578846415332832157827776673918042231 h56 h4 (by norm_num)) fun t_57 h57 => ?_
  refine Runs.bind (sqrN_pw 9 6427752177035961102167848369364650410064807821657046037622272 h57 (by norm_num)) fun t_58 h58 => ?_
  refine Runs.bind (mul_pw 6427752177035961102167848369364650410064807821657046037622527 h58 h13 (by norm_num)) fun t_59 h59 => ?_
  refine Runs.bind (sqrN_pw 5 205688069665150755269371147819668813122073850293025473203920864 h59 (by norm_num)) fun t_60 h60 => ?_
  refine Runs.bind (mul_pw 205688069665150755269371147819668813122073850293025473203920873 h60 h5 (by norm_num)) fun t_61 h61 => ?_
  refine Runs.bind (sqrN_pw 6 13164036458569648337239753460458804039812726418753630285050935872 h61 (by norm_num)) fun t_62 h62 => ?_
  refine Runs.bind (mul_pw 13164036458569648337239753460458804039812726418753630285050935883 h62 h6 (by norm_num)) fun t_63 h63 => ?_
  refine Runs.bind (sqrN_pw 4 210624583337114373395836055367340864637003622700058084560814974128 h63 (by norm_num)) fun t_64 h64 => ?_
  refine Runs.bind (mul_pw 210624583337114373395836055367340864637003622700058084560814974141 h64 h7 (by norm_num)) fun t_65 h65 => ?_
  refine Runs.bind (sqrN_pw 5 6739986666787659948666753771754907668384115926401858705946079172512 h65 (by norm_num)) fun t_66 h66 => ?_
  refine Runs.bind (mul_pw 6739986666787659948666753771754907668384115926401858705946079172515 h66 h2 (by norm_num)) fun t_67 h67 => ?_
  refine Runs.bind (sqrN_pw 6 431359146674410236714672241392314090776583419289718957180549067040960 h67 (by norm_num)) fun t_68 h68 => ?_
  refine Runs.bind (mul_pw 431359146674410236714672241392314090776583419289718957180549067040973 h68 h7 (by norm_num)) fun t_69 h69 => ?_
  refine Runs.bind (sqrN_pw 10 441711766194596082395824375185729628955221421352672212152882244649956352 h69 (by norm_num)) fun t_70 h70 => ?_
  refine Runs.bind (mul_pw 441711766194596082395824375185729628955221421352672212152882244649956365 h70 h7 (by norm_num)) fun t_71 h71 => ?_
  refine Runs.bind (sqrN_pw 4 7067388259113537318333190002971674063283542741642755394446115914399301840 h71 (by norm_num)) fun t_72 h72 => ?_
  refine Runs.bind (mul_pw 7067388259113537318333190002971674063283542741642755394446115914399301849 h72 h5 (by norm_num)) fun t_73 h73 => ?_
  refine Runs.bind (sqrN_pw 6 452312848583266388373324160190187140050146735465136345244551418521555318336 h73 (by norm_num)) fun t_74 h74 => ?_
  refine Runs.bind (mul_pw 452312848583266388373324160190187140050146735465136345244551418521555318337 h74 hx (by norm_num)) fun t_75 h75 => ?_
  refine Runs.bind (sqrN_pw 8 115792089237316195423570985008687907852837564279074904382605163141518161494272 h75 (by norm_num)) fun t_76 h76 => ?_
  exact mul_pw_eq 115792089237316195423570985008687907852837564279074904382605163141518161494335 h76 h10 (by norm_num)

end Verif.Scalar
