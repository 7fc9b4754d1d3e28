import Verif.Model.Residue
import Verif.Proofs.Gen
import Verif.Proofs.LeakGen

/-! The functions with locals compute the values of the model, and what the locals hold. -/

namespace Verif

open Spec Ecmult Ecdsa

theorem bind_some {α β : Type} {x : Exec α} {f : α → Exec β} {π : Profile} {b : β} (h : (x >>= f) π = some b) :
    ∃ a, x π = some a ∧ f a π = some b :=
  Option.bind_eq_some_iff.1 h

theorem pure_some {α : Type} {a b : α} {π : Profile} (h : (pure a : Exec α) π = some b) : a = b := Option.some.inj h

theorem Runs.some {α : Type} {x : Exec α} {P : α → Prop} (h : Runs x P) {π : Profile} {a : α} (ha : x π = some a) : P a := by
  obtain ⟨b, rfl, hb⟩ := h
  exact pure_some ha ▸ hb

theorem ecmultGenR_value (c : GenContext) (k : Scalar) : (do let o ← ecmultGenR c k; pure o.1) = ecmultGen c k := by
  unfold ecmultGenR ecmultGen
  simp only [bind_assoc, pure_bind]

theorem signTailR_value (l : SignRawLocals) : (do let o ← signTailR l; pure o.1) = signTail l.sigr l.sigs l.recid := by
  unfold signTailR signTail
  split
  · rfl
  split
  · simp only [bind_assoc, pure_bind]
  · rfl

theorem signRawR_value (c : GenContext) (k m t : Scalar) : (do let o ← signRawR c k m t; pure o.1) = signRaw c k m t := by
  unfold signRawR signRaw
  simp only [bind_assoc, pure_bind, ← ecmultGenR_value]
  iterate 13 refine bind_congr fun _ => ?_
  exact signTailR_value _

theorem signLoopR_value (D : Drbg) (c : GenContext) (k m : Scalar) : ∀ (fuel : ℕ) (l : SignLocals D),
    (do let o ← signLoopR D c k m fuel l; pure o.1) = signLoop D c k m fuel l.drbg
  | 0, l => rfl
  | fuel + 1, l => by
    unfold signLoopR signLoop
    simp only [bind_assoc]
    refine bind_congr fun t => ?_
    split
    · rw [← signRawR_value]
      simp only [bind_assoc, pure_bind]
      refine bind_congr fun o => ?_
      obtain ⟨o1, o2⟩ := o
      cases o1 with
      | ok v => rfl
      | error e => exact signLoopR_value D c k m fuel _
    · exact signLoopR_value D c k m fuel _

theorem signR_value (D : Drbg) (fuel : ℕ) (m : Message) (k : SecretKey) : (do let o ← signR D fuel m k; pure o.1) = sign D fuel m k := by
  unfold signR sign signWithContext
  simp only [bind_assoc]
  refine bind_congr fun c => ?_
  rw [← signLoopR_value D c k.sc m.sc fuel ⟨k.sc.b32, m.sc.b32, D.new k.sc.b32.toList m.sc.b32.toList [], Scalar.zero, false, Vector.replicate 32 0⟩]
  simp only [bind_assoc, pure_bind]
  refine bind_congr fun o => ?_
  split <;> simp_all

theorem Runs.eq {α : Type} {x : Exec α} {P : α → Prop} (h : Runs x P) {a : α} (ha : x = pure a) : P a :=
  h.some (π := .debug) (by rw [ha]; rfl)

theorem genStep_adds {ctx : GenContext} {gnb : Scalar} {j : ℕ} {s : Jacobian × AffineStorage} {P : Pt} (hc : GenTable ctx.prec) (hj : j < 64)
    (hs : JacL s.1 P) :
    Runs (genStep ctx gnb j s) (fun s => ∀ (h : j < ctx.prec.length) (h' : gnb.val / 2 ^ (j * 4) % 16 < ctx.prec[j].length),
      s.2 = ctx.prec[j][gnb.val / 2 ^ (j * 4) % 16]) := by
  unfold genStep
  refine Runs.bind (Scalar.bits_runs gnb (o := j * 4) (c := 4) (by norm_num) (by norm_num) (by omega) (by omega)) fun b hb => ?_
  have hj' : j < ctx.prec.length := by rw [hc.rows]; exact hj
  rw [idx_pure hj', pure_bind]
  have hcols := hc.cols j hj'
  have hb16 : b.toNat < ctx.prec[j].length := by rw [hb, hcols]; exact Nat.mod_lt _ (by norm_num)
  refine Runs.bind (genSelect_runs hcols hb16) fun adds hadds => ?_
  have hsto := hc.entry j hj' b.toNat hb16
  rw [← hadds] at hsto
  have haff := Affine.ofStorage_aff hsto
  refine Runs.bind (Jacobian.addGe_loose hs.x hs.y hs.z hs.rep haff.1 haff.2.1) fun r hr => runs_pure fun h h' => ?_
  have hb' : b.toNat = gnb.val / 2 ^ (j * 4) % 16 := hb
  rw [hadds]
  simp only [hb']

/-- `ecmult_gen` leaves the entry its last turn selected. -/
theorem ecmultGenR_runs {c : GenContext} {k : Scalar} (hc : GenTable c.prec) (hb : c.blind = genBlind) (hi : c.initial = genInitial)
    (hk : k.val < n) : ∃ (h : 63 < c.prec.length) (h' : (k.val + genBlind.val) % n / 16 ^ 63 < c.prec[63].length),
    Runs (ecmultGenR c k) (fun o => o.2.adds = c.prec[63][(k.val + genBlind.val) % n / 16 ^ 63] ∧
      o.2.gnb = Scalar.zero ∧ o.2.add = ⟨FElem.clear FElem.zero, FElem.clear FElem.zero, false⟩ ∧ o.2.bits = 0) := by
  have h63 : 63 < c.prec.length := by rw [hc.rows]; norm_num
  have hcols := hc.cols 63 h63
  have hd : (k.val + genBlind.val) % n / 16 ^ 63 < 16 := by
    have : (k.val + genBlind.val) % n < n := Nat.mod_lt _ (by decide +kernel)
    have hn : n < 16 ^ 63 * 16 := by decide +kernel
    exact Nat.div_lt_of_lt_mul (by omega)
  refine ⟨h63, by rw [hcols]; exact hd, ?_⟩
  unfold ecmultGenR
  rw [hb, hi]
  refine Runs.bind (Scalar.add_runs hk genBlind_lt) fun g hg => ?_
  refine Runs.bind (forN_runs (fun j (s : Jacobian × AffineStorage) => (∃ P, JacL s.1 P) ∧
    ∀ i (h : i < c.prec.length) (h' : g.val / 2 ^ (i * 4) % 16 < c.prec[i].length), j = i + 1 →
      s.2 = c.prec[i][g.val / 2 ^ (i * 4) % 16]) 64 _ ⟨⟨_, genInitial_loose⟩, fun i _ _ h => absurd h (by omega)⟩ ?_) fun s hs => ?_
  · intro j s hj ⟨⟨P, hP⟩, _⟩
    have hj' : j < c.prec.length := by rw [hc.rows]; exact hj
    obtain ⟨t, ht, ht'⟩ := genStep_runs (gnb := g) hc hj hP
    refine ⟨t, ht, ⟨_, Jac.loose ht'⟩, ?_⟩
    intro i h h' e
    obtain rfl : j = i := by omega
    exact (genStep_adds hc hj hP).eq ht h h'
  · have hdig : g.val / 2 ^ (63 * 4) % 16 = (k.val + genBlind.val) % n / 16 ^ 63 := by
      rw [hg, show (2 : ℕ) ^ (63 * 4) = 16 ^ 63 by norm_num, Nat.mod_eq_of_lt hd]
    refine runs_pure ⟨?_, rfl, rfl, rfl⟩
    have := hs.2 63 h63 (by rw [hcols]; exact Nat.mod_lt _ (by norm_num)) rfl
    simp only [hdig] at this
    exact this

/-- Entries of a row are different. -/
theorem genTable_inj {t : List (List AffineStorage)} (ht : GenTable t) {j : ℕ} (hj : j < t.length) {a b : ℕ} (ha : a < t[j].length)
    (hb : b < t[j].length) (h : t[j][a] = t[j][b]) : a = b := by
  obtain ⟨x, y, h1, h2, h3⟩ := ht.entry j hj a ha
  obtain ⟨x', y', h1', h2', h3'⟩ := ht.entry j hj b hb
  rw [h] at h2 h3
  obtain rfl : x = x' := ZMod.val_injective p (h2.symm.trans h2')
  obtain rfl : y = y' := ZMod.val_injective p (h3.symm.trans h3')
  have e : a • (16 ^ j • G) + rowOff j = b • (16 ^ j • G) + rowOff j := h1.unique h1'
  have e := add_right_cancel e
  have hne : 16 ^ j • G ≠ 0 := by
    rw [ne_eq, smul_eq_zero_iff G_ne_zero]
    intro hd
    have hp : Nat.Prime n := Fact.out
    have := hp.dvd_of_dvd_pow hd
    revert this; decide +kernel
  have e := (smul_eq_iff hne).1 e
  have hl := ht.cols j hj
  have h16 : 16 < n := by decide +kernel
  have := (ZMod.natCast_eq_natCast_iff' _ _ _).1 e
  rwa [Nat.mod_eq_of_lt (by omega), Nat.mod_eq_of_lt (by omega)] at this

end Verif
