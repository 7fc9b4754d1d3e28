import Verif.Props.Unique

/-!
# How often signing fails (C83), and that it ends (C84)
-/

namespace Verif.Props
open Verif Spec Ecmult Ecdsa

/-- Nonces in `1 … n-1` with the same point are equal. -/
theorem nonce_inj {a b : ℕ} (ha : a < n) (hb : b < n) (h : a • G = b • G) : a = b := by
  have := zs_inj (a := (a : ZMod n)) (b := (b : ZMod n)) G_ne_zero (by rw [zs_cast, zs_cast]; exact h)
  rwa [ZMod.natCast_eq_natCast_iff', Nat.mod_eq_of_lt ha, Nat.mod_eq_of_lt hb] at this

/-- A point with x coordinate `r` modulo `n` belongs to a recovery id. -/
theorem point_label {r : ℕ} {P : Pt} {x y : Fp} (hr : r < n) (hpt : IsPt P x y) (hx : ((x.val : ℕ) : ZMod n) = r) :
    ∃ i < 4, IsRecoveryPoint r i P ∧ (p - n ≤ r → i < 2) := by
  have h3 := n_lt_p
  have hy : y.val % 2 < 2 := Nat.mod_lt _ (by decide)
  rcases (x_mod_iff hr).1 hx with e | ⟨hlt, e⟩
  · refine ⟨y.val % 2, by omega, ⟨x, y, hpt, ?_, by omega⟩, fun _ => hy⟩
    rw [e, ZMod.val_natCast_of_lt (hr.trans h3), Nat.div_eq_of_lt hy]
    omega
  · refine ⟨2 + y.val % 2, by omega, ⟨x, y, hpt, ?_, by omega⟩, fun _ => by omega⟩
    rw [e, ZMod.val_natCast_of_lt (by omega), show (2 + y.val % 2) / 2 = 1 by omega]
    omega

theorem nonce_point {k : ℕ} (h0 : 0 < k) (h1 : k < n) : ∃ x y, IsPt (k • G) x y := by
  refine Spec.IsPt.of_ne_zero ?_
  rw [ne_eq, smul_eq_zero_iff G_ne_zero]
  exact fun hd => absurd (Nat.le_of_dvd h0 hd) (by omega)

/-- At most four nonces are unusable for a key and a message. -/
theorem unusable_le {d m : ZMod n} (hd : d ≠ 0) (l : List ℕ) (hl : l.Nodup)
    (h : ∀ k ∈ l, 0 < k ∧ k < n ∧ ¬ UsableNonce d m k) : l.length ≤ 4 := by
  have hlab : ∀ k ∈ l, ∃ i < 4, IsRecoveryPoint (-m / d).val i (k • G) := by
    intro k hk
    obtain ⟨h0, h1, hu⟩ := h k hk
    obtain ⟨x, y, hP⟩ := nonce_point h0 h1
    have hz : m + (x.val : ZMod n) * d = 0 := by
      by_contra hz; exact hu ⟨x, y, hP, hz⟩
    have hx : ((x.val : ℕ) : ZMod n) = ((-m / d).val : ℕ) := by
      rw [ZMod.natCast_zmod_val, eq_div_iff hd]
      linear_combination hz
    obtain ⟨i, hi, hr, _⟩ := point_label (ZMod.val_lt _) hP hx
    exact ⟨i, hi, hr⟩
  exact length_le_of_labels 4 _ hl hlab fun a ha b hb i h1 h2 hne =>
    hne (nonce_inj (h a ha).2.1 (h b hb).2.1 (recoveryPoint_unique h1 h2))

theorem nodup_vals {l : List Scalar} (hl : l.Nodup) : (l.map Scalar.val).Nodup :=
  hl.map fun _ _ h => Scalar.val_inj h

/-- C83. For a key that is not a multiple of `n` and any message, `sign_raw` refuses at most four nonces. -/
theorem C83_refused (ctx : GenContext) (hctx : newGenContext = pure ctx) (sk m : Scalar) (hsk : ¬ n ∣ sk.val) (l : List Scalar)
    (hl : l.Nodup) (h : ∀ k ∈ l, 0 < k.val ∧ k.val < n ∧ ∃ e, signRaw ctx sk m k .release = some (.error e)) : l.length ≤ 4 := by
  have hd : ((sk.val : ℕ) : ZMod n) ≠ 0 := fun h => hsk ((ZMod.natCast_eq_zero_iff _ _).1 h)
  rw [← List.length_map (f := Scalar.val)]
  refine unusable_le (m := (m.val : ZMod n)) hd _ (nodup_vals hl) fun v hv => ?_
  obtain ⟨k, hk, rfl⟩ := List.mem_map.1 hv
  obtain ⟨h0, h1, e, he⟩ := h k hk
  refine ⟨h0, h1, ?_⟩
  obtain ⟨x, y, o, hP, ho, herr, _⟩ := C54_sign_raw_partial ctx hctx sk m k (fun hd => absurd (Nat.le_of_dvd h0 hd) (by omega))
  rw [he] at ho
  have hz := ((herr e).1 (Option.some.inj ho).symm).2
  rintro ⟨x', y', hP', hu⟩
  obtain ⟨rfl, rfl⟩ := hP.inj hP'
  exact hu hz

/-- C83. A debug build panics for at most `2 (p - n)` of the `n - 1` nonces, fewer than one in `2 ^ 126`. -/
theorem C83_panics (ctx : GenContext) (hctx : newGenContext = pure ctx) (sk m : Scalar) (l : List Scalar) (hl : l.Nodup)
    (h : ∀ k ∈ l, 0 < k.val ∧ k.val < n ∧ signRaw ctx sk m k .debug = none) :
    l.length ≤ 2 * (p - n) ∧ 2 ^ 126 * l.length < n - 1 := by
  have hlab : ∀ k ∈ l, ∃ i < 2 * (p - n), ∃ x y : Fp, IsPt (k.val • G) x y ∧ n ≤ x.val ∧ i = 2 * (x.val - n) + y.val % 2 := by
    intro k hk
    obtain ⟨h0, h1, hd⟩ := h k hk
    obtain ⟨x, y, o, hP, _, _, _, hok, _⟩ := C54_sign_raw_partial ctx hctx sk m k (fun hd => absurd (Nat.le_of_dvd h0 hd) (by omega))
    have hx : n ≤ x.val := by
      by_contra hx
      rw [hok (not_le.1 hx)] at hd
      exact absurd hd (by simp [pure, ReaderT.pure])
    have := ZMod.val_lt x
    have := Nat.mod_lt y.val (show 0 < 2 by decide)
    exact ⟨_, by omega, x, y, hP, hx, rfl⟩
  have hle : l.length ≤ 2 * (p - n) := by
    refine length_le_of_labels _ _ hl hlab fun a ha b hb i h1 h2 hne =>
      hne (Scalar.val_inj (nonce_inj (h a ha).2.1 (h b hb).2.1 ?_))
    obtain ⟨x, y, hP, hx, hi⟩ := h1
    obtain ⟨x', y', hP', hx', hi'⟩ := h2
    have e : ∀ z : Fp, z.val % 2 / 2 = 0 := fun z => by omega
    exact recoveryPoint_unique (r := x.val) (id := y.val % 2) ⟨x, y, hP, by rw [e]; omega, by omega⟩
      ⟨x', y', hP', by rw [e]; omega, by omega⟩
  have : 2 ^ 126 * (2 * (p - n)) < n - 1 := by decide +kernel
  exact ⟨hle, lt_of_le_of_lt (Nat.mul_le_mul_left _ hle) this⟩

/-- C83. A release build returns `r = 0` for at most two nonces, a nonce and its negative. -/
theorem C83_zero_r (ctx : GenContext) (hctx : newGenContext = pure ctx) (sk m : Scalar) (l : List Scalar) (hl : l.Nodup)
    (h : ∀ k ∈ l, 0 < k.val ∧ k.val < n ∧ ∃ r s id, signRaw ctx sk m k .release = some (.ok (r, s, id)) ∧ r.val = 0) : l.length ≤ 2 := by
  have hlab : ∀ k ∈ l, ∃ i < 2, ∃ x y : Fp, IsPt (k.val • G) x y ∧ x.val = n ∧ i = y.val % 2 := by
    intro k hk
    obtain ⟨h0, h1, r, s, id, hd, hr⟩ := h k hk
    obtain ⟨x, y, o, hP, ho, _, hok, _⟩ := C54_sign_raw_partial ctx hctx sk m k (fun hd => absurd (Nat.le_of_dvd h0 hd) (by omega))
    rw [hd] at ho
    exact ⟨_, Nat.mod_lt y.val (by decide), x, y, hP, (hok r s id (Option.some.inj ho).symm).2.1 hr, rfl⟩
  refine length_le_of_labels _ _ hl hlab fun a ha b hb i h1 h2 hne =>
    hne (Scalar.val_inj (nonce_inj (h a ha).2.1 (h b hb).2.1 ?_))
  obtain ⟨x, y, hP, hx, hi⟩ := h1
  obtain ⟨x', y', hP', hx', hi'⟩ := h2
  have e : ∀ z : Fp, z.val % 2 / 2 = 0 := fun z => by omega
  exact recoveryPoint_unique (r := n) (id := y.val % 2) ⟨x, y, hP, by rw [e]; omega, by omega⟩
    ⟨x', y', hP', by rw [e]; omega, by omega⟩

/-- Some nonce is refused, some nonce panics, and some nonce gives `r = 0`. -/
example : ∃ ctx, newGenContext = pure ctx ∧
    (∃ sk m k : Scalar, ¬ n ∣ sk.val ∧ 0 < k.val ∧ k.val < n ∧ signRaw ctx sk m k .release = some (.error .invalidMessage)) ∧
    (∃ sk m k : Scalar, 0 < k.val ∧ k.val < n ∧ signRaw ctx sk m k .debug = none ∧
      ∃ r s id, signRaw ctx sk m k .release = some (.ok (r, s, id)) ∧ r.val = 0) := by
  obtain ⟨ctx, sk, m, k, r, s, id, hctx, _, _, _, h0, h1, hr, hr0, hd⟩ := C54_sign_raw_fails
  refine ⟨ctx, hctx, ?_, sk, m, k, h0, h1, hd, r, s, id, hr, hr0⟩
  have hgn : Gx < n := by decide +kernel
  obtain ⟨m', hm'⟩ := exists_scalar (v := n - Gx) (by decide +kernel)
  have hv : scalarOne.val = 1 := by decide +kernel
  have hn1 : ¬ n ∣ 1 := by decide +kernel
  refine ⟨scalarOne, m', scalarOne, by rw [hv]; exact hn1, by omega, by rw [hv]; decide +kernel, ?_⟩
  obtain ⟨x, y, o, hP, ho, herr, _⟩ := C54_sign_raw_partial ctx hctx scalarOne m' scalarOne (by rw [hv]; exact hn1)
  rw [hv, one_nsmul] at hP
  obtain ⟨rfl, rfl⟩ := isPt_G.inj hP
  rw [ho, (herr .invalidMessage).2 ⟨rfl, ?_⟩]
  have hgx : ((Gx : ℕ) : Fp).val = Gx := by rw [ZMod.val_natCast]; decide +kernel
  rw [hgx, hm', hv, Nat.cast_one, mul_one, ← Nat.cast_add, Nat.sub_add_cancel hgn.le, ZMod.natCast_self]

/-- C84. If the first `fuel` blocks of the generator contain five different values in `1 … n-1`, `sign` ends
within `fuel` blocks. -/
theorem C84_sign_ends (D : Drbg) (fuel : ℕ) (m : Message) (sk : SecretKey) (hsk : ¬ n ∣ secretInt sk) (l : List ℕ)
    (h5 : 5 ≤ l.length) (hl : (l.map (nonceBlock D m sk)).Nodup) (h : ∀ i ∈ l, i < fuel ∧ InRange (nonceBlock D m sk i)) :
    ∃ sig id, sign D fuel m sk .release = some (some (sig, id)) ∧
      ((∀ j < fuel, InRange (nonceBlock D m sk j) → NoOverflow (beNat (nonceBlock D m sk j).toList)) →
        sign D fuel m sk .debug = some (some (sig, id))) := by
  classical
  have hd : keyZ sk ≠ 0 := fun h => hsk ((ZMod.natCast_eq_zero_iff _ _).1 h)
  have hex : ∃ i, i < fuel ∧ GoodBlock D m sk i := by
    by_contra hno
    have hnod : (l.map fun i => beNat (nonceBlock D m sk i).toList).Nodup := by
      have := hl.map (f := fun b : Vector UInt8 32 => beNat b.toList) fun a b hab =>
        Vector.toList_inj.1 (Verif.beNat_inj (by simp) hab)
      rwa [List.map_map] at this
    have := unusable_le (m := msgZ m) hd _ hnod fun v hv => by
      obtain ⟨i, hi, rfl⟩ := List.mem_map.1 hv
      obtain ⟨h1, h2, h3⟩ := h i hi
      exact ⟨h2, h3, fun hu => hno ⟨i, h1, ⟨h2, h3⟩, hu⟩⟩
    rw [List.length_map] at this
    omega
  obtain ⟨x, y, sig, id, _, _, hr, hdb, _⟩ := (C29_first_nonce D m sk fuel).1 (Nat.find hex) (Nat.find_spec hex).1 (Nat.find_spec hex).2
    fun j hj hg => Nat.find_min hex hj ⟨hj.trans (Nat.find_spec hex).1, hg⟩
  exact ⟨sig, id, hr, fun ho => hdb fun j hj => ho j (lt_of_le_of_lt hj (Nat.find_spec hex).1)⟩

/-- A generator that counts meets the hypotheses. -/
example : ∃ (D : Drbg) (m : Message) (sk : SecretKey), ¬ n ∣ secretInt sk ∧
    ([0, 1, 2, 3, 4].map (nonceBlock D m sk)).Nodup ∧ ∀ i ∈ [0, 1, 2, 3, 4], i < 5 ∧ InRange (nonceBlock D m sk i) := by
  refine ⟨⟨UInt8, fun _ _ _ => 1, fun s => ((Vector.replicate 31 0).push s, s + 1)⟩, ⟨Scalar.zero⟩, secretOne, ?_, ?_, ?_⟩
  · decide +kernel
  · decide +kernel
  · unfold InRange
    decide +kernel

end Verif.Props
