import Verif.Model.ResidueKeys
import Verif.Props.Residue
import Verif.Props.ByteClasses
import Verif.Props.Keys

/-!
# What making and changing keys leaves in local variables (C123)
-/

namespace Verif.Props
open Verif Spec Ecmult

/-- C123: with their locals, the functions compute the values of the model. -/
theorem C123_values {σ : Type} (b : Vector UInt8 32) (l : List UInt8) (draw : σ → Vector UInt8 32 × σ) (fuel : ℕ) (rng : σ) (k t : SecretKey)
    (ctx : GenContext) :
    (do let o ← SecretKey.parseR b; pure o.1) = SecretKey.parse b ∧
    (do let o ← SecretKey.parseSliceR l; pure o.1) = SecretKey.parseSlice l ∧
    (do let o ← SecretKey.randomR draw fuel rng; pure (o.map fun q => (q.1, q.2.1))) = SecretKey.random draw fuel rng ∧
    (do let o ← SecretKey.tweakAddAssignR k t; pure (o.1, o.2.1)) = SecretKey.tweakAddAssign k t ∧
    (do let o ← PublicKey.fromSecretKeyR k ctx; pure o.1) = PublicKey.fromSecretKeyWithContext k ctx := by
  have hp : ∀ b, (do let o ← SecretKey.parseR b; pure o.1) = SecretKey.parse b := fun b => by
    unfold SecretKey.parseR SecretKey.parse
    simp only [bind_assoc]
    congr 1
    funext e
    split <;> rfl
  refine ⟨hp b, ?_, ?_, ?_, ?_⟩
  · unfold SecretKey.parseSliceR SecretKey.parseSlice
    split
    · rfl
    · simp only [bind_assoc, ← hp, pure_bind]
  · induction fuel generalizing rng with
    | zero => rfl
    | succ fuel ih =>
      unfold SecretKey.randomR SecretKey.random
      rw [← hp]
      simp only [bind_assoc, pure_bind]
      congr 1
      funext r
      obtain ⟨r, e⟩ := r
      cases r with
      | ok k => rfl
      | error e => exact ih _
  · unfold SecretKey.tweakAddAssignR SecretKey.tweakAddAssign
    simp only [bind_assoc]
    congr 1
    funext v
    split <;> rfl
  · unfold PublicKey.fromSecretKeyR PublicKey.fromSecretKeyWithContext
    rw [← ecmultGenR_value]
    simp only [bind_assoc, pure_bind]

theorem parseR_left {b : Vector UInt8 32} {π : Profile} {r : Res SecretKey} {e : Scalar} (h : SecretKey.parseR b π = some (r, e)) :
    e.val = beNat b.toList % n ∧ ∀ k, r = .ok k → e = k.sc ∧ SecretKey.serialize k = b := by
  obtain ⟨⟨x, o⟩, hx, h1, h2⟩ := Scalar.setB32_runs b
  unfold SecretKey.parseR at h
  rw [hx, pure_bind] at h
  dsimp only at h h1 h2
  subst h1
  by_cases hb : n ≤ beNat b.toList
  · rw [decide_eq_true hb] at h
    have h : some ((.error .invalidSecretKey : Res SecretKey), x) = some (r, e) := h
    injection h with h
    injection h with hr he
    subst hr he
    exact ⟨h2, fun k hk => (by cases hk)⟩
  · rw [decide_eq_false hb] at h
    have h : some (SecretKey.tryFrom x, x) = some (r, e) := h
    injection h with h
    injection h with hr he
    subst hr he
    refine ⟨h2, fun k hk => ?_⟩
    unfold SecretKey.tryFrom at hk
    split at hk
    · cases hk
    · injection hk with hk
      subst hk
      refine ⟨rfl, vec_inj (beNat_inj (by simp) ?_)⟩
      rw [Nat.mod_eq_of_lt (not_le.1 hb)] at h2
      exact (Scalar.beNat_b32 x).trans h2

/-- C123: `parse` leaves in `elem` the value of the bytes modulo `n`, which is the key if one is returned; `parse_slice` leaves a copy of
the bytes as well. -/
theorem C123_parse (π : Profile) :
    (∀ b r e, SecretKey.parseR b π = some (r, e) → e.val = beNat b.toList % n ∧ ∀ k, r = .ok k → e = k.sc) ∧
    (∀ l r a e, SecretKey.parseSliceR l π = some (r, some (a, e)) → a.toList = l ∧ e.val = beNat l % n ∧
      ∀ k, r = .ok k → a = SecretKey.serialize k ∧ e = k.sc) := by
  refine ⟨fun b r e h => ⟨(parseR_left h).1, fun k hk => ((parseR_left h).2 k hk).1⟩, fun l r a e h => ?_⟩
  unfold SecretKey.parseSliceR at h
  split at h
  · exact absurd (Option.some.inj h) (fun h => (by injection h with _ h; cases h))
  · rename_i hl
    have hl : l.toArray.size = 32 := by simpa using hl
    unfold toArr at h
    rw [dif_pos hl, pure_bind] at h
    cases hq : SecretKey.parseR ⟨l.toArray, hl⟩ π with
    | none =>
      have h : (SecretKey.parseR ⟨l.toArray, hl⟩ π).bind _ = some (r, some (a, e)) := h
      rw [hq] at h
      cases h
    | some o =>
      obtain ⟨r', e'⟩ := o
      have h : (SecretKey.parseR ⟨l.toArray, hl⟩ π).bind _ = some (r, some (a, e)) := h
      rw [hq] at h
      have h : some (r', some ((⟨l.toArray, hl⟩ : Vector UInt8 32), e')) = some (r, some (a, e)) := h
      injection h with h
      injection h with h1 h2
      injection h2 with h2
      injection h2 with h2 h3
      subst h1 h2 h3
      obtain ⟨q1, q2⟩ := parseR_left hq
      have el : (⟨l.toArray, hl⟩ : Vector UInt8 32).toList = l := by simp
      rw [el] at q1
      exact ⟨el, q1, fun k hk => ⟨(q2 k hk).2.symm, (q2 k hk).1⟩⟩

/-- C123: `random` leaves the bytes of the new key in `ret`, and the key in the local of `parse`. -/
theorem C123_random {σ : Type} (draw : σ → Vector UInt8 32 × σ) (fuel : ℕ) (rng rng' : σ) (π : Profile) (k : SecretKey) (ret : Vector UInt8 32)
    (e : Scalar) (h : SecretKey.randomR draw fuel rng π = some (some (k, rng', ret, e))) : ret = SecretKey.serialize k ∧ e = k.sc := by
  induction fuel generalizing rng with
  | zero => exact absurd (Option.some.inj h) (fun h => (by cases h))
  | succ fuel ih =>
    unfold SecretKey.randomR at h
    have h : (SecretKey.parseR (draw rng).1 π).bind _ = some (some (k, rng', ret, e)) := h
    cases hq : SecretKey.parseR (draw rng).1 π with
    | none => rw [hq] at h; cases h
    | some o =>
      rw [hq] at h
      obtain ⟨r, e'⟩ := o
      cases r with
      | error _ => exact ih _ h
      | ok k' =>
        have h : some (some (k', (draw rng).2, (draw rng).1, e')) = some (some (k, rng', ret, e)) := h
        injection h with h
        injection h with h
        injection h with h1 h
        injection h with h2 h
        injection h with h3 h4
        subst h1 h3 h4
        obtain ⟨_, q⟩ := parseR_left hq
        exact ⟨(q k' rfl).2.symm, (q k' rfl).1⟩

/-- C123: `tweak_add_assign` leaves the new key in `v`; a refused tweak leaves zero. -/
theorem C123_tweak (k t : SecretKey) (π : Profile) (k' : SecretKey) (v : Scalar) :
    (SecretKey.tweakAddAssignR k t π = some (k', .ok (), v) → v = k'.sc) ∧
    (∀ e, SecretKey.tweakAddAssignR k t π = some (k', .error e, v) → v.val = 0 ∧ k' = k) := by
  unfold SecretKey.tweakAddAssignR
  cases hq : Scalar.add k.sc t.sc π with
  | none =>
    constructor
    · intro h
      have h : (Scalar.add k.sc t.sc π).bind _ = (some (k', .ok (), v) : Option (SecretKey × Res Unit × Scalar)) := h
      rw [hq] at h; cases h
    · intro e h
      have h : (Scalar.add k.sc t.sc π).bind _ = (some (k', .error e, v) : Option (SecretKey × Res Unit × Scalar)) := h
      rw [hq] at h; cases h
  | some w =>
    constructor
    · intro h
      have h : (Scalar.add k.sc t.sc π).bind _ = (some (k', .ok (), v) : Option (SecretKey × Res Unit × Scalar)) := h
      rw [hq] at h
      by_cases hw : w.isZero = true
      · rw [Option.bind_some] at h
        dsimp only at h
        rw [if_pos hw] at h
        exact absurd (Option.some.inj h) (fun h => (by injection h with _ h; injection h with h; cases h))
      · rw [Option.bind_some] at h
        dsimp only at h
        rw [if_neg hw] at h
        have h : some ((⟨w⟩ : SecretKey), (Except.ok () : Res Unit), w) = some (k', .ok (), v) := h
        injection h with h
        injection h with h1 h2
        injection h2 with _ h2
        subst h1 h2
        rfl
    · intro e h
      have h : (Scalar.add k.sc t.sc π).bind _ = (some (k', .error e, v) : Option (SecretKey × Res Unit × Scalar)) := h
      rw [hq] at h
      by_cases hw : w.isZero = true
      · rw [Option.bind_some] at h
        dsimp only at h
        rw [if_pos hw] at h
        have h : some (k, (Except.error .tweakOutOfRange : Res Unit), w) = some (k', .error e, v) := h
        injection h with h
        injection h with h1 h2
        injection h2 with _ h2
        subst h1 h2
        exact ⟨(Scalar.isZero_iff w).1 hw, rfl⟩
      · rw [Option.bind_some] at h
        dsimp only at h
        rw [if_neg hw] at h
        exact absurd (Option.some.inj h) (fun h => (by injection h with _ h; injection h with h; cases h))

/-- C123: deriving a public key leaves the point in projective form and, in the table entry of `ecmult_gen`, exactly the top four bits of the
secret key plus a constant. -/
theorem C123_from_secret_key (ctx : GenContext) (hctx : newGenContext = pure ctx) : ∃ b < n, ∀ k k' : SecretKey, ValidSecret k → ValidSecret k' →
    ∃ o o', PublicKey.fromSecretKeyR k ctx = pure o ∧ PublicKey.fromSecretKeyR k' ctx = pure o' ∧
      IsKey o.1 (secretInt k • G) ∧ DenotesJ o.2.1 (secretInt k • G) ∧
      (o.2.2 = o'.2.2 ↔ (secretInt k + b) % n / 2 ^ 252 = (secretInt k' + b) % n / 2 ^ 252) := by
  obtain ⟨b, hb, hg⟩ := C97_ecmult_gen ctx hctx
  obtain ⟨ctx', hctx', _, hall⟩ := C36_ecmult_gen
  obtain rfl : ctx' = ctx := pure_inj' (hctx'.symm.trans hctx)
  have one : ∀ (k : SecretKey) (o : Jacobian × GenLocals), ValidSecret k → ecmultGenR ctx' k.sc = pure o →
      ∃ pk, PublicKey.fromSecretKeyR k ctx' = pure (pk, o.1, o.2) ∧ IsKey pk (secretInt k • G) ∧ DenotesJ o.1 (secretInt k • G) := by
    intro k o hk ho
    obtain ⟨pk, _, hkey, hc⟩ := C18_from_secret_key k hk.not_dvd
    have hc := hc ctx' hctx
    have e : ecmultGen ctx' k.sc = pure o.1 := by rw [← ecmultGenR_value, ho, pure_bind]
    obtain ⟨J, hJ, hd⟩ := hall k.sc
    rw [e] at hJ
    obtain rfl := pure_inj' hJ
    refine ⟨pk, ?_, hkey, hd⟩
    unfold PublicKey.fromSecretKeyWithContext at hc
    rw [e, pure_bind] at hc
    unfold PublicKey.fromSecretKeyR
    rw [ho, pure_bind]
    have : (do let p ← Affine.setGej o.1; pure ((⟨p⟩ : PublicKey), o.1, o.2)) =
        (do let pk ← (do let p ← Affine.setGej o.1; pure (⟨p⟩ : PublicKey)); pure (pk, o.1, o.2)) := by
      simp only [bind_assoc, pure_bind]
    rw [this, hc, pure_bind]
  refine ⟨b, hb, fun k k' hk hk' => ?_⟩
  obtain ⟨o, o', ho, ho', _, _, _, _, hiff⟩ := hg k.sc k'.sc hk.2 hk'.2
  obtain ⟨pk, h1, h2, h3⟩ := one k o hk ho
  obtain ⟨pk', h1', _, _⟩ := one k' o' hk' ho'
  exact ⟨_, _, h1, h1', h2, h3, hiff⟩

/-- The cases occur: a draw that gives a key, and a tweak that is refused. -/
example : ∃ (k : SecretKey) (e : Scalar), SecretKey.parseR (Vector.replicate 32 1) .debug = some (.ok k, e) := by
  have hb : InRange (Vector.replicate 32 1) := ⟨by decide +kernel, by decide +kernel⟩
  obtain ⟨k, hk, _⟩ := (C01_secret_parse _).1 hb
  have h := (C123_values (Vector.replicate 32 1) [] (fun u : Unit => (Vector.replicate 32 1, u)) 0 () k k ⟨[], Scalar.zero, Jacobian.default⟩).1
  rw [hk] at h
  have h := congrFun h .debug
  cases hq : SecretKey.parseR (Vector.replicate 32 1) .debug with
  | none =>
    have h : (SecretKey.parseR (Vector.replicate 32 1) .debug).bind (fun o => some o.1) = some (Except.ok k) := h
    rw [hq] at h; cases h
  | some o =>
    have h : (SecretKey.parseR (Vector.replicate 32 1) .debug).bind (fun o => some o.1) = some (Except.ok k) := h
    rw [hq] at h
    have h : some o.1 = some (.ok k) := h
    injection h with h
    exact ⟨k, o.2, by rw [← h]⟩

end Verif.Props
