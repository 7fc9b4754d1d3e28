import Verif.Spec.Forge
import Verif.Props.Counting

/-!
# Signatures of messages that nobody signed (C99)
-/

namespace Verif.Props
open Verif Spec Ecdsa

/-- C99: for every key `Q` the valid triples of message, `r` and `s` are exactly those made from two numbers `a` and `b ≠ 0` by
`r = x(a G + b Q)`, `s = r / b`, `m = a r / b`, and each comes from one pair only.  No secret key is involved. -/
theorem C99_parametrization (m : Message) (sig : Signature) (pk : PublicKey) (Q : Pt) (hs : Canonical sig) (hq : IsKey pk Q) :
    verify m sig pk = pure true ↔ ∃! ab : ZMod n × ZMod n, ab.2 ≠ 0 ∧ sigR sig ≠ 0 ∧
      (∃ x y : Fp, IsPt (ab.1.val • G + ab.2.val • Q) x y ∧ sigR sig = ((x.val : ℕ) : ZMod n)) ∧
      sigS sig = sigR sig / ab.2 ∧ msgZ m = ab.1 * sigR sig / ab.2 := by
  rw [verify_iff hs hq]
  constructor
  · rintro ⟨hr, hs0, x, y, hP, hx⟩
    refine ⟨(msgZ m / sigS sig, sigR sig / sigS sig), ⟨div_ne_zero hr hs0, hr, ⟨x, y, hP, hx.symm⟩, ?_, ?_⟩, ?_⟩
    · field_simp
    · field_simp
    · rintro ⟨a, b⟩ ⟨hb, _, _, e1, e2⟩
      dsimp only at hb e1 e2
      rw [e1, e2]
      ext
      · dsimp only; field_simp
      · dsimp only; field_simp
  · rintro ⟨⟨a, b⟩, ⟨hb, hr, ⟨x, y, hP, hx⟩, e1, e2⟩, _⟩
    dsimp only at hb hP e1 e2
    have ea : msgZ m / sigS sig = a := by rw [e1, e2]; field_simp
    have eb : sigR sig / sigS sig = b := by rw [e1]; field_simp
    refine ⟨hr, by rw [e1]; exact div_ne_zero hr hb, x, y, ?_, hx.symm⟩
    rw [ea, eb]
    exact hP

theorem x_zero_iff {R : Pt} {x y : Fp} (hR : IsPt R x y) : ((x.val : ℕ) : ZMod n) = 0 ↔ x.val = n := by
  have hx0 : x.val ≠ 0 := by
    intro h
    rw [ZMod.val_eq_zero] at h
    subst h
    exact no_sqrt7 y (by have := hR.eqn; linear_combination this)
  rw [ZMod.natCast_eq_zero_iff]
  refine ⟨fun ⟨c, hc⟩ => ?_, fun h => by rw [h]⟩
  have h1 := ZMod.val_lt x
  have h2 := p_lt_two_n
  rcases c with _ | _ | c
  · exact absurd hc hx0
  · rw [hc, zero_add, mul_one]
  · have := Nat.mul_le_mul_left n (show 2 ≤ c + 1 + 1 by omega)
    omega

theorem forge_valid {A B X : ZMod n} {Q : Pt} {x y : Fp} (b0 : B ≠ 0) (hR : IsPt (A.val • G + B.val • Q) x y) (hX : ((x.val : ℕ) : ZMod n) = X) :
    EcdsaValid (A * (X * B⁻¹)) X (X * B⁻¹) Q ↔ X ≠ 0 := by
  refine ⟨fun h => h.1, fun h => ⟨h, mul_ne_zero h (inv_ne_zero b0), x, y, ?_, hX⟩⟩
  rw [show A * (X * B⁻¹) / (X * B⁻¹) = A by field_simp, show X / (X * B⁻¹) = B by field_simp]
  exact hR

/-- C99: the program `forge` makes, from a public key and any two numbers `a` and `b`, a message and a signature that verifies,
if `b Q + a G` is finite and its x coordinate is not `n`. -/
theorem C99_forge (pk : PublicKey) (Q : Pt) (a b : SecretKey) (hq : IsKey pk Q) (ha : ValidSecret a) (hb : ValidSecret b) (x y : Fp)
    (hR : IsPt (secretInt b • Q + secretInt a • G) x y) :
    ∃ m sig, forge pk a b = pure (m, sig) ∧ Canonical sig ∧ (verify m sig pk = pure true ↔ x.val ≠ n) := by
  obtain ⟨k1, h1, hk1⟩ := (C31_public_tweak_mul pk Q b hq hb.2).2 hb.1.ne'
  obtain ⟨k2, h2, hk2⟩ := (C30_public_tweak_add k1 _ a hk1 ha.2).2 hR.ne_zero
  obtain ⟨c, h3, hc⟩ := serializeCompressed_runs (isKey_iff.1 hk2).1 hR
  obtain ⟨r, h4, hr1, hr2⟩ := Scalar.setB32_runs (arrayRef32 c 1 (by decide))
  have hx : beNat (arrayRef32 c 1 (by decide)).toList = x.val := by
    rw [split33] at hc
    unfold sec1Compressed at hc
    simp only [List.cons.injEq] at hc
    rw [hc.2, beNat_fp]
  rw [hx] at hr2
  have sr : Sc r.1 ((x.val : ℕ) : ZMod n) := sc_mod hr2
  obtain ⟨i, h5, hi⟩ := sc_inv (sc_of hb.2)
  obtain ⟨s, h6, hs⟩ := sc_mul sr hi
  obtain ⟨m, h7, hm⟩ := sc_mul (sc_of ha.2) hs
  refine ⟨⟨m⟩, ⟨r.1, s⟩, ?_, ⟨sr.lt, hs.lt⟩, ?_⟩
  · unfold forge
    simp only [h1, h2, h3, h4, h5, h6, h7, pure_bind]
  refine (verify_iff (m := ⟨m⟩) (sig := ⟨r.1, s⟩) ⟨sr.lt, hs.lt⟩ hq).trans ?_
  have b0 : ((b.sc.val : ℕ) : ZMod n) ≠ 0 := fun h => hb.1.ne' ((cast_eq_zero_of_lt hb.2).1 h)
  have x0 := x_zero_iff hR
  obtain ⟨X, hX⟩ : ∃ X : ZMod n, X = ((x.val : ℕ) : ZMod n) := ⟨_, rfl⟩
  obtain ⟨A, hA⟩ : ∃ A : ZMod n, A = ((a.sc.val : ℕ) : ZMod n) := ⟨_, rfl⟩
  obtain ⟨B, hB⟩ : ∃ B : ZMod n, B = ((b.sc.val : ℕ) : ZMod n) := ⟨_, rfl⟩
  have e : A.val • G + B.val • Q = secretInt b • Q + secretInt a • G := by
    rw [hA, hB, zs_cast, zs_cast, add_comm]; rfl
  rw [← hX] at sr x0 hs hm
  rw [← hB] at b0 hs hm
  rw [← hA] at hm
  rw [← e] at hR
  show EcdsaValid ((m.val : ℕ) : ZMod n) ((r.1.val : ℕ) : ZMod n) ((s.val : ℕ) : ZMod n) Q ↔ _
  rw [sr.cast, hs.cast, hm.cast]
  refine (forge_valid b0 hR hX.symm).trans (not_congr x0)

/-- C99: among the numbers `a`, for given `pk` and `b`, at most three make `forge` fail: two different failing `a` give different
points, which are infinity or have the x coordinate `n`. -/
theorem C99_failures (pk : PublicKey) (Q : Pt) (b : SecretKey) (hq : IsKey pk Q) (hb : ValidSecret b) (l : List SecretKey) (hl : l.Nodup)
    (hf : ∀ a ∈ l, ValidSecret a ∧ ¬ ∃ m sig, forge pk a b = pure (m, sig) ∧ verify m sig pk = pure true) : l.length ≤ 3 := by
  obtain ⟨k, Y, _, _, hN⟩ := exists_x_n
  obtain ⟨N, hN'⟩ : ∃ N, N = k • G := ⟨_, rfl⟩
  rw [← hN'] at hN
  let f : SecretKey → Pt := fun a => secretInt b • Q + secretInt a • G
  have hmem : ∀ a ∈ l, f a ∈ [0, N, -N] := by
    intro a ha
    obtain ⟨hv, hno⟩ := hf a ha
    simp only [List.mem_cons, List.not_mem_nil, or_false]
    by_cases h0 : f a = 0
    · exact Or.inl h0
    obtain ⟨x, y, hP⟩ := (isPt_or_zero (f a)).resolve_left h0
    obtain ⟨m, sig, h1, _, h2⟩ := C99_forge pk Q a b hq hv hb x y hP
    have hx : x.val = n := by
      by_contra hx
      exact hno ⟨m, sig, h1, h2.2 hx⟩
    have hx : x = (n : Fp) := by rw [← hx, ZMod.natCast_zmod_val]
    subst hx
    have e : (y - Y) * (y + Y) = 0 := by have h1 := hP.eqn; have h2 := hN.eqn; linear_combination h1 - h2
    rcases mul_eq_zero.1 e with e | e
    · have : y = Y := by linear_combination e
      subst this
      exact Or.inr (Or.inl (hP.unique hN))
    · have : y = -Y := by linear_combination e
      subst this
      exact Or.inr (Or.inr (hP.unique hN.neg))
  have hnd : (l.map f).Nodup := by
    refine List.Nodup.map_on ?_ hl
    intro a ha a' ha' e
    have e := add_left_cancel e
    have := nonce_inj (hf a ha).1.2 (hf a' ha').1.2 e
    obtain ⟨a⟩ := a
    obtain ⟨a'⟩ := a'
    exact congrArg SecretKey.mk (Scalar.val_inj this)
  have := (List.subperm_of_subset hnd (l₂ := [0, N, -N]) (by
    intro P hP
    obtain ⟨a, ha, rfl⟩ := List.mem_map.1 hP
    exact hmem a ha)).length_le
  simpa using this

/-- For every key there are numbers for which the program succeeds. -/
example (pk : PublicKey) (Q : Pt) (hq : IsKey pk Q) : ∃ a b m sig, ValidSecret a ∧ ValidSecret b ∧ forge pk a b = pure (m, sig) ∧
    verify m sig pk = pure true := by
  by_contra hno
  have hs : ∀ v : ℕ, v < 4 → ∃ k : SecretKey, k.sc.val = v + 1 := fun v hv => by
    obtain ⟨s, hs⟩ := exists_scalar (v := v + 1) (lt_of_le_of_lt (Nat.succ_le_of_lt hv) (by decide +kernel))
    exact ⟨⟨s⟩, hs⟩
  obtain ⟨a0, h0⟩ := hs 0 (by omega)
  obtain ⟨a1, h1⟩ := hs 1 (by omega)
  obtain ⟨a2, h2⟩ := hs 2 (by omega)
  obtain ⟨a3, h3⟩ := hs 3 (by omega)
  have hn : 5 < n := by decide +kernel
  have V : ∀ {a : SecretKey} {v : ℕ}, a.sc.val = v + 1 → v < 4 → ValidSecret a := fun h hv => ⟨by omega, by omega⟩
  have := C99_failures pk Q a0 hq (V h0 (by omega)) [a0, a1, a2, a3] (by
      simp only [List.nodup_cons, List.mem_cons, List.not_mem_nil, or_false, not_or, List.nodup_nil, and_true, not_false_eq_true]
      refine ⟨⟨?_, ?_, ?_⟩, ⟨?_, ?_⟩, ?_⟩ <;> (rintro rfl; omega)) (by
      intro a ha
      have va : ValidSecret a := by
        simp only [List.mem_cons, List.not_mem_nil, or_false] at ha
        rcases ha with rfl | rfl | rfl | rfl
        · exact V h0 (by omega)
        · exact V h1 (by omega)
        · exact V h2 (by omega)
        · exact V h3 (by omega)
      exact ⟨va, fun ⟨m, sig, e1, e2⟩ => hno ⟨a, a0, m, sig, va, V h0 (by omega), e1, e2⟩⟩)
  simp at this

end Verif.Props
