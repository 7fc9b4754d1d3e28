import Verif.Props.Client
import Mathlib.Data.Nat.Size

/-!
# Counting encodings: random keys (C85), public keys (C86), lengths of DER signatures (C87)
-/

namespace Verif.Props
open Verif Spec

/-! ## Random keys -/

/-- A generator that returns the given blocks and then zeros. -/
def finDraw {N : ℕ} (bs : Fin N → Vector UInt8 32) (i : ℕ) : Vector UInt8 32 × ℕ :=
  (if h : i < N then bs ⟨i, h⟩ else Vector.replicate 32 0, i + 1)

/-- `random` returns the key `k` when the generator gives the blocks `bs`. -/
def Yields {N : ℕ} (bs : Fin N → Vector UInt8 32) (k : SecretKey) : Prop :=
  ∃ s, SecretKey.random (finDraw bs) N 0 = pure (some (k, s))

theorem finDraw_stateAt {N : ℕ} (bs : Fin N → Vector UInt8 32) (s i : ℕ) : stateAt (finDraw bs) s i = s + i := by
  induction i generalizing s with
  | zero => rfl
  | succ i ih => show stateAt (finDraw bs) (s + 1) i = _; rw [ih]; omega

theorem finDraw_blockAt {N : ℕ} (bs : Fin N → Vector UInt8 32) (i : Fin N) : blockAt (finDraw bs) 0 i = bs i := by
  unfold blockAt
  rw [finDraw_stateAt]
  simp [finDraw]

theorem yields_iff {N : ℕ} (bs : Fin N → Vector UInt8 32) (k : SecretKey) :
    Yields bs k ↔ ∃ i, InRange (bs i) ∧ (∀ j < i, ¬ InRange (bs j)) ∧ SecretKey.serialize k = bs i := by
  obtain ⟨h1, h2⟩ := C49_random (finDraw bs) 0 N
  constructor
  · rintro ⟨s, hs⟩
    by_cases hex : ∃ i, i < N ∧ InRange (blockAt (finDraw bs) 0 i)
    · classical
      obtain ⟨hi, hr⟩ := Nat.find_spec hex
      have hmin : ∀ j < Nat.find hex, ¬ InRange (blockAt (finDraw bs) 0 j) := fun j hj hr => Nat.find_min hex hj ⟨by omega, hr⟩
      obtain ⟨k', hk', _, hser⟩ := h1 _ hi hr hmin
      rw [hs] at hk'
      cases pure_inj' hk'
      refine ⟨⟨_, hi⟩, ?_, fun j hj => ?_, ?_⟩
      · rw [← finDraw_blockAt bs]; exact hr
      · rw [← finDraw_blockAt bs]; exact hmin _ hj
      · rw [← finDraw_blockAt bs]; exact hser
    · rw [h2 fun i hi hr => hex ⟨i, hi, hr⟩] at hs
      cases pure_inj' hs
  · rintro ⟨i, hr, hmin, hser⟩
    obtain ⟨k', hk', _, hser'⟩ := h1 i i.2 (by rw [finDraw_blockAt]; exact hr) fun j hj => by
      have := hmin ⟨j, hj.trans i.2⟩ hj
      rwa [← finDraw_blockAt bs] at this
    rw [finDraw_blockAt, ← hser] at hser'
    have : k' = k := by
      have h := congrArg (fun b : Vector UInt8 32 => beNat b.toList) hser'
      obtain ⟨a⟩ := k'
      obtain ⟨b⟩ := k
      have h : beNat a.b32.toList = beNat b.b32.toList := h
      rw [Scalar.beNat_b32, Scalar.beNat_b32] at h
      rw [Scalar.val_inj h]
    rw [← this]
    exact ⟨_, hk'⟩

theorem serialize_inRange {k : SecretKey} (hk : ValidSecret k) : InRange (SecretKey.serialize k) := by
  unfold InRange SecretKey.serialize
  rw [Scalar.beNat_b32]; exact hk

theorem yields_swap {N : ℕ} {k k' : SecretKey} (hk : ValidSecret k) (hk' : ValidSecret k') (bs : Fin N → Vector UInt8 32)
    (h : Yields bs k) : Yields (fun i => Equiv.swap (SecretKey.serialize k) (SecretKey.serialize k') (bs i)) k' := by
  have hsw : ∀ b, InRange (Equiv.swap (SecretKey.serialize k) (SecretKey.serialize k') b) ↔ InRange b := by
    intro b
    by_cases h1 : b = SecretKey.serialize k
    · subst h1
      rw [Equiv.swap_apply_left]
      exact ⟨fun _ => serialize_inRange hk, fun _ => serialize_inRange hk'⟩
    by_cases h2 : b = SecretKey.serialize k'
    · subst h2
      rw [Equiv.swap_apply_right]
      exact ⟨fun _ => serialize_inRange hk', fun _ => serialize_inRange hk⟩
    · rw [Equiv.swap_apply_of_ne_of_ne h1 h2]
  obtain ⟨i, h1, h2, h3⟩ := (yields_iff _ _).1 h
  refine (yields_iff _ _).2 ⟨i, (hsw _).2 h1, fun j hj hr => h2 j hj ((hsw _).1 hr), ?_⟩
  rw [← h3, Equiv.swap_apply_left]

/-- C85. Every key is drawn equally often: over all sequences of `N` blocks, the number of sequences from
which `random` returns a key is the same for all keys in `1 … n-1`, and no other key is returned. -/
theorem C85_random_uniform (N : ℕ) :
    (∀ k k', ValidSecret k → ValidSecret k' →
      Nat.card {bs : Fin N → Vector UInt8 32 // Yields bs k} = Nat.card {bs : Fin N → Vector UInt8 32 // Yields bs k'}) ∧
    (∀ bs k, Yields (N := N) bs k → ValidSecret k) := by
  refine ⟨fun k k' hk hk' => Nat.card_congr ?_, fun bs k h => ?_⟩
  · refine Equiv.subtypeEquiv (Equiv.piCongrRight fun _ => Equiv.swap (SecretKey.serialize k) (SecretKey.serialize k')) fun bs => ⟨fun h => ?_, fun h => ?_⟩
    · exact yields_swap hk hk' bs h
    · have := yields_swap hk' hk _ h
      simp only [Equiv.piCongrRight_apply, Pi.map_apply, Equiv.swap_comm (SecretKey.serialize k') (SecretKey.serialize k), Equiv.swap_apply_self] at this
      exact this
  · obtain ⟨i, h1, _, h3⟩ := (yields_iff _ _).1 h
    rw [← h3] at h1
    unfold InRange SecretKey.serialize at h1
    rw [Scalar.beNat_b32] at h1
    exact h1

/-- C85. One draw: the block is the key, so each key comes from exactly one block. -/
theorem C85_random_one {σ : Type} (draw : σ → Vector UInt8 32 × σ) (s : σ) (k : SecretKey) (hk : ValidSecret k) :
    SecretKey.random draw 1 s = pure (some (k, (draw s).2)) ↔ (draw s).1 = SecretKey.serialize k := by
  obtain ⟨h1, h2⟩ := C49_random draw s 1
  by_cases hr : InRange (draw s).1
  · obtain ⟨k', e, _, hs⟩ := h1 0 (by omega) hr (by omega)
    have hs : SecretKey.serialize k' = (draw s).1 := hs
    rw [e, ← hs]
    constructor
    · intro h; cases pure_inj' h; rfl
    · intro h
      have h : beNat k'.sc.b32.toList = beNat k.sc.b32.toList := congrArg (fun b : Vector UInt8 32 => beNat b.toList) h
      rw [Scalar.beNat_b32, Scalar.beNat_b32] at h
      have : k' = k := by
        obtain ⟨a⟩ := k'; obtain ⟨b⟩ := k
        exact congrArg SecretKey.mk (Scalar.val_inj h)
      rw [this]; rfl
  · rw [h2 fun i hi => by obtain rfl : i = 0 := by omega
                          exact hr]
    constructor
    · intro h; cases pure_inj' h
    · intro h; rw [h] at hr; exact absurd (serialize_inRange hk) hr

/-- A key is returned from some sequence of two blocks whose first is refused. -/
example : ∃ bs : Fin 2 → Vector UInt8 32, ¬ InRange (bs 0) ∧ Yields bs secretOne := by
  refine ⟨![Vector.replicate 32 0, SecretKey.serialize secretOne], ?_, (yields_iff _ _).2 ⟨1, ?_, ?_, rfl⟩⟩
  · unfold InRange; decide +kernel
  · exact serialize_inRange secretOne_valid
  · intro j hj
    obtain rfl : j = 0 := by omega
    unfold InRange; decide +kernel

/-! ## Public keys -/

/-- SEC 1 hybrid encoding of the finite point `(x, y)`. -/
def sec1Hybrid (x y : Fp) : List UInt8 := (if y.val % 2 = 1 then 7 else 6) :: (beBytes 32 x.val ++ beBytes 32 y.val)

/-- The encoding without tag. -/
def rawPoint (x y : Fp) : List UInt8 := beBytes 32 x.val ++ beBytes 32 y.val

theorem fp_beBytes_inj {x x' : Fp} (h : beBytes 32 x.val = beBytes 32 x'.val) : x = x' := by
  have hp : p ≤ 256 ^ 32 := by decide +kernel
  have h := congrArg beNat h
  rw [beNat_beBytes, beNat_beBytes, Nat.mod_eq_of_lt ((ZMod.val_lt x).trans_le hp), Nat.mod_eq_of_lt ((ZMod.val_lt x').trans_le hp)] at h
  exact ZMod.val_injective _ h

theorem decodePublic_of_encodes {l : List UInt8} {P : Pt} {x y : Fp} {f : Option PublicKeyFormat} (ha : Admissible l.length f)
    (hP : IsPt P x y) (he : EncodesPoint l x y) : decodePublic l f = .ok P := by
  have hd : ∃ P x y, IsPt P x y ∧ EncodesPoint l x y := ⟨P, x, y, hP, he⟩
  unfold decodePublic decodePoint
  rw [if_pos ha, dif_pos hd]
  obtain ⟨x', y', h1, h2⟩ := hd.choose_spec
  have : hd.choose = P := by
    unfold EncodesPoint at he h2
    split at he
    · rw [if_pos (by assumption)] at h2
      exact sec1_unique h1 hP (h2.symm.trans he)
    · rw [if_neg (by assumption)] at h2
      have : x' = x ∧ y' = y := by
        split at he
        · rw [if_pos (by assumption)] at h2
          exact enc65_unique h2 he
        · rw [if_neg (by assumption)] at h2
          exact enc65_unique h2 he
      obtain ⟨rfl, rfl⟩ := this
      exact h1.unique hP
  rw [this]

/-- C86. Exactly four byte strings parse to a given public key: the compressed, uncompressed and hybrid
encodings of its point and the one without tag. -/
theorem C86_encodings (k : PublicKey) (P : Pt) (x y : Fp) (hk : IsKey k P) (hP : IsPt P x y) :
    (∀ l, (∃ k', PublicKey.parseSlice l none = pure (.ok k') ∧ PublicKey.eq k' k = pure true) ↔
      l ∈ [sec1Compressed x y, sec1Full x y, sec1Hybrid x y, rawPoint x y]) ∧
    [sec1Compressed x y, sec1Full x y, sec1Hybrid x y, rawPoint x y].Nodup := by
  have l1 : (sec1Compressed x y).length = 33 := by simp [sec1Compressed, beBytes_length]
  have l2 : (sec1Full x y).length = 65 := by simp [sec1Full, beBytes_length]
  have l3 : (sec1Hybrid x y).length = 65 := by simp [sec1Hybrid, beBytes_length]
  have l4 : (rawPoint x y).length = 64 := by simp [rawPoint, beBytes_length]
  have h23 : sec1Full x y ≠ sec1Hybrid x y := by
    intro e
    have e := (List.cons.inj e).1
    split at e <;> exact absurd e (by decide)
  constructor
  · intro l
    have key : (∃ k', PublicKey.parseSlice l none = pure (.ok k') ∧ PublicKey.eq k' k = pure true) ↔
        Admissible l.length none ∧ EncodesPoint l x y := by
      constructor
      · rintro ⟨k', hk', heq⟩
        rcases parseSlice_decode l none with ⟨k2, Q, h1, h2, h3⟩ | ⟨e, h1, _⟩
        · rw [hk'] at h1
          cases pure_inj' h1
          obtain ⟨e, _, _, h4, _, _, h5, _⟩ := C22_equality _ _ _ _ h2 hk
          rw [heq] at h4
          cases pure_inj' h4
          obtain rfl := h5.1 rfl
          unfold decodePublic at h3
          split at h3
          · rename_i ha
            unfold decodePoint at h3
            split at h3
            · rename_i P hd
              cases h3
              split at hd
              · rename_i hx
                obtain ⟨x', y', h6, h7⟩ := hx.choose_spec
                cases hd
                obtain ⟨rfl, rfl⟩ := h6.inj hP
                exact ⟨ha, h7⟩
              · cases hd
            · cases h3
          · cases h3
        · rw [hk'] at h1
          cases pure_inj' h1
      · rintro ⟨ha, he⟩
        rcases parseSlice_decode l none with ⟨k2, Q, h1, h2, h3⟩ | ⟨e, _, h3⟩
        · refine ⟨k2, h1, ?_⟩
          obtain ⟨e, _, _, h4, _, _, h5, _⟩ := C22_equality _ _ _ _ h2 hk
          rw [h4, h5.2 ?_]
          rw [decodePublic_of_encodes ha hP he] at h3
          cases h3; rfl
        · rw [decodePublic_of_encodes ha hP he] at h3
          cases h3
    rw [key, admissible_none]
    simp only [List.mem_cons, List.not_mem_nil, or_false]
    unfold EncodesPoint Encodes65
    constructor
    · rintro ⟨hl, he⟩
      split at he
      · exact .inl he
      split at he
      · obtain ⟨t, e, _⟩ := he
        exact .inr (.inr (.inr (List.cons.inj e).2))
      · obtain ⟨t, e, rfl | ⟨rfl, hy⟩ | ⟨rfl, hy⟩⟩ := he
        · exact .inr (.inl e)
        · refine .inr (.inr (.inl ?_))
          rw [e, sec1Hybrid, if_neg (by omega)]
        · refine .inr (.inr (.inl ?_))
          rw [e, sec1Hybrid, if_pos hy]
    · rintro (e | e | e | e)
      · rw [← e] at l1
        rw [if_pos l1]
        exact ⟨.inl l1, e⟩
      · rw [← e] at l2
        rw [if_neg (by omega), if_neg (by omega)]
        exact ⟨.inr (.inr l2), 4, e, .inl rfl⟩
      · rw [← e] at l3
        rw [if_neg (by omega), if_neg (by omega)]
        refine ⟨.inr (.inr l3), _, e, .inr ?_⟩
        split
        · exact .inr ⟨rfl, by assumption⟩
        · exact .inl ⟨rfl, by omega⟩
      · rw [← e] at l4
        rw [if_neg (by omega), if_pos l4]
        exact ⟨.inr (.inl l4), 4, congrArg (List.cons 4) e, .inl rfl⟩
  · have ne : ∀ {a b : List UInt8}, a.length ≠ b.length → a ≠ b := fun h e => h (congrArg _ e)
    simp only [List.nodup_cons, List.mem_cons, List.not_mem_nil, or_false, not_or, List.nodup_nil, not_false_eq_true, and_true]
    exact ⟨⟨ne (by omega), ne (by omega), ne (by omega)⟩, ⟨h23, ne (by omega)⟩, ne (by omega)⟩

/-- The generator has four encodings. -/
example : ∃ k, IsKey k G ∧ IsPt G (Gx : Fp) (Gy : Fp) := by
  obtain ⟨k, _, hk, _⟩ := C18_from_secret_key secretOne (by decide +kernel)
  rw [show secretInt secretOne = 1 by decide +kernel, one_nsmul] at hk
  exact ⟨k, hk, isPt_G⟩

/-! ## Lengths of DER signatures -/

/-- The number of bytes of the contents of the DER INTEGER `v`: eight bits each and one sign bit. -/
def derIntLen (v : ℕ) : ℕ := Nat.size v / 8 + 1

theorem derNat_length {c : List UInt8} {v : ℕ} (h : DerNat c v) : c.length = derIntLen v := by
  obtain ⟨h0, _, h2, h3⟩ := h
  have hp := List.length_pos_iff.2 h0
  have e : ∀ k, 128 * 256 ^ k = 2 ^ (8 * k + 7) := fun k => by
    rw [show (256 : ℕ) = 2 ^ 8 by norm_num, ← pow_mul, pow_add]; omega
  rw [e] at h2
  have h2 := Nat.size_le.2 h2
  unfold derIntLen
  by_cases h1 : c.length = 1
  · rw [h1] at h2 ⊢; omega
  · have h3 := h3 h1
    rw [e] at h3
    have h3 := Nat.lt_size.2 h3
    omega

theorem derTlv_length {t : UInt8} {c b : List UInt8} (h : DerTlv t c b) (hc : c.length < 128) : b.length = 2 + c.length := by
  obtain ⟨L, hL, rfl⟩ := h
  rcases hL with ⟨b, _, rfl, _⟩ | ⟨_, _, _, _, _, _, _, _⟩
  · simp; omega
  · omega

/-- C87. The length of `serialize_der` is `6` plus the lengths of the two integers. -/
theorem C87_der_length (sig : Signature) :
    ∃ b, Signature.serializeDer sig = pure b ∧ b.length = 6 + derIntLen sig.r.val + derIntLen sig.s.val ∧
      8 ≤ b.length ∧ b.length ≤ 72 ∧ (sig.r.val < 2 ^ 255 → sig.s.val < 2 ^ 255 → b.length ≤ 70) := by
  obtain ⟨b, hb, hd, hl, _⟩ := C42_serialize_der sig
  obtain ⟨i, j, ⟨c, hc, hi⟩, ⟨d, hd, hj⟩, ht⟩ := hd
  have e1 := derNat_length hc
  have e2 := derNat_length hd
  have s1 : derIntLen sig.r.val ≤ 33 := by
    have := Nat.size_le.2 sig.r.val_lt
    unfold derIntLen; omega
  have s2 : derIntLen sig.s.val ≤ 33 := by
    have := Nat.size_le.2 sig.s.val_lt
    unfold derIntLen; omega
  have e3 := derTlv_length hi (by omega)
  have e4 := derTlv_length hj (by omega)
  have e5 := derTlv_length ht (by simp; omega)
  rw [List.length_append] at e5
  have p1 : 1 ≤ derIntLen sig.r.val := by unfold derIntLen; omega
  have p2 : 1 ≤ derIntLen sig.s.val := by unfold derIntLen; omega
  refine ⟨b, hb, by omega, by omega, hl, fun hr hs => ?_⟩
  have t1 := Nat.size_le.2 hr
  have t2 := Nat.size_le.2 hs
  have t3 : derIntLen sig.r.val ≤ 32 := by unfold derIntLen; omega
  have t4 : derIntLen sig.s.val ≤ 32 := by unfold derIntLen; omega
  omega

/-- C87. A signature returned by `sign` needs at most 71 bytes. -/
theorem C87_sign_length (D : Drbg) (fuel : ℕ) (m : Message) (sk : SecretKey) (π : Profile) (sig : Signature) (id : RecoveryId)
    (h : sign D fuel m sk π = some (some (sig, id))) : ∃ b, Signature.serializeDer sig = pure b ∧ 8 ≤ b.length ∧ b.length ≤ 71 := by
  obtain ⟨b, hb, hl, h8, _, _⟩ := C87_der_length sig
  obtain ⟨_, _, hs, _⟩ := C28_sign_range_partial D fuel m sk π sig id h
  have hs : sig.s.val < 2 ^ 255 := lt_of_le_of_lt (show sig.s.val ≤ (n + 1) / 2 by omega) (by decide +kernel)
  have t1 := Nat.size_le.2 hs
  have t2 := Nat.size_le.2 sig.r.val_lt
  refine ⟨b, hb, h8, ?_⟩
  rw [hl]; unfold derIntLen; omega

end Verif.Props
