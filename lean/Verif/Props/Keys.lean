import Verif.Spec.Api
import Verif.Proofs.Keys
import Verif.Props.Bytes
import Verif.Props.Ecmult

/-!
# Properties of public keys (C03, C18–C22, C30–C33, C47, C53)
-/

namespace Verif.Props
open Verif Spec

theorem isKey_iff {k : PublicKey} {P : Pt} : IsKey k P ↔ Aff k.pt P ∧ P ≠ 0 := by
  unfold IsKey; rw [denotesA_iff]

theorem exists_key {P : Pt} (h : P ≠ 0) : ∃ k, IsKey k P :=
  ⟨⟨_⟩, (exists_denotes P).1.choose_spec, h⟩

/-- A key stands for one point only. -/
theorem isKey_unique {k : PublicKey} {P Q : Pt} (h : IsKey k P) (h' : IsKey k Q) : P = Q :=
  (isKey_iff.1 h).1.unique (isKey_iff.1 h').1

theorem smul_ne_zero_of_valid {k : SecretKey} (h : ValidSecret k) {P : Pt} (hP : P ≠ 0) : k.sc.val • P ≠ 0 := by
  rw [ne_eq, smul_eq_zero_iff hP]
  exact fun hd => absurd (Nat.le_of_dvd h.1 hd) (by have := h.2; omega)

/-- The secret key `n - 1`. -/
def secretMax : SecretKey := ⟨scalarMax⟩

theorem secretMax_valid : ValidSecret secretMax := by constructor <;> decide +kernel

/-- The secret key 1. -/
def secretOne : SecretKey := ⟨scalarOne⟩

theorem secretOne_valid : ValidSecret secretOne := by constructor <;> decide +kernel

/-! ## Derivation -/

theorem _root_.Verif.Spec.ValidSecret.not_dvd {sk : SecretKey} (h : ValidSecret sk) : ¬ n ∣ secretInt sk :=
  fun hd => absurd (Nat.le_of_dvd h.1 hd) (by have := h.2; omega)

/-- C18. For all limbs, reduced or not: a secret that is not a multiple of `n` has a key. Any context
made by the context constructor gives the same result as the static one. -/
theorem C18_from_secret_key (sk : SecretKey) (h : ¬ n ∣ secretInt sk) :
    ∃ pk, PublicKey.fromSecretKey sk = pure pk ∧ IsKey pk (secretInt sk • G) ∧
      ∀ ctx, Ecmult.newGenContext = pure ctx → PublicKey.fromSecretKeyWithContext sk ctx = pure pk := by
  obtain ⟨pk, hpk, ha⟩ := fromSecretKey_runs (k := sk)
  refine ⟨pk, hpk, isKey_iff.2 ⟨ha, fun h0 => h ((smul_eq_zero_iff G_ne_zero).1 h0)⟩, fun ctx hc => ?_⟩
  unfold PublicKey.fromSecretKey at hpk
  rwa [hc, pure_bind] at hpk

example : ValidSecret secretMax := secretMax_valid

/-! ## Parsing -/

/-- C19. -/
theorem C19_parse (b : Vector UInt8 65) :
    (∀ P x y, IsPt P x y → Encodes65 b.toList x y → ∃ k, PublicKey.parse b = pure (.ok k) ∧ IsKey k P) ∧
    ((¬ ∃ P x y, IsPt P x y ∧ Encodes65 b.toList x y) → PublicKey.parse b = pure (.error .invalidPublicKey)) := by
  obtain ⟨o, ho, h⟩ := parse_runs b
  constructor
  · intro P x y hP he
    rcases h with ⟨_, h⟩ | ⟨k, Q, x', y', rfl, hQ, he', ha⟩
    · exact absurd ⟨x, y, hP.eqn, he⟩ h
    · obtain ⟨rfl, rfl⟩ := enc65_unique he he'
      have := hP.unique hQ
      subst this
      exact ⟨k, ho, isKey_iff.2 ⟨ha, hP.ne_zero⟩⟩
  · intro hn
    rcases h with ⟨rfl, _⟩ | ⟨k, Q, x', y', rfl, hQ, he', ha⟩
    · exact ho
    · exact absurd ⟨Q, x', y', hQ, he'⟩ hn

/-- Every point has an uncompressed and a hybrid encoding. -/
example (P : Pt) (h : P ≠ 0) : ∃ x y, IsPt P x y ∧ ∃ b b' : Vector UInt8 65, b ≠ b' ∧ Encodes65 b.toList x y ∧ Encodes65 b'.toList x y := by
  obtain ⟨x, y, hP⟩ := Spec.IsPt.of_ne_zero h
  have hl : ∀ t : UInt8, (t :: (beBytes 32 x.val ++ beBytes 32 y.val)).length = 65 := by intro t; simp [beBytes_length]
  obtain ⟨b, hb⟩ := exists_vec (hl 4)
  obtain ⟨b', hb'⟩ := exists_vec (hl (if y.val % 2 = 0 then 6 else 7))
  refine ⟨x, y, hP, b, b', ?_, ⟨4, hb.symm, Or.inl rfl⟩, ⟨_, hb'.symm, Or.inr ?_⟩⟩
  · rintro rfl
    rw [← hb', List.cons.injEq] at hb
    revert hb
    split <;> simp
  · by_cases h : y.val % 2 = 0
    · rw [if_pos h]; exact Or.inl ⟨rfl, h⟩
    · rw [if_neg h]; exact Or.inr ⟨rfl, by omega⟩

/-- C20. -/
theorem C20_parse_compressed (b : Vector UInt8 33) :
    (∀ P x y, IsPt P x y → b.toList = sec1Compressed x y → ∃ k, PublicKey.parseCompressed b = pure (.ok k) ∧ IsKey k P) ∧
    ((¬ ∃ P x y, IsPt P x y ∧ b.toList = sec1Compressed x y) → PublicKey.parseCompressed b = pure (.error .invalidPublicKey)) := by
  obtain ⟨o, ho, h⟩ := parseCompressed_runs b
  constructor
  · intro P x y hP he
    rcases h with ⟨_, h⟩ | ⟨k, Q, x', y', rfl, hQ, he', ha⟩
    · exact absurd ⟨x, y, hP.eqn, he⟩ h
    · have := sec1_unique hP hQ (he.symm.trans he')
      subst this
      exact ⟨k, ho, isKey_iff.2 ⟨ha, hP.ne_zero⟩⟩
  · intro hn
    rcases h with ⟨rfl, _⟩ | ⟨k, Q, x', y', rfl, hQ, he', ha⟩
    · exact ho
    · exact absurd ⟨Q, x', y', hQ, he'⟩ hn

/-- C20, in terms of the x coordinate: a tag 2 or 3 followed by an x below `p` with `x³ + 7` a
square is accepted, whatever the tag; the tag selects the parity of `y`. -/
theorem C20_parse_compressed_x (b : Vector UInt8 33) :
    (∃ k, PublicKey.parseCompressed b = pure (.ok k)) ↔
      (b[0] = 2 ∨ b[0] = 3) ∧ beNat (b.toList.drop 1) < p ∧ IsSquare ((beNat (b.toList.drop 1) : Fp) ^ 3 + 7) := by
  obtain ⟨h1, h2⟩ := C20_parse_compressed b
  have hd : (arrayRef32 b 1 (by decide)).toList = b.toList.drop 1 := by
    rw [arrayRef32_toList, List.take_of_length_le (by simp)]
  have hsp := split33 b
  rw [hd] at hsp
  constructor
  · rintro ⟨k, hk⟩
    by_contra hc
    by_cases he : ∃ P x y, IsPt P x y ∧ b.toList = sec1Compressed x y
    · obtain ⟨P, x, y, hP, e⟩ := he
      apply hc
      rw [hsp] at e
      unfold sec1Compressed at e
      simp only [List.cons.injEq] at e
      rw [e.2, beNat_fp, ZMod.natCast_zmod_val]
      refine ⟨?_, ZMod.val_lt x, y, by rw [← hP.eqn]; ring⟩
      rw [e.1]; split
      · exact Or.inr rfl
      · exact Or.inl rfl
    · rw [h2 he] at hk
      exact absurd (pure_inj' hk) (by simp)
  · rintro ⟨ht, hx, y, hy⟩
    have hy2 : y ^ 2 = (beNat (b.toList.drop 1) : Fp) ^ 3 + 7 := by rw [hy]; ring
    have ex := beBytes_of_lt (l := b.toList.drop 1) (by simp) hx
    obtain ⟨X, hX⟩ : ∃ X : Fp, X = ((beNat (b.toList.drop 1) : ℕ) : Fp) := ⟨_, rfl⟩
    rw [← hX] at hy2 ex
    obtain ⟨P, hP⟩ := isPt_of_eqn hy2
    have key : b.toList = sec1Compressed X y ∨ b.toList = sec1Compressed X (-y) := by
      have hpar := y_parity hP.y_ne
      rw [hsp]
      unfold sec1Compressed
      rw [ex]
      simp only [List.cons.injEq, and_true]
      by_cases h : y.val % 2 = 1
      · rw [if_pos h, if_neg (by omega)]; exact ht.symm
      · rw [if_neg h, if_pos (by omega)]; exact ht
    rcases key with h | h
    · obtain ⟨k, hk, _⟩ := h1 P X y hP h; exact ⟨k, hk⟩
    · obtain ⟨k, hk, _⟩ := h1 (-P) X (-y) hP.neg h; exact ⟨k, hk⟩

/-- The parsers reject some inputs with correct tags: no point has x coordinate 0. -/
example : ¬ IsSquare ((0 : Fp) ^ 3 + 7) := by
  rintro ⟨y, hy⟩
  exact no_sqrt7 y (by linear_combination -hy)

theorem select_none {len : ℕ} {f : Option PublicKeyFormat} (h : ¬ Admissible len f) : PublicKey.selectFormat len f = none := by
  unfold PublicKey.selectFormat
  unfold Admissible at h
  split <;> simp_all

theorem parse_not_length (b : Vector UInt8 65) : PublicKey.parse b ≠ pure (.error .invalidInputLength) := by
  obtain ⟨o, ho, h⟩ := parse_runs b
  rw [ho]
  apply pure_ne
  rcases h with ⟨rfl, _⟩ | ⟨k, _, _, _, rfl, _⟩ <;> simp

theorem parseCompressed_not_length (b : Vector UInt8 33) : PublicKey.parseCompressed b ≠ pure (.error .invalidInputLength) := by
  obtain ⟨o, ho, h⟩ := parseCompressed_runs b
  rw [ho]
  apply pure_ne
  rcases h with ⟨rfl, _⟩ | ⟨k, _, _, _, rfl, _⟩ <;> simp

/-- C03, public keys. -/
theorem C03_public_key_slice :
    (∀ p f, PublicKey.parseSlice p f = pure (.error .invalidInputLength) ↔ ¬ Admissible p.length f) ∧
    (∀ (b : Vector UInt8 65) f, Admissible 65 f → PublicKey.parseSlice b.toList f = PublicKey.parse b) ∧
    (∀ (b : Vector UInt8 33) f, Admissible 33 f → PublicKey.parseSlice b.toList f = PublicKey.parseCompressed b) ∧
    (∀ (b : Vector UInt8 64) f, Admissible 64 f → ∃ b' : Vector UInt8 65, b'.toList = 4 :: b.toList ∧
      PublicKey.parseSlice b.toList f = PublicKey.parse b') := by
  have s1 : ∀ (b : Vector UInt8 65) f, Admissible 65 f → PublicKey.parseSlice b.toList f = PublicKey.parse b := by
    intro b f hf
    unfold PublicKey.parseSlice
    have : PublicKey.selectFormat b.toList.length f = some .full := by
      rw [Vector.length_toList]
      rcases hf with ⟨_, rfl | rfl⟩ | ⟨h, _⟩ | ⟨h, _⟩
      · rfl
      · rfl
      · exact absurd h (by decide)
      · exact absurd h (by decide)
    rw [this]
    dsimp only
    rw [toArr_toList, pure_bind]
  have s2 : ∀ (b : Vector UInt8 33) f, Admissible 33 f → PublicKey.parseSlice b.toList f = PublicKey.parseCompressed b := by
    intro b f hf
    unfold PublicKey.parseSlice
    have : PublicKey.selectFormat b.toList.length f = some .compressed := by
      rw [Vector.length_toList]
      rcases hf with ⟨h, _⟩ | ⟨_, rfl | rfl⟩ | ⟨h, _⟩
      · exact absurd h (by decide)
      · rfl
      · rfl
      · exact absurd h (by decide)
    rw [this]
    dsimp only
    rw [toArr_toList, pure_bind]
  have s3 : ∀ (b : Vector UInt8 64) f, Admissible 64 f → ∃ b' : Vector UInt8 65, b'.toList = 4 :: b.toList ∧
      PublicKey.parseSlice b.toList f = PublicKey.parse b' := by
    intro b f hf
    obtain ⟨b', hb'⟩ := exists_vec (m := 65) (p := 4 :: b.toList) (by simp)
    refine ⟨b', hb'.symm, ?_⟩
    unfold PublicKey.parseSlice
    have : PublicKey.selectFormat b.toList.length f = some .raw := by
      rw [Vector.length_toList]
      rcases hf with ⟨h, _⟩ | ⟨h, _⟩ | ⟨_, rfl | rfl⟩
      · exact absurd h (by decide)
      · exact absurd h (by decide)
      · rfl
      · rfl
    rw [this]
    dsimp only
    rw [hb', toArr_toList, pure_bind]
  refine ⟨fun p f => ⟨fun h ha => ?_, fun h => ?_⟩, s1, s2, s3⟩
  · have ha' := ha
    rcases ha' with ⟨hl, _⟩ | ⟨hl, _⟩ | ⟨hl, _⟩
    · rw [hl] at ha
      obtain ⟨b, rfl⟩ := exists_vec hl
      rw [s1 b f ha] at h
      exact parse_not_length b h
    · rw [hl] at ha
      obtain ⟨b, rfl⟩ := exists_vec hl
      rw [s2 b f ha] at h
      exact parseCompressed_not_length b h
    · rw [hl] at ha
      obtain ⟨b, rfl⟩ := exists_vec hl
      obtain ⟨b', _, e⟩ := s3 b f ha
      rw [e] at h
      exact parse_not_length b' h
  · unfold PublicKey.parseSlice
    rw [select_none h]

/-! ## Serialization and equality -/

/-- C22. -/
theorem C22_equality (a b : PublicKey) (P Q : Pt) (ha : IsKey a P) (hb : IsKey b Q) :
    ∃ e sa sb, PublicKey.eq a b = pure e ∧ PublicKey.serialize a = pure sa ∧ PublicKey.serialize b = pure sb ∧
      (e = true ↔ P = Q) ∧ (sa = sb ↔ P = Q) := by
  obtain ⟨ha, hP⟩ := isKey_iff.1 ha
  obtain ⟨hb, hQ⟩ := isKey_iff.1 hb
  obtain ⟨x, y, hPx⟩ := Spec.IsPt.of_ne_zero hP
  obtain ⟨x', y', hQx⟩ := Spec.IsPt.of_ne_zero hQ
  obtain ⟨e, he, h⟩ := keyEq_runs ha hP hb hQ
  obtain ⟨sa, hsa, h1⟩ := serialize_runs ha hPx
  obtain ⟨sb, hsb, h2⟩ := serialize_runs hb hQx
  refine ⟨e, sa, sb, he, hsa, hsb, h, ?_⟩
  constructor
  · rintro rfl
    have e := h1.symm.trans h2
    unfold sec1Full at e
    simp only [List.cons.injEq, true_and] at e
    obtain ⟨e1, e2⟩ := List.append_inj e (by simp [beBytes_length])
    have e1 := beBytes_fp_inj e1
    have e2 := beBytes_fp_inj e2
    subst e1 e2
    exact hPx.unique hQx
  · rintro rfl
    obtain ⟨rfl, rfl⟩ := hPx.inj hQx
    exact vec_inj (h1.trans h2.symm)

theorem key_eq_true {a b : PublicKey} {P : Pt} (ha : IsKey a P) (hb : IsKey b P) : PublicKey.eq a b = pure true := by
  obtain ⟨e, _, _, he, _, _, h, _⟩ := C22_equality a b P P ha hb
  rw [he, h.2 rfl]

/-- Different representations of one point exist: the y coordinate of a key may have any value of
the internal magnitude. -/
example : ∃ a b P, a ≠ b ∧ IsKey a P ∧ IsKey b P := by
  obtain ⟨k, hk⟩ := exists_key G_ne_zero
  obtain ⟨fx, hx⟩ := exists_feN (Gx : Fp)
  obtain ⟨fy, hy⟩ := exists_feN (Gy : Fp)
  refine ⟨⟨⟨fx, fy, false⟩⟩, ⟨⟨fx, { fy with normalized := false }, false⟩⟩, G, ?_, ?_, ?_⟩
  · intro e
    have := congrArg (fun k => k.pt.y.normalized) e
    simp only [hy.2.1] at this
    exact absurd this (by decide)
  · exact isKey_iff.2 ⟨aff_of_isPt rfl hx.fe hy.fe (by norm_num) (by norm_num) isPt_G, G_ne_zero⟩
  · have hy' : FElem.Fe { fy with normalized := false } 1 (Gy : Fp) := by
      obtain ⟨h1, h2, h3⟩ := hy.fe
      refine ⟨?_, h2, h3⟩
      exact { h1 with norm := fun h => absurd h (by simp) }
    exact isKey_iff.2 ⟨aff_of_isPt rfl hx.fe hy' (by norm_num) (by norm_num) isPt_G, G_ne_zero⟩

/-- C21. -/
theorem C21_roundtrip (k : PublicKey) (P : Pt) (hk : IsKey k P) :
    ∃ x y, IsPt P x y ∧
      (∃ b k', PublicKey.serialize k = pure b ∧ b.toList = sec1Full x y ∧
        PublicKey.parse b = pure (.ok k') ∧ IsKey k' P ∧ PublicKey.eq k' k = pure true) ∧
      (∃ b k', PublicKey.serializeCompressed k = pure b ∧ b.toList = sec1Compressed x y ∧
        PublicKey.parseCompressed b = pure (.ok k') ∧ IsKey k' P ∧ PublicKey.eq k' k = pure true) := by
  obtain ⟨ha, hP⟩ := isKey_iff.1 hk
  obtain ⟨x, y, hPx⟩ := Spec.IsPt.of_ne_zero hP
  refine ⟨x, y, hPx, ?_, ?_⟩
  · obtain ⟨b, hb, e⟩ := serialize_runs ha hPx
    obtain ⟨k', hk', h'⟩ := (C19_parse b).1 P x y hPx ⟨4, e, Or.inl rfl⟩
    exact ⟨b, k', hb, e, hk', h', key_eq_true h' hk⟩
  · obtain ⟨b, hb, e⟩ := serializeCompressed_runs ha hPx
    obtain ⟨k', hk', h'⟩ := (C20_parse_compressed b).1 P x y hPx e
    exact ⟨b, k', hb, e, hk', h', key_eq_true h' hk⟩

/-! ## Conversions -/

/-- C53, public keys. -/
theorem C53_public_try_from (a : Affine) (hx : Coord a.x) (hy : Coord a.y) :
    (∀ P, DenotesA a P → P ≠ 0 → PublicKey.tryFrom a = pure (.ok ⟨a⟩) ∧ IsKey ⟨a⟩ P) ∧
    ((¬ ∃ P, DenotesA a P ∧ P ≠ 0) → PublicKey.tryFrom a = pure (.error .invalidAffine)) ∧
    (∀ k, PublicKey.tryFrom a = pure (.ok k) → ValidKey k ∧ PublicKey.toAffine k = a) := by
  obtain ⟨o, ho, h⟩ := tryFrom_runs (coord_iff.1 hx) (coord_iff.1 hy)
  refine ⟨fun P hP h0 => ?_, fun hn => ?_, fun k hk => ?_⟩
  · have ha := denotesA_iff.1 hP
    rcases h with ⟨hbad, _⟩ | ⟨_, rfl, _⟩
    · exfalso
      have hi := ha.inf_false h0
      rcases hbad with hb | hb
      · rw [hi] at hb; cases hb
      · exact hb (ha.isPt hi).eqn
    · exact ⟨ho, hP, h0⟩
  · rcases h with ⟨_, rfl⟩ | ⟨_, _, P, hP, ha⟩
    · exact ho
    · exact absurd ⟨P, denotesA_iff.2 ha, hP.ne_zero⟩ hn
  · rw [ho] at hk
    have := pure_inj' hk
    rcases h with ⟨_, rfl⟩ | ⟨_, rfl, P, hP, ha⟩
    · cases this
    · simp only [Except.ok.injEq] at this
      subst this
      exact ⟨⟨P, isKey_iff.2 ⟨ha, hP.ne_zero⟩⟩, rfl⟩

example : ∃ a, Coord a.x ∧ Coord a.y ∧ DenotesA a G :=
  ⟨_, (exists_denotes G).1.choose_spec.1, (exists_denotes G).1.choose_spec.2.1, (exists_denotes G).1.choose_spec⟩

/-! ## Tweaks -/

/-- The additive tweak of a public key. -/
theorem C30_public_tweak_add (k : PublicKey) (P : Pt) (t : SecretKey) (hk : IsKey k P) (ht : secretInt t < n) :
    (P + secretInt t • G = 0 → PublicKey.tweakAddAssign k t = pure (k, .error .tweakOutOfRange)) ∧
    (P + secretInt t • G ≠ 0 → ∃ k', PublicKey.tweakAddAssign k t = pure (k', .ok ()) ∧ IsKey k' (P + secretInt t • G)) := by
  obtain ⟨ha, hP⟩ := isKey_iff.1 hk
  obtain ⟨r, hr, h⟩ := tweakAdd_runs ha hP ht
  rcases h with ⟨h0, rfl⟩ | ⟨h0, q, rfl, hq⟩
  · exact ⟨fun _ => hr, fun h => absurd h0 h⟩
  · exact ⟨fun h => absurd h h0, fun _ => ⟨q, hr, isKey_iff.2 ⟨hq, h0⟩⟩⟩

/-- The additive tweak of a secret key. -/
theorem C30_secret_tweak_add (k t : SecretKey) (hk : secretInt k < n) (ht : secretInt t < n) :
    ((secretInt k + secretInt t) % n = 0 → SecretKey.tweakAddAssign k t = pure (k, .error .tweakOutOfRange)) ∧
    ((secretInt k + secretInt t) % n ≠ 0 → ∃ k', SecretKey.tweakAddAssign k t = pure (k', .ok ()) ∧ ValidSecret k' ∧
      secretInt k' = (secretInt k + secretInt t) % n) := by
  obtain ⟨v, hv, h⟩ := Scalar.add_runs hk ht
  unfold SecretKey.tweakAddAssign
  rw [hv, pure_bind]
  constructor
  · intro h0
    rw [if_pos ((Scalar.isZero_iff _).2 (h.trans h0))]
  · intro h0
    rw [if_neg (by rw [Scalar.isZero_iff, h]; exact h0)]
    exact ⟨⟨v⟩, rfl, ⟨Nat.pos_of_ne_zero (by rw [h]; exact h0), by rw [h]; exact Nat.mod_lt _ (by decide +kernel)⟩, h⟩

/-- C30. -/
theorem C30_tweak_add (sk t : SecretKey) (hsk : ValidSecret sk) (ht : secretInt t < n) :
    ∃ pk, PublicKey.fromSecretKey sk = pure pk ∧
      ((SecretKey.tweakAddAssign sk t = pure (sk, .error .tweakOutOfRange) ∧
          PublicKey.tweakAddAssign pk t = pure (pk, .error .tweakOutOfRange)) ∨
        ∃ sk' pk' pk'', SecretKey.tweakAddAssign sk t = pure (sk', .ok ()) ∧
          PublicKey.tweakAddAssign pk t = pure (pk', .ok ()) ∧
          PublicKey.fromSecretKey sk' = pure pk'' ∧ PublicKey.eq pk' pk'' = pure true) := by
  obtain ⟨pk, hpk, hkey, _⟩ := C18_from_secret_key sk hsk.not_dvd
  refine ⟨pk, hpk, ?_⟩
  obtain ⟨p1, p2⟩ := C30_public_tweak_add pk _ t hkey ht
  obtain ⟨s1, s2⟩ := C30_secret_tweak_add sk t hsk.2 ht
  rw [← add_nsmul] at p1 p2
  by_cases h0 : (secretInt sk + secretInt t) % n = 0
  · refine Or.inl ⟨s1 h0, p1 ?_⟩
    rw [smul_eq_zero_iff G_ne_zero]; exact Nat.dvd_of_mod_eq_zero h0
  · refine Or.inr ?_
    obtain ⟨pk', hpk', hk'⟩ := p2 (by
      rw [ne_eq, smul_eq_zero_iff G_ne_zero]; exact fun h => h0 (Nat.mod_eq_zero_of_dvd h))
    obtain ⟨sk', hsk', hv, e⟩ := s2 h0
    obtain ⟨pk'', hpk'', hk'', _⟩ := C18_from_secret_key sk' hv.not_dvd
    rw [e, smul_mod] at hk''
    exact ⟨sk', pk', pk'', hsk', hpk', hpk'', key_eq_true hk' hk''⟩

/-- Both cases of C30 occur. -/
example : ValidSecret secretMax ∧ ValidSecret secretOne ∧ (secretInt secretMax + secretInt secretOne) % n = 0 ∧
    (secretInt secretMax + secretInt secretMax) % n ≠ 0 :=
  ⟨secretMax_valid, secretOne_valid, by decide +kernel, by decide +kernel⟩

/-- The multiplicative tweak of a public key. -/
theorem C31_public_tweak_mul (k : PublicKey) (P : Pt) (t : SecretKey) (hk : IsKey k P) (ht : secretInt t < n) :
    (secretInt t = 0 → PublicKey.tweakMulAssign k t = pure (k, .error .tweakOutOfRange)) ∧
    (secretInt t ≠ 0 → ∃ k', PublicKey.tweakMulAssign k t = pure (k', .ok ()) ∧ IsKey k' (secretInt t • P)) := by
  obtain ⟨ha, hP⟩ := isKey_iff.1 hk
  obtain ⟨r, hr, h⟩ := tweakMul_runs ha hP ht
  rcases h with ⟨h0, rfl⟩ | ⟨h0, h1, q, rfl, hq⟩
  · exact ⟨fun _ => hr, fun h => absurd h0 h⟩
  · exact ⟨fun h => absurd h h0, fun _ => ⟨q, hr, isKey_iff.2 ⟨hq, h1⟩⟩⟩

/-- The multiplicative tweak of a secret key. -/
theorem C31_secret_tweak_mul (k t : SecretKey) (hk : ValidSecret k) (ht : secretInt t < n) :
    (secretInt t = 0 → SecretKey.tweakMulAssign k t = pure (k, .error .tweakOutOfRange)) ∧
    (secretInt t ≠ 0 → ∃ k', SecretKey.tweakMulAssign k t = pure (k', .ok ()) ∧ ValidSecret k' ∧
      secretInt k' = secretInt k * secretInt t % n) := by
  unfold SecretKey.tweakMulAssign
  constructor
  · intro h0
    rw [if_pos ((Scalar.isZero_iff _).2 h0)]
  · intro h0
    rw [if_neg (by rw [Scalar.isZero_iff]; exact h0)]
    obtain ⟨v, hv, h⟩ := Scalar.mul_runs k.sc t.sc
    rw [hv, pure_bind]
    have hlt : v.val < n := by rw [h]; exact Nat.mod_lt _ (by decide +kernel)
    refine ⟨⟨v⟩, rfl, ⟨Nat.pos_of_ne_zero fun hz => ?_, hlt⟩, h⟩
    have hd : n ∣ k.sc.val * t.sc.val := Nat.dvd_of_mod_eq_zero (h.symm.trans hz)
    have hpr : n.Prime := Fact.out
    rcases hpr.dvd_mul.1 hd with hd | hd
    · exact absurd (Nat.le_of_dvd hk.1 hd) (by have := hk.2; omega)
    · exact absurd (Nat.le_of_dvd (Nat.pos_of_ne_zero h0) hd) (Nat.not_le.2 ht)

/-- C31. -/
theorem C31_tweak_mul (sk t : SecretKey) (hsk : ValidSecret sk) (ht : secretInt t < n) :
    ∃ pk, PublicKey.fromSecretKey sk = pure pk ∧
      (secretInt t = 0 → SecretKey.tweakMulAssign sk t = pure (sk, .error .tweakOutOfRange) ∧
          PublicKey.tweakMulAssign pk t = pure (pk, .error .tweakOutOfRange)) ∧
      (secretInt t ≠ 0 → ∃ sk' pk' pk'', SecretKey.tweakMulAssign sk t = pure (sk', .ok ()) ∧ ValidSecret sk' ∧
          PublicKey.tweakMulAssign pk t = pure (pk', .ok ()) ∧ ValidKey pk' ∧
          PublicKey.fromSecretKey sk' = pure pk'' ∧ PublicKey.eq pk' pk'' = pure true) := by
  obtain ⟨pk, hpk, hkey, _⟩ := C18_from_secret_key sk hsk.not_dvd
  obtain ⟨p1, p2⟩ := C31_public_tweak_mul pk _ t hkey ht
  obtain ⟨s1, s2⟩ := C31_secret_tweak_mul sk t hsk ht
  refine ⟨pk, hpk, fun h0 => ⟨s1 h0, p1 h0⟩, fun h0 => ?_⟩
  obtain ⟨pk', hpk', hk'⟩ := p2 h0
  obtain ⟨sk', hsk', hv, e⟩ := s2 h0
  obtain ⟨pk'', hpk'', hk'', _⟩ := C18_from_secret_key sk' hv.not_dvd
  rw [e, smul_mod, Nat.mul_comm, mul_nsmul'] at hk''
  exact ⟨sk', pk', pk'', hsk', hv, hpk', ⟨_, hk'⟩, hpk'', key_eq_true hk' hk''⟩

example : ValidSecret secretMax ∧ secretInt secretOne < n ∧ secretInt secretOne ≠ 0 ∧ secretInt ⟨Scalar.zero⟩ = 0 :=
  ⟨secretMax_valid, by decide +kernel, by decide +kernel, by decide +kernel⟩

/-! ## Combination -/

/-- C32. -/
theorem C32_combine (keys : List PublicKey) (pts : List Pt) (h : List.Forall₂ IsKey keys pts) :
    (pts.sum = 0 → PublicKey.combine keys = pure (.error .invalidPublicKey)) ∧
    (pts.sum ≠ 0 → ∃ k, PublicKey.combine keys = pure (.ok k) ∧ IsKey k pts.sum) := by
  obtain ⟨o, ho, h⟩ := combine_runs (h.imp fun _ _ => isKey_iff.1)
  rcases h with ⟨h0, rfl⟩ | ⟨h0, q, rfl, hq⟩
  · exact ⟨fun _ => ho, fun h => absurd h0 h⟩
  · exact ⟨fun h => absurd h h0, fun _ => ⟨q, ho, isKey_iff.2 ⟨hq, h0⟩⟩⟩

/-- C32: no keys. -/
theorem C32_combine_empty : PublicKey.combine [] = pure (.error .invalidPublicKey) :=
  (C32_combine [] [] .nil).1 rfl

theorem forall₂_perm {α β : Type} {R : α → β → Prop} {l l' : List α} (hp : l.Perm l') : ∀ {m : List β}, List.Forall₂ R l m →
    ∃ m', m.Perm m' ∧ List.Forall₂ R l' m' := by
  induction hp with
  | nil => intro m h; exact ⟨m, .refl _, h⟩
  | cons x _ ih =>
    intro m h
    cases h with
    | cons hx ht =>
      obtain ⟨m', h1, h2⟩ := ih ht
      exact ⟨_, h1.cons _, .cons hx h2⟩
  | swap x y l =>
    intro m h
    cases h with
    | cons hx ht =>
      cases ht with
      | cons hy ht => exact ⟨_, .swap _ _ _, .cons hy (.cons hx ht)⟩
  | trans _ _ ih1 ih2 =>
    intro m h
    obtain ⟨m', h1, h2⟩ := ih1 h
    obtain ⟨m'', h3, h4⟩ := ih2 h2
    exact ⟨m'', h1.trans h3, h4⟩

/-- C32: the order of the keys does not matter. -/
theorem C32_combine_perm (keys keys' : List PublicKey) (hp : keys.Perm keys') (hv : ∀ k ∈ keys, ValidKey k) :
    (PublicKey.combine keys = pure (.error .invalidPublicKey) ∧ PublicKey.combine keys' = pure (.error .invalidPublicKey)) ∨
    ∃ k k', PublicKey.combine keys = pure (.ok k) ∧ PublicKey.combine keys' = pure (.ok k') ∧ PublicKey.eq k k' = pure true := by
  obtain ⟨pts, h⟩ : ∃ pts, List.Forall₂ IsKey keys pts := by
    clear hp
    induction keys with
    | nil => exact ⟨[], .nil⟩
    | cons k ks ih =>
      obtain ⟨P, hP⟩ := hv k (by simp)
      obtain ⟨pts, h⟩ := ih fun k hk => hv k (by simp [hk])
      exact ⟨P :: pts, .cons hP h⟩
  obtain ⟨pts', hperm, h'⟩ := forall₂_perm hp h
  obtain ⟨a1, a2⟩ := C32_combine keys pts h
  obtain ⟨b1, b2⟩ := C32_combine keys' pts' h'
  rw [← hperm.sum_eq] at b1 b2
  by_cases h0 : pts.sum = 0
  · exact Or.inl ⟨a1 h0, b1 h0⟩
  · obtain ⟨k, hk, e⟩ := a2 h0
    obtain ⟨k', hk', e'⟩ := b2 h0
    exact Or.inr ⟨k, k', hk, hk', key_eq_true e e'⟩

/-- Both cases of C32 occur: `[G, G]` and `[G, -G]`. -/
example : ∃ k k', List.Forall₂ IsKey [k, k] [G, G] ∧ [G, G].sum ≠ 0 ∧ List.Forall₂ IsKey [k, k'] [G, -G] ∧ [G, -G].sum = 0 := by
  obtain ⟨k, hk⟩ := exists_key G_ne_zero
  obtain ⟨k', hk'⟩ := exists_key (P := -G) (neg_ne_zero.2 G_ne_zero)
  refine ⟨k, k', .cons hk (.cons hk .nil), ?_, .cons hk (.cons hk' .nil), by simp⟩
  simpa using dbl_ne_zero G_ne_zero

/-! ## ECDH -/

/-- C33. -/
theorem C33_ecdh (D : Digest) (pk : PublicKey) (P : Pt) (sk : SecretKey) (hpk : IsKey pk P) (hsk : secretInt sk < n) :
    (secretInt sk = 0 → SharedSecret.new D pk sk = pure (.error .invalidSecretKey)) ∧
    (secretInt sk ≠ 0 → ∃ x y, IsPt (secretInt sk • P) x y ∧
      SharedSecret.new D pk sk = pure (.ok ⟨D.finalize (D.update D.init (sec1Compressed x y))⟩)) := by
  obtain ⟨ha, hP⟩ := isKey_iff.1 hpk
  have hs := sc_of (a := sk.sc) hsk
  obtain ⟨o, ho, h⟩ := Ecdsa.ecdhRaw_runs (D := D) ha hP hs
  unfold SharedSecret.new
  rw [ho, pure_bind]
  rcases h with ⟨h0, rfl⟩ | ⟨h0, x, y, hxy, rfl⟩
  · have : secretInt sk = 0 := (Scalar.isZero_iff _).1 (hs.zero_iff.2 h0)
    exact ⟨fun _ => rfl, fun h => absurd this h⟩
  · refine ⟨fun h => absurd (hs.zero_iff.1 ((Scalar.isZero_iff _).2 h)) h0, fun _ => ⟨x, y, ?_, rfl⟩⟩
    rwa [zs_cast] at hxy

/-- C33: both parties compute the same secret. -/
theorem C33_ecdh_symmetric (D : Digest) (a b : SecretKey) (ha : ValidSecret a) (hb : ValidSecret b) :
    ∃ pa pb s, PublicKey.fromSecretKey a = pure pa ∧ PublicKey.fromSecretKey b = pure pb ∧
      SharedSecret.new D pb a = pure (.ok s) ∧ SharedSecret.new D pa b = pure (.ok s) := by
  obtain ⟨pa, hpa, ka, _⟩ := C18_from_secret_key a ha.not_dvd
  obtain ⟨pb, hpb, kb, _⟩ := C18_from_secret_key b hb.not_dvd
  obtain ⟨x, y, h1, e1⟩ := (C33_ecdh D pb _ a kb ha.2).2 (Nat.pos_iff_ne_zero.1 ha.1)
  obtain ⟨x', y', h2, e2⟩ := (C33_ecdh D pa _ b ka hb.2).2 (Nat.pos_iff_ne_zero.1 hb.1)
  have : secretInt a • secretInt b • G = secretInt b • secretInt a • G := nsmul_left_comm _ _ _
  rw [this] at h1
  obtain ⟨rfl, rfl⟩ := h1.inj h2
  exact ⟨pa, pb, _, hpa, hpb, e1, e2⟩

/-- A streaming hash exists: the identity. -/
example : Digest := ⟨List UInt8, [], fun s a => s ++ a, id, by simp⟩

/-! ## Serde -/

/-- A codec exists: one character per byte. -/
example : Base64 where
  encode b := String.ofList (b.map fun c => Char.ofNat c.toNat)
  decode s := some (s.toList.map fun c => UInt8.ofNat c.toNat)
  decode_encode b := by
    rw [String.toList_ofList, List.map_map]
    refine congrArg some ((List.map_congr_left fun c _ => ?_).trans (List.map_id b))
    have h := c.toNat_lt
    simp only [Function.comp, id]
    have hv : c.toNat.isValidChar := Or.inl (by omega)
    rw [Char.ofNat, dif_pos hv]
    show UInt8.ofNat c.toNat = c
    simp


/-- `parse_slice` always returns. -/
theorem parseSlice_returns (v : List UInt8) (f : Option PublicKeyFormat) : ∃ o, PublicKey.parseSlice v f = pure o := by
  obtain ⟨h0, h1, h2, h3⟩ := C03_public_key_slice
  by_cases ha : Admissible v.length f
  · have ha' := ha
    rcases ha' with ⟨hl, _⟩ | ⟨hl, _⟩ | ⟨hl, _⟩ <;> rw [hl] at ha <;> obtain ⟨b, rfl⟩ := exists_vec hl
    · rw [h1 b f ha]; exact ⟨_, (parse_runs b).choose_spec.1⟩
    · rw [h2 b f ha]; exact ⟨_, (parseCompressed_runs b).choose_spec.1⟩
    · obtain ⟨b', _, e⟩ := h3 b f ha
      rw [e]; exact ⟨_, (parse_runs b').choose_spec.1⟩
  · exact ⟨_, (h0 v f).2 ha⟩

/-- C47, acceptance: both visitors accept what `parse_slice` accepts, after base64 decoding for
strings. -/
theorem C47_serde_accepts (B : Base64) (k : PublicKey) :
    (∀ s v, B.decode s = some v →
      (PublicKey.serdeDeserialize B true (.str s) = pure (.ok k) ↔ PublicKey.parseSlice v none = pure (.ok k))) ∧
    (∀ s, B.decode s = none → PublicKey.serdeDeserialize B true (.str s) = pure (.error .base64)) ∧
    (∀ v, PublicKey.serdeDeserialize B false (.bytes v) = pure (.ok k) ↔ PublicKey.parseSlice v none = pure (.ok k)) := by
  have runsAll := parseSlice_returns
  have mapOk : ∀ o : Res PublicKey, (pure (PublicKey.mapInvalid o) : Exec _) = pure (.ok k) ↔ (pure o : Exec _) = pure (.ok k) := by
    intro o
    constructor
    · intro h
      have := pure_inj' h
      cases o with
      | ok k' => simp only [PublicKey.mapInvalid, Except.ok.injEq] at this; rw [this]
      | error e => simp [PublicKey.mapInvalid] at this
    · intro h
      have := pure_inj' h
      subst this
      rfl
  have some_eq : ∀ (v : List UInt8) f, PublicKey.visitFormat v.length = some f → PublicKey.parseSlice v (some f) = PublicKey.parseSlice v none := by
    intro v f hf
    unfold PublicKey.parseSlice
    have : PublicKey.selectFormat v.length (some f) = PublicKey.selectFormat v.length none := by
      generalize v.length = l at hf
      unfold PublicKey.visitFormat at hf
      split at hf
      · cases hf; rfl
      · cases hf; rfl
      · cases hf; rfl
      · cases hf
    rw [this]
  have none_eq : ∀ v : List UInt8, PublicKey.visitFormat v.length = none → PublicKey.parseSlice v none = pure (.error .invalidInputLength) := by
    intro v hf
    rw [C03_public_key_slice.1]
    generalize v.length = l at hf
    rintro (⟨rfl, _⟩ | ⟨rfl, _⟩ | ⟨rfl, _⟩) <;> simp [PublicKey.visitFormat] at hf
  refine ⟨fun s v hv => ?_, fun s hs => ?_, fun v => ?_⟩
  · show PublicKey.visitStr B s = _ ↔ _
    unfold PublicKey.visitStr
    rw [hv]
    dsimp only
    cases hf : PublicKey.visitFormat v.length with
    | none =>
      dsimp only
      rw [none_eq v hf]
      constructor
      · intro h; exact absurd (pure_inj' h) (by simp)
      · intro h; exact absurd (pure_inj' h) (by simp)
    | some f =>
      dsimp only
      obtain ⟨o, ho⟩ := runsAll v (some f)
      rw [← some_eq v f hf, ho, pure_bind]
      exact mapOk o
  · show PublicKey.visitStr B s = _
    unfold PublicKey.visitStr
    rw [hs]
  · show PublicKey.visitBytes v = _ ↔ _
    unfold PublicKey.visitBytes
    obtain ⟨o, ho⟩ := runsAll v none
    rw [ho, pure_bind]
    exact mapOk o

/-- C47, the errors of rejected inputs. -/
theorem C47_serde_errors (B : Base64) (v : List UInt8) (h : ∀ k, PublicKey.parseSlice v none ≠ pure (.ok k)) :
    PublicKey.serdeDeserialize B false (.bytes v) = pure (.error (.lib .invalidPublicKey)) ∧
    ∀ s, B.decode s = some v → PublicKey.serdeDeserialize B true (.str s) =
      pure (.error (.lib (if v.length = 33 ∨ v.length = 64 ∨ v.length = 65 then .invalidPublicKey else .invalidInputLength))) := by
  constructor
  · obtain ⟨o, ho⟩ := parseSlice_returns v none
    show PublicKey.visitBytes v = _
    unfold PublicKey.visitBytes
    rw [ho, pure_bind]
    cases o with
    | ok k => exact absurd ho (h k)
    | error e => rfl
  · intro s hs
    have hk : ∀ k, PublicKey.serdeDeserialize B true (.str s) ≠ pure (.ok k) := fun k e =>
      h k (((C47_serde_accepts B k).1 s v hs).1 e)
    have e0 : PublicKey.serdeDeserialize B true (.str s) = PublicKey.visitStr B s := rfl
    rw [e0] at hk ⊢
    unfold PublicKey.visitStr at hk ⊢
    rw [hs] at hk ⊢
    dsimp only at hk ⊢
    cases hf : PublicKey.visitFormat v.length with
    | none =>
      have : ¬ (v.length = 33 ∨ v.length = 64 ∨ v.length = 65) := by
        rintro (hl | hl | hl) <;> rw [hl] at hf <;> simp [PublicKey.visitFormat] at hf
      rw [if_neg this]
    | some f =>
      have : v.length = 33 ∨ v.length = 64 ∨ v.length = 65 := by
        generalize v.length = l at hf
        unfold PublicKey.visitFormat at hf
        split at hf <;> simp at hf ⊢
      rw [if_pos this]
      rw [hf] at hk
      dsimp only at hk ⊢
      obtain ⟨o, ho⟩ := parseSlice_returns v (some f)
      rw [ho, pure_bind] at hk ⊢
      cases o with
      | ok k => exact absurd rfl (hk k)
      | error e => rfl

example : ∃ v : List UInt8, v.length = 33 ∧ ∀ k, PublicKey.parseSlice v none ≠ pure (.ok k) := by
  let b : Vector UInt8 33 := Vector.replicate 33 0
  refine ⟨b.toList, by simp [b], fun k e => ?_⟩
  rw [C03_public_key_slice.2.2.1 b none (Or.inr (Or.inl ⟨rfl, Or.inl rfl⟩))] at e
  have := ((C20_parse_compressed_x b).1 ⟨k, e⟩).1
  revert this; decide

/-- C47, round trip. -/
theorem C47_serde_roundtrip (B : Base64) (humanReadable : Bool) (k : PublicKey) (hk : ValidKey k) :
    ∃ v k', PublicKey.serdeSerialize B humanReadable k = pure v ∧
      PublicKey.serdeDeserialize B humanReadable v = pure (.ok k') ∧ PublicKey.eq k' k = pure true := by
  obtain ⟨P, hP⟩ := hk
  obtain ⟨x, y, _, ⟨b, k', hb, _, hp, _, he⟩, _⟩ := C21_roundtrip k P hP
  obtain ⟨a1, _, a3⟩ := C47_serde_accepts B k'
  have hs : PublicKey.parseSlice b.toList none = pure (.ok k') := by
    rw [C03_public_key_slice.2.1 b none (Or.inl ⟨rfl, Or.inl rfl⟩), hp]
  unfold PublicKey.serdeSerialize
  rw [hb, pure_bind]
  cases humanReadable with
  | true => exact ⟨_, k', rfl, (a1 _ _ (B.decode_encode _)).2 hs, he⟩
  | false => exact ⟨_, k', rfl, (a3 _).2 hs, he⟩

end Verif.Props
