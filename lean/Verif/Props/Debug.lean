import Verif.Proofs.Debug
import Verif.Proofs.Parsed
import Verif.Props.Keys

/-!
# `Debug` texts (C98)

`pretty = false` is `{:?}`, `pretty = true` is `{:#?}`.
-/

namespace Verif.Props
open Verif Spec Debug

theorem fromLimbs_scalar (a : Scalar) : fromLimbs 32 ((scalarWords a).map (·.toNat)) = a.val := by
  unfold fromLimbs scalarWords Scalar.val
  simp only [List.map_cons, List.map_nil, List.foldr_cons, List.foldr_nil]
  ring

theorem fromLimbs_felem (a : FElem) : fromLimbs 26 ((felemWords a).map (·.toNat)) = a.val := by
  unfold fromLimbs felemWords FElem.val Limbs10.val
  simp only [List.map_cons, List.map_nil, List.foldr_cons, List.foldr_nil]
  ring

/-- C98: the numbers in the `Debug` text of a secret key are the 32-bit digits of the key: whoever sees the text has the key. -/
theorem C98_secret_key (pretty : Bool) (k : SecretKey) :
    (numbers (Debug.secretKey pretty k)).length = 8 ∧ fromLimbs 32 (numbers (Debug.secretKey pretty k)) = k.sc.val := by
  have := (Nums.tuple (pretty := pretty) (name := "SecretKey".toList) (by decide) (Nums.scalar pretty k.sc)).numbers
  have h : numbers (Debug.secretKey pretty k) = (scalarWords k.sc).map (·.toNat) := this
  rw [h]
  exact ⟨rfl, fromLimbs_scalar _⟩

/-- C98: different secret keys have different texts. -/
theorem C98_secret_key_injective (pretty : Bool) (k k' : SecretKey) :
    Debug.secretKey pretty k = Debug.secretKey pretty k' ↔ k = k' := by
  refine ⟨fun h => ?_, fun h => by rw [h]⟩
  have e := (C98_secret_key pretty k).2
  rw [h, (C98_secret_key pretty k').2] at e
  obtain ⟨a⟩ := k
  obtain ⟨b⟩ := k'
  exact congrArg SecretKey.mk (Scalar.val_inj e.symm)

/-- C98: the same for messages, signatures, recovery identifiers and shared secrets. -/
theorem C98_values (pretty : Bool) (m : Message) (s : Signature) (i : RecoveryId) (z : SharedSecret) :
    fromLimbs 32 (numbers (Debug.message pretty m)) = m.sc.val ∧
    fromLimbs 32 ((numbers (Debug.signature pretty s)).take 8) = s.r.val ∧
    fromLimbs 32 ((numbers (Debug.signature pretty s)).drop 8) = s.s.val ∧
    numbers (Debug.recoveryId pretty i) = [i.id.toNat] ∧
    numbers (Debug.sharedSecret pretty z) = z.bytes.map (·.toNat) := by
  have h1 : numbers (Debug.message pretty m) = (scalarWords m.sc).map (·.toNat) :=
    (Nums.tuple (pretty := pretty) (name := "Message".toList) (by decide) (Nums.scalar pretty m.sc)).numbers
  have h2 := (Nums.signature pretty s).numbers
  have h3 : numbers (Debug.recoveryId pretty i) = [i.id.toNat] :=
    (Nums.tuple (pretty := pretty) (name := "RecoveryId".toList) (by decide) (Nums.u8 i.id)).numbers
  have h4 : numbers (Debug.sharedSecret pretty z) = z.bytes.flatMap fun x => [x.toNat] :=
    (Nums.tuple (pretty := pretty) (name := "SharedSecret".toList) (by decide)
      (Nums.list (l := z.bytes) (f := Debug.u8) (g := fun x => [x.toNat]) fun x _ => Nums.u8 x)).numbers
  rw [h1, h2, h3, h4]
  refine ⟨fromLimbs_scalar _, ?_, ?_, rfl, ?_⟩
  · rw [show ((scalarWords s.r).map (·.toNat) ++ (scalarWords s.s).map (·.toNat)).take 8 = (scalarWords s.r).map (·.toNat) from rfl,
      fromLimbs_scalar]
  · rw [show ((scalarWords s.r).map (·.toNat) ++ (scalarWords s.s).map (·.toNat)).drop 8 = (scalarWords s.s).map (·.toNat) from rfl,
      fromLimbs_scalar]
  · induction z.bytes with
    | nil => rfl
    | cons a l ih => rw [List.flatMap_cons, List.map_cons, ih]; rfl

theorem numbers_publicKey (pretty : Bool) (k : PublicKey) : numbers (Debug.publicKey pretty k) =
    ((felemWords k.pt.x).map (·.toNat) ++ [k.pt.x.magnitude.toNat]) ++ ((felemWords k.pt.y).map (·.toNat) ++ [k.pt.y.magnitude.toNat]) :=
  (Nums.tuple (pretty := pretty) (name := "PublicKey".toList) (by decide) (Nums.affine pretty k.pt)).numbers

/-- C98: the text of a public key shows its coordinates up to a multiple of `p`. -/
theorem C98_public_key_value (pretty : Bool) (k : PublicKey) (P : Pt) (x y : Fp) (hk : IsKey k P) (hP : IsPt P x y) :
    (fromLimbs 26 ((numbers (Debug.publicKey pretty k)).take 10) : Fp) = x ∧
    (fromLimbs 26 (((numbers (Debug.publicKey pretty k)).drop 11).take 10) : Fp) = y := by
  rw [numbers_publicKey]
  have hk := (isKey_iff.1 hk).1
  have hi := hk.inf_false hP.ne_zero
  obtain ⟨e1, e2⟩ := (hk.isPt hi).inj hP
  refine ⟨?_, ?_⟩
  · exact (congrArg (Nat.cast : ℕ → Fp) (fromLimbs_felem k.pt.x)).trans e1
  · exact (congrArg (Nat.cast : ℕ → Fp) (fromLimbs_felem k.pt.y)).trans e2

/-- C98: the text of a public key is not a function of the key.  A key read from its compressed form equals the key read from its
full form, but the texts agree exactly when the `y` coordinate is a square. -/
theorem C98_public_key (pretty : Bool) (x y : Fp) (b : Vector UInt8 65) (c : Vector UInt8 33) (hx : y ^ 2 = x ^ 3 + 7)
    (hb : b.toList = sec1Full x y) (hc : c.toList = sec1Compressed x y) :
    ∃ k k', PublicKey.parse b = pure (.ok k) ∧ PublicKey.parseCompressed c = pure (.ok k') ∧ PublicKey.eq k k' = pure true ∧
      (Debug.publicKey pretty k = Debug.publicKey pretty k' ↔ IsSquare y) := by
  obtain ⟨P, hP⟩ := isPt_of_eqn hx
  obtain ⟨k, hk, ha⟩ := (C19_parse b).1 P x y hP ⟨4, hb, Or.inl rfl⟩
  obtain ⟨k', hk', ha'⟩ := (C20_parse_compressed c).1 P x y hP hc
  obtain ⟨ha, h0⟩ := isKey_iff.1 ha
  obtain ⟨ha', _⟩ := isKey_iff.1 ha'
  obtain ⟨r, hr, hr'⟩ := keyEq_runs ha h0 ha' h0
  rw [hr'.2 rfl] at hr
  refine ⟨k, k', hk, hk', hr, ?_⟩
  obtain ⟨e1, e2⟩ := (ha.isPt (ha.inf_false h0)).inj hP
  obtain ⟨e1', e2'⟩ := (ha'.isPt (ha'.inf_false h0)).inj hP
  obtain ⟨X, Y, hf⟩ := (parse_form b).eq hk k rfl
  have eX : X = x := hf.1.fe.v.symm.trans e1
  have eY : Y = y := hf.2.2.1.fe.v.symm.trans e2
  subst eX eY
  obtain ⟨X', Y', hf' | ⟨hy, hm, hs⟩⟩ := (parseCompressed_form c).eq hk' k' rfl
  · have eX : X' = X := hf'.1.1.fe.v.symm.trans e1'
    have eY : Y' = Y := hf'.1.2.2.1.fe.v.symm.trans e2'
    subst eX eY
    rw [hf.ext hf'.1]
    simp [hf'.2]
  · have eY : Y' = Y := hy.v.symm.trans e2'
    subst eY
    refine iff_of_false (fun h => ?_) hs
    have h := congrArg numbers h
    rw [numbers_publicKey, numbers_publicKey] at h
    have h := congrArg (fun l => l[21]?) h
    have h : some k.pt.y.magnitude.toNat = some k'.pt.y.magnitude.toNat := h
    rw [hf.2.2.2.1, hm] at h
    exact absurd h (by decide)

/-- Both cases occur, for the two points of every `x` coordinate. -/
example : ∃ x y : Fp, y ^ 2 = x ^ 3 + 7 ∧ IsSquare y ∧ (-y) ^ 2 = x ^ 3 + 7 ∧ ¬ IsSquare (-y) := by
  obtain ⟨x, y, hP⟩ : ∃ x y, IsPt G x y := by
    cases e : G with
    | zero => exact absurd e G_ne_zero
    | some x y h => exact ⟨x, y, h, rfl⟩
  have hs : IsSquare (x ^ 3 + 7) := ⟨y, by rw [← hP.eqn]; ring⟩
  have h2 := (sqrt_iff _).2 hs
  have hq : IsSquare ((x ^ 3 + 7) ^ ((p + 1) / 4)) := ⟨(x ^ 3 + 7) ^ ((p + 1) / 8), by rw [← pow_add]; rfl⟩
  refine ⟨x, _, h2, hq, by rw [neg_pow_two, h2], not_isSquare_neg (fun h => ?_) hq⟩
  rw [h] at h2
  exact no_cube x (by rw [← h2]; ring)

/-- Some texts. -/
example : String.ofList (Debug.secretKey false ⟨⟨258, 0, 0, 0, 0, 0, 0, 7⟩⟩) = "SecretKey(Scalar([258, 0, 0, 0, 0, 0, 0, 7]))" ∧
    String.ofList (Debug.recoveryId true ⟨1⟩) = "RecoveryId(\n    1,\n)" ∧
    String.ofList (Debug.sharedSecret true ⟨[5, 17]⟩) = "SharedSecret(\n    [\n        5,\n        17,\n    ],\n)" ∧
    String.ofList (Debug.felem false ⟨⟨1, 2, 3, 4, 5, 6, 7, 8, 9, 10⟩, 1, true⟩) =
      "Field { n: [1, 2, 3, 4, 5, 6, 7, 8, 9, 10], magnitude: 1, normalized: true }" := by
  decide +kernel

/-- C98: the texts of the other types of the core crate: the storage forms show their words, a Jacobian point shows its three coordinates,
and the text of an error determines it, differs from what `Display` writes, and has the same letters apart from their case. -/
theorem C98_core (pretty : Bool) (f : FieldStorage) (a : AffineStorage) (j : Jacobian) (e e' : Error) :
    fromLimbs 32 (numbers (Debug.fieldStorage pretty f)) = f.val ∧
    fromLimbs 32 ((numbers (Debug.affineStorage pretty a)).take 8) = a.x.val ∧
    fromLimbs 32 ((numbers (Debug.affineStorage pretty a)).drop 8) = a.y.val ∧
    fromLimbs 26 ((numbers (Debug.jacobian pretty j)).take 10) = j.x.val ∧
    fromLimbs 26 (((numbers (Debug.jacobian pretty j)).drop 11).take 10) = j.y.val ∧
    fromLimbs 26 (((numbers (Debug.jacobian pretty j)).drop 22).take 10) = j.z.val ∧
    (Debug.error e = Debug.error e' ↔ e = e') ∧ Debug.error e ≠ e'.display.toList ∧
    (Debug.error e).map Char.toLower = (e.display.toList.filter (· ≠ ' ')).map Char.toLower := by
  have hs : ∀ f : FieldStorage, fromLimbs 32 ((storageWords f).map (·.toNat)) = f.val := fun f => by
    unfold fromLimbs storageWords FieldStorage.val
    simp only [List.map_cons, List.map_nil, List.foldr_cons, List.foldr_nil]
    ring
  rw [(Nums.fieldStorage pretty f).numbers, (Nums.affineStorage pretty a).numbers, (Nums.jacobian pretty j).numbers]
  refine ⟨hs f, hs a.x, hs a.y, fromLimbs_felem j.x, fromLimbs_felem j.y, fromLimbs_felem j.z, ?_, ?_, ?_⟩
  · cases e <;> cases e' <;> decide
  · cases e <;> cases e' <;> decide
  · cases e <;> decide

end Verif.Props
