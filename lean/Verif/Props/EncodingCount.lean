import Verif.Props.Encodings
import Verif.Props.MessageCount

/-!
# How many byte strings are public keys (C125)
-/

namespace Verif.Props
open Verif Spec

/-- The byte strings of a length that `parse_slice` accepts. -/
def Accepted (len : ℕ) : Set (List UInt8) := {l | l.length = len ∧ ∃ k, PublicKey.parseSlice l none = pure (.ok k)}

theorem points_ncard : {P : Pt | P ≠ 0}.ncard = n - 1 := by
  have h := Set.ncard_add_ncard_compl ({0} : Set Pt) (Set.finite_singleton _) (Set.finite_of_ncard_pos (by
    have hc : Nat.card Pt = n := card_pt
    have hf : Finite Pt := Nat.finite_of_card_ne_zero (by rw [hc]; decide)
    rw [Set.ncard_pos (Set.toFinite _)]
    exact ⟨G, G_ne_zero⟩))
  rw [Set.ncard_singleton, card_pt] at h
  have e : {P : Pt | P ≠ 0} = ({0} : Set Pt)ᶜ := rfl
  rw [e]
  omega

/-- The four encodings of a point by number. -/
def encoding (j : Fin 4) (x y : Fp) : List UInt8 := ![sec1Compressed x y, sec1Full x y, sec1Hybrid x y, rawPoint x y] j

theorem encoding_length (j : Fin 4) (x y : Fp) : (encoding j x y).length = ![33, 65, 65, 64] j := by
  fin_cases j
  · show (sec1Compressed x y).length = 33; simp [sec1Compressed, beBytes_length]
  · show (sec1Full x y).length = 65; simp [sec1Full, beBytes_length]
  · show (sec1Hybrid x y).length = 65; simp [sec1Hybrid, beBytes_length]
  · show (rawPoint x y).length = 64; simp [rawPoint, beBytes_length]

theorem mem_encodings {l : List UInt8} {x y : Fp} :
    l ∈ [sec1Compressed x y, sec1Full x y, sec1Hybrid x y, rawPoint x y] ↔ ∃ j, l = encoding j x y := by
  rw [Fin.exists_fin_succ, Fin.exists_fin_succ, Fin.exists_fin_succ, Fin.exists_fin_one]
  simp only [List.mem_cons, List.not_mem_nil, or_false]
  rfl

/-- `parse_slice` accepts exactly the encodings of points. -/
theorem accepted_iff (l : List UInt8) :
    (∃ k, PublicKey.parseSlice l none = pure (.ok k)) ↔ ∃ P x y j, IsPt P x y ∧ l = encoding j x y := by
  constructor
  · rintro ⟨k, h⟩
    rcases parseSlice_decode l none with ⟨k2, Q, h1, h2, _⟩ | ⟨e, h1, _⟩
    · rw [h] at h1
      cases pure_inj' h1
      obtain ⟨x, y, hP⟩ := Spec.IsPt.of_ne_zero (isKey_iff.1 h2).2
      obtain ⟨j, hj⟩ := mem_encodings.1 (((C86_encodings k Q x y h2 hP).1 l).1 ⟨k, h, key_eq_true h2 h2⟩)
      exact ⟨Q, x, y, j, hP, hj⟩
    · rw [h] at h1
      cases pure_inj' h1
  · rintro ⟨P, x, y, j, hP, e⟩
    obtain ⟨k, hk⟩ := exists_key hP.ne_zero
    obtain ⟨k', h, _⟩ := ((C86_encodings k P x y hk hP).1 l).2 (mem_encodings.2 ⟨j, e⟩)
    exact ⟨k', h⟩

/-- A byte string encodes one point in one way. -/
theorem encoding_inj {P P' : Pt} {x y x' y' : Fp} {i j : Fin 4} (hP : IsPt P x y) (hP' : IsPt P' x' y') (h : encoding i x y = encoding j x' y') :
    P = P' ∧ i = j := by
  obtain ⟨k, hk⟩ := exists_key hP.ne_zero
  obtain ⟨k', hk'⟩ := exists_key hP'.ne_zero
  obtain ⟨a, ha, ea⟩ := ((C86_encodings k P x y hk hP).1 _).2 (mem_encodings.2 ⟨i, rfl⟩)
  obtain ⟨b, hb, eb⟩ := ((C86_encodings k' P' x' y' hk' hP').1 _).2 (mem_encodings.2 ⟨j, h⟩)
  rw [ha] at hb
  cases pure_inj' hb
  have e : P = P' := by
    rcases parseSlice_decode (encoding i x y) none with ⟨k2, Q, h1, h2, _⟩ | ⟨e, h1, _⟩
    · rw [ha] at h1
      cases pure_inj' h1
      obtain ⟨_, _, _, e1, _, _, f1, _⟩ := C22_equality _ _ _ _ h2 hk
      obtain ⟨_, _, _, e2, _, _, f2, _⟩ := C22_equality _ _ _ _ h2 hk'
      rw [ea] at e1
      rw [eb] at e2
      rw [← f1.1 (pure_inj' e1).symm, ← f2.1 (pure_inj' e2).symm]
    · rw [ha] at h1
      cases pure_inj' h1
  subst e
  obtain ⟨rfl, rfl⟩ := hP.inj hP'
  have hn := (C86_encodings k P x y hk hP).2
  refine ⟨rfl, Fin.ext ?_⟩
  have g : ∀ i : Fin 4, [sec1Compressed x y, sec1Full x y, sec1Hybrid x y, rawPoint x y][i.val]'i.isLt = encoding i x y := fun i => by
    fin_cases i <;> rfl
  exact (List.Nodup.getElem_inj_iff hn).1 ((g i).trans (h.trans (g j).symm))

/-- The strings of one encoding. -/
def Encs (j : Fin 4) : Set (List UInt8) := {l | ∃ P x y, IsPt P x y ∧ l = encoding j x y}

theorem encs_ncard (j : Fin 4) : (Encs j).ncard = n - 1 ∧ (Encs j).Finite := by
  have hex : ∀ P : Pt, ∃ q : Fp × Fp, P ≠ 0 → IsPt P q.1 q.2 := fun P => by
    by_cases h : P = 0
    · exact ⟨(0, 0), fun h' => absurd h h'⟩
    · obtain ⟨x, y, hP⟩ := Spec.IsPt.of_ne_zero h
      exact ⟨(x, y), fun _ => hP⟩
  choose f hf using hex
  have e : Encs j = (fun P => encoding j (f P).1 (f P).2) '' {P : Pt | P ≠ 0} := by
    ext l
    constructor
    · rintro ⟨P, x, y, hP, rfl⟩
      obtain ⟨e1, e2⟩ := (hf P hP.ne_zero).inj hP
      exact ⟨P, hP.ne_zero, by show encoding j _ _ = _; rw [e1, e2]⟩
    · rintro ⟨P, hP, rfl⟩
      exact ⟨P, _, _, hf P hP, rfl⟩
  have hi : Set.InjOn (fun P => encoding j (f P).1 (f P).2) {P : Pt | P ≠ 0} := fun P hP P' hP' h =>
    (encoding_inj (hf P hP) (hf P' hP') h).1
  have hc : (Encs j).ncard = n - 1 := by rw [e, hi.ncard_image, points_ncard]
  exact ⟨hc, Set.finite_of_ncard_pos (by rw [hc]; decide)⟩

theorem encs_disjoint {i j : Fin 4} (h : i ≠ j) : Disjoint (Encs i) (Encs j) := by
  rw [Set.disjoint_left]
  rintro l ⟨P, x, y, hP, rfl⟩ ⟨P', x', y', hP', e⟩
  exact h (encoding_inj hP hP' e).2

theorem accepted_eq (len : ℕ) : Accepted len = {l | ∃ j, ![33, 65, 65, 64] j = len ∧ l ∈ Encs j} := by
  ext l
  show (l.length = len ∧ _) ↔ _
  rw [accepted_iff]
  constructor
  · rintro ⟨hl, P, x, y, j, hP, rfl⟩
    exact ⟨j, by rw [← encoding_length j x y]; exact hl, P, x, y, hP, rfl⟩
  · rintro ⟨j, hj, P, x, y, hP, rfl⟩
    exact ⟨by rw [encoding_length]; exact hj, P, x, y, j, hP, rfl⟩

/-- C125. Of the byte strings of length 33 and of length 64 exactly `n - 1` are public keys, of length 65 exactly `2(n - 1)`, and of no other
length any. -/
theorem C125_counts : (Accepted 33).ncard = n - 1 ∧ (Accepted 64).ncard = n - 1 ∧ (Accepted 65).ncard = 2 * (n - 1) ∧
    ∀ len, len ≠ 33 → len ≠ 64 → len ≠ 65 → Accepted len = ∅ := by
  have key : ∀ len, ∀ l, l ∈ Accepted len ↔
      (33 = len ∧ l ∈ Encs 0) ∨ (65 = len ∧ l ∈ Encs 1) ∨ (65 = len ∧ l ∈ Encs 2) ∨ (64 = len ∧ l ∈ Encs 3) := by
    intro len l
    rw [accepted_eq]
    show (∃ j, _) ↔ _
    rw [Fin.exists_fin_succ, Fin.exists_fin_succ, Fin.exists_fin_succ, Fin.exists_fin_one]
    rfl
  refine ⟨?_, ?_, ?_, ?_⟩
  · rw [show Accepted 33 = Encs 0 by ext l; rw [key]; simp]
    exact (encs_ncard 0).1
  · rw [show Accepted 64 = Encs 3 by ext l; rw [key]; simp]
    exact (encs_ncard 3).1
  · rw [show Accepted 65 = Encs 1 ∪ Encs 2 by ext l; rw [key]; simp,
      Set.ncard_union_eq (encs_disjoint (by decide)) (encs_ncard 1).2 (encs_ncard 2).2, (encs_ncard 1).1, (encs_ncard 2).1]
    ring
  · intro len h1 h2 h3
    rw [Set.eq_empty_iff_forall_notMem]
    intro l hl
    rcases (key len l).1 hl with h | h | h | h
    · exact h1 h.1.symm
    · exact h3 h.1.symm
    · exact h3 h.1.symm
    · exact h2 h.1.symm

/-- C125. Exactly `(n - 1) / 2` numbers below `p` are the x coordinate of a public key. -/
theorem C125_x : 2 * {x : Fp | IsSquare (x ^ 3 + 7)}.ncard = n - 1 := by
  have hex : ∀ x : Fp, ∃ P : Pt, IsSquare (x ^ 3 + 7) → ∃ y, IsPt P x y := by
    intro x
    by_cases h : IsSquare (x ^ 3 + 7)
    · obtain ⟨y, hy⟩ := h
      obtain ⟨P, hP⟩ := isPt_of_eqn (x := x) (y := y) (by rw [hy, sq])
      exact ⟨P, fun _ => ⟨y, hP⟩⟩
    · exact ⟨0, fun h' => absurd h' h⟩
  choose f hf using hex
  set X := {x : Fp | IsSquare (x ^ 3 + 7)}
  have e : {P : Pt | P ≠ 0} = f '' X ∪ (fun x => -f x) '' X := by
    ext P
    simp only [Set.mem_ofPred_eq, Set.mem_union, Set.mem_image]
    constructor
    · intro h
      obtain ⟨x, y, hP⟩ := Spec.IsPt.of_ne_zero h
      have hx : x ∈ X := ⟨y, by rw [← sq]; exact hP.eqn.symm⟩
      obtain ⟨y', hP'⟩ := hf x hx
      rcases hP'.same_x hP with e | e
      · subst e; exact .inl ⟨x, hx, hP'.unique hP⟩
      · subst e; exact .inr ⟨x, hx, hP'.neg.unique hP⟩
    · rintro (⟨x, hx, rfl⟩ | ⟨x, hx, rfl⟩)
      · obtain ⟨y, hP⟩ := hf x hx
        exact hP.ne_zero
      · obtain ⟨y, hP⟩ := hf x hx
        exact neg_ne_zero.2 hP.ne_zero
  have hi : Set.InjOn f X := by
    intro x hx x' hx' h
    obtain ⟨y, hP⟩ := hf x hx
    obtain ⟨y', hP'⟩ := hf x' hx'
    rw [h] at hP
    exact (hP.inj hP').1
  have hdis : Disjoint (f '' X) ((fun x => -f x) '' X) := by
    rw [Set.disjoint_left]
    rintro _ ⟨x, hx, rfl⟩ ⟨x', hx', h⟩
    obtain ⟨y, hP⟩ := hf x hx
    obtain ⟨y', hP'⟩ := hf x' hx'
    have h : -f x' = f x := h
    have hN : IsPt (f x) x' (-y') := by rw [← h]; exact hP'.neg
    obtain ⟨rfl, _⟩ := hP.inj hN
    obtain ⟨k, _, hk⟩ := exists_smul_G (f x)
    rw [← zs_cast] at hk
    rw [hk, ← zs_neg] at h
    have hz : (2 : ZMod n) * k = 0 := by linear_combination -(zs_inj G_ne_zero h)
    rcases mul_eq_zero.1 hz with h0 | h0
    · exact absurd h0 (by decide +kernel)
    · rw [h0, zs_zero] at hk
      exact hP.ne_zero hk
  rw [← points_ncard, e, Set.ncard_union_eq hdis ((Set.toFinite _).image _) ((Set.toFinite _).image _), hi.ncard_image,
    Set.InjOn.ncard_image (fun x hx x' hx' h => hi hx hx' (neg_injective h))]
  ring

/-- There are strings of all four kinds. -/
example : ∃ l ∈ Accepted 33, ∃ l' ∈ Accepted 64, ∃ l'' ∈ Accepted 65, l ≠ l' ∧ l' ≠ l'' := by
  have h : ∀ s : Set (List UInt8), s.ncard ≠ 0 → ∃ l, l ∈ s := fun s h => Set.nonempty_of_ncard_ne_zero h
  obtain ⟨h1, h2, h3, _⟩ := C125_counts
  obtain ⟨l, hl⟩ := h (Accepted 33) (by rw [h1]; decide)
  obtain ⟨l', hl'⟩ := h (Accepted 64) (by rw [h2]; decide)
  obtain ⟨l'', hl''⟩ := h (Accepted 65) (by rw [h3]; decide)
  refine ⟨l, hl, l', hl', l'', hl'', ?_, ?_⟩
  · rintro rfl; exact absurd (hl.1.symm.trans hl'.1) (by decide)
  · rintro rfl; exact absurd (hl'.1.symm.trans hl''.1) (by decide)

end Verif.Props
