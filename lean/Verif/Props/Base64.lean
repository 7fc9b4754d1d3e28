import Verif.Spec.Base64
import Verif.Props.Encodings

/-!
# The text form of public keys (C93)

`Base64` of the model is instantiated with RFC 4648.
-/

namespace Verif

namespace Rfc4648

theorem value_char : ∀ i < 64, value (char i) = some i := by decide +kernel
theorem char_ne_pad : ∀ i < 64, char i ≠ '=' := by decide +kernel

theorem char_value {c : Char} {v : Nat} (h : value c = some v) : v < 64 ∧ char v = c := by
  unfold value at h
  split at h
  · rename_i hc
    cases h
    have hl : alphabet.idxOf c < alphabet.length := List.idxOf_lt_length_iff.2 hc
    refine ⟨hl, ?_⟩
    unfold char
    rw [List.getD_eq_getElem?_getD, List.getElem?_eq_getElem hl, Option.getD_some, List.getElem_idxOf]
  · cases h

theorem encode_cons3 (a b c : UInt8) (l : List UInt8) : encode (a :: b :: c :: l) =
    char (a.toNat / 4) :: char (a.toNat % 4 * 16 + b.toNat / 16) :: char (b.toNat % 16 * 4 + c.toNat / 64) :: char (c.toNat % 64) :: encode l := by
  rw [encode]

theorem u8_ofNat_eq {a : UInt8} {n : Nat} (h : n = a.toNat) : UInt8.ofNat n = a := by
  subst h; simp

theorem decode_encode : ∀ b : List UInt8, decode (encode b) = some b
  | [] => rfl
  | [a] => by
    have ha := a.toNat_lt
    rw [encode, decode, if_pos ⟨rfl, rfl, rfl⟩, value_char _ (by omega), value_char _ (by omega)]
    simp only [Option.bind_eq_bind, Option.bind_some]
    rw [if_pos (by omega), u8_ofNat_eq (a := a) (by omega)]
  | [a, b] => by
    have ha := a.toNat_lt
    have hb := b.toNat_lt
    rw [encode, decode, if_neg (fun h => char_ne_pad _ (by omega) h.2.2), if_pos ⟨rfl, rfl⟩, value_char _ (by omega), value_char _ (by omega),
      value_char _ (by omega)]
    simp only [Option.bind_eq_bind, Option.bind_some]
    rw [if_pos (by omega), u8_ofNat_eq (a := a) (by omega), u8_ofNat_eq (a := b) (by omega)]
  | a :: b :: c :: l => by
    have ha := a.toNat_lt
    have hb := b.toNat_lt
    have hc := c.toNat_lt
    rw [encode_cons3, decode, if_neg (fun h => char_ne_pad _ (by omega) h.2.1), if_neg (fun h => char_ne_pad _ (by omega) h.2), value_char _ (by omega),
      value_char _ (by omega), value_char _ (by omega), value_char _ (by omega), decode_encode l]
    simp only [Option.bind_eq_bind, Option.bind_some]
    rw [u8_ofNat_eq (a := a) (by omega), u8_ofNat_eq (a := b) (by omega), u8_ofNat_eq (a := c) (by omega)]

theorem bind_some {α β : Type} {x : Option α} {f : α → Option β} {b : β} (h : x.bind f = some b) : ∃ a, x = some a ∧ f a = some b :=
  Option.bind_eq_some_iff.1 h

theorem u8_toNat {n : Nat} (h : n < 256) : (UInt8.ofNat n).toNat = n := by
  rw [UInt8.toNat_ofNat']; exact Nat.mod_eq_of_lt h

/-- A text that decodes is the encoding of the result. -/
theorem encode_decode : ∀ {s : List Char} {b : List UInt8}, decode s = some b → s = encode b
  | [], b, h => by rw [decode] at h; cases h; rfl
  | [_], b, h => by simp [decode] at h
  | [_, _], b, h => by simp [decode] at h
  | [_, _, _], b, h => by simp [decode] at h
  | c0 :: c1 :: c2 :: c3 :: l, b, h => by
    rw [decode] at h
    split at h
    · rename_i hp
      obtain ⟨q1, q2, q3⟩ := hp
      obtain ⟨v0, h0, h⟩ := bind_some h
      obtain ⟨v1, h1, h⟩ := bind_some h
      obtain ⟨l0, e0⟩ := char_value h0
      obtain ⟨l1, e1⟩ := char_value h1
      split at h
      · cases h
        rw [encode, u8_toNat (by omega), q1, q2, q3, ← e0, ← e1]
        rw [show (v0 * 4 + v1 / 16) / 4 = v0 by omega, show (v0 * 4 + v1 / 16) % 4 * 16 = v1 by omega]
      · cases h
    split at h
    · rename_i hp
      obtain ⟨q1, q2⟩ := hp
      obtain ⟨v0, h0, h⟩ := bind_some h
      obtain ⟨v1, h1, h⟩ := bind_some h
      obtain ⟨v2, h2, h⟩ := bind_some h
      obtain ⟨l0, e0⟩ := char_value h0
      obtain ⟨l1, e1⟩ := char_value h1
      obtain ⟨l2, e2⟩ := char_value h2
      split at h
      · cases h
        rw [encode, u8_toNat (by omega), u8_toNat (by omega), q1, q2, ← e0, ← e1, ← e2]
        rw [show (v0 * 4 + v1 / 16) / 4 = v0 by omega, show (v0 * 4 + v1 / 16) % 4 * 16 + (v1 % 16 * 16 + v2 / 4) / 16 = v1 by omega,
          show (v1 % 16 * 16 + v2 / 4) % 16 * 4 = v2 by omega]
      · cases h
    · obtain ⟨v0, h0, h⟩ := bind_some h
      obtain ⟨v1, h1, h⟩ := bind_some h
      obtain ⟨v2, h2, h⟩ := bind_some h
      obtain ⟨v3, h3, h⟩ := bind_some h
      obtain ⟨r, hr, h⟩ := bind_some h
      obtain ⟨l0, e0⟩ := char_value h0
      obtain ⟨l1, e1⟩ := char_value h1
      obtain ⟨l2, e2⟩ := char_value h2
      obtain ⟨l3, e3⟩ := char_value h3
      cases h
      rw [encode_cons3, u8_toNat (by omega), u8_toNat (by omega), u8_toNat (by omega), encode_decode hr, ← e0, ← e1, ← e2, ← e3]
      rw [show (v0 * 4 + v1 / 16) / 4 = v0 by omega, show (v0 * 4 + v1 / 16) % 4 * 16 + (v1 % 16 * 16 + v2 / 4) / 16 = v1 by omega,
        show (v1 % 16 * 16 + v2 / 4) % 16 * 4 + (v2 % 4 * 64 + v3) / 64 = v2 by omega, show (v2 % 4 * 64 + v3) % 64 = v3 by omega]

theorem encode_length : ∀ b : List UInt8, (encode b).length = (b.length + 2) / 3 * 4
  | [] => by simp [encode]
  | [_] => by simp [encode]
  | [_, _] => by simp [encode]
  | a :: b :: c :: l => by
    rw [encode_cons3]
    simp only [List.length_cons, encode_length l]
    omega

theorem encode_pad : ∀ b : List UInt8, b.length % 3 = 2 → (encode b).count '=' = 1 ∧ (encode b).getLast? = some '='
  | [], h => by simp at h
  | [_], h => by simp at h
  | [a, b], _ => by
    have ha := a.toNat_lt
    have hb := b.toNat_lt
    rw [encode]
    refine ⟨?_, rfl⟩
    rw [List.count_cons_of_ne (char_ne_pad _ (by omega)), List.count_cons_of_ne (char_ne_pad _ (by omega)),
      List.count_cons_of_ne (char_ne_pad _ (by omega)), List.count_singleton_self]
  | a :: b :: c :: l, h => by
    have ha := a.toNat_lt
    have hb := b.toNat_lt
    have hc := c.toNat_lt
    obtain ⟨h1, h2⟩ := encode_pad l (by simp only [List.length_cons] at h; omega)
    rw [encode_cons3]
    refine ⟨?_, ?_⟩
    · rw [List.count_cons_of_ne (char_ne_pad _ (by omega)), List.count_cons_of_ne (char_ne_pad _ (by omega)),
        List.count_cons_of_ne (char_ne_pad _ (by omega)), List.count_cons_of_ne (char_ne_pad _ (by omega)), h1]
    · simp only [List.getLast?_cons, h2, Option.getD_some]

theorem encode_injective : Function.Injective encode := fun a b h => by
  have := congrArg decode h
  rw [decode_encode, decode_encode] at this
  exact Option.some.inj this

/-- The engine. -/
def engine : Base64 where
  encode b := String.ofList (encode b)
  decode s := decode s.toList
  decode_encode b := by rw [String.toList_ofList, decode_encode]

end Rfc4648

namespace Props

open Spec Rfc4648

/-- The test vectors of RFC 4648, section 10. -/
example : (["", "f", "fo", "foo", "foob", "fooba", "foobar"].map fun s => String.ofList (encode s.toUTF8.toList)) =
    ["", "Zg==", "Zm8=", "Zm9v", "Zm9vYg==", "Zm9vYmE=", "Zm9vYmFy"] := by decide +kernel

/-- Not canonical, wrong padding, wrong alphabet. -/
example : (["Zh==", "Zg", "Zg=", "Zg= ", "Z===", "Zm-v", "Zg==Zg=="].map fun s => decode s.toList) = List.replicate 7 none := by decide +kernel

/-- C93. The text form of a key is base64 of its 65-byte encoding, 88 characters that begin with `B` and end with one `=`. -/
theorem C93_text (k : PublicKey) (P : Pt) (x y : Fp) (hk : IsKey k P) (hP : IsPt P x y) :
    ∃ s, PublicKey.serdeSerialize engine true k = pure (.str s) ∧ s.toList = encode (sec1Full x y) ∧ s.toList.length = 88 ∧
      s.toList.head? = some 'B' ∧ s.toList.getLast? = some '=' ∧ s.toList.count '=' = 1 := by
  obtain ⟨x', y', hP', ⟨b, _, hb, e, _⟩, _⟩ := C21_roundtrip k P hk
  obtain ⟨rfl, rfl⟩ := hP'.inj hP
  have hl : (sec1Full x' y').length = 65 := by simp [sec1Full, beBytes_length]
  obtain ⟨h1, h2⟩ := encode_pad (sec1Full x' y') (by rw [hl])
  refine ⟨String.ofList (encode (sec1Full x' y')), ?_, ?_⟩
  · unfold PublicKey.serdeSerialize
    rw [hb, pure_bind, if_pos rfl, e]; rfl
  · rw [String.toList_ofList]
    refine ⟨rfl, by rw [encode_length, hl], ?_, h2, h1⟩
    cases he : beBytes 32 x'.val ++ beBytes 32 y'.val with
    | nil => simp [sec1Full, he] at hl
    | cons a l =>
      cases l with
      | nil => simp [sec1Full, he] at hl
      | cons b l =>
        unfold sec1Full
        rw [he, encode_cons3]
        rfl

/-- C93. The texts read back as a given key are the base64 forms of its four encodings, and nothing else. -/
theorem C93_accepts (k : PublicKey) (P : Pt) (x y : Fp) (hk : IsKey k P) (hP : IsPt P x y) (s : String) :
    (∃ k', PublicKey.serdeDeserialize engine true (.str s) = pure (.ok k') ∧ PublicKey.eq k' k = pure true) ↔
      s.toList ∈ [sec1Compressed x y, sec1Full x y, sec1Hybrid x y, rawPoint x y].map encode := by
  have h := (C86_encodings k P x y hk hP).1
  rw [List.mem_map]
  constructor
  · rintro ⟨k', h1, h2⟩
    cases hd : engine.decode s with
    | none => rw [(C47_serde_accepts engine k').2.1 s hd] at h1; cases pure_inj' h1
    | some v =>
      refine ⟨v, (h v).1 ⟨k', ((C47_serde_accepts engine k').1 s v hd).1 h1, h2⟩, ?_⟩
      exact (encode_decode hd).symm
  · rintro ⟨v, hv, e⟩
    obtain ⟨k', h1, h2⟩ := (h v).2 hv
    have hd : engine.decode s = some v := by
      show decode s.toList = _
      rw [← e, decode_encode]
    exact ⟨k', ((C47_serde_accepts engine k').1 s v hd).2 h1, h2⟩

/-- C93. The four texts differ. -/
theorem C93_four (k : PublicKey) (P : Pt) (x y : Fp) (hk : IsKey k P) (hP : IsPt P x y) :
    ([sec1Compressed x y, sec1Full x y, sec1Hybrid x y, rawPoint x y].map encode).Nodup :=
  (C86_encodings k P x y hk hP).2.map encode_injective

/-- The key of the secret 1. -/
example : ∃ k, IsKey k G ∧ IsPt G (Gx : Fp) (Gy : Fp) ∧ PublicKey.serdeSerialize engine true k =
    pure (.str "BHm+Zn753LusVaBilc6HCwcCm/zbLc4o2VnygVsW+BeYSDradyajxGVdpPv8DhEIqP0XtEimhVQZnEfQj/sQ1Lg=") := by
  have hk : IsKey ⟨Affine.g⟩ G := isKey_iff.2 ⟨denotesA_iff.1 C62_constants.1, G_ne_zero⟩
  obtain ⟨s, h1, h2, _⟩ := C93_text _ G _ _ hk isPt_G
  refine ⟨_, hk, isPt_G, ?_⟩
  rw [h1, ← String.ofList_toList (s := s), h2]
  have e : encode (sec1Full (Gx : Fp) (Gy : Fp)) = "BHm+Zn753LusVaBilc6HCwcCm/zbLc4o2VnygVsW+BeYSDradyajxGVdpPv8DhEIqP0XtEimhVQZnEfQj/sQ1Lg=".toList := by
    decide +kernel
  rw [e, String.ofList_toList]

end Props
end Verif
