import Verif.Model.Debug
import Verif.Spec.Text
import Verif.Props.Encodings

/-!
# What the serde visitors say they expect (C47)
-/

namespace Verif.Props
open Verif Spec

theorem parsed_length (l : ℕ) : (∃ (v : List UInt8) (k : PublicKey), v.length = l ∧ PublicKey.parseSlice v none = pure (.ok k)) ↔
    l = 33 ∨ l = 64 ∨ l = 65 := by
  constructor
  · rintro ⟨v, k, rfl, h⟩
    by_contra hn
    have ha : ¬ Admissible v.length none := by
      rintro (h | h | h) <;> simp_all
    rw [(C03_public_key_slice.1 v none).2 ha] at h
    exact absurd (pure_inj' h) (fun h => (by cases h))
  · intro h
    obtain ⟨x, y, hP⟩ := Spec.IsPt.of_ne_zero G_ne_zero
    obtain ⟨k, hk⟩ := exists_key G_ne_zero
    have e := (C86_encodings k _ x y hk hP).1
    rcases h with rfl | rfl | rfl
    · obtain ⟨k', h, _⟩ := (e (sec1Compressed x y)).2 (by simp)
      exact ⟨_, k', by simp [sec1Compressed, beBytes_length], h⟩
    · obtain ⟨k', h, _⟩ := (e (rawPoint x y)).2 (by simp)
      exact ⟨_, k', by simp [rawPoint, beBytes_length], h⟩
    · obtain ⟨k', h, _⟩ := (e (sec1Full x y)).2 (by simp)
      exact ⟨_, k', by simp [sec1Full, beBytes_length], h⟩

/-- C47. The numbers in the two texts are the lengths of the byte strings, decoded from base64 in the human-readable case, that give a key. -/
theorem C47_expecting (B : Base64) (l : ℕ) :
    (l ∈ numbers (Debug.expecting false) ↔
      ∃ v k, v.length = l ∧ PublicKey.serdeDeserialize B false (.bytes v) = pure (.ok k)) ∧
    (l ∈ numbers (Debug.expecting true) ↔
      ∃ s v k, B.decode s = some v ∧ v.length = l ∧ PublicKey.serdeDeserialize B true (.str s) = pure (.ok k)) := by
  have e : ∀ b, numbers (Debug.expecting b) = [33, 64, 65] := by decide +kernel
  rw [e, e]
  simp only [List.mem_cons, List.not_mem_nil, or_false]
  rw [← parsed_length]
  constructor
  · simp only [fun v k => (C47_serde_accepts B k).2.2 v]
  · constructor
    · rintro ⟨v, k, hl, h⟩
      exact ⟨B.encode v, v, k, B.decode_encode v, hl, ((C47_serde_accepts B k).1 _ v (B.decode_encode v)).2 h⟩
    · rintro ⟨s, v, k, hd, hl, h⟩
      exact ⟨v, k, hl, ((C47_serde_accepts B k).1 s v hd).1 h⟩

end Verif.Props
