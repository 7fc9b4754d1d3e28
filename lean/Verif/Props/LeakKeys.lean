import Verif.Model.LeakKeys
import Verif.Props.LeakVar
import Verif.Props.Bytes

/-!
# Observations of reading a secret key from a slice and of drawing one (C95)
-/

namespace Verif.Props
open Verif Spec Leak

/-- C95. The traced functions compute what the functions of the model compute, on all inputs and in both builds. -/
theorem C95_key_values (p : List UInt8) {σ : Type} (draw : σ → Vector UInt8 32 × σ) (fuel : ℕ) (s : σ) :
    (SecretKey.parseSliceL p).value = SecretKey.parseSlice p ∧ (SecretKey.randomL draw fuel s).value = SecretKey.random draw fuel s := by
  constructor
  · unfold SecretKey.parseSliceL SecretKey.parseSlice
    simp only [value_bind, value_lift, value_branch, pure_bind, value_ite, value_pure, SecretKey.parseL_value]
  · induction fuel generalizing s with
    | zero => rfl
    | succ fuel ih =>
      unfold SecretKey.randomL SecretKey.random
      simp only [value_bind, value_emit, pure_bind, SecretKey.parseL_value]
      congr 1
      funext r
      cases r with
      | ok k => simp only [value_bind, value_branch, pure_bind, value_pure]
      | error e => simp only [value_bind, value_branch, pure_bind, ih]

theorem run_bind {α β : Type} {x : Leak α} {f : α → Leak β} {a : α} {t : List Event} (h : x.run = pure (a, t)) :
    (x >>= f).run = (do let b ← (f a).run; pure (b.1, t ++ b.2)) := by
  show (x.run >>= fun a => (f a.1).run >>= fun b => pure (b.1, a.2 ++ b.2)) = _
  rw [h, pure_bind]

/-- C95. The observations of `SecretKey::parse_slice` tell whether the length is 32 and, if it is, whether the value is at least `n`, zero,
or a key, and no more. -/
theorem C95_parse_slice : ∃ len over zero good : List Event, ∀ p : List UInt8, ∃ r, SecretKey.parseSlice p = pure r ∧
    (SecretKey.parseSliceL p).run =
      pure (r, if p.length ≠ 32 then len else if n ≤ beNat p then over else if beNat p = 0 then zero else good) := by
  obtain ⟨over, zero, good, h⟩ := C95_parse
  refine ⟨[.branch true], .branch false :: over, .branch false :: zero, .branch false :: good, fun p => ?_⟩
  by_cases hl : p.length = 32
  · obtain ⟨r, e, e'⟩ := h ⟨p.toArray, by simpa using hl⟩
    refine ⟨r, ?_, ?_⟩
    · unfold SecretKey.parseSlice toArr
      rw [if_neg (by simpa using hl), dif_pos (by simpa using hl), pure_bind, e]
    · unfold SecretKey.parseSliceL
      rw [run_bind (a := false) (t := [.branch false]) (by rw [show (p.length != 32) = false by simpa using hl]; rfl)]
      unfold toArr
      rw [dif_pos (by simpa using hl)]
      show ((Leak.lift (pure _) >>= SecretKey.parseL).run >>= _) = _
      rw [run_bind (x := Leak.lift (pure (⟨p.toArray, by simpa using hl⟩ : Vector UInt8 32))) (t := []) rfl, e', if_neg (not_not.2 hl)]
      simp only [pure_bind, List.nil_append, Vector.toList_mk]
      split
      · rfl
      · split <;> rfl
  · refine ⟨.error .invalidInputLength, ?_, ?_⟩
    · unfold SecretKey.parseSlice
      rw [if_pos (by simpa using hl)]
    · unfold SecretKey.parseSliceL
      rw [run_bind (a := true) (t := [.branch true]) (by rw [show (p.length != 32) = true by simpa using hl]; rfl), if_pos hl]
      rfl

/-- C95. The observations of `SecretKey::random` are one fixed list for every refused draw, which tells whether it was zero or at least `n`, and
one fixed list for the draw that became the key. -/
theorem C95_random : ∃ over zero good : List Event, ∀ {σ : Type} (draw : σ → Vector UInt8 32 × σ) (s : σ) (fuel i : ℕ), i < fuel →
    InRange (blockAt draw s i) → (∀ j < i, ¬ InRange (blockAt draw s j)) →
    ∃ k, SecretKey.random draw fuel s = pure (some k) ∧
      (SecretKey.randomL draw fuel s).run =
        pure (some k, ((List.range i).flatMap fun j => if n ≤ beNat (blockAt draw s j).toList then over else zero) ++ good) := by
  obtain ⟨over, zero, good, h⟩ := C95_parse
  refine ⟨.extern 32 :: (over ++ [.branch false]), .extern 32 :: (zero ++ [.branch false]), .extern 32 :: (good ++ [.branch true]), ?_⟩
  intro σ draw s fuel i
  induction fuel generalizing s i with
  | zero => exact fun hi => absurd hi (by omega)
  | succ fuel ih =>
    intro hi hin hmin
    obtain ⟨r, e, e'⟩ := h (draw s).1
    obtain ⟨h1, h2⟩ := C01_secret_parse (draw s).1
    cases i with
    | zero =>
      obtain ⟨k, hk, _⟩ := h1 hin
      rw [hk] at e
      obtain rfl := pure_inj' e
      refine ⟨(k, (draw s).2), ?_, ?_⟩
      · rw [SecretKey.random, hk, pure_bind]
      · unfold SecretKey.randomL
        rw [run_bind (x := Leak.emit (.extern 32)) (a := ()) (t := [.extern 32]) rfl, run_bind e']
        have g1 : ¬ n ≤ beNat (draw s).1.toList := Nat.not_le.2 hin.2
        have g2 : ¬ beNat (draw s).1.toList = 0 := Nat.ne_of_gt hin.1
        rw [if_neg g1, if_neg g2]
        rfl
    | succ i =>
      have h0 := hmin 0 (Nat.succ_pos i)
      have e2 := h2 h0
      rw [e2] at e
      obtain rfl := pure_inj' e
      obtain ⟨k, hk, hk'⟩ := ih (draw s).2 i (by omega) hin (fun j hj => hmin (j + 1) (by omega))
      refine ⟨k, ?_, ?_⟩
      · rw [SecretKey.random, e2, pure_bind]
        exact hk
      · unfold SecretKey.randomL
        rw [run_bind (x := Leak.emit (.extern 32)) (a := ()) (t := [.extern 32]) rfl, run_bind e']
        dsimp only
        rw [run_bind (x := Leak.branch false) (a := false) (t := [.branch false]) rfl, hk']
        simp only [pure_bind]
        have hz : ¬ n ≤ beNat (draw s).1.toList → beNat (draw s).1.toList = 0 := fun hn => by
          by_contra h'
          exact h0 ⟨Nat.pos_of_ne_zero h', Nat.not_le.1 hn⟩
        rw [List.range_succ_eq_map, List.flatMap_cons, List.flatMap_map]
        have b0 : blockAt draw s 0 = (draw s).1 := rfl
        have bs : ∀ j, blockAt draw s (j + 1) = blockAt draw (draw s).2 j := fun _ => rfl
        simp only [b0, bs]
        by_cases hn : n ≤ beNat (draw s).1.toList
        · simp only [if_pos hn, List.cons_append, List.nil_append, List.append_assoc]
        · simp only [if_neg hn, if_pos (hz hn), List.cons_append, List.nil_append, List.append_assoc]

/-- A generator whose first draw is zero, whose second is above `n` and whose third is a key. -/
example : ∃ draw : ℕ → Vector UInt8 32 × ℕ, InRange (blockAt draw 0 2) ∧ ∀ j < 2, ¬ InRange (blockAt draw 0 j) := by
  refine ⟨fun i => (Vector.replicate 32 (if i = 0 then 0 else if i = 1 then 255 else 1), i + 1), ?_, ?_⟩
  · unfold InRange; decide +kernel
  · unfold InRange; decide +kernel

end Verif.Props
