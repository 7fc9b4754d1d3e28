import Verif.Spec.Ecdsa

/-! What the observations of signing depend on. -/

namespace Verif.Spec

/-- What becomes of a candidate nonce. -/
inductive Verdict
  /-- not below the group order -/
  | large
  /-- zero -/
  | zero
  /-- gives `s = 0` -/
  | refused
  /-- gives `s` below `(n-1)/2` -/
  | low
  /-- gives a larger `s`, which is negated -/
  | high
  deriving DecidableEq

/-- The verdict on candidate `k` for key `d` and message `m`. -/
inductive HasVerdict (d m : ZMod n) (k : ℕ) : Verdict → Prop
  | large : n ≤ k → HasVerdict d m k .large
  | zero : k = 0 → HasVerdict d m k .zero
  | refused {x y : Fp} : 0 < k → k < n → IsPt (k • G) x y → (m + (x.val : ZMod n) * d) / k = 0 → HasVerdict d m k .refused
  | low {x y : Fp} : 0 < k → k < n → IsPt (k • G) x y → (m + (x.val : ZMod n) * d) / k ≠ 0 →
      ((m + (x.val : ZMod n) * d) / k).val < (n - 1) / 2 → HasVerdict d m k .low
  | high {x y : Fp} : 0 < k → k < n → IsPt (k • G) x y → (n - 1) / 2 ≤ ((m + (x.val : ZMod n) * d) / k).val → HasVerdict d m k .high

/-- The verdict ends the search for a nonce. -/
def Verdict.final : Verdict → Bool
  | .low | .high => true
  | _ => false

/-- The verdicts up to the first final one, among the first `fuel`. -/
def verdicts (v : ℕ → Verdict) : ℕ → List Verdict
  | 0 => []
  | fuel + 1 => v 0 :: if (v 0).final then [] else verdicts (fun i => v (i + 1)) fuel

end Verif.Spec
