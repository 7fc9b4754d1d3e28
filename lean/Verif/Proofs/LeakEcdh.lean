import Verif.Proofs.LeakConst
import Verif.Proofs.Ecdsa

/-! The observations of ECDH. -/

namespace Verif

open Spec Leak
open FElem hiding n

/-- The observations of `SharedSecret::new` for a nonzero secret key. -/
def ecdhTrace (a : Affine) (e : Bool) : List Event :=
  [.branch false] ++ (Ecmult.constTrace a e ++ [.extern 1, .extern 32]) ++ [.branch true]

theorem Ecdsa.ecdhRawL_runs (D : Digest) {a : Affine} {A : Pt} {s : Scalar} (ha : Aff a A) (hA : A ≠ 0) (hs : s.val < n) (h0 : s.val ≠ 0) :
    RunsL (Ecdsa.ecdhRawL D a s) (fun o => ∃ v, o = some v)
      ([.branch false] ++ (Ecmult.constTrace a (decide (s.val ∈ constExceptions)) ++ [.extern 1, .extern 32])) := by
  unfold Ecdsa.ecdhRawL
  have hz : s.isZero = false := by rw [Bool.eq_false_iff]; exact fun h => h0 ((Scalar.isZero_iff _).1 h)
  rw [hz]
  refine RunsL.bind (RunsL.branch false) fun z hz => ?_
  subst hz
  rw [if_neg (by simp)]
  refine RunsL.bind (Ecmult.ecmultConstL_runs ha hA hs) fun res hres => ?_
  refine RunsL.bind_lift (Affine.setGej_runs hres) fun r ⟨hr, _, hrx, hry⟩ => ?_
  refine RunsL.bind_lift (fe_normalize hrx (by norm_num)) fun fx ⟨hfx, _⟩ => ?_
  refine RunsL.bind_lift (fe_normalize hry (by norm_num)) fun fy ⟨hfy, _⟩ => ?_
  refine RunsL.bind_lift (b32_runs hfx) fun b hb => ?_
  refine RunsL.bind_lift (isOdd_runs hfy) fun odd hodd => ?_
  refine (RunsL.bind (RunsL.emit (.extern 1)) fun _ _ => RunsL.bind (RunsL.emit (.extern b.toList.length)) fun _ _ =>
    RunsL.pure ⟨_, rfl⟩).cast ?_
  simp

theorem SharedSecret.newL_runs (D : Digest) {k : PublicKey} {A : Pt} {s : SecretKey} (ha : Aff k.pt A) (hA : A ≠ 0) (hs : s.sc.val < n)
    (h0 : s.sc.val ≠ 0) :
    RunsL (SharedSecret.newL D k s) (fun o => ∃ v, o = .ok v) (ecdhTrace k.pt (decide (s.sc.val ∈ constExceptions))) := by
  unfold SharedSecret.newL ecdhTrace
  refine RunsL.bind (Ecdsa.ecdhRawL_runs D ha hA hs h0) fun o ho => ?_
  obtain ⟨v, rfl⟩ := ho
  exact RunsL.bind (RunsL.branch true) (u := []) fun _ _ => RunsL.pure ⟨_, rfl⟩

end Verif
