import Verif.Proofs.Flags
import Verif.Props.Ecdsa

/-!
# The debugging fields of field elements (C80)

A field element carries its limbs and two fields, `magnitude` and `normalized`, that `debug_assert!` inspects.
In a release build they have no influence on any function of the API but `PartialEq`.
-/

namespace Verif.Props
open Verif Spec Ecmult

/-- The two keys have the same limbs and the same infinity flag. -/
def SameLimbs (k k' : PublicKey) : Prop := k.pt.x.n = k'.pt.x.n ∧ k.pt.y.n = k'.pt.y.n ∧ k.pt.infinity = k'.pt.infinity

/-- The two generator contexts differ at most in the debugging fields of the blinding point. -/
def SameContext (c c' : GenContext) : Prop :=
  c.prec = c'.prec ∧ c.blind = c'.blind ∧ c.initial.x.n = c'.initial.x.n ∧ c.initial.y.n = c'.initial.y.n ∧
    c.initial.z.n = c'.initial.z.n ∧ c.initial.infinity = c'.initial.infinity

theorem SameLimbs.agree {k k' : PublicKey} (h : SameLimbs k k') : Agree k k' := ⟨h⟩

theorem SameContext.agree {c c' : GenContext} (h : SameContext c c') : Agree c c' := ⟨h⟩

/-- C80. Verification. -/
theorem C80_verify (m : Message) (sig : Signature) (k k' : PublicKey) (ctx : List AffineStorage) (h : SameLimbs k k') :
    verifyWithContext m sig k ctx .release = verifyWithContext m sig k' ctx .release := by
  have := h.agree
  exact (sim_verify k k').exact

/-- C80. Serialization. -/
theorem C80_serialize (k k' : PublicKey) (h : SameLimbs k k') :
    k.serialize .release = k'.serialize .release ∧ k.serializeCompressed .release = k'.serializeCompressed .release := by
  have := h.agree
  exact ⟨(PublicKey.sim_serialize k k').exact, (PublicKey.sim_serializeCompressed k k').exact⟩

/-- C80. Shared secrets. -/
theorem C80_shared (D : Digest) (k k' : PublicKey) (d : SecretKey) (h : SameLimbs k k') :
    SharedSecret.new D k d .release = SharedSecret.new D k' d .release := by
  have := h.agree
  exact (sim_shared k k').exact

/-- C80. Tweaks: both fail and leave their key alone, or both return the same key. -/
theorem C80_tweak (k k' : PublicKey) (t : SecretKey) (ctx : List AffineStorage) (h : SameLimbs k k') :
    ((∃ e, k.tweakAddAssignWithContext t ctx .release = some (k, .error e) ∧ k'.tweakAddAssignWithContext t ctx .release = some (k', .error e)) ∨
      k.tweakAddAssignWithContext t ctx .release = k'.tweakAddAssignWithContext t ctx .release) ∧
    ((∃ e, k.tweakMulAssignWithContext t ctx .release = some (k, .error e) ∧ k'.tweakMulAssignWithContext t ctx .release = some (k', .error e)) ∨
      k.tweakMulAssignWithContext t ctx .release = k'.tweakMulAssignWithContext t ctx .release) :=
  ⟨PublicKey.exact_tweakAdd h.agree t ctx, (PublicKey.exact_tweakMul h.agree t ctx).imp_left fun h => ⟨_, h.2⟩⟩

/-- C80. Combination. -/
theorem C80_combine (l l' : List PublicKey) (h : List.Forall₂ SameLimbs l l') : PublicKey.combine l .release = PublicKey.combine l' .release :=
  PublicKey.exact_combine ⟨h⟩

/-- C80. Conversion from a point: the same verdict, and the key is the point that was given. -/
theorem C80_try_from (k k' : PublicKey) (h : SameLimbs k k') :
    (PublicKey.tryFrom k.pt .release = some (.ok k) ∧ PublicKey.tryFrom k'.pt .release = some (.ok k')) ∨
    ∃ e, PublicKey.tryFrom k.pt .release = some (.error e) ∧ PublicKey.tryFrom k'.pt .release = some (.error e) := by
  have : Agree k.pt k'.pt := ⟨h⟩
  have hi : k.pt.infinity = k'.pt.infinity := h.2.2
  have hv := (sim_Affine_isValidVar k.pt k'.pt).exact
  unfold PublicKey.tryFrom
  rw [hi]
  cases k'.pt.infinity with
  | true => exact Or.inr ⟨_, rfl, rfl⟩
  | false =>
    rw [if_neg (by decide), if_neg (by decide), bind_release, bind_release, hv]
    obtain ⟨b, hb⟩ := (Affine.isValidVar_total k'.pt).out
    rw [hb]
    cases b with
    | true => exact Or.inl ⟨rfl, rfl⟩
    | false => exact Or.inr ⟨_, rfl, rfl⟩

/-- C80. Key generation and signing under a generator context. -/
theorem C80_context (D : Drbg) (fuel : ℕ) (m : Message) (d : SecretKey) (c c' : GenContext) (h : SameContext c c') :
    PublicKey.fromSecretKeyWithContext d c .release = PublicKey.fromSecretKeyWithContext d c' .release ∧
      signWithContext D fuel m d c .release = signWithContext D fuel m d c' .release := by
  have := h.agree
  exact ⟨PublicKey.exact_fromSecretKey h.agree, sim_sign.exact⟩

/-- The generator with magnitude `mag` written into both coordinates. -/
def flagged (mag : UInt32) : PublicKey := ⟨⟨⟨Affine.g.x.n, mag, true⟩, ⟨Affine.g.y.n, mag, true⟩, false⟩⟩

/-- C80. `PartialEq` does read the magnitude: with the same limbs, one key equals itself and the other does not. -/
theorem C80_eq_reads_magnitude : SameLimbs (flagged 1) (flagged 100) ∧ PublicKey.eq (flagged 1) (flagged 1) .release = some true ∧
    PublicKey.eq (flagged 100) (flagged 100) .release = some false := by
  refine ⟨⟨rfl, rfl, rfl⟩, ?_, ?_⟩ <;> decide +kernel

/-- C80. A debug build reads the fields: it panics on one of the two keys only. -/
theorem C80_debug : PublicKey.tryFrom (flagged 100).pt .debug = none ∧ PublicKey.tryFrom (flagged 1).pt .debug ≠ none := by
  refine ⟨?_, ?_⟩ <;> decide +kernel

/-- A key with a magnitude no debug build accepts; its release build serializes like the generator. -/
example : SameLimbs (flagged 1) (flagged 100) ∧ (flagged 100).serialize .release = (flagged 1).serialize .release :=
  ⟨C80_eq_reads_magnitude.1, (C80_serialize _ _ C80_eq_reads_magnitude.1).1.symm⟩

example : SameContext ⟨[], scalarOne, genInitial⟩ ⟨[], scalarOne, { genInitial with x := { genInitial.x with magnitude := 7 } }⟩ :=
  ⟨rfl, rfl, rfl, rfl, rfl, rfl⟩

example : List.Forall₂ SameLimbs [flagged 1, flagged 2] [flagged 3, flagged 4] :=
  .cons ⟨rfl, rfl, rfl⟩ (.cons ⟨rfl, rfl, rfl⟩ .nil)

end Verif.Props
