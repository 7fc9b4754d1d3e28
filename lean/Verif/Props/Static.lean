import Verif.Proofs.StaticContext
import Verif.Model.Lib

/-!
# The compiled-in contexts (C65)

`generateEcmult` and `generateGenmult` are the texts that the build script writes, `readTable` and
`readTable2` the values these have as Rust array expressions.
-/

namespace Verif.Props
open Verif Spec RustConst StaticContext Ecmult

/-- C65, the verification table: the file compiled into the default build is the table that
`new_boxed` computes (its length included), so the functions behave as with that context. -/
theorem C65_static_context :
    ∃ text ctx, generateEcmult = pure text ∧ readTable 16384 text = some ctx ∧ newContext = pure ctx ∧
      (∀ m sig pk, verify m sig pk = verifyWithContext m sig pk ctx) ∧
      (∀ m sig id, recover m sig id = recoverWithContext m sig id ctx) ∧
      (∀ pk t, PublicKey.tweakAddAssign pk t = PublicKey.tweakAddAssignWithContext pk t ctx) ∧
      (∀ pk t, PublicKey.tweakMulAssign pk t = PublicKey.tweakMulAssignWithContext pk t ctx) := by
  obtain ⟨ctx, hctx, hl, _⟩ := newContext_runs
  refine ⟨_, ctx, by unfold generateEcmult; rw [hctx, pure_bind], ?_, hctx, ?_, ?_, ?_, ?_⟩
  · rw [← hl]; exact readTable_text ctx
  · intro m sig pk; unfold verify; rw [hctx, pure_bind]
  · intro m sig id; unfold recover; rw [hctx, pure_bind]
  · intro pk t; unfold PublicKey.tweakAddAssign; rw [hctx, pure_bind]
  · intro pk t; unfold PublicKey.tweakMulAssign; rw [hctx, pure_bind]

/-- C65, the generator context. -/
theorem C65_static_gen_context :
    ∃ text prec, generateGenmult = pure text ∧ readTable2 64 16 text = some prec ∧ newGenContext = pure (genFromRaw prec) ∧
      (∀ k, PublicKey.fromSecretKey k = PublicKey.fromSecretKeyWithContext k (genFromRaw prec)) ∧
      (∀ D fuel m k, sign D fuel m k = signWithContext D fuel m k (genFromRaw prec)) := by
  obtain ⟨ctx, hctx, h, hb, hi⟩ := newGenContext_runs
  have e : genFromRaw ctx.prec = ctx := by rw [genFromRaw, ← hb, ← hi]
  refine ⟨_, ctx.prec, generateGenmult_eq hctx h, ?_, by rw [e]; exact hctx, ?_, ?_⟩
  · rw [← h.rows]
    refine readTable2_text ctx.prec fun l hl => ?_
    obtain ⟨j, hj, rfl⟩ := List.getElem_of_mem hl
    exact h.cols j hj
  · intro k; unfold PublicKey.fromSecretKey; rw [hctx, pure_bind, e]
  · intro D fuel m k; unfold sign; rw [hctx, pure_bind, e]

/-- A text has at most one reading; two concrete texts and their readings. -/
example : readTable 1 ("[crate::curve::AffineStorage::new(crate::curve::FieldStorage::new(8, 7, 6, 5, 4, 3, 2, 4294967295), ".toList ++
    "crate::curve::FieldStorage::new(0, 0, 0, 0, 0, 0, 0, 10))]".toList) =
    some [⟨⟨4294967295, 2, 3, 4, 5, 6, 7, 8⟩, ⟨10, 0, 0, 0, 0, 0, 0, 0⟩⟩] := by decide +kernel

/-- Literals outside `u32`, a wrong number of elements and a missing argument are refused. -/
example : readTable 1 ("[crate::curve::AffineStorage::new(crate::curve::FieldStorage::new(8, 7, 6, 5, 4, 3, 2, 4294967296), ".toList ++
      "crate::curve::FieldStorage::new(0, 0, 0, 0, 0, 0, 0, 10))]".toList) = none ∧
    readTable 1 "[]".toList = none ∧
    readTable 1 "[crate::curve::AffineStorage::new(crate::curve::FieldStorage::new(8, 7, 6, 5, 4, 3, 2, 1)),]".toList = none := by decide +kernel

end Verif.Props
