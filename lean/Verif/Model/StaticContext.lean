import Verif.Model.Lib

/-!
# The compiled-in contexts: `gen/ecmult`, `gen/genmult`, `build.rs` and src/lib.rs:50-60

With the default features the tables are printed as Rust source by the build script and compiled in.
The model has the text that the build script writes.  `File::create`, `flush` and the handling of
`io::Error` are not modelled: every write succeeds and appends its text.
-/

namespace Verif

/-- group.rs:703-705 `AffineStorage::new`. -/
def AffineStorage.new (x y : FieldStorage) : AffineStorage := ⟨x, y⟩

namespace StaticContext
open Ecmult

/-- `{}` for a `u32`: the decimal digits (core::fmt). -/
def fmtU32 (x : UInt32) : List Char := Nat.toDigits 10 x.toNat

/-- The argument list `({}, {}, {}, {}, {}, {}, {}, {})` with the words 7 to 0 (gen/ecmult/src/lib.rs:15-17,
gen/genmult/src/lib.rs:21-23). -/
def fmtWords (f : FieldStorage) : List Char :=
  "(".toList ++ (fmtU32 f.w7 ++ (", ".toList ++ (fmtU32 f.w6 ++ (", ".toList ++ (fmtU32 f.w5 ++ (", ".toList ++ (fmtU32 f.w4 ++
  (", ".toList ++ (fmtU32 f.w3 ++ (", ".toList ++ (fmtU32 f.w2 ++ (", ".toList ++ (fmtU32 f.w1 ++ (", ".toList ++ (fmtU32 f.w0 ++
  ")".toList)))))))))))))))

/-- The text of one entry after its indentation (gen/ecmult/src/lib.rs:15, gen/genmult/src/lib.rs:21). -/
def fmtEntry (pg : AffineStorage) : List Char :=
  "crate::curve::AffineStorage::new(crate::curve::FieldStorage::new".toList ++ (fmtWords pg.x ++
  (", crate::curve::FieldStorage::new".toList ++ (fmtWords pg.y ++ "),".toList)))

/-- gen/ecmult/src/lib.rs:7-25 `generate_to`: what is written to `const.rs` (build.rs:6-9). -/
def generateEcmult : Exec (List Char) := do
  let preG ← newContext
  pure ("[".toList ++ (preG.flatMap (fun pg => "    ".toList ++ fmtEntry pg) ++ "]".toList))

/-- gen/genmult/src/lib.rs:15-27, one round of the outer loop. -/
def genRow (prec : List (List AffineStorage)) (j : Nat) : Exec (List Char) := do
  let row ← forN 16 (fun i acc => do
    let r ← idx prec j
    let pg ← idx r i
    pure (acc ++ ("        ".toList ++ fmtEntry pg))) []
  pure ("    [".toList ++ (row ++ "    ],".toList))

/-- gen/genmult/src/lib.rs:9-31 `generate_to`: what is written to `const_gen.rs` (build.rs:11-14). -/
def generateGenmult : Exec (List Char) := do
  let ctx ← newGenContext
  let body ← forN 64 (fun j acc => do let r ← genRow ctx.prec j; pure (acc ++ r)) []
  pure ("[".toList ++ (body ++ "]".toList))

/-- ecmult.rs:175-181 `ECMultGenContext::new_from_raw`.  (`ECMultContext::new_from_raw`, ecmult.rs:54-56,
wraps the table, which the model identifies with the context.) -/
def genFromRaw (prec : List (List AffineStorage)) : GenContext := ⟨prec, genBlind, genInitial⟩

end StaticContext

end Verif
