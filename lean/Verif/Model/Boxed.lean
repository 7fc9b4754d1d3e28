import Verif.Model.Ecmult

/-!
# The unsafe blocks of `new_boxed` (core/src/ecmult.rs:64-85, 189-258)

A second model of the two functions, with the memory they are given: cells that may be uninitialised.
`Model/Ecmult.lean` models the values only.
-/

namespace Verif

/-- What Rust leaves undefined, as far as these functions could run into it. -/
inductive Undefined
  /-- A `Box` made from a null pointer. -/
  | null
  /-- A value or reference of a type made from memory that is not initialised. -/
  | uninit
  deriving DecidableEq

/-- Memory for a value of type `α`; `none` is uninitialised. -/
abbrev Cell (α : Type) := Option α

/-- A computation that may reach undefined behaviour. -/
abbrev Unsafe (α : Type) := ExceptT Undefined Exec α

/-- A computation in safe Rust. -/
def safe {α : Type} (x : Exec α) : Unsafe α := ExceptT.lift x

/-- Memory read as a value. -/
def Cell.get {α : Type} : Cell α → Unsafe α
  | some a => pure a
  | none => throw .uninit

/-- An array read as a value, or a reference to it taken. -/
def getCells {α : Type} (c : List (Cell α)) : Unsafe (List α) := c.mapM Cell.get

/-- The result of `alloc` turned into a `Box` (ecmult.rs:70-71, 195-196): the pointer is not checked. -/
def boxFromRaw {α : Type} : Option α → Unsafe α
  | some m => pure m
  | none => throw .null

namespace Ecmult

/-- ecmult.rs:20-40 `odd_multiples_table_storage_var` with the table it writes to. -/
def storageVarInto (pre : List AffineStorage) (a : Jacobian) : Exec (List AffineStorage) := do
  let s ← oddMultiplesTable (List.replicate pre.length Jacobian.default) (List.replicate pre.length FElem.zero) a
  let prea ← setTableGejVar (List.replicate pre.length Affine.default) s.1 s.2
  forN pre.length (fun i pre => do
    let x ← idx prea i
    let y ← Affine.toStorage x
    setIdx pre i y) pre

/-- ecmult.rs:64-85 `ECMultContext::new_boxed`; `mem` is what `alloc` returns. -/
def newBoxed (mem : Option (List (Cell AffineStorage))) : Unsafe (List AffineStorage) := do
  let this ← boxFromRaw mem
  let this ← safe (forN tableSizeG (fun i c => setIdx c i (some AffineStorage.default)) this)
  let preG ← getCells this
  let gj ← safe (Jacobian.setGe Affine.g)
  safe (storageVarInto preG gj)

/-- The memory of an `ECMultGenContext`. -/
structure GenMem where
  prec : List (List (Cell AffineStorage))
  blind : Cell Scalar
  initial : Cell Jacobian

/-- ecmult.rs:250-255: the table written. -/
def storePrec (prec : List Affine) (t : List (List AffineStorage)) : Exec (List (List AffineStorage)) :=
  forN 64 (fun j t => do
    let row ← idx t j
    let row ← forN 16 (fun i row => do
      let x ← idx prec (j * 16 + i)
      let y ← Affine.toStorage x
      setIdx row i y) row
    setIdx t j row) t

/-- ecmult.rs:189-258 `ECMultGenContext::new_boxed`; `mem` is what `alloc` returns. -/
def newGenBoxed (mem : Option GenMem) : Unsafe GenContext := do
  let this ← boxFromRaw mem
  let prec ← safe (forN 64 (fun j t => do
    let row ← idx t j
    let row ← forN 16 (fun i row => setIdx row i (some AffineStorage.default)) row
    setIdx t j row) this.prec)
  let this : GenMem := ⟨prec, some genBlind, some genInitial⟩
  let t ← this.prec.mapM getCells
  let blind ← this.blind.get
  let initial ← this.initial.get
  let gj ← safe (Jacobian.setGe Affine.g)
  let numsX ← safe (FElem.setB32 FElem.zero nums32)
  safe (rassert numsX.2)
  let numsGe ← safe (Affine.setXoVar numsX.1 false)
  safe (rassert numsGe.2)
  let numsGej ← safe (Jacobian.setGe numsGe.1)
  let r ← safe (Jacobian.addGeVar numsGej Affine.g none)
  let s ← safe (forN 64 (precOuter r.1) (List.replicate 1024 Jacobian.default, gj, r.1))
  let prec ← safe (setAllGejVar s.1)
  let t ← safe (storePrec prec t)
  pure ⟨t, blind, initial⟩

end Ecmult
end Verif
