import Verif.Model.Ecdsa

/-!
Model of core/src/der.rs: the DER decoder.

`W` is the width of `usize` in bits (32 or 64 on the targets of the library).
-/

namespace Verif

/-- core/src/der.rs:36 `struct Decoder`: the input and the read position. -/
structure Decoder where
  data : List UInt8
  pos : Nat
  deriving DecidableEq

/-- core/src/der.rs:38-268, the shape of the methods of `Decoder`: a call may panic, or it moves the decoder and returns a value or `Err`. -/
abbrev Dec (α : Type) := ExceptT Error (StateT Decoder Exec) α

/-- `a + b` on `usize` (e.g. core/src/der.rs:58, 126). -/
def addU (W : Nat) (a b : Nat) : Exec Nat := do
  dassert (decide (a + b < 2 ^ W)); pure ((a + b) % 2 ^ W)

/-- `a << 8` on `usize` (core/src/der.rs:125): the high bits are lost without a panic. -/
def shl8U (W : Nat) (a : Nat) : Nat := a * 256 % 2 ^ W

/-- `&v[a..b]` (core/src/der.rs:70, src/lib.rs:668); out of range panics. -/
def slice (v : List UInt8) (a b : Nat) : Exec (List UInt8) := do
  rassert (decide (a ≤ b) && decide (b ≤ v.length))
  pure ((v.drop a).take (b - a))

/-- core/src/der.rs:8 `struct SignatureArray`: a buffer and the length of its visible part. -/
structure SignatureArray where
  buf : Vector UInt8 72
  size : Nat
  deriving DecidableEq

namespace SignatureArray

/-- core/src/der.rs:11-13 `new`. -/
def new (size : Nat) : SignatureArray := ⟨Vector.replicate 72 0, size⟩

/-- core/src/der.rs:15-17 `len`. -/
def len (a : SignatureArray) : Nat := a.size

/-- core/src/der.rs:19-21 `is_empty`. -/
def isEmpty (a : SignatureArray) : Bool := a.len == 0

/-- core/src/der.rs:24-28 `as_ref`. -/
def asRef (a : SignatureArray) : Exec (List UInt8) := slice a.buf.toList 0 a.size

/-- core/src/der.rs:30-34 `as_mut`: borrow the visible part, let `f` write to it, and keep the result. Writing to a slice
does not change its length, so the last case does not occur. -/
def asMut (a : SignatureArray) (f : List UInt8 → Exec (List UInt8)) : Exec SignatureArray := do
  let l ← slice a.buf.toList 0 a.size
  let l ← f l
  let l := l ++ a.buf.toList.drop a.size
  if h : l.toArray.size = 72 then pure { a with buf := ⟨l.toArray, h⟩ } else panic

end SignatureArray

namespace Decoder

/-- `Err(Error::InvalidSignature)` (core/src/der.rs:49 and the other error returns). -/
def fail {α : Type} : Dec α := throw .invalidSignature

/-- core/src/der.rs:39-41 `new`. -/
def new (arr : List UInt8) : Decoder := ⟨arr, 0⟩

/-- core/src/der.rs:43-45 `remaining_len`. -/
def remainingLen : Dec Nat := do
  let d ← get
  subNat d.data.length d.pos

/-- core/src/der.rs:47-55 `read`. -/
def read (W : Nat) : Dec UInt8 := do
  let d ← get
  if d.pos ≥ d.data.length then fail
  else do
    let v ← idx d.data d.pos
    let pos ← addU W d.pos 1
    set { d with pos := pos }
    pure v

/-- core/src/der.rs:57-64 `peek`. -/
def peek (W : Nat) (forward : Nat) : Dec UInt8 := do
  let d ← get
  let i ← addU W d.pos forward
  if i ≥ d.data.length then fail
  else idx d.data i

/-- The guard of `peek_slice` and `skip` (der.rs:67, 76); `||` short-circuits. -/
def outside (W : Nat) (d : Decoder) (len : Nat) : Exec Bool :=
  if len == 0 && decide (d.pos ≥ d.data.length) then pure true
  else do
    let i ← addU W d.pos len
    pure (decide (i > d.data.length))

/-- core/src/der.rs:66-73 `peek_slice`. -/
def peekSlice (W : Nat) (len : Nat) : Dec (List UInt8) := do
  let d ← get
  let o ← outside W d len
  if o then fail
  else do
    let e ← addU W d.pos len
    slice d.data d.pos e

/-- core/src/der.rs:75-82 `skip`. -/
def skip (W : Nat) (len : Nat) : Dec Unit := do
  let d ← get
  let o ← outside W d len
  if o then fail
  else do
    let e ← addU W d.pos len
    set { d with pos := e }

/-- core/src/der.rs:84-91 `read_constructed_sequence`. -/
def readConstructedSequence (W : Nat) : Dec Unit := do
  let v ← read W
  if v == 0x30 then pure () else fail

/-- The loop of `read_len` (der.rs:124-130); the recursion is on `lenleft`. -/
def readLenLoop (W : Nat) : Nat → Nat → Dec Nat
  | 0, ret => pure ret
  | k + 1, ret => do
    let b ← read W
    let ret := shl8U W ret ||| b.toNat
    let s ← addU W ret (k + 1)
    let rem ← remainingLen
    if s > rem then fail else readLenLoop W k ret

/-- The long form of `read_len` (der.rs:109-137). -/
def readLenLong (W : Nat) (b1 : UInt8) : Dec Nat := do
  let lenleft := (b1 &&& 0x7f).toNat
  let rem ← remainingLen
  if lenleft > rem then fail
  else do
    let b ← peek W 0
    if b == 0 then fail
    else if lenleft > W / 8 then fail
    else do
      let ret ← readLenLoop W lenleft 0
      if ret < 128 then fail else pure ret

/-- core/src/der.rs:93-138 `read_len`. -/
def readLen (W : Nat) : Dec Nat := do
  let b1 ← read W
  if b1 == 0xff then fail
  else if b1 &&& 0x80 == 0 then pure b1.toNat
  else if b1 == 0x80 then fail
  else readLenLong W b1

/-- `self.peek(0)? == c && rlen > 1 && (self.peek(1)? & 0x80) == 0x00` (der.rs:150, 154). -/
def badLead (W : Nat) (c : UInt8) (rlen : Nat) : Dec Bool := do
  let b ← peek W 0
  if b == c && decide (rlen > 1) then do
    let b' ← peek W 1
    pure (b' &&& 0x80 == 0)
  else pure false

/-- The loop of `read_integer` that skips leading zero bytes (der.rs:164-167). -/
def skipZeros (W : Nat) : Nat → Dec Nat
  | 0 => pure 0
  | rlen + 1 => do
    let b ← peek W 0
    if b == 0 then do
      let _ ← read W
      skipZeros W rlen
    else pure (rlen + 1)

/-- `b32[32 - rlen..].copy_from_slice(s)` on a zeroed array (der.rs:176-177, 255-256). -/
def padB32 (rlen : Nat) (s : List UInt8) : Exec (Vector UInt8 32) := do
  let k ← subNat 32 rlen
  rassert (decide (s.length = 32 - k))
  let l := List.replicate k 0 ++ s
  if h : l.toArray.size = 32 then pure ⟨l.toArray, h⟩ else panic

/-- The end of `read_integer` and `read_integer_lax` (der.rs:173-187, 252-266). -/
def finishInt (W : Nat) (overflow : Bool) (rlen : Nat) : Dec Scalar :=
  if !overflow then do
    let s ← peekSlice W rlen
    let b ← padB32 rlen s
    skip W rlen
    let int ← Scalar.setB32 b
    pure (if int.2 then Scalar.zero else int.1)
  else pure Scalar.zero

/-- core/src/der.rs:140-188 `read_integer`. -/
def readInteger (W : Nat) : Dec Scalar := do
  let t ← read W
  if t != 0x02 then fail
  else do
    let rlen ← readLen W
    let rem ← remainingLen
    if rlen == 0 || decide (rlen > rem) then fail
    else do
      let bad ← badLead W 0x00 rlen
      if bad then fail
      else do
        let bad ← badLead W 0xff rlen
        if bad then fail
        else do
          let b ← peek W 0
          let neg := b &&& 0x80 == 0x80
          let rlen ← skipZeros W rlen
          finishInt W (neg || decide (rlen > 32)) rlen

/-- core/src/der.rs:190-201 `read_seq_len_lax`. -/
def readSeqLenLax (W : Nat) : Dec Nat := do
  let len ← read W
  if len &&& 0x80 != 0 then do
    let len := (len - 0x80).toNat
    let rem ← remainingLen
    if len > rem then fail
    else do
      skip W len
      pure len
  else pure len.toNat

/-- The loops of `read_len_lax` and `read_integer_lax` that skip zeros with `skip(1)`
(der.rs:211-214, 241-244). -/
def skipZerosLax (W : Nat) : Nat → Dec Nat
  | 0 => pure 0
  | len + 1 => do
    let b ← peek W 0
    if b == 0 then do
      skip W 1
      skipZerosLax W len
    else pure (len + 1)

/-- The loop of `read_len_lax` that accumulates the length (der.rs:218-221). -/
def readLenLaxLoop (W : Nat) : Nat → Nat → Dec Nat
  | 0, ret => pure ret
  | len + 1, ret => do
    let b ← read W
    let ret ← addU W (shl8U W ret) b.toNat
    readLenLaxLoop W len ret

/-- The long form of `read_len_lax` (der.rs:207-221). -/
def readLenLaxLong (W : Nat) (len : UInt8) : Dec Nat := do
  let len := (len - 0x80).toNat
  let rem ← remainingLen
  if len > rem then fail
  else do
    let len ← skipZerosLax W len
    if len ≥ W / 8 then fail
    else readLenLaxLoop W len 0

/-- core/src/der.rs:225-229: the final check of `read_len_lax`. -/
def readLenLaxEnd (ret : Nat) : Dec Nat := do
  let rem ← remainingLen
  if ret > rem then fail else pure ret

/-- core/src/der.rs:203-230 `read_len_lax`. -/
def readLenLax (W : Nat) : Dec Nat := do
  let len ← read W
  if len &&& 0x80 != 0 then do
    let ret ← readLenLaxLong W len
    readLenLaxEnd ret
  else readLenLaxEnd len.toNat

/-- core/src/der.rs:232-267 `read_integer_lax`. -/
def readIntegerLax (W : Nat) : Dec Scalar := do
  let t ← read W
  if t != 0x02 then fail
  else do
    let len ← readLenLax W
    let len ← skipZerosLax W len
    finishInt W (decide (len > 32)) len

end Decoder
end Verif
