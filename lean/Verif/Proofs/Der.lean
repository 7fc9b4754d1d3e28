import Verif.Spec.Der
import Verif.Model.Lib
import Verif.Proofs.Keys

/-!
The DER decoder on inputs short enough not to overflow `usize` computes a parser on lists that does
not depend on the width of `usize`.
-/

namespace Verif
open Spec

/-! ## Parsers on lists -/

/-- A parser: `none` is an error, otherwise a value and the rest of the input. -/
abbrev Pa (α : Type) := StateT (List UInt8) Option α

namespace Pa

def fail {α : Type} : Pa α := fun _ => none
def len : Pa Nat := fun l => some (l.length, l)
def read : Pa UInt8
  | [] => none
  | b :: t => some (b, t)
def peek (i : Nat) : Pa UInt8 := fun l => (l[i]?).map fun b => (b, l)
def skip (k : Nat) : Pa Unit := fun l => if (k = 0 ∧ l = []) ∨ l.length < k then none else some ((), l.drop k)

def peekSlice (k : Nat) : Pa (List UInt8) := fun l => if (k = 0 ∧ l = []) ∨ l.length < k then none else some (l.take k, l)

def constructed : Pa Unit := do
  let v ← read
  if v == 0x30 then pure () else fail

def readLenLoop : Nat → Nat → Pa Nat
  | 0, ret => pure ret
  | k + 1, ret => do
    let b ← read
    let rem ← len
    if ret * 256 + b.toNat + (k + 1) > rem then fail else readLenLoop k (ret * 256 + b.toNat)

def readLen : Pa Nat := do
  let b1 ← read
  if b1 == 0xff then fail
  else if b1 &&& 0x80 == 0 then pure b1.toNat
  else if b1 == 0x80 then fail
  else do
    let rem ← len
    if (b1 &&& 0x7f).toNat > rem then fail
    else do
      let b ← peek 0
      if b == 0 then fail
      else do
        let ret ← readLenLoop (b1 &&& 0x7f).toNat 0
        if ret < 128 then fail else pure ret

def badLead (c : UInt8) (rlen : Nat) : Pa Bool := do
  let b ← peek 0
  if b == c && decide (rlen > 1) then do
    let b' ← peek 1
    pure (b' &&& 0x80 == 0)
  else pure false

def skipZeros : Nat → Pa Nat
  | 0 => pure 0
  | k + 1 => do
    let b ← peek 0
    if b == 0 then do
      let _ ← read
      skipZeros k
    else pure (k + 1)

end Pa

theorem exists_scalar {v : ℕ} (h : v < n) : ∃ a : Scalar, a.val = v := by
  obtain ⟨b, hb⟩ := exists_b32 (v := v) (h.trans (by decide +kernel))
  obtain ⟨r, _, _, h2⟩ := Scalar.setB32_runs b
  exact ⟨r.1, by rw [h2, hb, Nat.mod_eq_of_lt h]⟩

open scoped Classical in
/-- The scalar of a parsed integer. -/
noncomputable def intOf (v : ℕ) : Scalar := if h : v < n then (exists_scalar h).choose else Scalar.zero

theorem intOf_val (v : ℕ) : (intOf v).val = component v := by
  unfold intOf component
  split
  · rename_i h; exact (exists_scalar h).choose_spec
  · exact Scalar.zero_val

theorem intOf_lt (v : ℕ) : (intOf v).val < n := by
  rw [intOf_val]; unfold component
  split
  · assumption
  · decide +kernel

namespace Pa

noncomputable def finishInt (overflow : Bool) (rlen : Nat) : Pa Scalar :=
  if overflow then pure Scalar.zero
  else do
    let s ← peekSlice rlen
    skip rlen
    pure (intOf (beNat s))

noncomputable def readInteger : Pa Scalar := do
  let t ← read
  if t != 0x02 then fail
  else do
    let rlen ← readLen
    let rem ← len
    if rlen == 0 || decide (rlen > rem) then fail
    else do
      let bad ← badLead 0x00 rlen
      if bad then fail
      else do
        let bad ← badLead 0xff rlen
        if bad then fail
        else do
          let b ← peek 0
          let rlen ← skipZeros rlen
          finishInt ((b &&& 0x80 == 0x80) || decide (rlen > 32)) rlen

noncomputable def parseDer : Pa Signature := do
  constructed
  let rlen ← readLen
  let rem ← len
  if rlen != rem then fail
  else do
    let r ← readInteger
    let s ← readInteger
    let rem ← len
    if rem != 0 then fail else pure ⟨r, s⟩

def readSeqLenLax : Pa Nat := do
  let len ← read
  if len &&& 0x80 != 0 then do
    let rem ← Pa.len
    if (len - 0x80).toNat > rem then fail
    else do
      skip (len - 0x80).toNat
      pure (len - 0x80).toNat
  else pure len.toNat

def readLenLaxLoop : Nat → Nat → Pa Nat
  | 0, ret => pure ret
  | k + 1, ret => do
    let b ← read
    readLenLaxLoop k (ret * 256 + b.toNat)

def readLenLaxEnd (ret : Nat) : Pa Nat := do
  let rem ← len
  if ret > rem then fail else pure ret

def readLenLax (W : Nat) : Pa Nat := do
  let len ← read
  if len &&& 0x80 != 0 then do
    let rem ← Pa.len
    if (len - 0x80).toNat > rem then fail
    else do
      let k ← skipZeros (len - 0x80).toNat
      if k ≥ W / 8 then fail
      else do
        let ret ← readLenLaxLoop k 0
        readLenLaxEnd ret
  else readLenLaxEnd len.toNat

noncomputable def readIntegerLax (W : Nat) : Pa Scalar := do
  let t ← read
  if t != 0x02 then fail
  else do
    let len ← readLenLax W
    let len ← skipZeros len
    finishInt (decide (len > 32)) len

noncomputable def parseDerLax (W : Nat) : Pa Signature := do
  constructed
  let _ ← readSeqLenLax
  let r ← readIntegerLax W
  let s ← readIntegerLax W
  pure ⟨r, s⟩

theorem bind_some {α β : Type} {f : Pa α} {g : α → Pa β} {l : List UInt8} {b : β} {u : List UInt8} :
    (f >>= g) l = some (b, u) ↔ ∃ a t, f l = some (a, t) ∧ g a t = some (b, u) := by
  show ((f l).bind fun p => g p.1 p.2) = some (b, u) ↔ _
  cases h : f l with
  | none => simp
  | some p => obtain ⟨a, t⟩ := p; simp

theorem bind_of {α β : Type} {f : Pa α} {g : α → Pa β} {l : List UInt8} {a : α} {t : List UInt8}
    (h : f l = some (a, t)) : (f >>= g) l = g a t := by
  show ((f l).bind fun p => g p.1 p.2) = _
  rw [h]; rfl

theorem bind_none {α β : Type} {f : Pa α} {g : α → Pa β} {l : List UInt8} (h : f l = none) : (f >>= g) l = none := by
  show ((f l).bind fun p => g p.1 p.2) = _
  rw [h]; rfl

theorem pure_app {α : Type} (a : α) (l : List UInt8) : (pure a : Pa α) l = some (a, l) := rfl

end Pa

/-! ## Simulation -/

/-- Run a decoder method. -/
def exec {α : Type} (x : Dec α) (d : Decoder) : Exec (Except Error (α × Decoder)) :=
  (x d : Exec (Except Error α × Decoder)) >>= fun r => pure (match r.1 with
    | .ok a => .ok (a, r.2)
    | .error e => .error e)

/-- After reading `pre`, with `rest` left, the decoder method `x` behaves as the parser `f`. -/
def SimAt {α : Type} (pre rest : List UInt8) (x : Dec α) (f : Pa α) : Prop :=
  (f rest = none ∧ exec x ⟨pre ++ rest, pre.length⟩ = pure (.error .invalidSignature)) ∨
  ∃ a c t, rest = c ++ t ∧ f rest = some (a, t) ∧ exec x ⟨pre ++ rest, pre.length⟩ = pure (.ok (a, ⟨pre ++ rest, (pre ++ c).length⟩))

namespace SimAt

theorem pure {α : Type} {pre rest : List UInt8} (a : α) : SimAt pre rest (Pure.pure a) (Pure.pure a) :=
  Or.inr ⟨a, [], rest, rfl, rfl, by rw [List.append_nil]; rfl⟩

theorem fail {α : Type} {pre rest : List UInt8} : SimAt pre rest (Decoder.fail : Dec α) Pa.fail := Or.inl ⟨rfl, rfl⟩

theorem exec_bind {α β : Type} {x : Dec α} {g : α → Dec β} {d : Decoder} :
    exec (x >>= g) d = (exec x d >>= fun r => match r with
      | .ok p => exec (g p.1) p.2
      | .error e => Pure.pure (.error e)) := by
  unfold exec
  funext π
  show (((x d π).bind _).bind _) = ((x d π).bind _).bind _
  cases x d π with
  | none => rfl
  | some r =>
    obtain ⟨r | a, d'⟩ := r
    · rfl
    · rfl

theorem dec_bind_ok {α β : Type} {x : Dec α} {g : α → Dec β} {d d' : Decoder} {a : α} (h : exec x d = Pure.pure (.ok (a, d'))) :
    exec (x >>= g) d = exec (g a) d' := by
  rw [exec_bind, h, pure_bind]

theorem dec_bind_err {α β : Type} {x : Dec α} {g : α → Dec β} {d : Decoder} {e : Error} (h : exec x d = Pure.pure (.error e)) :
    exec (x >>= g) d = Pure.pure (.error e) := by
  rw [exec_bind, h, pure_bind]

theorem bind {α β : Type} {pre rest : List UInt8} {x : Dec α} {g : α → Dec β} {f : Pa α} {h : α → Pa β}
    (hx : SimAt pre rest x f)
    (hg : ∀ a c t, rest = c ++ t → f rest = some (a, t) → SimAt (pre ++ c) t (g a) (h a)) :
    SimAt pre rest (x >>= g) (f >>= h) := by
  rcases hx with ⟨h1, h2⟩ | ⟨a, c, t, hr, h1, h2⟩
  · exact Or.inl ⟨Pa.bind_none h1, dec_bind_err h2⟩
  · have e : pre ++ rest = pre ++ c ++ t := by rw [hr, List.append_assoc]
    rcases hg a c t hr h1 with ⟨h3, h4⟩ | ⟨b, c', t', hr', h3, h4⟩
    · exact Or.inl ⟨by rw [Pa.bind_of h1, h3], by rw [dec_bind_ok h2, e, h4]⟩
    · refine Or.inr ⟨b, c ++ c', t', by rw [hr, hr', List.append_assoc], by rw [Pa.bind_of h1, h3], ?_⟩
      rw [dec_bind_ok h2, e, h4, List.append_assoc pre c c']

theorem ite {α : Type} {pre rest : List UInt8} {x y : Dec α} {f g : Pa α} {c : Prop} [Decidable c]
    (h1 : c → SimAt pre rest x f) (h2 : ¬ c → SimAt pre rest y g) :
    SimAt pre rest (if c then x else y) (if c then f else g) := by
  split
  · exact h1 ‹_›
  · exact h2 ‹_›

/-- A computation that does not touch the decoder. -/
theorem lift {α β : Type} {pre rest : List UInt8} {x : Exec α} {g : α → Dec β} {f : Pa β} {a : α}
    (hx : x = Pure.pure a) (h : SimAt pre rest (g a) f) : SimAt pre rest (do let v ← (x : Dec α); g v) f := by
  subst hx
  exact h

theorem len {pre rest : List UInt8} : SimAt pre rest Decoder.remainingLen Pa.len := by
  refine Or.inr ⟨rest.length, [], rest, rfl, rfl, ?_⟩
  have e : subNat (pre ++ rest).length pre.length = Pure.pure rest.length := by
    rw [subNat_pure (by simp)]; simp
  show exec ((subNat (pre ++ rest).length pre.length : Exec Nat) : Dec Nat) ⟨pre ++ rest, pre.length⟩ = _
  rw [e, List.append_nil]; rfl

end SimAt

theorem addU_pure {W a b : Nat} (h : a + b < 2 ^ W) : addU W a b = pure (a + b) := by
  unfold addU
  rw [dassert_true (decide_eq_true h), Nat.mod_eq_of_lt h]; rfl

theorem slice_pure {v : List UInt8} {a b : Nat} (h : a ≤ b) (h' : b ≤ v.length) : slice v a b = pure ((v.drop a).take (b - a)) := by
  unfold slice
  rw [rassert_true (by simp [h, h'])]; rfl

section
variable {W : Nat} {pre rest : List UInt8}

theorem sim_read (h : pre.length + rest.length < 2 ^ W) : SimAt pre rest (Decoder.read W) Pa.read := by
  cases rest with
  | nil =>
    refine Or.inl ⟨rfl, ?_⟩
    show exec (if pre.length ≥ (pre ++ []).length then Decoder.fail else _ : Dec UInt8) _ = _
    rw [if_pos (by simp)]; rfl
  | cons b t =>
    refine Or.inr ⟨b, [b], t, rfl, rfl, ?_⟩
    show exec (if pre.length ≥ (pre ++ b :: t).length then Decoder.fail else (do
      let v ← idx (pre ++ b :: t) pre.length
      let pos ← addU W pre.length 1
      set (⟨pre ++ b :: t, pos⟩ : Decoder)
      pure v) : Dec UInt8) _ = _
    rw [if_neg (by simp), idx_pure (by simp), addU_pure (by simp at h; omega)]
    simp only [List.getElem_append_right (le_refl pre.length), Nat.sub_self, List.getElem_cons_zero, List.length_append, List.length_cons, List.length_nil]
    rfl

theorem sim_peek {i : Nat} (h : pre.length + i < 2 ^ W) : SimAt pre rest (Decoder.peek W i) (Pa.peek i) := by
  have key : exec (Decoder.peek W i) ⟨pre ++ rest, pre.length⟩ =
      exec ((do
        let j ← addU W pre.length i
        if j ≥ (pre ++ rest).length then Decoder.fail else (idx (pre ++ rest) j : Dec UInt8) : Dec UInt8)) ⟨pre ++ rest, pre.length⟩ := rfl
  rw [addU_pure h] at key
  by_cases hi : i < rest.length
  · refine Or.inr ⟨rest[i], [], rest, rfl, by simp [Pa.peek, hi], ?_⟩
    rw [key]
    show exec (if pre.length + i ≥ (pre ++ rest).length then Decoder.fail else (idx (pre ++ rest) (pre.length + i) : Dec UInt8) : Dec UInt8) _ = _
    rw [if_neg (by simp [hi]), idx_pure (by simp [hi])]
    simp only [List.getElem_append_right (Nat.le_add_right pre.length i), Nat.add_sub_cancel_left, List.append_nil]
    rfl
  · refine Or.inl ⟨by simp [Pa.peek, hi], ?_⟩
    rw [key]
    show exec (if pre.length + i ≥ (pre ++ rest).length then Decoder.fail else (idx (pre ++ rest) (pre.length + i) : Dec UInt8) : Dec UInt8) _ = _
    rw [if_pos (by simp; omega)]; rfl

theorem outside_pure {k : Nat} (h : pre.length + k < 2 ^ W) :
    Decoder.outside W ⟨pre ++ rest, pre.length⟩ k = pure (decide ((k = 0 ∧ rest = []) ∨ rest.length < k)) := by
  unfold Decoder.outside
  by_cases h0 : k = 0 ∧ rest = []
  · obtain ⟨rfl, rfl⟩ := h0
    rw [if_pos (by simp)]; simp
  · rw [if_neg, addU_pure h, pure_bind]
    · simp only [h0, false_or, List.length_append]
      congr 2
      exact propext ⟨fun h => by omega, fun h => by omega⟩
    · intro hc
      simp only [Bool.and_eq_true, beq_iff_eq, decide_eq_true_eq, List.length_append] at hc
      exact h0 ⟨hc.1, List.length_eq_zero_iff.1 (by omega)⟩

theorem sim_skip {k : Nat} (h : pre.length + k < 2 ^ W) : SimAt pre rest (Decoder.skip W k) (Pa.skip k) := by
  have key : exec (Decoder.skip W k) ⟨pre ++ rest, pre.length⟩ =
      exec ((do
        let o ← Decoder.outside W ⟨pre ++ rest, pre.length⟩ k
        if o then Decoder.fail else (do
          let e ← addU W pre.length k
          set (⟨pre ++ rest, e⟩ : Decoder)) : Dec Unit)) ⟨pre ++ rest, pre.length⟩ := rfl
  rw [outside_pure h, addU_pure h] at key
  by_cases ho : (k = 0 ∧ rest = []) ∨ rest.length < k
  · refine Or.inl ⟨by simp only [Pa.skip, if_pos ho], ?_⟩
    rw [key, decide_eq_true ho]; rfl
  · refine Or.inr ⟨(), rest.take k, rest.drop k, (List.take_append_drop _ _).symm, by simp only [Pa.skip, if_neg ho], ?_⟩
    rw [key, decide_eq_false ho]
    have : (pre ++ rest.take k).length = pre.length + k := by
      rw [List.length_append, List.length_take, Nat.min_eq_left (by omega)]
    rw [this]; rfl

theorem SimAt.bind_peekSlice {α : Type} {k : Nat} {g : List UInt8 → Dec α} {f : List UInt8 → Pa α} (h : pre.length + k < 2 ^ W)
    (hg : k ≤ rest.length → SimAt pre rest (g (rest.take k)) (f (rest.take k))) :
    SimAt pre rest (Decoder.peekSlice W k >>= g) (Pa.peekSlice k >>= f) := by
  have key : exec (Decoder.peekSlice W k) ⟨pre ++ rest, pre.length⟩ =
      exec ((do
        let o ← Decoder.outside W ⟨pre ++ rest, pre.length⟩ k
        if o then Decoder.fail else (do
          let e ← addU W pre.length k
          (slice (pre ++ rest) pre.length e : Dec (List UInt8))) : Dec (List UInt8))) ⟨pre ++ rest, pre.length⟩ := rfl
  rw [outside_pure h, addU_pure h] at key
  by_cases ho : (k = 0 ∧ rest = []) ∨ rest.length < k
  · refine Or.inl ⟨Pa.bind_none (by simp only [Pa.peekSlice, if_pos ho]), SimAt.dec_bind_err ?_⟩
    rw [key, decide_eq_true ho]; rfl
  · have hsl : slice (pre ++ rest) pre.length (pre.length + k) = Pure.pure (rest.take k) := by
      rw [slice_pure (by omega) (by rw [List.length_append]; omega), List.drop_left, Nat.add_sub_cancel_left]
    have e1 : exec (Decoder.peekSlice W k) ⟨pre ++ rest, pre.length⟩ = Pure.pure (.ok (rest.take k, ⟨pre ++ rest, pre.length⟩)) := by
      rw [key, decide_eq_false ho]
      show exec ((slice (pre ++ rest) pre.length (pre.length + k) : Exec (List UInt8)) : Dec (List UInt8)) ⟨pre ++ rest, pre.length⟩ = _
      rw [hsl]; rfl
    have e2 : Pa.peekSlice k rest = some (rest.take k, rest) := by simp only [Pa.peekSlice, if_neg ho]
    unfold SimAt
    rw [SimAt.dec_bind_ok e1, Pa.bind_of e2]
    exact hg (by omega)

theorem sim_constructed (h : pre.length + rest.length < 2 ^ W) : SimAt pre rest (Decoder.readConstructedSequence W) Pa.constructed :=
  (sim_read h).bind fun _ _ _ _ _ => SimAt.ite (fun _ => SimAt.pure _) (fun _ => SimAt.fail)

end

/-! ## Facts about the parsers -/

theorem beNat_cons (b : UInt8) (l : List UInt8) : beNat (b :: l) = b.toNat * 256 ^ l.length + beNat l := by
  have := beNat_append [b] l
  rw [List.singleton_append] at this
  rw [this]; simp [beNat]

theorem readLenLoop_some : ∀ {k ret : Nat} {l t : List UInt8} {v : Nat}, Pa.readLenLoop k ret l = some (v, t) →
    ∃ c, l = c ++ t ∧ c.length = k ∧ v = ret * 256 ^ k + beNat c ∧ (k ≠ 0 → v < t.length)
  | 0, ret, l, t, v, h => by
    rw [Pa.readLenLoop, Pa.pure_app] at h
    simp only [Option.some.injEq, Prod.mk.injEq] at h
    exact ⟨[], by simp [h.2], rfl, by simp [beNat, h.1], fun h => absurd rfl h⟩
  | k + 1, ret, [], t, v, h => by cases h
  | k + 1, ret, b :: l, t, v, h => by
    have h' : (if ret * 256 + b.toNat + (k + 1) > l.length then Pa.fail else Pa.readLenLoop k (ret * 256 + b.toNat)) l = some (v, t) := h
    split at h'
    · cases h'
    · rename_i hle
      obtain ⟨c, rfl, rfl, rfl, h4⟩ := readLenLoop_some h'
      refine ⟨b :: c, rfl, rfl, by rw [beNat_cons, pow_succ]; ring, fun _ => ?_⟩
      cases c with
      | nil => simp [beNat] at hle ⊢; omega
      | cons => exact h4 (by simp)

theorem readLenLoop_of : ∀ {c : List UInt8} {ret : Nat} {t : List UInt8}, ret * 256 ^ c.length + beNat c < t.length →
    Pa.readLenLoop c.length ret (c ++ t) = some (ret * 256 ^ c.length + beNat c, t)
  | [], ret, t, h => by simp [Pa.readLenLoop, beNat, Pa.pure_app]
  | b :: c, ret, t, h => by
    have e : ret * 256 ^ (c.length + 1) + beNat (b :: c) = (ret * 256 + b.toNat) * 256 ^ c.length + beNat c := by
      rw [beNat_cons, pow_succ]; ring
    rw [List.length_cons, e] at h ⊢
    have hle : ret * 256 + b.toNat ≤ (ret * 256 + b.toNat) * 256 ^ c.length := Nat.le_mul_of_pos_right _ (by positivity)
    show (if ret * 256 + b.toNat + (c.length + 1) > (c ++ t).length then Pa.fail else Pa.readLenLoop c.length (ret * 256 + b.toNat)) (c ++ t) = _
    rw [if_neg (by rw [List.length_append]; omega)]
    exact readLenLoop_of h

theorem le_beNat_cons {b : UInt8} {l : List UInt8} (h : b ≠ 0) : 256 ^ l.length ≤ beNat (b :: l) := by
  rw [beNat_cons]
  have : 1 ≤ b.toNat := by
    rw [Nat.one_le_iff_ne_zero]
    exact fun h0 => h (UInt8.toNat_inj.1 h0)
  nlinarith [Nat.le_mul_of_pos_left (256 ^ l.length) this]

/-- The lengths of slices on a 32-bit or 64-bit target: at most `isize::MAX`. -/
def Small (W m : Nat) : Prop := (W = 32 ∨ W = 64) ∧ m < 2 ^ (W - 1)

theorem Small.add {W m k : Nat} (h : Small W m) (hk : k < 2 ^ 31) : m + k < 2 ^ W := by
  obtain ⟨rfl | rfl, h⟩ := h <;> norm_num at h hk ⊢ <;> omega

section
variable {W : Nat} {pre rest : List UInt8}

theorem Small.step (h : Small W (pre.length + rest.length)) {c t : List UInt8} (e : rest = c ++ t) :
    Small W ((pre ++ c).length + t.length) := by
  subst e
  rw [List.length_append] at h ⊢
  rwa [Nat.add_assoc]

theorem Small.full (h : Small W (pre.length + rest.length)) : pre.length + rest.length < 2 ^ W := by
  have := h.add (k := 0) (by norm_num); omega

theorem shl8U_or {ret : Nat} {b : UInt8} (h : ret * 256 < 2 ^ W) : shl8U W ret ||| b.toNat = ret * 256 + b.toNat := by
  unfold shl8U
  rw [Nat.mod_eq_of_lt h]
  have := Nat.shiftLeft_add_eq_or_of_lt (b := b.toNat) (i := 8) b.toNat_lt ret
  rw [Nat.shiftLeft_eq] at this
  exact this.symm

/-- Running `x` follows `f`, or `f` fails while `x` panics in the debug profile and in the release
profile fails too (`R = none`) or returns the value in `R`; the latter only with `2^(W-8)` bytes of
input or more. -/
def SimR (W : Nat) {α : Type} (R : Option α) (pre rest : List UInt8) (x : Dec α) (f : Pa α) : Prop :=
  SimAt pre rest x f ∨
  (f rest = none ∧ exec x ⟨pre ++ rest, pre.length⟩ .debug = none ∧ 2 ^ (W - 8) ≤ pre.length + rest.length ∧
    (R = none → exec x ⟨pre ++ rest, pre.length⟩ .release = some (.error .invalidSignature)) ∧
    (∀ v, R = some v → ∃ c t, rest = c ++ t ∧
      exec x ⟨pre ++ rest, pre.length⟩ .release = some (.ok (v, ⟨(pre ++ c) ++ t, (pre ++ c).length⟩))))

theorem exec_liftM {α : Type} {x : Exec α} {d : Decoder} :
    exec (x : Dec α) d = (x >>= fun v => (Pure.pure (Except.ok (v, d)) : Exec (Except Error (α × Decoder)))) := by
  funext π
  show ((((x π).bind _).bind _).bind _) = (x π).bind _
  cases x π <;> rfl

theorem bind_debug_none {α β : Type} {x : Dec α} {g : α → Dec β} {d : Decoder} (h : exec x d .debug = none) :
    exec (x >>= g) d .debug = none := by
  rw [SimAt.exec_bind]
  show ((exec x d .debug).bind _) = none
  rw [h]; rfl

theorem bind_release_ok {α β : Type} {x : Dec α} {g : α → Dec β} {d d' : Decoder} {a : α} (h : exec x d .release = some (.ok (a, d'))) :
    exec (x >>= g) d .release = exec (g a) d' .release := by
  rw [SimAt.exec_bind]
  show ((exec x d .release).bind _) = _
  rw [h]; rfl

theorem bind_release_error {α β : Type} {x : Dec α} {g : α → Dec β} {d : Decoder} {e : Error} (h : exec x d .release = some (.error e)) :
    exec (x >>= g) d .release = some (.error e) := by
  rw [SimAt.exec_bind]
  show ((exec x d .release).bind _) = _
  rw [h]; rfl

theorem lift_debug_none {α : Type} {x : Exec α} {d : Decoder} (h : x .debug = none) : exec (x : Dec α) d .debug = none := by
  rw [exec_liftM]
  show (x .debug).bind (fun v => some (Except.ok (v, d))) = _
  rw [h]; rfl

theorem lift_release {α : Type} {x : Exec α} {d : Decoder} {a : α} (h : x .release = some a) :
    exec (x : Dec α) d .release = some (.ok (a, d)) := by
  rw [exec_liftM]
  show (x .release).bind (fun v => some (Except.ok (v, d))) = _
  rw [h]; rfl

theorem addU_debug {W a b : Nat} (h : 2 ^ W ≤ a + b) : addU W a b .debug = none := by
  unfold addU
  rw [decide_eq_false (by omega)]
  rfl

theorem addU_release {W a b : Nat} : addU W a b .release = some ((a + b) % 2 ^ W) := rfl

theorem SimAt.bindR {α β : Type} {R : Option β} {x : Dec α} {g : α → Dec β} {f : Pa α} {h : α → Pa β}
    (hx : SimAt pre rest x f)
    (hg : ∀ a c t, rest = c ++ t → f rest = some (a, t) → SimR W R (pre ++ c) t (g a) (h a)) :
    SimR W R pre rest (x >>= g) (f >>= h) := by
  rcases hx with ⟨h1, h2⟩ | ⟨a, c, t, hr, h1, h2⟩
  · exact Or.inl (Or.inl ⟨Pa.bind_none h1, SimAt.dec_bind_err h2⟩)
  · have e : pre ++ rest = pre ++ c ++ t := by rw [hr, List.append_assoc]
    rcases hg a c t hr h1 with h3 | ⟨h3, h4, h5, h6, h7⟩
    · refine Or.inl (SimAt.bind (Or.inr ⟨a, c, t, hr, h1, h2⟩) ?_)
      intro a' c' t' hr' h1'
      rw [h1] at h1'
      simp only [Option.some.injEq, Prod.mk.injEq] at h1'
      obtain ⟨rfl, rfl⟩ := h1'
      have : c' = c := List.append_cancel_right (hr'.symm.trans hr)
      rw [this]; exact h3
    · refine Or.inr ⟨by rw [Pa.bind_of h1, h3], ?_, ?_, fun hR => ?_, fun v hv => ?_⟩
      · rw [SimAt.dec_bind_ok h2, e, h4]
      · rw [hr, List.length_append]
        rw [List.length_append] at h5
        omega
      · rw [SimAt.dec_bind_ok h2, e, h6 hR]
      · obtain ⟨c', t', rfl, h10⟩ := h7 v hv
        refine ⟨c ++ c', t', by rw [hr, List.append_assoc], ?_⟩
        rw [SimAt.dec_bind_ok h2, e, h10, List.append_assoc pre c c']

theorem SimR.bind {α β : Type} {x : Dec α} {g : α → Dec β} {f : Pa α} {h : α → Pa β} (hx : SimR W none pre rest x f)
    (hg : ∀ a c t, rest = c ++ t → f rest = some (a, t) → SimR W none (pre ++ c) t (g a) (h a)) :
    SimR W none pre rest (x >>= g) (f >>= h) := by
  rcases hx with hx | ⟨h1, h2, h3, h4, _⟩
  · exact hx.bindR hg
  · exact Or.inr ⟨Pa.bind_none h1, bind_debug_none h2, h3, fun _ => bind_release_error (h4 rfl), fun v hv => by cases hv⟩

/-- After a value that should not have been accepted. -/
theorem SimR.bind_some {α β : Type} {v : α} {x : Dec α} {g : α → Dec β} {f : Pa α} {h : α → Pa β} (hx : SimR W (some v) pre rest x f)
    (hg : ∀ a c t, rest = c ++ t → f rest = some (a, t) → SimR W none (pre ++ c) t (g a) (h a))
    (hv : ∀ c t, rest = c ++ t → exec (g v) ⟨(pre ++ c) ++ t, (pre ++ c).length⟩ .release = some (.error .invalidSignature)) :
    SimR W none pre rest (x >>= g) (f >>= h) := by
  rcases hx with hx | ⟨h1, h2, h3, _, h5⟩
  · exact hx.bindR hg
  · obtain ⟨c, t, e, h7⟩ := h5 v rfl
    exact Or.inr ⟨Pa.bind_none h1, bind_debug_none h2, h3, fun _ => by rw [bind_release_ok h7]; exact hv c t e, fun v hv => by cases hv⟩

theorem SimR.ite {α : Type} {R : Option α} {x y : Dec α} {f g : Pa α} {c : Prop} [Decidable c]
    (h1 : c → SimR W R pre rest x f) (h2 : ¬ c → SimR W R pre rest y g) :
    SimR W R pre rest (if c then x else y) (if c then f else g) := by
  split
  · exact h1 ‹_›
  · exact h2 ‹_›

theorem SimR.lift {α β : Type} {R : Option β} {x : Exec α} {g : α → Dec β} {f : Pa β} {a : α}
    (hx : x = Pure.pure a) (h : SimR W R pre rest (g a) f) : SimR W R pre rest (do let v ← (x : Dec α); g v) f := by
  subst hx
  exact h

theorem SimAt.toR {α : Type} {R : Option α} {x : Dec α} {f : Pa α} (h : SimAt pre rest x f) : SimR W R pre rest x f := Or.inl h

/-- Methods that do not move the decoder. -/
theorem SimAt.bind_len {α : Type} {g : Nat → Dec α} {h : Nat → Pa α} (hg : SimAt pre rest (g rest.length) (h rest.length)) :
    SimAt pre rest (Decoder.remainingLen >>= g) (Pa.len >>= h) := by
  refine SimAt.len.bind fun m c' t' e' hm => ?_
  have e2 : m = rest.length ∧ c' = [] := by
    simp only [Pa.len, Option.some.injEq, Prod.mk.injEq] at hm
    refine ⟨hm.1.symm, ?_⟩
    have : rest.length = c'.length + t'.length := by rw [e', List.length_append]
    rw [← hm.2] at this
    exact List.length_eq_zero_iff.1 (by omega)
  obtain ⟨rfl, rfl⟩ := e2
  rw [List.nil_append] at e'
  subst e'
  rw [List.append_nil]; exact hg

theorem SimAt.bind_peek {α : Type} {i : Nat} {g : UInt8 → Dec α} {h : UInt8 → Pa α} (hi : pre.length + i < 2 ^ W)
    (hg : ∀ b, rest[i]? = some b → SimAt pre rest (g b) (h b)) :
    SimAt pre rest (Decoder.peek W i >>= g) (Pa.peek i >>= h) := by
  refine (sim_peek hi).bind fun b c' t' e' hm => ?_
  simp only [Pa.peek, Option.map_eq_some_iff, Prod.mk.injEq] at hm
  obtain ⟨b', hb, rfl, rfl⟩ := hm
  have : c' = [] := by
    have : rest.length = c'.length + rest.length := by rw [← List.length_append, ← e']
    exact List.length_eq_zero_iff.1 (by omega)
  subst this
  rw [List.append_nil]; exact hg b' hb

theorem SimAt.bind_lenR {α : Type} {R : Option α} {g : Nat → Dec α} {h : Nat → Pa α} (hg : SimR W R pre rest (g rest.length) (h rest.length)) :
    SimR W R pre rest (Decoder.remainingLen >>= g) (Pa.len >>= h) := by
  refine SimAt.len.bindR fun m c' t' e' hm => ?_
  have e2 : m = rest.length ∧ c' = [] := by
    simp only [Pa.len, Option.some.injEq, Prod.mk.injEq] at hm
    refine ⟨hm.1.symm, ?_⟩
    have : rest.length = c'.length + t'.length := by rw [e', List.length_append]
    rw [← hm.2] at this
    exact List.length_eq_zero_iff.1 (by omega)
  obtain ⟨rfl, rfl⟩ := e2
  rw [List.nil_append] at e'
  subst e'
  rw [List.append_nil]; exact hg

theorem SimAt.bind_peekR {α : Type} {R : Option α} {i : Nat} {g : UInt8 → Dec α} {h : UInt8 → Pa α} (hi : pre.length + i < 2 ^ W)
    (hg : ∀ b, rest[i]? = some b → SimR W R pre rest (g b) (h b)) :
    SimR W R pre rest (Decoder.peek W i >>= g) (Pa.peek i >>= h) := by
  refine (sim_peek hi).bindR fun b c' t' e' hm => ?_
  simp only [Pa.peek, Option.map_eq_some_iff, Prod.mk.injEq] at hm
  obtain ⟨b', hb, rfl, rfl⟩ := hm
  have : c' = [] := by
    have : rest.length = c'.length + rest.length := by rw [← List.length_append, ← e']
    exact List.length_eq_zero_iff.1 (by omega)
  subst this
  rw [List.append_nil]; exact hg b' hb

theorem exec_len {pre t : List UInt8} : exec Decoder.remainingLen ⟨pre ++ t, pre.length⟩ = pure (.ok (t.length, ⟨pre ++ t, pre.length⟩)) := by
  have e : subNat (pre ++ t).length pre.length = Pure.pure t.length := by
    rw [subNat_pure (by simp)]; simp
  show exec ((subNat (pre ++ t).length pre.length : Exec Nat) : Dec Nat) ⟨pre ++ t, pre.length⟩ = _
  rw [e]; rfl

theorem sim_readLenLoop (hW : W = 32 ∨ W = 64) : ∀ {k ret : Nat} {pre rest : List UInt8}, Small W (pre.length + rest.length) → k ≤ W / 8 →
    ret < 256 ^ (W / 8 - k) → (ret = 0 ∨ ret + k < rest.length) →
    SimR W (some (2 ^ W - 1)) pre rest (Decoder.readLenLoop W k ret) (Pa.readLenLoop k ret)
  | 0, ret, pre, rest, _, _, _, _ => (SimAt.pure _).toR
  | k + 1, ret, pre, rest, hs, hk, hret, hr => by
    unfold Decoder.readLenLoop Pa.readLenLoop
    refine (sim_read hs.full).bindR fun b c t e hb => ?_
    have h8 := u8_le b
    have hs' := hs.step e
    have hpow : 256 ^ (W / 8 - k) = 256 ^ (W / 8 - (k + 1)) * 256 := by
      rw [← pow_succ]; congr 1; omega
    have hret' : ret * 256 + b.toNat < 256 ^ (W / 8 - k) := by rw [hpow]; omega
    have hmax : 256 ^ (W / 8 - k) ≤ 2 ^ W := by
      rw [show 256 = 2 ^ 8 from rfl, ← pow_mul]
      exact Nat.pow_le_pow_right (by omega) (by omega)
    rw [shl8U_or (lt_of_le_of_lt (Nat.le_add_right _ _) (hret'.trans_le hmax))]
    by_cases hov : ret * 256 + b.toNat + (k + 1) < 2 ^ W
    · refine SimR.lift (addU_pure hov) (SimAt.bind_lenR (SimR.ite (fun _ => SimAt.fail.toR) fun hle => ?_))
      exact sim_readLenLoop hW hs' (by omega) hret' (Or.inr (by clear hpow hret hret' hmax; omega))
    · have hk0 : k = 0 := by
        by_contra h0
        have : 256 ^ (W / 8 - k) ≤ 2 ^ (W - 8) := by
          rw [show 256 = 2 ^ 8 from rfl, ← pow_mul]
          exact Nat.pow_le_pow_right (by omega) (by omega)
        rcases hW with rfl | rfl <;> norm_num at * <;> omega
      subst hk0
      have hv : ret * 256 + b.toNat = 2 ^ W - 1 := by omega
      have hone : 0 < 2 ^ W := by positivity
      rw [hv]
      have hlen := hs'.full
      refine Or.inr ⟨?_, ?_, ?_, fun h => (by cases h), fun v hv' => ?_⟩
      · show (if 2 ^ W - 1 + (0 + 1) > t.length then Pa.fail else Pa.readLenLoop 0 (2 ^ W - 1) : Pa Nat) t = none
        rw [if_pos (by omega)]; rfl
      · exact bind_debug_none (lift_debug_none (addU_debug (by omega)))
      · have hb1 : c.length + t.length = rest.length := by rw [e, List.length_append]
        rw [List.length_append]
        have h256 : 2 ^ W = 2 ^ (W - 8) * 256 := by
          rw [show 256 = 2 ^ 8 from rfl, ← pow_add]; congr 1; rcases hW with rfl | rfl <;> rfl
        have h2 : 2 ≤ 2 ^ (W - 8) := by rcases hW with rfl | rfl <;> norm_num
        omega
      · cases hv'
        refine ⟨[], t, rfl, ?_⟩
        rw [bind_release_ok (lift_release addU_release)]
        have : (2 ^ W - 1 + (0 + 1)) % 2 ^ W = 0 := by
          rw [show 2 ^ W - 1 + (0 + 1) = 2 ^ W by omega, Nat.mod_self]
        rw [this, SimAt.dec_bind_ok exec_len, if_neg (by omega), List.append_nil]
        rfl

theorem sim_readLen (hs : Small W (pre.length + rest.length)) : SimR W (some (2 ^ W - 1)) pre rest (Decoder.readLen W) Pa.readLen := by
  unfold Decoder.readLen Pa.readLen
  refine (sim_read hs.full).bindR fun b1 c t e _ => ?_
  have hs' := hs.step e
  clear hs e
  refine SimR.ite (fun _ => SimAt.fail.toR) fun _ => SimR.ite (fun _ => (SimAt.pure _).toR) fun _ => SimR.ite (fun _ => SimAt.fail.toR) fun _ => ?_
  unfold Decoder.readLenLong
  refine SimAt.bind_lenR (SimR.ite (fun _ => SimAt.fail.toR) fun hle => SimAt.bind_peekR (hs'.full.trans_le' (by omega)) fun b hb => ?_)
  refine SimR.ite (fun _ => SimAt.fail.toR) fun hb0 => ?_
  by_cases hbig : (b1 &&& 0x7f).toNat > W / 8
  · rw [if_pos hbig]
    refine Or.inl (Or.inl ⟨?_, rfl⟩)
    refine Pa.bind_none ?_
    cases hr : Pa.readLenLoop (b1 &&& 0x7f).toNat 0 t with
    | none => rfl
    | some p =>
      exfalso
      obtain ⟨v, u⟩ := p
      obtain ⟨c', rfl, hc, rfl, hv⟩ := readLenLoop_some hr
      cases c' with
      | nil => rw [List.length_nil] at hc; omega
      | cons a c' =>
        have : a = b := by simpa using hb
        subst this
        have h1 := le_beNat_cons (l := c') (b := a) (by simpa using hb0)
        have h2 := hv (by omega)
        rw [zero_mul, zero_add] at h2
        have h3 : 2 ^ W ≤ 256 ^ c'.length := by
          rw [show 256 = 2 ^ 8 from rfl, ← pow_mul]
          apply Nat.pow_le_pow_right (by omega)
          rw [List.length_cons] at hc
          rcases hs'.1 with rfl | rfl <;> omega
        have := hs'.full
        rw [List.length_append (bs := u)] at this
        omega
  · rw [if_neg hbig]
    have hl := sim_readLenLoop hs'.1 hs' (k := (b1 &&& 0x7f).toNat) (ret := 0) (by omega) (by positivity) (Or.inl rfl)
    rcases hl with hl | ⟨h1, h2, h3, _, h5⟩
    · exact Or.inl (hl.bind fun v c t _ _ => SimAt.ite (fun _ => SimAt.fail) fun _ => SimAt.pure _)
    · obtain ⟨c', t', e, h6⟩ := h5 _ rfl
      refine Or.inr ⟨Pa.bind_none h1, bind_debug_none h2, h3, fun h => (by cases h), fun v hv => ⟨c', t', e, ?_⟩⟩
      cases hv
      rw [bind_release_ok h6, if_neg (by rcases hs'.1 with rfl | rfl <;> norm_num)]
      rfl

theorem sim_badLead {c : UInt8} {k : Nat} (hs : Small W (pre.length + rest.length)) :
    SimAt pre rest (Decoder.badLead W c k) (Pa.badLead c k) := by
  unfold Decoder.badLead Pa.badLead
  have := hs.add (k := 1) (by norm_num)
  refine SimAt.bind_peek (by omega) fun b hb => SimAt.ite (fun _ => ?_) fun _ => SimAt.pure _
  exact SimAt.bind_peek (by omega) fun b hb => SimAt.pure _

theorem sim_skipZeros : ∀ {k : Nat} {pre rest : List UInt8}, Small W (pre.length + rest.length) →
    SimAt pre rest (Decoder.skipZeros W k) (Pa.skipZeros k)
  | 0, pre, rest, _ => SimAt.pure _
  | k + 1, pre, rest, hs => by
    unfold Decoder.skipZeros Pa.skipZeros
    refine SimAt.bind_peek (by have := hs.full; omega) fun b hb => SimAt.ite (fun _ => ?_) fun _ => SimAt.pure _
    exact (sim_read hs.full).bind fun b c t e _ => sim_skipZeros (hs.step e)

/-- Skipping one byte that is there is reading it. -/
theorem sim_skip_one (hs : Small W (pre.length + rest.length)) (hr : rest ≠ []) :
    SimAt pre rest (Decoder.skip W 1) (Pa.read >>= fun _ => pure ()) := by
  have := sim_skip (pre := pre) (rest := rest) (k := 1) (lt_of_le_of_lt (by have := List.length_pos_iff.2 hr; omega) hs.full)
  cases rest with
  | nil => exact absurd rfl hr
  | cons b t =>
    rcases this with ⟨h, _⟩ | ⟨a, c, u, e, h1, h2⟩
    · simp [Pa.skip] at h
    · refine Or.inr ⟨a, c, u, e, ?_, h2⟩
      rw [← h1]; simp [Pa.skip]; rfl

theorem sim_skipZerosLax : ∀ {k : Nat} {pre rest : List UInt8}, Small W (pre.length + rest.length) →
    SimAt pre rest (Decoder.skipZerosLax W k) (Pa.skipZeros k)
  | 0, pre, rest, _ => SimAt.pure _
  | k + 1, pre, rest, hs => by
    unfold Decoder.skipZerosLax Pa.skipZeros
    refine SimAt.bind_peek (by have := hs.full; omega) fun b hb => SimAt.ite (fun _ => ?_) fun _ => SimAt.pure _
    have := (sim_skip_one hs (by rintro rfl; simp at hb)).bind (g := fun _ => Decoder.skipZerosLax W k) (h := fun _ => Pa.skipZeros k)
      fun b c t e _ => sim_skipZerosLax (hs.step e)
    rw [bind_assoc] at this
    exact this

theorem padB32_runs {k : Nat} {s : List UInt8} (hk : k ≤ 32) (hl : s.length = k) :
    Runs (Decoder.padB32 k s) (fun b => beNat b.toList = beNat s) := by
  unfold Decoder.padB32
  rw [subNat_pure hk, pure_bind, rassert_true (by simp; omega), pure_bind]
  have hlen : (List.replicate (32 - k) (0 : UInt8) ++ s).toArray.size = 32 := by simp; omega
  simp only [hlen, dite_true]
  refine ⟨_, rfl, ?_⟩
  beta_reduce
  rw [Vector.toList_mk, List.toList_toArray, beNat_append]
  have : ∀ m, beNat (List.replicate m (0 : UInt8)) = 0 := by
    intro m
    induction m with
    | zero => rfl
    | succ m ih => rw [List.replicate_succ, beNat_cons, ih]; simp
  rw [this]; simp

theorem sim_finishInt' {k : Nat} (hlt : pre.length + k < 2 ^ W) (hk : k ≤ 32) :
    SimAt pre rest (Decoder.finishInt W false k) (Pa.finishInt false k) := by
  refine SimAt.bind_peekSlice hlt fun hl => ?_
  obtain ⟨b, hb, hv⟩ := padB32_runs hk (s := rest.take k) (by rw [List.length_take]; omega)
  obtain ⟨int, hi, h1, h2⟩ := Scalar.setB32_runs b
  have hint : (if int.2 = true then Scalar.zero else int.1) = intOf (beNat (rest.take k)) := by
    apply Scalar.val_inj
    rw [intOf_val]
    unfold component
    rw [hv] at h1 h2
    by_cases hlt : beNat (rest.take k) < n
    · rw [if_neg (by rw [h1, decide_eq_true_eq]; omega), if_pos hlt, h2, Nat.mod_eq_of_lt hlt]
    · rw [if_pos (by rw [h1, decide_eq_true_eq]; omega), if_neg hlt, Scalar.zero_val]
  refine SimAt.lift hb ?_
  exact (sim_skip hlt).bind fun _ _ _ _ _ => SimAt.lift hi (by rw [hint]; exact SimAt.pure _)

theorem sim_finishInt {ov : Bool} {k : Nat} (hs : Small W (pre.length + rest.length)) (hk : ov = false → k ≤ 32) :
    SimAt pre rest (Decoder.finishInt W ov k) (Pa.finishInt ov k) := by
  cases ov with
  | true => exact SimAt.pure _
  | false => exact sim_finishInt' (by have := hs.add (k := 32) (by norm_num); have := hk rfl; omega) (hk rfl)

theorem sim_readInteger (hs : Small W (pre.length + rest.length)) : SimR W none pre rest (Decoder.readInteger W) Pa.readInteger := by
  unfold Decoder.readInteger Pa.readInteger
  refine (sim_read hs.full).bindR fun _ c t e _ => ?_
  have hs := hs.step e
  refine SimR.ite (fun _ => SimAt.fail.toR) fun _ => (sim_readLen hs).bind_some (fun k c t e _ => ?_) fun c t e => ?_
  · have hs := hs.step e
    refine SimAt.toR (SimAt.bind_len (SimAt.ite (fun _ => SimAt.fail) fun _ => (sim_badLead hs).bind fun _ c t e _ => ?_))
    have hs := hs.step e
    refine SimAt.ite (fun _ => SimAt.fail) fun _ => (sim_badLead hs).bind fun _ c t e _ => ?_
    have hs := hs.step e
    refine SimAt.ite (fun _ => SimAt.fail) fun _ => SimAt.bind_peek (by have := hs.full; omega) fun b _ => ?_
    refine (sim_skipZeros hs).bind fun k c t e _ => ?_
    exact sim_finishInt (hs.step e) (by simp)
  · have := (hs.step e).add (k := 1) (by norm_num)
    rw [SimAt.dec_bind_ok exec_len, if_pos (by rw [Bool.or_eq_true, decide_eq_true_eq]; right; omega)]
    rfl

theorem sim_parseDer (hs : Small W (pre.length + rest.length)) : SimR W none pre rest (Signature.parseDerD W) Pa.parseDer := by
  unfold Signature.parseDerD Pa.parseDer
  refine (sim_constructed hs.full).bindR fun _ c t e _ => ?_
  have hs := hs.step e
  refine (sim_readLen hs).bind_some (fun k c t e _ => ?_) fun c t e => ?_
  · have hs := hs.step e
    refine SimAt.bind_lenR (SimR.ite (fun _ => SimAt.fail.toR) fun _ => (sim_readInteger hs).bind fun _ c t e _ => ?_)
    have hs := hs.step e
    refine (sim_readInteger hs).bind fun k c t e _ => ?_
    exact SimAt.toR (SimAt.bind_len (SimAt.ite (fun _ => SimAt.fail) fun _ => SimAt.pure _))
  · have := (hs.step e).add (k := 1) (by norm_num)
    rw [SimAt.dec_bind_ok exec_len, if_pos (by rw [bne_iff_ne]; omega)]
    rfl

theorem u8_all {P : UInt8 → Prop} (h : ∀ k < 256, P (UInt8.ofNat k)) (b : UInt8) : P b := by
  have := h b.toNat b.toNat_lt
  rwa [UInt8.ofNat_toNat] at this

theorem u8_high {b : UInt8} : (b &&& 0x80 == 0) = true ↔ b.toNat < 128 :=
  u8_all (P := fun b => (b &&& 0x80 == 0) = true ↔ b.toNat < 128) (by decide +kernel) b

theorem u8_high' {b : UInt8} : (b &&& 0x80 == 0x80) = true ↔ 128 ≤ b.toNat :=
  u8_all (P := fun b => (b &&& 0x80 == 0x80) = true ↔ 128 ≤ b.toNat) (by decide +kernel) b

theorem u8_low {b : UInt8} : (b &&& 0x7f).toNat = b.toNat % 128 :=
  u8_all (P := fun b => (b &&& 0x7f).toNat = b.toNat % 128) (by decide +kernel) b

theorem u8_sub {b : UInt8} (h : 128 ≤ b.toNat) : (b - 0x80).toNat = b.toNat - 128 :=
  u8_all (P := fun b => 128 ≤ b.toNat → (b - 0x80).toNat = b.toNat - 128) (by decide +kernel) b h

theorem sim_readSeqLenLax (hs : Small W (pre.length + rest.length)) : SimAt pre rest (Decoder.readSeqLenLax W) Pa.readSeqLenLax := by
  unfold Decoder.readSeqLenLax Pa.readSeqLenLax
  refine (sim_read hs.full).bind fun b c t e _ => ?_
  have hs := hs.step e
  refine SimAt.ite (fun _ => SimAt.bind_len (SimAt.ite (fun _ => SimAt.fail) fun _ => ?_)) fun _ => SimAt.pure _
  refine (sim_skip (by have := hs.add (k := 256) (by norm_num); have := u8_le (b - 0x80); omega)).bind fun _ _ _ _ _ => SimAt.pure _

theorem readLenLaxLoop_of : ∀ {k : Nat} {ret : Nat} {l : List UInt8}, k ≤ l.length →
    Pa.readLenLaxLoop k ret l = some (ret * 256 ^ k + beNat (l.take k), l.drop k)
  | 0, ret, l, _ => by simp [Pa.readLenLaxLoop, beNat, Pa.pure_app]
  | k + 1, ret, [], h => by simp at h
  | k + 1, ret, b :: l, h => by
    show Pa.readLenLaxLoop k (ret * 256 + b.toNat) l = _
    rw [List.length_cons] at h
    rw [readLenLaxLoop_of (by omega), List.take_succ_cons, List.drop_succ_cons, beNat_cons, pow_succ, List.length_take,
      Nat.min_eq_left (by omega)]
    congr 2; ring

theorem sim_readLenLaxLoop : ∀ {k ret : Nat} {pre rest : List UInt8}, pre.length + rest.length < 2 ^ W →
    ret * 256 ^ k + 256 ^ k ≤ 2 ^ W →
    SimAt pre rest (Decoder.readLenLaxLoop W k ret) (Pa.readLenLaxLoop k ret)
  | 0, ret, pre, rest, _, _ => SimAt.pure _
  | k + 1, ret, pre, rest, hs, hr => by
    unfold Decoder.readLenLaxLoop Pa.readLenLaxLoop
    refine (sim_read hs).bind fun b c t e _ => ?_
    have h8 := u8_le b
    have h1 : (ret * 256 + b.toNat) * 256 ^ k + 256 ^ k ≤ 2 ^ W := by
      refine le_trans ?_ hr
      rw [pow_succ]
      have h1 : 0 < 256 ^ k := by positivity
      nlinarith
    have h2 : ret * 256 + b.toNat < 2 ^ W := by
      have h1 : 0 < 256 ^ k := by positivity
      nlinarith
    have h3 : shl8U W ret = ret * 256 := by unfold shl8U; exact Nat.mod_eq_of_lt (lt_of_le_of_lt (Nat.le_add_right _ _) h2)
    rw [h3]
    refine SimAt.lift (addU_pure h2) (sim_readLenLaxLoop ?_ h1)
    subst e
    rw [List.length_append] at hs ⊢
    omega

/-- Leading zeros are skipped. -/
theorem skipZeros_append : ∀ (c t : List UInt8), Pa.skipZeros c.length (c ++ t) =
    some ((c.dropWhile (· == 0)).length, c.dropWhile (· == 0) ++ t)
  | [], t => rfl
  | b :: c, t => by
    show (if b == 0 then (Pa.read >>= fun _ => Pa.skipZeros c.length) else pure (c.length + 1)) (b :: (c ++ t)) = _
    by_cases h : (b == 0) = true
    · rw [if_pos h]
      show Pa.skipZeros c.length (c ++ t) = _
      rw [skipZeros_append c t, List.dropWhile_cons, if_pos h]
    · rw [if_neg h, List.dropWhile_cons, if_neg h]; rfl

theorem beNat_dropWhile : ∀ c : List UInt8, beNat (c.dropWhile (· == 0)) = beNat c
  | [] => rfl
  | b :: c => by
    rw [List.dropWhile_cons]
    split
    · rename_i h
      rw [beNat_dropWhile c, beNat_cons, show b = 0 by simpa using h]; simp
    · rfl

/-- Without leading zeros the value is at least a power of 256. -/
theorem le_beNat_dropWhile {c : List UInt8} (h : c.dropWhile (· == 0) ≠ []) :
    256 ^ ((c.dropWhile (· == 0)).length - 1) ≤ beNat c := by
  rw [← beNat_dropWhile]
  have hd := List.head_dropWhile_not (p := (· == (0 : UInt8))) (w := h)
  revert h hd
  generalize c.dropWhile (· == (0 : UInt8)) = d
  intro h hd
  cases d with
  | nil => exact absurd rfl h
  | cons b d => exact le_beNat_cons (by simpa using hd)

theorem sim_readLenLaxEnd {v : Nat} : SimAt pre rest (Decoder.readLenLaxEnd v) (Pa.readLenLaxEnd v) :=
  SimAt.bind_len (SimAt.ite (fun _ => SimAt.fail) fun _ => SimAt.pure _)

theorem sim_readLenLax (hs : Small W (pre.length + rest.length)) : SimAt pre rest (Decoder.readLenLax W) (Pa.readLenLax W) := by
  unfold Decoder.readLenLax Pa.readLenLax
  refine (sim_read hs.full).bind fun b c t e _ => ?_
  have hs := hs.step e
  refine SimAt.ite (fun _ => ?_) fun _ => sim_readLenLaxEnd
  unfold Decoder.readLenLaxLong
  simp only [bind_assoc]
  refine SimAt.bind_len ?_
  by_cases hle : (b - 0x80).toNat > t.length
  · rw [if_pos hle, if_pos hle]
    exact SimAt.fail
  rw [if_neg hle, if_neg hle]
  simp only [bind_assoc]
  refine (sim_skipZerosLax hs).bind fun k c' t' e' hk => ?_
  have hs' := hs.step e'
  by_cases hbig : k ≥ W / 8
  · rw [if_pos hbig, if_pos hbig]
    exact SimAt.fail
  · rw [if_neg hbig, if_neg hbig]
    refine (sim_readLenLaxLoop hs'.full ?_).bind fun _ _ _ _ _ => sim_readLenLaxEnd
    rw [zero_mul, zero_add, show 256 = 2 ^ 8 from rfl, ← pow_mul]
    exact Nat.pow_le_pow_right (by omega) (by omega)

theorem sim_readIntegerLax (hs : Small W (pre.length + rest.length)) : SimAt pre rest (Decoder.readIntegerLax W) (Pa.readIntegerLax W) := by
  unfold Decoder.readIntegerLax Pa.readIntegerLax
  refine (sim_read hs.full).bind fun _ c t e _ => ?_
  have hs := hs.step e
  refine SimAt.ite (fun _ => SimAt.fail) fun _ => (sim_readLenLax hs).bind fun k c t e _ => ?_
  have hs := hs.step e
  refine (sim_skipZerosLax hs).bind fun k c t e _ => ?_
  exact sim_finishInt (hs.step e) (by simp)

theorem sim_parseDerLax (hs : Small W (pre.length + rest.length)) : SimAt pre rest (Signature.parseDerLaxD W) (Pa.parseDerLax W) := by
  unfold Signature.parseDerLaxD Pa.parseDerLax
  refine (sim_constructed hs.full).bind fun _ c t e _ => ?_
  have hs := hs.step e
  refine (sim_readSeqLenLax hs).bind fun k c t e _ => ?_
  have hs := hs.step e
  refine (sim_readIntegerLax hs).bind fun _ c t e _ => ?_
  have hs := hs.step e
  exact (sim_readIntegerLax hs).bind fun _ c t e _ => SimAt.pure _

end

end Verif
