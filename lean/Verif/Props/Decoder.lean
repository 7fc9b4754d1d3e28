import Verif.Props.Der
import Verif.Proofs.DerKeep
import Verif.Proofs.DerWrap
import Verif.Proofs.Agree

/-!
# The public decoder (C88) and the buffer of `serialize_der` (C89)
-/

namespace Verif.Props
open Verif Spec

/-! ## From simulations to results -/

theorem exec_ok {α : Type} {x : Dec α} {d d' : Decoder} {a : α} (h : exec x d = pure (.ok (a, d'))) : x d = pure (.ok a, d') := by
  funext π
  have h := congrFun h π
  have h : (x d π).bind _ = some (Except.ok (a, d')) := h
  cases hx : x d π with
  | none => rw [hx] at h; cases h
  | some r =>
    rw [hx] at h
    obtain ⟨r | b, d1⟩ := r
    · cases (Option.some.inj h : _ = Except.ok (a, d'))
    · cases (Option.some.inj h : _ = Except.ok (a, d'))
      rfl

theorem exec_error {α : Type} {x : Dec α} {d : Decoder} {e : Error} (h : exec x d = pure (.error e)) (π : Profile) :
    ∃ d', x d π = some (.error e, d') := by
  have h := congrFun h π
  have h : (x d π).bind _ = some (Except.error e) := h
  cases hx : x d π with
  | none => rw [hx] at h; cases h
  | some r =>
    rw [hx] at h
    obtain ⟨r | b, d1⟩ := r
    · cases (Option.some.inj h : _ = Except.error e)
      exact ⟨d1, rfl⟩
    · cases (Option.some.inj h : _ = Except.error e)

/-- The decoder is within its input, which is a slice on a target of width `W`. -/
def DecoderOk (W : ℕ) (d : Decoder) : Prop := IsSlice W d.data ∧ d.pos ≤ d.data.length

/-- The input that is left. -/
def remaining (d : Decoder) : List UInt8 := d.data.drop d.pos

/-- The decoder, moved forward by `k`. -/
def advance (d : Decoder) (k : ℕ) : Decoder := ⟨d.data, d.pos + k⟩

/-- The method returns `Err(InvalidSignature)` in both profiles and leaves the decoder within its input. -/
def Refuses {α : Type} (x : Dec α) (d : Decoder) : Prop :=
  ∃ d', x d = pure (.error .invalidSignature, d') ∧ d'.data = d.data ∧ d.pos ≤ d'.pos ∧ d'.pos ≤ d.data.length

theorem split_decoder {W : ℕ} {d : Decoder} (h : DecoderOk W d) : ∃ pre, d = ⟨pre ++ remaining d, pre.length⟩ ∧ Small W (pre.length + (remaining d).length) := by
  obtain ⟨⟨hW, hl⟩, hp⟩ := h
  have e1 : (d.data.take d.pos).length = d.pos := by rw [List.length_take]; omega
  have e2 : (remaining d).length = d.data.length - d.pos := List.length_drop
  refine ⟨d.data.take d.pos, ?_, hW, by omega⟩
  obtain ⟨data, pos⟩ := d
  simp only [remaining] at *
  rw [List.take_append_drop, e1]

/-- What a method does, from its parser. -/
theorem sim_result {W : ℕ} {d : Decoder} {α : Type} {x : Dec α} [ha : AgreesD x] {f : Pa α} (hd : DecoderOk W d)
    (hs : ∀ pre, d = ⟨pre ++ remaining d, pre.length⟩ → Small W (pre.length + (remaining d).length) → SimAt pre (remaining d) x f)
    (hk : KeepsAt d x) :
    (∀ a t, f (remaining d) = some (a, t) → ∃ L, remaining d = L ++ t ∧ x d = pure (.ok a, advance d L.length)) ∧
    (f (remaining d) = none → Refuses x d) := by
  obtain ⟨pre, e, hsm⟩ := split_decoder hd
  have hs := hs pre e hsm
  unfold SimAt at hs
  rw [← e] at hs
  have hp : d.pos = pre.length := congrArg Decoder.pos e
  have hda : d.data = pre ++ remaining d := congrArg Decoder.data e
  constructor
  · intro a t ha
    rcases hs with ⟨h1, _⟩ | ⟨b, c, u, h1, h2, h3⟩
    · rw [ha] at h1; cases h1
    · rw [ha] at h2
      cases h2
      refine ⟨c, h1, ?_⟩
      rw [exec_ok h3, ← hda]
      simp only [advance, List.length_append, hp]
  · intro hn
    rcases hs with ⟨_, h2⟩ | ⟨b, c, u, _, h2, _⟩
    · obtain ⟨d', h⟩ := exec_error h2 .debug
      have h' := (ha.out d).out _ h
      refine ⟨d', ?_, hk _ _ _ h⟩
      funext π
      cases π
      · exact h
      · exact h'
    · rw [hn] at h2; cases h2

/-! ## The cursor -/

theorem W_big {W : ℕ} (hW : W = 32 ∨ W = 64) : 256 ≤ 2 ^ (W - 1) ∧ 2 ^ (W - 1) * 2 = 2 ^ W ∧ 2 ^ (W - 8) ≤ 2 ^ (W - 1) := by
  rcases hW with rfl | rfl <;> norm_num

theorem W_keep {W : ℕ} (hW : W = 32 ∨ W = 64) : 32 < 2 ^ W ∧ 2 ^ (W - 1) < 2 ^ W := by
  rcases hW with rfl | rfl <;> norm_num

theorem DecoderOk.full {W : ℕ} {d : Decoder} (h : DecoderOk W d) : d.data.length < 2 ^ W := by
  have := W_big h.1.1
  have := h.1.2
  omega

theorem lift_none {α β : Type} {m : Exec α} {π : Profile} (h : m π = none) (f : α → Dec β) (d : Decoder) :
    ((liftM m : Dec α) >>= f) d π = none := by
  show Option.bind (Option.bind (Option.bind (m π) _) _) _ = none
  rw [h]; rfl

theorem lift_some {α β : Type} {m : Exec α} {π : Profile} {a : α} (h : m π = some a) (f : α → Dec β) (d : Decoder) :
    ((liftM m : Dec α) >>= f) d π = f a d π := by
  show Option.bind (Option.bind (Option.bind (m π) _) _) _ = _
  rw [h]; rfl

theorem exec_none {α β : Type} {m : Exec α} {π : Profile} (h : m π = none) (f : α → Exec β) : (m >>= f) π = none := by
  show Option.bind (m π) _ = none
  rw [h]; rfl

theorem exec_some {α β : Type} {m : Exec α} {π : Profile} {a : α} (h : m π = some a) (f : α → Exec β) : (m >>= f) π = f a π := by
  show Option.bind (m π) _ = _
  rw [h]; rfl

theorem lift_end_none {α : Type} {m : Exec α} {π : Profile} (h : m π = none) (d : Decoder) : (liftM m : Dec α) d π = none := by
  show Option.bind (Option.bind (m π) _) _ = none
  rw [h]; rfl

/-- C88. A new decoder is at the front of its input. -/
theorem C88_new (W : ℕ) (b : List UInt8) (h : IsSlice W b) : DecoderOk W (Decoder.new b) ∧ remaining (Decoder.new b) = b :=
  ⟨⟨h, Nat.zero_le _⟩, rfl⟩

/-- C88. `read` takes one byte; at the end it fails and does not move. -/
theorem C88_read (W : ℕ) (d : Decoder) (hd : DecoderOk W d) :
    (∀ b t, remaining d = b :: t → Decoder.read W d = pure (.ok b, advance d 1)) ∧
    (remaining d = [] → Decoder.read W d = pure (.error .invalidSignature, d)) := by
  constructor
  · intro b t h
    obtain ⟨L, h1, h2⟩ := (sim_result hd (fun pre _ hs => sim_read hs.full) (Decoder.keeps_read hd.full hd.2)).1 b t (by rw [h]; rfl)
    rw [h, show b :: t = [b] ++ t from rfl] at h1
    rw [h2, ← List.append_cancel_right h1]; rfl
  · intro h
    have : d.pos ≥ d.data.length := by simpa [remaining] using h
    show (if d.pos ≥ d.data.length then Decoder.fail else _ : Dec UInt8) d = _
    rw [if_pos this]; rfl

/-- C88. `remaining_len` is the number of bytes left. -/
theorem C88_remaining_len (W : ℕ) (d : Decoder) (hd : DecoderOk W d) :
    Decoder.remainingLen d = pure (.ok (remaining d).length, d) := by
  obtain ⟨L, h1, h2⟩ := (sim_result hd (fun pre _ _ => SimAt.len) (Decoder.keeps_remaining hd.2)).1 _ _ rfl
  have : L = [] := by simpa using h1
  rw [h2, this]; rfl

theorem addU_big {W a b : ℕ} (h : 2 ^ W ≤ a + b) (ha : a < 2 ^ W) (hb : b < 2 ^ W) :
    addU W a b .debug = none ∧ addU W a b .release = some (a + b - 2 ^ W) := by
  unfold addU
  rw [decide_eq_false (by omega), Nat.mod_eq_sub_mod h, Nat.mod_eq_of_lt (by omega)]
  exact ⟨rfl, rfl⟩

/-- C88. `peek` looks ahead without moving. If position and argument overflow, a debug build panics and a release
build returns a byte before the position. -/
theorem C88_peek (W : ℕ) (d : Decoder) (hd : DecoderOk W d) (k : ℕ) (hk : k < 2 ^ W) :
    (∀ b, (remaining d)[k]? = some b → Decoder.peek W k d = pure (.ok b, d)) ∧
    ((remaining d).length ≤ k → d.pos + k < 2 ^ W → Decoder.peek W k d = pure (.error .invalidSignature, d)) ∧
    (2 ^ W ≤ d.pos + k → Decoder.peek W k d .debug = none ∧
      ∃ b, d.data[d.pos + k - 2 ^ W]? = some b ∧ Decoder.peek W k d .release = some (.ok b, d)) := by
  have hf := hd.full
  have hd2 := hd.2
  have hlen : (remaining d).length = d.data.length - d.pos := List.length_drop
  have key : Decoder.peek W k d = (do
      let i ← addU W d.pos k
      if i ≥ d.data.length then Decoder.fail else (idx d.data i : Dec UInt8) : Dec UInt8) d := rfl
  refine ⟨fun b hb => ?_, fun h1 h2 => ?_, fun h => ⟨?_, ?_⟩⟩
  · have hlt := (List.getElem?_eq_some_iff.1 hb).1
    rw [remaining, List.getElem?_drop] at hb
    obtain ⟨hi, hb⟩ := List.getElem?_eq_some_iff.1 hb
    rw [key, addU_pure (by omega)]
    show (if d.pos + k ≥ d.data.length then Decoder.fail else (idx d.data (d.pos + k) : Dec UInt8) : Dec UInt8) d = _
    rw [if_neg (by omega), idx_pure hi, hb]; rfl
  · rw [key, addU_pure (by omega)]
    show (if d.pos + k ≥ d.data.length then Decoder.fail else (idx d.data (d.pos + k) : Dec UInt8) : Dec UInt8) d = _
    rw [if_pos (by omega)]; rfl
  · exact lift_none (addU_big h (by omega) hk).1 _ d
  · have hi : d.pos + k - 2 ^ W < d.data.length := by omega
    refine ⟨d.data[d.pos + k - 2 ^ W], List.getElem?_eq_getElem hi, ?_⟩
    refine (congrFun key _).trans ((lift_some (addU_big h (by omega) hk).2 _ d).trans ?_)
    show (if d.pos + k - 2 ^ W ≥ d.data.length then Decoder.fail else (idx d.data (d.pos + k - 2 ^ W) : Dec UInt8) : Dec UInt8) d .release = _
    rw [if_neg (by omega), idx_pure hi]; rfl

theorem outside_ok {W : ℕ} {d : Decoder} (hd : DecoderOk W d) {k : ℕ} (hk : d.pos + k < 2 ^ W) :
    Decoder.outside W d k = pure (decide ((k = 0 ∧ remaining d = []) ∨ (remaining d).length < k)) := by
  obtain ⟨pre, e, _⟩ := split_decoder hd
  have hp : d.pos = pre.length := congrArg Decoder.pos e
  have := outside_pure (W := W) (pre := pre) (rest := remaining d) (k := k) (by omega)
  rwa [← e] at this

theorem outside_big {W : ℕ} {d : Decoder} (hd : DecoderOk W d) {k : ℕ} (hk : k < 2 ^ W) (h : 2 ^ W ≤ d.pos + k) :
    Decoder.outside W d k .debug = none ∧ Decoder.outside W d k .release = some false := by
  have hf := hd.full
  have hd2 := hd.2
  unfold Decoder.outside
  have hk0 : (k == 0) = false := by simp; omega
  rw [hk0, Bool.false_and, if_neg (by decide)]
  constructor
  · exact exec_none (addU_big h (by omega) hk).1 _
  · refine (exec_some (addU_big h (by omega) hk).2 _).trans ?_
    show some (decide _) = _
    rw [decide_eq_false (by omega)]

/-- C88. `peek_slice` returns the next `k` bytes without moving; it fails if there are fewer, and for `k = 0` at the end. If position and
argument overflow, it panics in both profiles. -/
theorem C88_peek_slice (W : ℕ) (d : Decoder) (hd : DecoderOk W d) (k : ℕ) (hk : k < 2 ^ W) :
    (k ≤ (remaining d).length → remaining d ≠ [] → Decoder.peekSlice W k d = pure (.ok ((remaining d).take k), d)) ∧
    ((remaining d).length < k ∨ remaining d = [] → d.pos + k < 2 ^ W → Decoder.peekSlice W k d = pure (.error .invalidSignature, d)) ∧
    (2 ^ W ≤ d.pos + k → ∀ π, Decoder.peekSlice W k d π = none) := by
  have hf := hd.full
  have hd2 := hd.2
  have hlen : (remaining d).length = d.data.length - d.pos := List.length_drop
  have key : Decoder.peekSlice W k d = (do
      let o ← Decoder.outside W d k
      if o then Decoder.fail else do
        let e ← addU W d.pos k
        slice d.data d.pos e : Dec (List UInt8)) d := rfl
  refine ⟨fun h1 h2 => ?_, fun h1 h2 => ?_, fun h π => ?_⟩
  · rw [key, outside_ok hd (by omega), decide_eq_false (by rintro (⟨_, h⟩ | h); exact h2 h; omega), addU_pure (by omega)]
    show (slice d.data d.pos (d.pos + k) : Dec (List UInt8)) d = _
    rw [slice_pure (by omega) (by omega), Nat.add_sub_cancel_left]; rfl
  · have hout : (k = 0 ∧ remaining d = []) ∨ (remaining d).length < k := by
      rcases h1 with h1 | h1
      · exact .inr h1
      · by_cases h0 : k = 0
        · exact .inl ⟨h0, h1⟩
        · right; rw [h1]; simp; omega
    rw [key, outside_ok hd h2, decide_eq_true hout]; rfl
  · cases π with
    | debug => exact lift_none (outside_big hd hk h).1 _ d
    | release =>
      refine (lift_some (outside_big hd hk h).2 _ d).trans ((lift_some (addU_big h (by omega) hk).2 _ d).trans (lift_end_none ?_ d))
      unfold slice
      rw [decide_eq_false (by omega)]; rfl

/-- C88. `skip` moves forward by `k`; it fails without moving if fewer bytes are left, and for `k = 0` at the end. If position and argument
overflow, a debug build panics and a release build moves backwards. -/
theorem C88_skip (W : ℕ) (d : Decoder) (hd : DecoderOk W d) (k : ℕ) (hk : k < 2 ^ W) :
    (k ≤ (remaining d).length → remaining d ≠ [] → Decoder.skip W k d = pure (.ok (), advance d k)) ∧
    ((remaining d).length < k ∨ remaining d = [] → d.pos + k < 2 ^ W → Decoder.skip W k d = pure (.error .invalidSignature, d)) ∧
    (2 ^ W ≤ d.pos + k → Decoder.skip W k d .debug = none ∧
      Decoder.skip W k d .release = some (.ok (), ⟨d.data, d.pos - (2 ^ W - k)⟩)) := by
  have hf := hd.full
  have hd2 := hd.2
  have hlen : (remaining d).length = d.data.length - d.pos := List.length_drop
  have key : Decoder.skip W k d = (do
      let o ← Decoder.outside W d k
      if o then Decoder.fail else do
        let e ← addU W d.pos k
        set ({ d with pos := e } : Decoder) : Dec Unit) d := rfl
  refine ⟨fun h1 h2 => ?_, fun h1 h2 => ?_, fun h => ⟨?_, ?_⟩⟩
  · rw [key, outside_ok hd (by omega), decide_eq_false (by rintro (⟨_, h⟩ | h); exact h2 h; omega), addU_pure (by omega)]
    rfl
  · have hout : (k = 0 ∧ remaining d = []) ∨ (remaining d).length < k := by
      rcases h1 with h1 | h1
      · exact .inr h1
      · by_cases h0 : k = 0
        · exact .inl ⟨h0, h1⟩
        · right; rw [h1]; simp; omega
    rw [key, outside_ok hd h2, decide_eq_true hout]; rfl
  · exact lift_none (outside_big hd hk h).1 _ d
  · refine (lift_some (outside_big hd hk h).2 _ d).trans ((lift_some (addU_big h (by omega) hk).2 _ d).trans ?_)
    show some (Except.ok (), (⟨d.data, d.pos + k - 2 ^ W⟩ : Decoder)) = _
    rw [show d.pos + k - 2 ^ W = d.pos - (2 ^ W - k) by omega]

/-! ## Tags, lengths and integers -/

theorem advance_eq {d : Decoder} {L t : List UInt8} (h : remaining d = L ++ t) {L' : List UInt8} (h' : remaining d = L' ++ t) :
    advance d L'.length = advance d L.length := by
  rw [List.append_cancel_right (h'.symm.trans h)]

/-- C88. `read_constructed_sequence` takes the byte `30`; another byte is taken as well, but with an error. -/
theorem C88_read_constructed_sequence (W : ℕ) (d : Decoder) (hd : DecoderOk W d) :
    (∀ t, remaining d = 0x30 :: t → Decoder.readConstructedSequence W d = pure (.ok (), advance d 1)) ∧
    (∀ b t, remaining d = b :: t → b ≠ 0x30 → Decoder.readConstructedSequence W d = pure (.error .invalidSignature, advance d 1)) ∧
    (remaining d = [] → Decoder.readConstructedSequence W d = pure (.error .invalidSignature, d)) := by
  have key : ∀ {b : UInt8} {d' : Decoder}, Decoder.read W d = pure (.ok b, d') → Decoder.readConstructedSequence W d =
      (if b == 0x30 then pure () else Decoder.fail : Dec Unit) d' := by
    intro b d' h
    have : Decoder.readConstructedSequence W d = (Decoder.read W d >>= fun r => ExceptT.bindCont (fun v => if v == 0x30 then pure () else Decoder.fail : UInt8 → Dec Unit) r.1 r.2) := rfl
    rw [this, h]; rfl
  obtain ⟨h1, h2⟩ := C88_read W d hd
  refine ⟨fun t h => ?_, fun b t h hb => ?_, fun h => ?_⟩
  · rw [key (h1 _ t h)]; rfl
  · rw [key (h1 _ t h), if_neg (by simpa using hb)]; rfl
  · have : Decoder.readConstructedSequence W d = (Decoder.read W d >>= fun r => ExceptT.bindCont (fun v => if v == 0x30 then pure () else Decoder.fail : UInt8 → Dec Unit) r.1 r.2) := rfl
    rw [this, h2 h]; rfl

/-- C88. `read_len` takes a DER length; a length of 128 or more must leave more bytes than it says. It fails on everything else, except
on the length `2 ^ W - 1` before `2 ^ (W - 8)` bytes or more: there a debug build panics and a release build returns the length. -/
theorem C88_read_len (W : ℕ) (d : Decoder) (hd : DecoderOk W d) :
    (∀ L t v, remaining d = L ++ t → DerLen L v → (128 ≤ v → v < t.length) → Decoder.readLen W d = pure (.ok v, advance d L.length)) ∧
    (∀ L t, remaining d = L ++ t → DerLen L (2 ^ W - 1) → 2 ^ (W - 8) ≤ t.length →
      Decoder.readLen W d .debug = none ∧ Decoder.readLen W d .release = some (.ok (2 ^ W - 1), advance d L.length)) ∧
    ((¬ ∃ L t v, remaining d = L ++ t ∧ DerLen L v ∧ (128 ≤ v → v < t.length)) → ¬ HugeLen W (remaining d) → Refuses (Decoder.readLen W) d) := by
  obtain ⟨pre, e, hsm⟩ := split_decoder hd
  have hsim : ¬ HugeLen W (remaining d) → ∀ pre, d = ⟨pre ++ remaining d, pre.length⟩ → Small W (pre.length + (remaining d).length) →
      SimAt pre (remaining d) (Decoder.readLen W) Pa.readLen := by
    intro hn pre e hsm
    rcases sim_readLen hsm with h | ⟨_, h, _⟩
    · exact h
    · exact absurd ((readLen_none_iff hsm).1 h) hn
  have hkeep := Decoder.keeps_readLen hd.full hd.2
  refine ⟨fun L t v hr hL ht => ?_, fun L t hr hL ht => ?_, fun h1 h2 => ?_⟩
  · have hp : Pa.readLen (remaining d) = some (v, t) := readLen_iff.2 ⟨L, hr, hL, ht⟩
    have hn : ¬ HugeLen W (remaining d) := fun h => by
      have h0 := (readLen_none_iff hsm).2 h
      rcases sim_readLen hsm with h | ⟨h, _⟩
      · exact h.debug_some h0
      · rw [hp] at h; cases h
    obtain ⟨L', h1, h2⟩ := (sim_result hd (hsim hn) hkeep).1 v t hp
    rw [h2, advance_eq hr h1]
  · obtain ⟨h1, h2⟩ := readLen_wrap hsm hr hL ht
    rw [← e] at h1 h2
    have hda : (pre ++ L) ++ t = d.data := by
      have := congrArg Decoder.data e
      rw [this, hr, List.append_assoc]
    have hp : d.pos = pre.length := congrArg Decoder.pos e
    rw [hda, List.length_append, ← hp] at h2
    constructor
    · have h1 : (Decoder.readLen W d .debug).bind _ = none := h1
      cases hx : Decoder.readLen W d .debug with
      | none => rfl
      | some r => rw [hx] at h1; cases h1
    · have h2 : (Decoder.readLen W d .release).bind _ = some (Except.ok (2 ^ W - 1, (⟨d.data, d.pos + L.length⟩ : Decoder))) := h2
      cases hx : Decoder.readLen W d .release with
      | none => rw [hx] at h2; cases h2
      | some r =>
        rw [hx] at h2
        obtain ⟨r | b, d1⟩ := r
        · cases (Option.some.inj h2 : Except.error _ = Except.ok _)
        · have h2 := (Option.some.inj h2 : Except.ok (b, d1) = Except.ok (2 ^ W - 1, ⟨d.data, d.pos + L.length⟩))
          rw [Except.ok.injEq, Prod.mk.injEq] at h2
          rw [h2.1, h2.2]; rfl
  · refine (sim_result hd (hsim h2) hkeep).2 ?_
    cases hp : Pa.readLen (remaining d) with
    | none => rfl
    | some r =>
      obtain ⟨v, t⟩ := r
      obtain ⟨L, h⟩ := readLen_iff.1 hp
      exact absurd ⟨L, t, v, h⟩ h1

/-- C88. `read_integer` takes what `StrictRead` describes and fails on everything else, except that a debug build panics where the
length makes `read_len` panic. -/
theorem C88_read_integer (W : ℕ) (d : Decoder) (hd : DecoderOk W d) :
    (∀ v t, StrictRead (remaining d) v t → ∃ x L, x.val = v ∧ remaining d = L ++ t ∧ Decoder.readInteger W d = pure (.ok x, advance d L.length)) ∧
    ((¬ ∃ v t, StrictRead (remaining d) v t) → (¬ ∃ l, remaining d = 0x02 :: l ∧ HugeLen W l) → Refuses (Decoder.readInteger W) d) ∧
    (∀ l, remaining d = 0x02 :: l → HugeLen W l →
      Decoder.readInteger W d .debug = none ∧ ∃ d', Decoder.readInteger W d .release = some (.error .invalidSignature, d')) := by
  obtain ⟨pre, e, hsm⟩ := split_decoder hd
  have hsim : (¬ ∃ l, remaining d = 0x02 :: l ∧ HugeLen W l) → ∀ pre, d = ⟨pre ++ remaining d, pre.length⟩ → Small W (pre.length + (remaining d).length) →
      SimAt pre (remaining d) (Decoder.readInteger W) Pa.readInteger := by
    intro hn pre e hsm
    rcases sim_readInteger hsm with h | ⟨_, h, _⟩
    · exact h
    · exact absurd ((readInteger_none_iff hsm).1 h) hn
  have hkeep := Decoder.keeps_readInteger (W_keep hd.1.1).1 hd.full hd.2
  refine ⟨fun v t h => ?_, fun h1 h2 => ?_, fun l hl h => ?_⟩
  · obtain ⟨x, rfl⟩ : ∃ x : Scalar, x.val = v := by
      obtain ⟨_, _, _, _, _, _, ⟨w, _, _, rfl, _⟩ | ⟨_, _, _, rfl, _⟩ | ⟨_, _, _, _, _, rfl, _⟩⟩ := h
      · exact ⟨intOf w, intOf_val w⟩
      · exact ⟨Scalar.zero, Scalar.zero_val⟩
      · exact ⟨Scalar.zero, Scalar.zero_val⟩
    have hp := readInteger_iff.2 h
    have hn : ¬ ∃ l, remaining d = 0x02 :: l ∧ HugeLen W l := fun h => by
      have h0 := (readInteger_none_iff hsm).2 h
      rcases sim_readInteger hsm with h | ⟨h, _⟩
      · exact h.debug_some h0
      · rw [hp] at h; cases h
    obtain ⟨L, h1, h2⟩ := (sim_result hd (hsim hn) hkeep).1 x t hp
    exact ⟨x, L, rfl, h1, h2⟩
  · refine (sim_result hd (hsim h2) hkeep).2 ?_
    cases hp : Pa.readInteger (remaining d) with
    | none => rfl
    | some r => exact absurd ⟨_, _, readInteger_iff.1 hp⟩ h1
  · have h0 := (readInteger_none_iff hsm).2 ⟨l, hl, h⟩
    rcases sim_readInteger hsm with h | ⟨_, _, _, h4, _⟩
    · exact absurd h0 h.debug_some
    · have h4 := h4 rfl
      rw [← e] at h0 h4
      constructor
      · have h0 : (Decoder.readInteger W d .debug).bind _ = none := h0
        cases hx : Decoder.readInteger W d .debug with
        | none => rfl
        | some r => rw [hx] at h0; cases h0
      · have h4 : (Decoder.readInteger W d .release).bind _ = some (Except.error Error.invalidSignature) := h4
        cases hx : Decoder.readInteger W d .release with
        | none => rw [hx] at h4; cases h4
        | some r =>
          rw [hx] at h4
          obtain ⟨r | b, d1⟩ := r
          · cases (Option.some.inj h4 : Except.error _ = Except.error _)
            exact ⟨d1, rfl⟩
          · cases (Option.some.inj h4 : Except.ok _ = Except.error _)

/-- C88. `read_seq_len_lax` takes a BER length and returns the byte below 128, or the number of bytes of the long form without looking
at them. It fails on everything else, and on the byte `80` at the end. -/
theorem C88_read_seq_len_lax (W : ℕ) (d : Decoder) (hd : DecoderOk W d) :
    (∀ (b : UInt8) t, remaining d = b :: t → b.toNat < 128 → Decoder.readSeqLenLax W d = pure (.ok b.toNat, advance d 1)) ∧
    (∀ (b : UInt8) c t, remaining d = b :: (c ++ t) → b.toNat = 128 + c.length → (c = [] → t ≠ []) →
      Decoder.readSeqLenLax W d = pure (.ok c.length, advance d (1 + c.length))) ∧
    ((¬ ∃ L t v, remaining d = L ++ t ∧ BerLen L v) ∨ remaining d = [0x80] → Refuses (Decoder.readSeqLenLax W) d) := by
  have hsim := sim_result hd (fun pre _ hs => sim_readSeqLenLax hs) (Decoder.keeps_readSeqLenLax (W_big hd.1.1).1 hd.1.2 hd.2)
  refine ⟨fun b t h hb => ?_, fun b c t h hb h0 => ?_, fun h => ?_⟩
  · obtain ⟨L, h1, h2⟩ := hsim.1 b.toNat t (readSeqLenLax_iff.2 (.inl ⟨b, hb, h, rfl⟩))
    rw [h2, advance_eq (L := [b]) h h1]; rfl
  · obtain ⟨L, h1, h2⟩ := hsim.1 c.length t (readSeqLenLax_iff.2 (.inr ⟨b, c, hb, h, rfl, h0⟩))
    rw [h2, advance_eq (L := b :: c) h h1, List.length_cons, Nat.add_comm]
  · refine hsim.2 ?_
    cases hp : Pa.readSeqLenLax (remaining d) with
    | none => rfl
    | some r =>
      obtain ⟨v, t⟩ := r
      exfalso
      rcases h with h | h
      · rcases readSeqLenLax_iff.1 hp with ⟨b, hb, e, _⟩ | ⟨b, c, hb, e, _⟩
        · exact h ⟨[b], t, _, e, .inl ⟨b, hb, rfl, rfl⟩⟩
        · exact h ⟨b :: c, t, _, e, .inr ⟨b, c, hb, rfl, rfl⟩⟩
      · rw [h] at hp
        rcases readSeqLenLax_iff.1 hp with ⟨b, hb, e, _⟩ | ⟨b, c, hb, e, _, h3⟩
        · cases e; revert hb; decide
        · rw [List.cons.injEq] at e
          have := List.append_eq_nil_iff.1 e.2.symm
          exact h3 this.1 this.2

/-- C88. `read_len_lax` takes a BER length below `2 ^ (W - 8)` that leaves at least as many bytes as it says; it fails on everything else. -/
theorem C88_read_len_lax (W : ℕ) (d : Decoder) (hd : DecoderOk W d) :
    (∀ L t v, remaining d = L ++ t → BerLen L v → v ≤ t.length → v < 2 ^ (W - 8) →
      Decoder.readLenLax W d = pure (.ok v, advance d L.length)) ∧
    ((¬ ∃ L t v, remaining d = L ++ t ∧ BerLen L v ∧ v ≤ t.length ∧ v < 2 ^ (W - 8)) → Refuses (Decoder.readLenLax W) d) := by
  have hsim := sim_result hd (fun pre _ hs => sim_readLenLax hs) (Decoder.keeps_readLenLax (W_keep hd.1.1).2 hd.1.2 hd.2)
  refine ⟨fun L t v h hL h1 h2 => ?_, fun h => ?_⟩
  · obtain ⟨L', e1, e2⟩ := hsim.1 v t ((readLenLax_iff hd.1.1).2 ⟨L, h, hL, h1, h2⟩)
    rw [e2, advance_eq h e1]
  · refine hsim.2 ?_
    cases hp : Pa.readLenLax W (remaining d) with
    | none => rfl
    | some r =>
      obtain ⟨v, t⟩ := r
      obtain ⟨L, h1⟩ := (readLenLax_iff hd.1.1).1 hp
      exact absurd ⟨L, t, v, h1⟩ h

/-- C88. `read_integer_lax` takes what `LaxRead` describes and fails on everything else. -/
theorem C88_read_integer_lax (W : ℕ) (d : Decoder) (hd : DecoderOk W d) :
    (∀ v t, LaxRead (2 ^ (W - 8)) (remaining d) v t →
      ∃ x L, x.val = v ∧ remaining d = L ++ t ∧ Decoder.readIntegerLax W d = pure (.ok x, advance d L.length)) ∧
    ((¬ ∃ v t, LaxRead (2 ^ (W - 8)) (remaining d) v t) → Refuses (Decoder.readIntegerLax W) d) := by
  have hsim := sim_result hd (fun pre _ hs => sim_readIntegerLax hs) (Decoder.keeps_readIntegerLax (W_keep hd.1.1).1 (W_keep hd.1.1).2 hd.1.2 hd.2)
  refine ⟨fun v t h => ?_, fun h => ?_⟩
  · obtain ⟨x, rfl⟩ : ∃ x : Scalar, x.val = v := by
      obtain ⟨_, c, _, _, _, _, ⟨_, rfl, _⟩ | ⟨_, rfl, _⟩⟩ := h
      · exact ⟨intOf _, intOf_val _⟩
      · exact ⟨Scalar.zero, Scalar.zero_val⟩
    obtain ⟨L, h1, h2⟩ := hsim.1 x t ((readIntegerLax_iff hd.1.1).2 h)
    exact ⟨x, L, rfl, h1, h2⟩
  · refine hsim.2 ?_
    cases hp : Pa.readIntegerLax W (remaining d) with
    | none => rfl
    | some r => exact absurd ⟨_, _, (readIntegerLax_iff hd.1.1).1 hp⟩ h

/-! ## Any sequence of calls -/

/-- A call of a public method. -/
inductive DecoderCall
  | remainingLen
  | read
  | peek (forward : ℕ)
  | peekSlice (len : ℕ)
  | skip (len : ℕ)
  | readConstructedSequence
  | readLen
  | readInteger
  | readSeqLenLax
  | readLenLax
  | readIntegerLax

/-- The argument of the call, if it has one. -/
def DecoderCall.arg : DecoderCall → ℕ
  | .peek k | .peekSlice k | .skip k => k
  | _ => 0

/-- The decoder after the call, whether it returns `Ok` or `Err`. -/
def DecoderCall.run (W : ℕ) (d : Decoder) : DecoderCall → Exec Decoder
  | .remainingLen => do let r ← Decoder.remainingLen d; pure r.2
  | .read => do let r ← Decoder.read W d; pure r.2
  | .peek k => do let r ← Decoder.peek W k d; pure r.2
  | .peekSlice k => do let r ← Decoder.peekSlice W k d; pure r.2
  | .skip k => do let r ← Decoder.skip W k d; pure r.2
  | .readConstructedSequence => do let r ← Decoder.readConstructedSequence W d; pure r.2
  | .readLen => do let r ← Decoder.readLen W d; pure r.2
  | .readInteger => do let r ← Decoder.readInteger W d; pure r.2
  | .readSeqLenLax => do let r ← Decoder.readSeqLenLax W d; pure r.2
  | .readLenLax => do let r ← Decoder.readLenLax W d; pure r.2
  | .readIntegerLax => do let r ← Decoder.readIntegerLax W d; pure r.2

/-- The decoder after a sequence of calls. -/
def runCalls (W : ℕ) : List DecoderCall → Decoder → Exec Decoder
  | [], d => pure d
  | c :: l, d => do let d ← c.run W d; runCalls W l d

theorem run_keeps {α : Type} {x : Dec α} {d d' : Decoder} {π : Profile} (hk : KeepsAt d x)
    (h : (do let r ← (x d : Exec (Except Error α × Decoder)); pure r.2 : Exec Decoder) π = some d') : d'.data = d.data ∧ d'.pos ≤ d.data.length := by
  have h : (x d π).bind (fun r => some r.2) = some d' := h
  obtain ⟨⟨o, d1⟩, h1, h2⟩ := Option.bind_eq_some_iff.1 h
  cases h2
  exact ⟨(hk π o _ h1).1, (hk π o _ h1).2.2⟩

theorem call_in_bounds {W : ℕ} {d d' : Decoder} (hd : DecoderOk W d) {c : DecoderCall} (hc : c.arg < 2 ^ W) {π : Profile}
    (h : c.run W d π = some d') : d'.data = d.data ∧ d'.pos ≤ d.data.length := by
  have h1 := W_keep hd.1.1
  cases c with
  | remainingLen => exact run_keeps (Decoder.keeps_remaining hd.2) h
  | read => exact run_keeps (Decoder.keeps_read hd.full hd.2) h
  | peek k => exact run_keeps (Decoder.keeps_peek hd.2) h
  | peekSlice k => exact run_keeps (Decoder.keeps_peekSlice hd.2) h
  | skip k =>
    by_cases hk : d.pos + k < 2 ^ W
    · exact run_keeps (Decoder.keeps_skip hk hd.2) h
    · obtain ⟨hd1, hr⟩ := (C88_skip W d hd k hc).2.2 (by omega)
      have h : (Decoder.skip W k d π).bind (fun r => some r.2) = some d' := h
      cases π with
      | debug => rw [hd1] at h; cases h
      | release =>
        rw [hr] at h
        cases (Option.some.inj h : _ = d')
        exact ⟨rfl, (Nat.sub_le _ _).trans hd.2⟩
  | readConstructedSequence => exact run_keeps (Decoder.keeps_constructed hd.full hd.2) h
  | readLen => exact run_keeps (Decoder.keeps_readLen hd.full hd.2) h
  | readInteger => exact run_keeps (Decoder.keeps_readInteger h1.1 hd.full hd.2) h
  | readSeqLenLax => exact run_keeps (Decoder.keeps_readSeqLenLax (W_big hd.1.1).1 hd.1.2 hd.2) h
  | readLenLax => exact run_keeps (Decoder.keeps_readLenLax h1.2 hd.1.2 hd.2) h
  | readIntegerLax => exact run_keeps (Decoder.keeps_readIntegerLax h1.1 h1.2 hd.1.2 hd.2) h

/-- C88. Whatever is called with whatever arguments, a decoder keeps its input and stays within it, in both profiles. -/
theorem C88_in_bounds (W : ℕ) (l : List DecoderCall) (hl : ∀ c ∈ l, c.arg < 2 ^ W) (d : Decoder) (hd : DecoderOk W d) (π : Profile) (d' : Decoder)
    (h : runCalls W l d π = some d') : d'.data = d.data ∧ DecoderOk W d' := by
  induction l generalizing d with
  | nil => cases (Option.some.inj h : d = d'); exact ⟨rfl, hd⟩
  | cons c l ih =>
    have h : (c.run W d π).bind (fun d => runCalls W l d π) = some d' := h
    obtain ⟨d1, h1, h2⟩ := Option.bind_eq_some_iff.1 h
    obtain ⟨e1, e2⟩ := call_in_bounds hd (hl c List.mem_cons_self) h1
    have hd1 : DecoderOk W d1 := ⟨by rw [e1]; exact hd.1, by rw [e1]; exact e2⟩
    obtain ⟨k1, k2⟩ := ih (fun c hc => hl c (List.mem_cons_of_mem _ hc)) d1 hd1 h2
    exact ⟨k1.trans e1, k2⟩

theorem Refuses.run {α : Type} {x : Dec α} {d : Decoder} (h : Refuses x d) : ∃ r, x d = pure r := by
  obtain ⟨d', h, _⟩ := h
  exact ⟨_, h⟩

theorem huge_length {W : ℕ} {d : Decoder} {l : List UInt8} (h : HugeLen W l) (hl : l.length ≤ (remaining d).length) : 2 ^ (W - 8) ≤ d.data.length := by
  obtain ⟨L, t, rfl, _, ht⟩ := h
  rw [remaining, List.length_drop, List.length_append] at hl
  omega

theorem call_no_panic {W : ℕ} {d : Decoder} (hd : DecoderOk W d) (hs : d.data.length < 2 ^ (W - 8)) {c : DecoderCall}
    (hc : d.data.length + c.arg < 2 ^ W) : ∃ d', c.run W d = pure d' := by
  have key : ∀ {α : Type} {x : Dec α}, (∃ r, x d = pure r) → ∃ d', (do let r ← (x d : Exec (Except Error α × Decoder)); pure r.2 : Exec Decoder) = pure d' := by
    rintro α x ⟨r, h⟩
    exact ⟨r.2, by rw [h]; rfl⟩
  have hd2 := hd.2
  have hlen : (remaining d).length = d.data.length - d.pos := List.length_drop
  cases c with
  | remainingLen => exact key ⟨_, C88_remaining_len W d hd⟩
  | read =>
    refine key ?_
    cases h : remaining d with
    | nil => exact ⟨_, (C88_read W d hd).2 h⟩
    | cons b t => exact ⟨_, (C88_read W d hd).1 b t h⟩
  | peek k =>
    refine key ?_
    have hc : d.data.length + k < 2 ^ W := hc
    by_cases h : k < (remaining d).length
    · exact ⟨_, (C88_peek W d hd k (by omega)).1 _ (List.getElem?_eq_getElem h)⟩
    · exact ⟨_, (C88_peek W d hd k (by omega)).2.1 (by omega) (by omega)⟩
  | peekSlice k =>
    refine key ?_
    have hc : d.data.length + k < 2 ^ W := hc
    by_cases h : (remaining d).length < k ∨ remaining d = []
    · exact ⟨_, (C88_peek_slice W d hd k (by omega)).2.1 h (by omega)⟩
    · rw [not_or, not_lt] at h
      exact ⟨_, (C88_peek_slice W d hd k (by omega)).1 h.1 h.2⟩
  | skip k =>
    refine key ?_
    have hc : d.data.length + k < 2 ^ W := hc
    by_cases h : (remaining d).length < k ∨ remaining d = []
    · exact ⟨_, (C88_skip W d hd k (by omega)).2.1 h (by omega)⟩
    · rw [not_or, not_lt] at h
      exact ⟨_, (C88_skip W d hd k (by omega)).1 h.1 h.2⟩
  | readConstructedSequence =>
    refine key ?_
    obtain ⟨h1, h2, h3⟩ := C88_read_constructed_sequence W d hd
    cases h : remaining d with
    | nil => exact ⟨_, h3 h⟩
    | cons b t =>
      by_cases hb : b = 0x30
      · exact ⟨_, h1 t (by rw [h, hb])⟩
      · exact ⟨_, h2 b t h hb⟩
  | readLen =>
    refine key ?_
    obtain ⟨h1, _, h3⟩ := C88_read_len W d hd
    by_cases h : ∃ L t v, remaining d = L ++ t ∧ DerLen L v ∧ (128 ≤ v → v < t.length)
    · obtain ⟨L, t, v, e1, e2, e3⟩ := h
      exact ⟨_, h1 L t v e1 e2 e3⟩
    · exact (h3 h fun hh => absurd (huge_length hh le_rfl) (by omega)).run
  | readInteger =>
    refine key ?_
    obtain ⟨h1, h2, _⟩ := C88_read_integer W d hd
    by_cases h : ∃ v t, StrictRead (remaining d) v t
    · obtain ⟨v, t, h⟩ := h
      obtain ⟨x, L, _, _, h⟩ := h1 v t h
      exact ⟨_, h⟩
    · refine (h2 h ?_).run
      rintro ⟨l, e, hh⟩
      exact absurd (huge_length (d := d) hh (by rw [e, List.length_cons]; omega)) (by omega)
  | readSeqLenLax =>
    refine key ?_
    obtain ⟨h1, h2, h3⟩ := C88_read_seq_len_lax W d hd
    by_cases h : (¬ ∃ L t v, remaining d = L ++ t ∧ BerLen L v) ∨ remaining d = [0x80]
    · exact (h3 h).run
    · rw [not_or, not_not] at h
      obtain ⟨⟨L, t, v, e, ⟨b, hb, rfl, rfl⟩ | ⟨b, c, hb, rfl, rfl⟩⟩, hne⟩ := h
      · exact ⟨_, h1 b t e hb⟩
      · refine ⟨_, h2 b c t e hb ?_⟩
        rintro rfl rfl
        exact hne (by rw [e, show b = 0x80 from UInt8.toNat_inj.1 hb]; rfl)
  | readLenLax =>
    refine key ?_
    obtain ⟨h1, h2⟩ := C88_read_len_lax W d hd
    by_cases h : ∃ L t v, remaining d = L ++ t ∧ BerLen L v ∧ v ≤ t.length ∧ v < 2 ^ (W - 8)
    · obtain ⟨L, t, v, e1, e2, e3, e4⟩ := h
      exact ⟨_, h1 L t v e1 e2 e3 e4⟩
    · exact (h2 h).run
  | readIntegerLax =>
    refine key ?_
    obtain ⟨h1, h2⟩ := C88_read_integer_lax W d hd
    by_cases h : ∃ v t, LaxRead (2 ^ (W - 8)) (remaining d) v t
    · obtain ⟨v, t, h⟩ := h
      obtain ⟨x, L, _, _, h⟩ := h1 v t h
      exact ⟨_, h⟩
    · exact (h2 h).run

/-- C88. On an input of fewer than `2 ^ (W - 8)` bytes, calls whose arguments do not overflow with the length do not panic and do the same in
both profiles. -/
theorem C88_no_panic (W : ℕ) (l : List DecoderCall) (d : Decoder) (hd : DecoderOk W d) (hs : d.data.length < 2 ^ (W - 8))
    (hl : ∀ c ∈ l, d.data.length + c.arg < 2 ^ W) : ∃ d', runCalls W l d = pure d' := by
  induction l generalizing d with
  | nil => exact ⟨d, rfl⟩
  | cons c l ih =>
    obtain ⟨d1, h1⟩ := call_no_panic hd hs (hl c List.mem_cons_self)
    have hc := hl c List.mem_cons_self
    obtain ⟨e1, e2⟩ := call_in_bounds hd (by omega) (congrFun h1 .debug)
    obtain ⟨d', h2⟩ := ih d1 ⟨by rw [e1]; exact hd.1, by rw [e1]; exact e2⟩ (by rw [e1]; exact hs)
      (fun c hc => by rw [e1]; exact hl c (List.mem_cons_of_mem _ hc))
    refine ⟨d', ?_⟩
    show (c.run W d >>= fun d => runCalls W l d) = _
    rw [h1, pure_bind, h2]

/-! ## Strict parsing -/

/-- C41. The debug build panics exactly on inputs that begin with the sequence tag and the length `2 ^ W - 1`, with `2 ^ (W - 8)` bytes or
more after it. -/
theorem C41_debug_panics_iff (W : ℕ) (b : List UInt8) (hb : IsSlice W b) :
    Signature.parseDer W b .debug = none ↔ ∃ l, b = 0x30 :: l ∧ HugeLen W l := by
  have hs : Small W (([] : List UInt8).length + b.length) := ⟨hb.1, by simpa using hb.2⟩
  have h0 : Signature.parseDer W b .debug = none ↔ exec (Signature.parseDerD W) ⟨[] ++ b, ([] : List UInt8).length⟩ .debug = none := by
    rw [Signature.parseDer, runDec_exec]
    exact Option.map_eq_none_iff
  have hcons : ∀ {c t : List UInt8}, b = c ++ t → Pa.constructed b = some ((), t) → b = 0x30 :: t := by
    intro c t e h
    cases b with
    | nil => cases h
    | cons x l =>
      have h : (if x == 0x30 then pure () else Pa.fail : Pa Unit) l = some ((), t) := h
      split at h
      · rename_i hx
        cases (Option.some.inj h : ((), l) = ((), t))
        rw [show x = 0x30 by simpa using hx]
      · cases h
  rw [h0]
  unfold Signature.parseDerD
  rw [SimAt.bind_none_iff (sim_constructed hs.full)]
  constructor
  · rintro ⟨⟨⟩, c, t, e, hc, h⟩
    have hs := hs.step e
    have e' := hcons e hc
    rcases (sim_readLen hs).bind_none_iff.1 h with h | ⟨k, c', t', e'', hk, h⟩
    · exact ⟨t, e', (readLen_none_iff hs).1 h⟩
    · exfalso
      have hs := hs.step e''
      obtain ⟨_, _, _, hlong⟩ := readLen_some hk
      rw [SimAt.dec_bind_ok exec_len] at h
      split at h
      · cases h
      · rename_i hne
        have hk : k = t'.length := by simpa using hne
        have hsmall : t'.length < 128 := by
          by_contra hge
          have := hlong (by omega)
          omega
        have hp : 2 ^ 24 ≤ 2 ^ (W - 8) := (pow_W hb.1).2.2
        have nohuge : ∀ {l : List UInt8}, l.length ≤ 128 → ¬ HugeLen W l := by
          rintro l hl ⟨L, u, rfl, _, hu⟩
          rw [List.length_append] at hl
          omega
        rcases (sim_readInteger hs).bind_none_iff.1 h with h | ⟨r, c1, t1, e1, _, h⟩
        · obtain ⟨l, el, hh⟩ := (readInteger_none_iff hs).1 h
          rw [el, List.length_cons] at hsmall
          exact nohuge (by omega) hh
        · have hs := hs.step e1
          have l1 : t1.length ≤ t'.length := by rw [e1, List.length_append]; omega
          rcases (sim_readInteger hs).bind_none_iff.1 h with h | ⟨s, c2, t2, e2, _, h⟩
          · obtain ⟨l, el, hh⟩ := (readInteger_none_iff hs).1 h
            rw [el, List.length_cons] at l1
            exact nohuge (by omega) hh
          · rw [SimAt.dec_bind_ok exec_len] at h
            split at h <;> cases h
  · rintro ⟨l, rfl, h⟩
    refine ⟨(), [0x30], l, rfl, rfl, ?_⟩
    exact bind_debug_none ((readLen_none_iff (hs.step rfl)).2 h)

/-! ## Concrete cases -/

/-- A decoder in the middle of its input. -/
def sampleDecoder : Decoder := ⟨[0x30, 0x02, 0x01, 0x05, 0x30], 1⟩

example : DecoderOk 32 sampleDecoder ∧ DecoderOk 64 sampleDecoder ∧ remaining sampleDecoder = [0x02, 0x01, 0x05, 0x30] :=
  ⟨⟨⟨.inl rfl, by decide⟩, by decide⟩, ⟨⟨.inr rfl, by decide⟩, by decide⟩, rfl⟩

-- the end of the input
example : DecoderOk 64 ⟨[0x30], 1⟩ ∧ remaining ⟨[0x30], 1⟩ = [] := ⟨⟨⟨.inr rfl, by decide⟩, by decide⟩, rfl⟩

-- `skip` with a huge argument moves back in a release build
example : Decoder.skip 32 (2 ^ 32 - 1) sampleDecoder .release = some (.ok (), ⟨sampleDecoder.data, 0⟩) := by
  have h := ((C88_skip 32 sampleDecoder ⟨⟨.inl rfl, by decide⟩, by decide⟩ (2 ^ 32 - 1) (by norm_num)).2.2 (by decide)).2
  exact h

-- an integer
example : StrictRead (remaining sampleDecoder) 5 [0x30] :=
  ⟨[1], [5], [0x30], rfl, .inl ⟨1, by decide, rfl, rfl⟩, by decide,
    .inl ⟨5, ⟨by decide, rfl, by decide, by decide⟩, by norm_num, by rw [component, if_pos (by norm_num [n])], rfl, by decide⟩⟩

-- a redundant negative integer is accepted as zero and not skipped
example : StrictRead [0x02, 0x02, 0xff, 0xff] 0 [0xff, 0xff] :=
  ⟨[2], [0xff, 0xff], [], rfl, .inl ⟨2, by decide, rfl, rfl⟩, by decide, .inr (.inr ⟨0xff, [0xff], rfl, by decide, by decide, rfl, rfl⟩)⟩

-- a minimal negative integer is refused
example : Decoder.readInteger 64 ⟨[0x02, 0x02, 0xff, 0x7f], 0⟩ = pure (.error .invalidSignature, ⟨[0x02, 0x02, 0xff, 0x7f], 2⟩) := by
  funext π; cases π <;> rfl

-- the length that overflows
example : ∃ l, HugeLen 32 l ∧ l.length < 2 ^ 31 := by
  refine ⟨[0x84, 0xff, 0xff, 0xff, 0xff] ++ List.replicate (2 ^ 24) 0, ⟨_, _, rfl, .inr ⟨0x84, [0xff, 0xff, 0xff, 0xff], rfl, by decide, rfl, by decide, by decide,
    by decide⟩, by rw [List.length_replicate]⟩, ?_⟩
  rw [List.length_append, List.length_replicate]; norm_num

-- lax lengths
example : BerLen [0x82, 0x00, 0x03] 3 ∧ ∃ v t, LaxRead (2 ^ 24) [0x02, 0x82, 0x00, 0x01, 0x07] v t :=
  ⟨.inr ⟨0x82, [0x00, 0x03], rfl, rfl, rfl⟩, 7, [], [0x82, 0x00, 0x01], [0x07], [], rfl, .inr ⟨0x82, [0x00, 0x01], rfl, rfl, rfl⟩, by norm_num,
    .inl (by rw [show beNat [7] = 7 from rfl]; exact ⟨by norm_num, by norm_num [component, n], rfl, by norm_num⟩)⟩

-- a sequence of calls
example : ∃ d', runCalls 64 [.readInteger, .skip 3, .peek 0, .readIntegerLax, .remainingLen] sampleDecoder = pure d' :=
  C88_no_panic 64 _ _ ⟨⟨.inr rfl, by decide⟩, by decide⟩ (by decide) (by decide)

/-! ## The buffer of `serialize_der` -/

/-- C89. A new buffer has the size it is given and reads as that many zeros; beyond 72, both ways to borrow it panic in both profiles. -/
theorem C89_new (k : ℕ) :
    (SignatureArray.new k).len = k ∧ ((SignatureArray.new k).isEmpty = true ↔ k = 0) ∧
    (k ≤ 72 → (SignatureArray.new k).asRef = pure (List.replicate k 0)) ∧
    (72 < k → ∀ π, (SignatureArray.new k).asRef π = none ∧ ∀ f, (SignatureArray.new k).asMut f π = none) := by
  refine ⟨rfl, ?_, fun h => ?_, fun h π => ?_⟩
  · simp [SignatureArray.isEmpty, SignatureArray.len, SignatureArray.new]
  · unfold SignatureArray.asRef
    rw [slice_pure (Nat.zero_le _) (by simpa [SignatureArray.new] using h)]
    rw [SignatureArray.new, Vector.toList_replicate, List.drop_zero, Nat.sub_zero, List.take_replicate, Nat.min_eq_left h]
  · have h1 : slice (SignatureArray.new k).buf.toList 0 (SignatureArray.new k).size π = none := by
      unfold slice
      rw [show (decide (0 ≤ (SignatureArray.new k).size) && decide ((SignatureArray.new k).size ≤ (SignatureArray.new k).buf.toList.length)) = false by
        simp [SignatureArray.new]; omega]
      rfl
    exact ⟨h1, fun f => exec_none h1 _⟩

/-- C89. What is written through `as_mut` is read back through `as_ref`, and the size stays. -/
theorem C89_write (a : SignatureArray) (l l' : List UInt8) (f : List UInt8 → Exec (List UInt8)) (ha : a.asRef = pure l) (hf : f l = pure l')
    (hl : l'.length = l.length) : ∃ a', a.asMut f = pure a' ∧ a'.len = a.len ∧ a'.asRef = pure l' := by
  have hs : a.size ≤ 72 := by
    by_contra h
    have h1 : slice a.buf.toList 0 a.size .debug = none := by
      unfold slice
      rw [show (decide (0 ≤ a.size) && decide (a.size ≤ a.buf.toList.length)) = false by simp; omega]
      rfl
    have h2 := congrFun ha .debug
    rw [SignatureArray.asRef, h1] at h2
    cases h2
  have e : a.asRef = pure (a.buf.toList.take a.size) := by
    unfold SignatureArray.asRef
    rw [slice_pure (Nat.zero_le _) (by simpa using hs)]; rfl
  obtain rfl : a.buf.toList.take a.size = l := Option.some.inj (congrFun (e.symm.trans ha) .debug)
  have hlen : l'.length = a.size := by rw [hl, List.length_take]; simp; omega
  obtain ⟨a', h1, h2, _, rfl, _, h3⟩ := Signature.asMut_runs (f := f) (P := fun x => x = l') hs (by rw [hf]; exact runs_pure rfl) (fun x hx => by rw [hx, hlen])
  exact ⟨a', h1, h2, h3⟩

/-- C89. The buffer that `serialize_der` returns: `len` is the length of what `as_ref` returns, the DER encoding; it is at most 72, and
the buffer is not empty. -/
theorem C89_serialize_der (sig : Signature) :
    ∃ a b, Signature.serializeDerArray sig = pure a ∧ a.asRef = pure b ∧ Signature.serializeDer sig = pure b ∧ a.len = b.length ∧ b.length ≤ 72 ∧
      a.isEmpty = false ∧ DerSignature sig.r.val sig.s.val b := by
  obtain ⟨a, h1, b, h2, h3, h4, h5⟩ := Signature.serializeDerArray_runs sig
  refine ⟨a, b, h1, h2, ?_, h3, h5, ?_, h4⟩
  · unfold Signature.serializeDer
    rw [h1, pure_bind, h2]
  · obtain ⟨_, _, _, _, L, _, rfl⟩ := h4
    simp [SignatureArray.isEmpty, h3]

-- a buffer of 8 bytes and a closure that writes to it
example : ∃ a', (SignatureArray.new 8).asMut (fun l => pure (l.set 0 0x30)) = pure a' ∧ a'.len = 8 ∧
    a'.asRef = pure [0x30, 0, 0, 0, 0, 0, 0, 0] :=
  C89_write (SignatureArray.new 8) _ _ _ ((C89_new 8).2.2.1 (by norm_num)) rfl rfl

end Verif.Props
