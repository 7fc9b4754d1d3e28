import Verif.Proofs.DerParse

/-! The methods of the decoder keep its input and its position within bounds, also when they fail. -/

namespace Verif

/-- Run from `d`, the method leaves the input alone, does not move back and stays within the input, whatever it returns. -/
def KeepsAt {α : Type} (d : Decoder) (x : Dec α) : Prop :=
  ∀ π o d', x d π = some (o, d') → d'.data = d.data ∧ d.pos ≤ d'.pos ∧ d'.pos ≤ d.data.length

namespace KeepsAt
variable {α β : Type} {d : Decoder}

theorem pure {a : α} (h : d.pos ≤ d.data.length) : KeepsAt d (Pure.pure a) := by
  intro π o d' e
  cases (Option.some.inj e : _ = (o, d'))
  exact ⟨rfl, le_rfl, h⟩

theorem fail (h : d.pos ≤ d.data.length) : KeepsAt d (Decoder.fail : Dec α) := by
  intro π o d' e
  cases (Option.some.inj e : _ = (o, d'))
  exact ⟨rfl, le_rfl, h⟩

theorem bind {x : Dec α} {g : α → Dec β} (hx : KeepsAt d x)
    (hg : ∀ π a d', x d π = some (.ok a, d') → d'.data = d.data → d.pos ≤ d'.pos → d'.pos ≤ d'.data.length → KeepsAt d' (g a)) :
    KeepsAt d (x >>= g) := by
  intro π o d' e
  have e : (x d π).bind _ = some (o, d') := e
  cases hv : x d π with
  | none => rw [hv] at e; cases e
  | some r =>
    rw [hv] at e
    obtain ⟨r, d1⟩ := r
    obtain ⟨h1, h2, h3⟩ := hx π r d1 hv
    cases r with
    | error er =>
      cases (Option.some.inj e : _ = (o, d'))
      exact ⟨h1, h2, h3⟩
    | ok a =>
      obtain ⟨k1, k2, k3⟩ := hg π a d1 hv h1 h2 (by rw [h1]; exact h3) π o d' e
      rw [h1] at k1 k3
      exact ⟨k1, h2.trans k2, k3⟩

theorem lift {x : Exec α} (h : d.pos ≤ d.data.length) : KeepsAt d (x : Dec α) := by
  intro π o d' e
  have e : (((x π).bind _).bind _) = some (o, d') := e
  cases hv : x π with
  | none => rw [hv] at e; cases e
  | some a =>
    rw [hv] at e
    cases (Option.some.inj e : _ = (o, d'))
    exact ⟨rfl, le_rfl, h⟩

theorem ite {c : Prop} [Decidable c] {x y : Dec α} (hx : c → KeepsAt d x) (hy : ¬ c → KeepsAt d y) : KeepsAt d (if c then x else y) := by
  split
  · exact hx ‹_›
  · exact hy ‹_›

theorem bind_lift {x : Exec α} {g : α → Dec β} (h : d.pos ≤ d.data.length) (hg : ∀ π a, x π = some a → KeepsAt d (g a)) :
    KeepsAt d (do let v ← (x : Dec α); g v) := by
  refine (lift h).bind fun π a d' e h1 h2 h3 => ?_
  have e : (((x π).bind _).bind _) = some (Except.ok a, d') := e
  cases hv : x π with
  | none => rw [hv] at e; cases e
  | some b =>
    rw [hv] at e
    cases (Option.some.inj e : _ = (_, d'))
    exact hg π _ hv

theorem bind_get {g : Decoder → Dec β} (hg : KeepsAt d (g d)) : KeepsAt d (do let v ← get; g v) := hg

/-- As a whole. -/
theorem set_ {d' : Decoder} (h1 : d'.data = d.data) (h2 : d.pos ≤ d'.pos) (h3 : d'.pos ≤ d.data.length) : KeepsAt d (set d' : Dec Unit) := by
  intro π o d2 e
  cases (Option.some.inj e : _ = (o, d2))
  exact ⟨h1, h2, h3⟩

theorem bind_set {d' : Decoder} {g : Unit → Dec β} (h1 : d'.data = d.data) (h2 : d.pos ≤ d'.pos) (h3 : d'.pos ≤ d.data.length)
    (hg : KeepsAt d' (g ())) : KeepsAt d (do set d'; g ()) := by
  refine (set_ h1 h2 h3).bind fun π a d2 e _ _ _ => ?_
  cases (Option.some.inj e : _ = (_, d2))
  exact hg

end KeepsAt

theorem addU_some {W a b v : ℕ} {π : Profile} (h : addU W a b π = some v) : v = (a + b) % 2 ^ W := by
  unfold addU at h
  have h : (dassert (decide (a + b < 2 ^ W)) π).bind (fun _ => some ((a + b) % 2 ^ W)) = some v := h
  cases hd : dassert (decide (a + b < 2 ^ W)) π with
  | none => rw [hd] at h; cases h
  | some u => rw [hd] at h; exact (Option.some.inj h).symm

namespace Decoder
variable {W : ℕ} {d : Decoder}

theorem keeps_remaining (h : d.pos ≤ d.data.length) : KeepsAt d remainingLen :=
  KeepsAt.bind_get (KeepsAt.lift h)

theorem keeps_read (hW : d.data.length < 2 ^ W) (h : d.pos ≤ d.data.length) : KeepsAt d (read W) := by
  refine KeepsAt.bind_get (KeepsAt.ite (fun _ => KeepsAt.fail h) fun hlt => KeepsAt.bind_lift h fun _ v _ => KeepsAt.bind_lift h fun π e he => ?_)
  have he := addU_some he
  rw [Nat.mod_eq_of_lt (by omega)] at he
  refine KeepsAt.bind_set (d' := { d with pos := e }) (g := fun _ => Pure.pure v) rfl ?_ ?_ (KeepsAt.pure ?_)
  · show d.pos ≤ e; omega
  · show e ≤ d.data.length; omega
  · show e ≤ d.data.length; omega

theorem keeps_peek {k : ℕ} (h : d.pos ≤ d.data.length) : KeepsAt d (peek W k) :=
  KeepsAt.bind_get (KeepsAt.bind_lift h fun _ _ _ => KeepsAt.ite (fun _ => KeepsAt.fail h) fun _ => KeepsAt.lift h)

theorem keeps_peekSlice {k : ℕ} (h : d.pos ≤ d.data.length) : KeepsAt d (peekSlice W k) :=
  KeepsAt.bind_get (KeepsAt.bind_lift h fun _ _ _ => KeepsAt.ite (fun _ => KeepsAt.fail h) fun _ => KeepsAt.bind_lift h fun _ _ _ => KeepsAt.lift h)

theorem outside_some {k : ℕ} {π : Profile} (h : outside W d k π = some false) : (d.pos + k) % 2 ^ W ≤ d.data.length := by
  unfold outside at h
  split at h
  · cases h
  · have h : (addU W d.pos k π).bind (fun i => some (decide (i > d.data.length))) = some false := h
    cases ha : addU W d.pos k π with
    | none => rw [ha] at h; cases h
    | some v =>
      rw [ha] at h
      have h := Option.some.inj h
      rw [← addU_some ha]
      simpa using h

theorem keeps_skip {k : ℕ} (hk : d.pos + k < 2 ^ W) (h : d.pos ≤ d.data.length) : KeepsAt d (skip W k) := by
  refine KeepsAt.bind_get (KeepsAt.bind_lift h fun π o ho => KeepsAt.ite (fun _ => KeepsAt.fail h) fun hof => KeepsAt.bind_lift h fun π' e he => ?_)
  have : o = false := by simpa using hof
  subst this
  have h1 := outside_some ho
  have he := addU_some he
  rw [Nat.mod_eq_of_lt hk] at h1 he
  exact KeepsAt.set_ rfl (by show d.pos ≤ e; omega) (by show e ≤ _; omega)

theorem keeps_constructed (hW : d.data.length < 2 ^ W) (h : d.pos ≤ d.data.length) : KeepsAt d (readConstructedSequence W) :=
  (keeps_read hW h).bind fun _ _ _ _ _ _ h' => KeepsAt.ite (fun _ => KeepsAt.pure h') fun _ => KeepsAt.fail h'

theorem keeps_readLenLoop : ∀ {k ret : ℕ} {d : Decoder}, d.data.length < 2 ^ W → d.pos ≤ d.data.length → KeepsAt d (readLenLoop W k ret)
  | 0, _, _, _, h => KeepsAt.pure h
  | _ + 1, _, _, hW, h => (keeps_read hW h).bind fun _ _ d' _ e _ h' => KeepsAt.bind_lift h' fun _ _ _ =>
      (keeps_remaining h').bind fun _ _ _ _ e' _ h2 => KeepsAt.ite (fun _ => KeepsAt.fail h2) fun _ => keeps_readLenLoop (by rw [e', e]; exact hW) h2

theorem keeps_readLen (hW : d.data.length < 2 ^ W) (h : d.pos ≤ d.data.length) : KeepsAt d (readLen W) := by
  refine (keeps_read hW h).bind fun _ b d1 _ e1 _ h1 => KeepsAt.ite (fun _ => KeepsAt.fail h1) fun _ => KeepsAt.ite (fun _ => KeepsAt.pure h1)
    fun _ => KeepsAt.ite (fun _ => KeepsAt.fail h1) fun _ => ?_
  refine (keeps_remaining h1).bind fun _ _ d2 _ e2 _ h2 => KeepsAt.ite (fun _ => KeepsAt.fail h2) fun _ => (keeps_peek h2).bind fun _ _ d3 _ e3 _ h3 =>
    KeepsAt.ite (fun _ => KeepsAt.fail h3) fun _ => KeepsAt.ite (fun _ => KeepsAt.fail h3) fun _ =>
    (keeps_readLenLoop (by rw [e3, e2, e1]; exact hW) h3).bind fun _ _ _ _ _ _ h4 => KeepsAt.ite (fun _ => KeepsAt.fail h4) fun _ => KeepsAt.pure h4

theorem keeps_badLead {c : UInt8} {k : ℕ} (h : d.pos ≤ d.data.length) : KeepsAt d (badLead W c k) :=
  (keeps_peek h).bind fun _ _ _ _ _ _ h1 => KeepsAt.ite (fun _ => (keeps_peek h1).bind fun _ _ _ _ _ _ h2 => KeepsAt.pure h2) fun _ => KeepsAt.pure h1

theorem keeps_skipZeros : ∀ {k : ℕ} {d : Decoder}, d.data.length < 2 ^ W → d.pos ≤ d.data.length → KeepsAt d (skipZeros W k)
  | 0, _, _, h => KeepsAt.pure h
  | _ + 1, _, hW, h => (keeps_peek h).bind fun _ _ _ _ e1 _ h1 => KeepsAt.ite
      (fun _ => (keeps_read (by rw [e1]; exact hW) h1).bind fun _ _ _ _ e2 _ h2 => keeps_skipZeros (by rw [e2, e1]; exact hW) h2) fun _ => KeepsAt.pure h1

theorem slice_some {v l : List UInt8} {a b : ℕ} {π : Profile} (h : slice v a b π = some l) : a ≤ b ∧ b ≤ v.length := by
  unfold slice at h
  have h : (rassert (decide (a ≤ b) && decide (b ≤ v.length)) π).bind _ = some l := h
  by_contra hc
  rw [show rassert (decide (a ≤ b) && decide (b ≤ v.length)) π = none by
    rw [show (decide (a ≤ b) && decide (b ≤ v.length)) = false by
      rw [Bool.eq_false_iff]; intro h; apply hc; simpa using h]
    rfl] at h
  cases h

theorem peekSlice_some {k : ℕ} {π : Profile} {l : List UInt8} {d' : Decoder} (hW : d.data.length < 2 ^ W) (hk : k < 2 ^ W) (hd : d.pos ≤ d.data.length)
    (h : peekSlice W k d π = some (.ok l, d')) : d' = d ∧ d.pos + k ≤ d.data.length := by
  have h : (((outside W d k π).bind _).bind _).bind _ = some (Except.ok l, d') := h
  cases ho : outside W d k π with
  | none => rw [ho] at h; cases h
  | some o =>
    rw [ho] at h
    cases o with
    | true => cases (Option.some.inj h : _ = (Except.ok l, d'))
    | false =>
      have h : (((addU W d.pos k π).bind _).bind _).bind _ = some (Except.ok l, d') := h
      cases ha : addU W d.pos k π with
      | none => rw [ha] at h; cases h
      | some e =>
        rw [ha] at h
        have h : (((slice d.data d.pos e π).bind _).bind _) = some (Except.ok l, d') := h
        cases hs : slice d.data d.pos e π with
        | none => rw [hs] at h; cases h
        | some l' =>
          rw [hs] at h
          cases (Option.some.inj h : _ = (Except.ok l, d'))
          refine ⟨rfl, ?_⟩
          obtain ⟨h1, h2⟩ := slice_some hs
          have he := addU_some ha
          by_cases hlt : d.pos + k < 2 ^ W
          · rw [Nat.mod_eq_of_lt hlt] at he; omega
          · rw [Nat.mod_eq_sub_mod (by omega), Nat.mod_eq_of_lt (by omega)] at he; omega

theorem keeps_finishInt {ov : Bool} {k : ℕ} (hW : d.data.length < 2 ^ W) (hk : ov = false → k < 2 ^ W) (h : d.pos ≤ d.data.length) :
    KeepsAt d (finishInt W ov k) := by
  refine KeepsAt.ite (fun hov => ?_) fun _ => KeepsAt.pure h
  refine (keeps_peekSlice h).bind fun π l d' hl e1 _ h1 => ?_
  obtain ⟨rfl, h2⟩ := peekSlice_some hW (hk (by simpa using hov)) h hl
  refine KeepsAt.bind_lift h fun _ _ _ => (keeps_skip (by omega) h).bind fun _ _ _ _ _ _ h3 => KeepsAt.bind_lift h3 fun _ _ _ => KeepsAt.pure h3

theorem keeps_readInteger (h32 : 32 < 2 ^ W) (hW : d.data.length < 2 ^ W) (h : d.pos ≤ d.data.length) : KeepsAt d (readInteger W) := by
  refine (keeps_read hW h).bind fun _ _ d1 _ e1 _ h1 => KeepsAt.ite (fun _ => KeepsAt.fail h1) fun _ => ?_
  rw [← e1] at hW
  refine (keeps_readLen hW h1).bind fun _ _ d2 _ e2 _ h2 => (keeps_remaining h2).bind fun _ _ d3 _ e3 _ h3 => KeepsAt.ite (fun _ => KeepsAt.fail h3) fun _ => ?_
  refine (keeps_badLead h3).bind fun _ _ d4 _ e4 _ h4 => KeepsAt.ite (fun _ => KeepsAt.fail h4) fun _ => ?_
  refine (keeps_badLead h4).bind fun _ _ d5 _ e5 _ h5 => KeepsAt.ite (fun _ => KeepsAt.fail h5) fun _ => ?_
  refine (keeps_peek h5).bind fun _ _ d6 _ e6 _ h6 => ?_
  rw [← e2, ← e3, ← e4, ← e5, ← e6] at hW
  refine (keeps_skipZeros hW h6).bind fun _ k d7 _ e7 _ h7 => keeps_finishInt (by rw [e7]; exact hW) (fun hov => ?_) h7
  simp only [Bool.or_eq_false_iff, decide_eq_false_iff_not] at hov
  omega

theorem keeps_readSeqLenLax (h256 : 256 ≤ 2 ^ (W - 1)) (hW : d.data.length < 2 ^ (W - 1)) (h : d.pos ≤ d.data.length) : KeepsAt d (readSeqLenLax W) := by
  have h2W : 2 ^ (W - 1) * 2 = 2 ^ W := by
    rw [← pow_succ]
    cases W with
    | zero => simp at h256
    | succ W => rfl
  refine (keeps_read (by omega) h).bind fun _ b d1 _ e1 _ h1 => KeepsAt.ite (fun _ => ?_) fun _ => KeepsAt.pure h1
  refine (keeps_remaining h1).bind fun _ _ d2 _ e2 _ h2 => KeepsAt.ite (fun _ => KeepsAt.fail h2) fun _ => ?_
  rw [e2, e1] at h2
  have hb : (b - 0x80).toNat < 256 := u8_le _ |> Nat.lt_succ_of_le
  exact (keeps_skip (by omega) (by rw [e2, e1]; exact h2)).bind fun _ _ _ _ _ _ h3 => KeepsAt.pure h3

theorem keeps_skipZerosLax (hone : 2 ^ (W - 1) < 2 ^ W) : ∀ {k : ℕ} {d : Decoder}, d.data.length < 2 ^ (W - 1) → d.pos ≤ d.data.length → KeepsAt d (skipZerosLax W k)
  | 0, _, _, h => KeepsAt.pure h
  | _ + 1, d, hW, h => (keeps_peek h).bind fun _ _ d1 _ e1 _ h1 => KeepsAt.ite
      (fun _ => (keeps_skip (by rw [← e1] at hW; omega) h1).bind fun _ _ _ _ e2 _ h2 => keeps_skipZerosLax hone (by rw [e2, e1]; exact hW) h2) fun _ => KeepsAt.pure h1

theorem keeps_readLenLaxLoop : ∀ {k ret : ℕ} {d : Decoder}, d.data.length < 2 ^ W → d.pos ≤ d.data.length → KeepsAt d (readLenLaxLoop W k ret)
  | 0, _, _, _, h => KeepsAt.pure h
  | _ + 1, _, _, hW, h => (keeps_read hW h).bind fun _ _ _ _ e1 _ h1 => KeepsAt.bind_lift h1 fun _ _ _ => keeps_readLenLaxLoop (by rw [e1]; exact hW) h1

theorem keeps_readLenLaxEnd {v : ℕ} (h : d.pos ≤ d.data.length) : KeepsAt d (readLenLaxEnd v) :=
  (keeps_remaining h).bind fun _ _ _ _ _ _ h1 => KeepsAt.ite (fun _ => KeepsAt.fail h1) fun _ => KeepsAt.pure h1

theorem keeps_readLenLax (hone : 2 ^ (W - 1) < 2 ^ W) (hW : d.data.length < 2 ^ (W - 1)) (h : d.pos ≤ d.data.length) : KeepsAt d (readLenLax W) := by
  refine (keeps_read (by omega) h).bind fun _ b d1 _ e1 _ h1 => KeepsAt.ite (fun _ => ?_) fun _ => keeps_readLenLaxEnd h1
  rw [← e1] at hW
  refine KeepsAt.bind ?_ fun _ _ _ _ _ _ h2 => keeps_readLenLaxEnd h2
  refine (keeps_remaining h1).bind fun _ _ d2 _ e2 _ h2 => KeepsAt.ite (fun _ => KeepsAt.fail h2) fun _ => ?_
  rw [← e2] at hW
  refine (keeps_skipZerosLax hone hW h2).bind fun _ _ d3 _ e3 _ h3 => KeepsAt.ite (fun _ => KeepsAt.fail h3) fun _ => keeps_readLenLaxLoop (by rw [e3]; omega) h3

theorem keeps_readIntegerLax (h32 : 32 < 2 ^ W) (hone : 2 ^ (W - 1) < 2 ^ W) (hW : d.data.length < 2 ^ (W - 1)) (h : d.pos ≤ d.data.length) :
    KeepsAt d (readIntegerLax W) := by
  refine (keeps_read (by omega) h).bind fun _ _ d1 _ e1 _ h1 => KeepsAt.ite (fun _ => KeepsAt.fail h1) fun _ => ?_
  rw [← e1] at hW
  refine (keeps_readLenLax hone hW h1).bind fun _ _ d2 _ e2 _ h2 => ?_
  rw [← e2] at hW
  refine (keeps_skipZerosLax hone hW h2).bind fun _ k d3 _ e3 _ h3 => keeps_finishInt (by rw [e3]; omega) (fun hov => ?_) h3
  simp only [decide_eq_false_iff_not] at hov
  omega

end Decoder
end Verif
