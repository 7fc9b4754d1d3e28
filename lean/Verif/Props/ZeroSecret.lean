import Verif.Proofs.ZeroSecret
import Verif.Props.Degenerate
import Verif.Props.Keys

/-!
# The public key of a zero secret (C108)

`SecretKey::clear` leaves zero; `from_secret_key` accepts it and returns infinity with both coordinates zero.
-/

namespace Verif.Props
open Verif Spec

/-- The value `from_secret_key` returns for a zero secret: infinity, with coordinates that are zero. -/
def Blank (pk : PublicKey) : Prop :=
  Coord pk.pt.x ∧ Coord pk.pt.y ∧ pk.pt.infinity = true ∧ (pk.pt.x.val : Fp) = 0 ∧ (pk.pt.y.val : Fp) = 0

theorem Blank.x {pk : PublicKey} (h : Blank pk) : FElem.Fe pk.pt.x 8 0 := ⟨h.1.1, h.1.2, h.2.2.2.1⟩
theorem Blank.y {pk : PublicKey} (h : Blank pk) : FElem.Fe pk.pt.y 8 0 := ⟨h.2.1.1, h.2.1.2, h.2.2.2.2⟩

/-- C108. The key of a secret that is zero modulo `n` is infinity, with both coordinates zero. -/
theorem C108_from_secret_key (sk : SecretKey) (h : n ∣ secretInt sk) : ∃ pk, PublicKey.fromSecretKey sk = pure pk ∧ Blank pk := by
  obtain ⟨pk, hpk, hx, hy, hi⟩ := fromSecretKey_zero (k := sk) ((smul_eq_zero_iff G_ne_zero).2 h)
  have hx := hx.mono (show 1 ≤ 8 by norm_num)
  have hy := hy.mono (show 1 ≤ 8 by norm_num)
  exact ⟨pk, hpk, ⟨hx.1, hx.2.1⟩, ⟨hy.1, hy.2.1⟩, hi, hx.2.2, hy.2.2⟩

/-- C108. Its encodings: a debug build panics; a release build writes zeros behind the tag of a point. -/
theorem C108_serialize (pk : PublicKey) (h : Blank pk) :
    PublicKey.serialize pk .debug = none ∧ PublicKey.serializeCompressed pk .debug = none ∧
    (∃ b, PublicKey.serialize pk .release = some b ∧ b.toList = 0x04 :: List.replicate 64 0) ∧
    (∃ b, PublicKey.serializeCompressed pk .release = some b ∧ b.toList = 0x02 :: List.replicate 32 0) := by
  have hd : (!pk.pt.infinity) = false := by rw [h.2.2.1]; rfl
  obtain ⟨fx, ex, hfx, _⟩ := FElem.fe_normalizeVar h.x (by norm_num)
  obtain ⟨fy, ey, hfy, _⟩ := FElem.fe_normalizeVar h.y (by norm_num)
  obtain ⟨bx, ebx, hbx⟩ := FElem.b32_runs hfx
  obtain ⟨b_y, eby, hby⟩ := FElem.b32_runs hfy
  obtain ⟨o, eo, ho⟩ := FElem.isOdd_runs hfy
  have h1 : PublicKey.serialize pk = (dassert false >>= fun _ => pure (#v[(0x04 : UInt8)] ++ bx ++ b_y)) := by
    unfold PublicKey.serialize
    rw [hd, ex, pure_bind, ey, pure_bind, ebx, pure_bind, eby, pure_bind]
  have h2 : PublicKey.serializeCompressed pk = (dassert false >>= fun _ => pure (#v[(if o then 0x03 else 0x02 : UInt8)] ++ bx)) := by
    unfold PublicKey.serializeCompressed
    rw [hd, ex, pure_bind, ey, pure_bind, ebx, pure_bind, eo, pure_bind]
  have hz : (0 : Fp).val = 0 := ZMod.val_zero
  have ho' : o = false := by rw [ho, hz]; rfl
  rw [h1, h2]
  refine ⟨rfl, rfl, ⟨_, rfl, ?_⟩, ⟨_, rfl, ?_⟩⟩
  · rw [Vector.toList_append, Vector.toList_append, hbx, hby, hz, beBytes_zero]; rfl
  · rw [Vector.toList_append, hbx, ho', hz, beBytes_zero]; rfl

theorem no_zero_x {P : Pt} {x y : Fp} (h : IsPt P x y) : beBytes 32 x.val ≠ List.replicate 32 0 := by
  intro e
  rw [← beBytes_zero] at e
  have hx : x.val = 0 := by
    have := congrArg beNat e
    rwa [beNat_beBytes, beNat_beBytes, Nat.mod_eq_of_lt ((ZMod.val_lt x).trans (by decide +kernel)), Nat.zero_mod] at this
  exact h.x_ne ((ZMod.val_eq_zero x).1 hx)

/-- C108. Neither encoding is accepted by the parsers. -/
theorem C108_parse (b : Vector UInt8 65) (c : Vector UInt8 33) (hb : b.toList = 0x04 :: List.replicate 64 0)
    (hc : c.toList = 0x02 :: List.replicate 32 0) :
    PublicKey.parse b = pure (.error .invalidPublicKey) ∧ PublicKey.parseCompressed c = pure (.error .invalidPublicKey) := by
  refine ⟨(C19_parse b).2 ?_, (C20_parse_compressed c).2 ?_⟩
  · rintro ⟨P, x, y, hP, t, e, _⟩
    rw [hb] at e
    have e := (List.cons.inj e).2
    have := congrArg (List.take 32) e
    rw [List.take_replicate, List.take_left' (beBytes_length 32 _)] at this
    exact no_zero_x hP this.symm
  · rintro ⟨P, x, y, hP, e⟩
    rw [hc] at e
    exact no_zero_x hP (List.cons.inj e).2.symm

/-- C108. Such keys are equal to one another and to no valid key, and `try_from` refuses their point. -/
theorem C108_eq (pk k : PublicKey) (h : Blank pk) :
    (Blank k → PublicKey.eq pk k = pure true) ∧ (ValidKey k → PublicKey.eq pk k = pure false ∧ PublicKey.eq k pk = pure false) ∧
    PublicKey.tryFrom pk.pt = pure (.error .invalidAffine) := by
  have hx := h.x.ok le_rfl
  have hy := h.y.ok le_rfl
  refine ⟨fun hk => ?_, fun ⟨P, hP⟩ => ?_, ?_⟩
  · obtain ⟨r, e, hr⟩ := Affine.eq_runs hx hy (hk.x.ok le_rfl) (hk.y.ok le_rfl)
    unfold PublicKey.eq
    rw [e, hr, decide_eq_true]
    exact ⟨by rw [h.x.v, hk.x.v], by rw [h.y.v, hk.y.v], by rw [h.2.2.1, hk.2.2.1]⟩
  · obtain ⟨ha, hP0⟩ := isKey_iff.1 hP
    have hi := ha.inf_false hP0
    obtain ⟨r, e, hr⟩ := Affine.eq_runs hx hy ha.x ha.y
    obtain ⟨r', e', hr'⟩ := Affine.eq_runs ha.x ha.y hx hy
    unfold PublicKey.eq
    rw [e, e', hr, hr', decide_eq_false, decide_eq_false]
    · exact ⟨rfl, rfl⟩
    · rintro ⟨_, _, hc⟩; rw [hi, h.2.2.1] at hc; exact Bool.noConfusion hc
    · rintro ⟨_, _, hc⟩; rw [hi, h.2.2.1] at hc; exact Bool.noConfusion hc
  · unfold PublicKey.tryFrom
    rw [if_pos h.2.2.1]

theorem combineLoop_blank : ∀ (l : List PublicKey) (q : Jacobian), (∀ k ∈ l, Blank k) → Zeros q →
    ∃ r, PublicKey.combineLoop l q .release = some r ∧ Zeros r ∧ (r.infinity = (q.infinity ^^ decide (l.length % 2 = 1)))
  | [], q, _, hq => ⟨q, rfl, hq, by simp⟩
  | k :: l, q, hl, hq => by
    have hk := hl k List.mem_cons_self
    obtain ⟨r, e, hi, hx, hy, hz, vx, vy⟩ := Jacobian.zeros_addGe (b := { k.pt with infinity := false }) hq (hk.x.ok le_rfl) (hk.y.ok le_rfl) rfl
      (Or.inl ⟨hk.x.v, hk.y.v⟩)
    have hr : Zeros r := by
      refine ⟨hx.cast le_rfl ?_, hy.cast le_rfl ?_, hz⟩
      · rw [vx]; split
        · exact hk.x.v
        · rfl
      · rw [vy]; split
        · exact hk.y.v
        · rfl
    obtain ⟨r', e', hr', hi'⟩ := combineLoop_blank l r (fun k h => hl k (List.mem_cons_of_mem _ h)) hr
    refine ⟨r', ?_, hr', ?_⟩
    · unfold PublicKey.combineLoop
      rw [exec_bind, Jacobian.addGe_flag, e]
      exact e'
    · rw [hi', hi, List.length_cons]
      rcases Nat.mod_two_eq_zero_or_one l.length with h | h
      · rw [h, show (l.length + 1) % 2 = 1 by omega]; cases q.infinity <;> rfl
      · rw [h, show (l.length + 1) % 2 = 0 by omega]; cases q.infinity <;> rfl

/-- C108. `combine` of such keys: a debug build panics; a release build refuses an even number of them, and returns
the pair (0, 0) as a key for an odd number. -/
theorem C108_combine (l : List PublicKey) (hl : ∀ k ∈ l, Blank k) :
    (l ≠ [] → PublicKey.combine l .debug = none) ∧
    (l.length % 2 = 0 → PublicKey.combine l .release = some (.error .invalidPublicKey)) ∧
    (l.length % 2 = 1 → ∃ k, PublicKey.combine l .release = some (.ok k) ∧ Origin k.pt) := by
  have h0 : Zeros (Jacobian.setInfinity Jacobian.default) := by
    refine ⟨FElem.zero_fe.mono (by norm_num), FElem.zero_fe.mono (by norm_num), ?_⟩
    exact (FElem.zero_fe.mono (by norm_num)).ok le_rfl
  obtain ⟨r, e, hr, hi⟩ := combineLoop_blank l _ hl h0
  have hi : r.infinity = decide (l.length % 2 = 0) := by
    rw [hi]
    rcases Nat.mod_two_eq_zero_or_one l.length with h | h <;> rw [h] <;> rfl
  refine ⟨fun hne => ?_, fun h => ?_, fun h => ?_⟩
  · obtain ⟨k, l', rfl⟩ := List.exists_cons_of_ne_nil hne
    have hk := hl k List.mem_cons_self
    unfold PublicKey.combine PublicKey.combineLoop Jacobian.addGe
    rw [hk.2.2.1]
    rfl
  · unfold PublicKey.combine
    rw [exec_bind, e, Option.bind_some, if_pos (by rw [hi, h]; rfl)]; rfl
  · rw [h] at hi
    obtain ⟨a, ea, ha⟩ := nil_setGej (r := r) ⟨hr.x, hr.y, hr.z, hi⟩
    refine ⟨⟨a⟩, ?_, Origin.of ha⟩
    unfold PublicKey.combine
    rw [exec_bind, e, Option.bind_some, if_neg (by rw [hi]; decide), ea]; rfl

/-- The hypotheses are met by a cleared secret. -/
example (k : SecretKey) : ∃ pk, PublicKey.fromSecretKey (SecretKey.clear k) = pure pk ∧ Blank pk ∧
    PublicKey.combine [pk, pk] .release = some (.error .invalidPublicKey) := by
  obtain ⟨pk, e, h⟩ := C108_from_secret_key _ (dvd_clear k)
  exact ⟨pk, e, h, (C108_combine [pk, pk] (by simp [h])).2.1 (by simp)⟩

end Verif.Props
