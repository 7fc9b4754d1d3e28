import Verif.Proofs.Total

/-! In a release build the fields `magnitude` and `normalized` of a field element have no influence on
what the functions of the model compute, except for `PartialEq`. -/

namespace Verif

/-- What it means for two values to agree up to the two debugging fields of field elements. -/
class Same (α : Type) where
  rel : α → α → Prop
  refl : ∀ a, rel a a

/-- The two values agree up to the debugging fields. -/
class Agree {α : Type} [Same α] (a b : α) : Prop where
  out : Same.rel a b

instance (priority := low) agree_refl {α : Type} [Same α] (a : α) : Agree a a := ⟨Same.refl a⟩

/-- A type without field elements. -/
class Plain (α : Type) [Same α] : Prop where
  eq : ∀ {a b : α}, Same.rel a b → a = b

/-- Agreement is equality. -/
def Same.ofEq (α : Type) : Same α := ⟨Eq, fun _ => rfl⟩

instance sameUnit : Same Unit := Same.ofEq Unit
instance plainUnit : Plain Unit := ⟨fun h => h⟩
instance sameBool : Same Bool := Same.ofEq Bool
instance plainBool : Plain Bool := ⟨fun h => h⟩
instance sameNat : Same Nat := Same.ofEq Nat
instance plainNat : Plain Nat := ⟨fun h => h⟩
instance sameInt : Same Int := Same.ofEq Int
instance plainInt : Plain Int := ⟨fun h => h⟩
instance sameUInt8 : Same UInt8 := Same.ofEq UInt8
instance plainUInt8 : Plain UInt8 := ⟨fun h => h⟩
instance sameUInt32 : Same UInt32 := Same.ofEq UInt32
instance plainUInt32 : Plain UInt32 := ⟨fun h => h⟩
instance sameUInt64 : Same UInt64 := Same.ofEq UInt64
instance plainUInt64 : Plain UInt64 := ⟨fun h => h⟩
instance sameOrdering : Same Ordering := Same.ofEq Ordering
instance plainOrdering : Plain Ordering := ⟨fun h => h⟩
instance sameScalar : Same Scalar := Same.ofEq Scalar
instance plainScalar : Plain Scalar := ⟨fun h => h⟩
instance sameLimbs10 : Same Limbs10 := Same.ofEq Limbs10
instance plainLimbs10 : Plain Limbs10 := ⟨fun h => h⟩
instance sameFieldStorage : Same FieldStorage := Same.ofEq FieldStorage
instance plainFieldStorage : Plain FieldStorage := ⟨fun h => h⟩
instance sameAffineStorage : Same AffineStorage := Same.ofEq AffineStorage
instance plainAffineStorage : Plain AffineStorage := ⟨fun h => h⟩
instance sameError : Same Error := Same.ofEq Error
instance plainError : Plain Error := ⟨fun h => h⟩
instance sameVectorUInt8n {n : Nat} : Same (Vector UInt8 n) := Same.ofEq (Vector UInt8 n)
instance plainVectorUInt8n {n : Nat} : Plain (Vector UInt8 n) := ⟨fun h => h⟩
instance sameEcmultWnafState : Same Ecmult.WnafState := Same.ofEq Ecmult.WnafState
instance plainEcmultWnafState : Plain Ecmult.WnafState := ⟨fun h => h⟩
instance sameEcmultWnafConstState : Same Ecmult.WnafConstState := Same.ofEq Ecmult.WnafConstState
instance plainEcmultWnafConstState : Plain Ecmult.WnafConstState := ⟨fun h => h⟩
instance sameSecretKey : Same SecretKey := Same.ofEq SecretKey
instance plainSecretKey : Plain SecretKey := ⟨fun h => h⟩
instance sameSignature : Same Signature := Same.ofEq Signature
instance plainSignature : Plain Signature := ⟨fun h => h⟩
instance sameRecoveryId : Same RecoveryId := Same.ofEq RecoveryId
instance plainRecoveryId : Plain RecoveryId := ⟨fun h => h⟩
instance sameMessage : Same Message := Same.ofEq Message
instance plainMessage : Plain Message := ⟨fun h => h⟩
instance sameSharedSecret : Same SharedSecret := Same.ofEq SharedSecret
instance plainSharedSecret : Plain SharedSecret := ⟨fun h => h⟩
instance sameSerdeValue : Same SerdeValue := Same.ofEq SerdeValue
instance plainSerdeValue : Plain SerdeValue := ⟨fun h => h⟩

instance : Same FElem := ⟨fun a b => a.n = b.n, fun _ => rfl⟩

instance {α β : Type} [Same α] [Same β] : Same (α × β) := ⟨fun a b => Same.rel a.1 b.1 ∧ Same.rel a.2 b.2, fun _ => ⟨Same.refl _, Same.refl _⟩⟩

instance {α : Type} [Same α] : Same (Option α) :=
  ⟨fun a b => (a = none ∧ b = none) ∨ ∃ u v, a = some u ∧ b = some v ∧ Same.rel u v, fun a => by
    cases a with
    | none => exact Or.inl ⟨rfl, rfl⟩
    | some u => exact Or.inr ⟨u, u, rfl, rfl, Same.refl u⟩⟩

instance {α : Type} [Same α] : Same (Res α) :=
  ⟨fun a b => (∃ e, a = .error e ∧ b = .error e) ∨ ∃ u v, a = .ok u ∧ b = .ok v ∧ Same.rel u v, fun a => by
    cases a with
    | error e => exact Or.inl ⟨e, rfl, rfl⟩
    | ok u => exact Or.inr ⟨u, u, rfl, rfl, Same.refl u⟩⟩

instance {α : Type} [Same α] : Same (List α) := ⟨List.Forall₂ Same.rel, fun l => List.forall₂_same.2 fun a _ => Same.refl a⟩

instance : Same Affine := ⟨fun a b => a.x.n = b.x.n ∧ a.y.n = b.y.n ∧ a.infinity = b.infinity, fun _ => ⟨rfl, rfl, rfl⟩⟩

instance : Same Jacobian :=
  ⟨fun a b => a.x.n = b.x.n ∧ a.y.n = b.y.n ∧ a.z.n = b.z.n ∧ a.infinity = b.infinity, fun _ => ⟨rfl, rfl, rfl, rfl⟩⟩

instance : Same Ecmult.GenContext :=
  ⟨fun a b => a.prec = b.prec ∧ a.blind = b.blind ∧ Same.rel a.initial b.initial, fun _ => ⟨rfl, rfl, Same.refl _⟩⟩

instance : Same PublicKey := ⟨fun a b => Same.rel a.pt b.pt, fun _ => Same.refl _⟩

instance {α β : Type} [Same α] [Same β] [Plain α] [Plain β] : Plain (α × β) := ⟨fun h => Prod.ext (Plain.eq h.1) (Plain.eq h.2)⟩

instance {α : Type} [Same α] [Plain α] : Plain (List α) := ⟨fun {l l'} h' => by
  have h : List.Forall₂ Same.rel l l' := h'
  clear h'
  induction h with
  | nil => rfl
  | cons e _ ih => rw [Plain.eq e, ih]⟩

instance {α : Type} [Same α] [Plain α] : Plain (Option α) := ⟨fun h => by
  rcases h with ⟨rfl, rfl⟩ | ⟨u, v, rfl, rfl, h⟩
  · rfl
  · rw [Plain.eq h]⟩

instance {α : Type} [Same α] [Plain α] : Plain (Res α) := ⟨fun h => by
  rcases h with ⟨e, rfl, rfl⟩ | ⟨u, v, rfl, rfl, h⟩
  · rfl
  · rw [Plain.eq h]⟩

instance {α β : Type} [Same α] [Same β] {a a' : α} {b b' : β} [h : Agree a a'] [h' : Agree b b'] : Agree (a, b) (a', b') := ⟨⟨h.out, h'.out⟩⟩
instance {α : Type} [Same α] {a a' : α} [h : Agree a a'] : Agree (some a) (some a') := ⟨Or.inr ⟨a, a', rfl, rfl, h.out⟩⟩
instance {α : Type} [Same α] {a a' : α} [h : Agree a a'] : Agree (Except.ok a : Res α) (Except.ok a' : Res α) := ⟨Or.inr ⟨a, a', rfl, rfl, h.out⟩⟩
instance agree_fe {n : Limbs10} {m m' : UInt32} {k k' : Bool} : Agree (⟨n, m, k⟩ : FElem) ⟨n, m', k'⟩ := ⟨rfl⟩
instance agree_aff {x y x' y' : FElem} {i : Bool} [hx : Agree x x'] [hy : Agree y y'] : Agree (⟨x, y, i⟩ : Affine) ⟨x', y', i⟩ := ⟨⟨hx.out, hy.out, rfl⟩⟩
instance agree_jac {x y z x' y' z' : FElem} {i : Bool} [hx : Agree x x'] [hy : Agree y y'] [hz : Agree z z'] :
    Agree (⟨x, y, z, i⟩ : Jacobian) ⟨x', y', z', i⟩ := ⟨⟨hx.out, hy.out, hz.out, rfl⟩⟩
instance agree_key {a a' : Affine} [h : Agree a a'] : Agree (⟨a⟩ : PublicKey) ⟨a'⟩ := ⟨h.out⟩
instance agree_append {α : Type} [Same α] {l l' : List α} {a a' : α} [h : Agree l l'] [h' : Agree a a'] : Agree (l ++ [a]) (l' ++ [a']) :=
  ⟨List.rel_append h.out (List.Forall₂.cons h'.out List.Forall₂.nil)⟩
instance agree_one {α : Type} [Same α] {a a' : α} [h' : Agree a a'] : Agree [a] [a'] := ⟨List.Forall₂.cons h'.out List.Forall₂.nil⟩

section elim
variable {α β : Type} [Same α] [Same β]

theorem elim_plain [Plain α] {P : α → α → Prop} (h : ∀ a, P a a) : ∀ a a', Agree a a' → P a a' := fun a a' e => by
  obtain rfl := Plain.eq e.out
  exact h a

theorem elim_prod {P : α × β → α × β → Prop} (h : ∀ a a', Agree a a' → ∀ b b', Agree b b' → P (a, b) (a', b')) : ∀ s s', Agree s s' → P s s' :=
  fun s s' e => h s.1 s'.1 ⟨e.out.1⟩ s.2 s'.2 ⟨e.out.2⟩

theorem elim_opt {P : Option α → Option α → Prop} (h0 : P none none) (h : ∀ a a', Agree a a' → P (some a) (some a')) : ∀ s s', Agree s s' → P s s' :=
  fun s s' e => by
    rcases e.out with ⟨rfl, rfl⟩ | ⟨u, v, rfl, rfl, e'⟩
    · exact h0
    · exact h u v ⟨e'⟩

theorem elim_res {P : Res α → Res α → Prop} (h0 : ∀ e, P (.error e) (.error e)) (h : ∀ a a', Agree a a' → P (.ok a) (.ok a')) : ∀ s s', Agree s s' → P s s' :=
  fun s s' e => by
    rcases e.out with ⟨e', rfl, rfl⟩ | ⟨u, v, rfl, rfl, e'⟩
    · exact h0 e'
    · exact h u v ⟨e'⟩

theorem elim_fe {P : FElem → FElem → Prop} (h : ∀ n m k m' k', P ⟨n, m, k⟩ ⟨n, m', k'⟩) : ∀ a a', Agree a a' → P a a' := by
  rintro ⟨n, m, k⟩ ⟨n', m', k'⟩ ⟨e⟩
  obtain rfl : n = n' := e
  exact h ..

theorem elim_aff {P : Affine → Affine → Prop} (h : ∀ x x', Agree x x' → ∀ y y', Agree y y' → ∀ i, P ⟨x, y, i⟩ ⟨x', y', i⟩) :
    ∀ a a', Agree a a' → P a a' := by
  rintro ⟨x, y, i⟩ ⟨x', y', i'⟩ ⟨e⟩
  obtain ⟨e1, e2, e3⟩ := e
  obtain rfl : i = i' := e3
  exact h _ _ ⟨e1⟩ _ _ ⟨e2⟩ _

theorem elim_jac {P : Jacobian → Jacobian → Prop}
    (h : ∀ x x', Agree x x' → ∀ y y', Agree y y' → ∀ z z', Agree z z' → ∀ i, P ⟨x, y, z, i⟩ ⟨x', y', z', i⟩) : ∀ a a', Agree a a' → P a a' := by
  rintro ⟨x, y, z, i⟩ ⟨x', y', z', i'⟩ ⟨e⟩
  obtain ⟨e1, e2, e3, e4⟩ := e
  obtain rfl : i = i' := e4
  exact h _ _ ⟨e1⟩ _ _ ⟨e2⟩ _ _ ⟨e3⟩ _

theorem elim_key {P : PublicKey → PublicKey → Prop} (h : ∀ a a', Agree a a' → P ⟨a⟩ ⟨a'⟩) : ∀ a a', Agree a a' → P a a' := by
  rintro ⟨a⟩ ⟨a'⟩ ⟨e⟩
  exact h _ _ ⟨e⟩

end elim

/-- In release both computations panic, or both return and the results agree. -/
class Sim {α : Type} [Same α] (x y : Exec α) : Prop where
  out : (x .release = none ∧ y .release = none) ∨ ∃ a b, x .release = some a ∧ y .release = some b ∧ Agree a b

instance (priority := low) sim_refl {α : Type} [Same α] (x : Exec α) : Sim x x := ⟨by
  cases e : x .release with
  | none => exact Or.inl ⟨rfl, rfl⟩
  | some a => exact Or.inr ⟨a, a, rfl, rfl, inferInstance⟩⟩

theorem sim_bind {α β : Type} [Same α] [Same β] {x y : Exec α} {f g : α → Exec β} (h : Sim x y) (hf : ∀ a b, Agree a b → Sim (f a) (g b)) :
    Sim (x >>= f) (y >>= g) := ⟨by
  show ((x .release).bind (fun a => f a .release) = none ∧ (y .release).bind (fun a => g a .release) = none) ∨
    ∃ a b, (x .release).bind (fun a => f a .release) = some a ∧ (y .release).bind (fun a => g a .release) = some b ∧ Agree a b
  rcases h.out with ⟨h1, h2⟩ | ⟨a, b, h1, h2, e⟩
  · rw [h1, h2]; exact Or.inl ⟨rfl, rfl⟩
  · rw [h1, h2]; exact (hf a b e).out⟩

/-- The results of the first statements have no influence. -/
theorem sim_seq {α β : Type} [Same β] {x y : Exec α} {f g : α → Exec β} (hx : Total x) (hy : Total y) (hf : ∀ a b, Sim (f a) (g b)) :
    Sim (x >>= f) (y >>= g) := ⟨by
  obtain ⟨a, ha⟩ := hx.out
  obtain ⟨b, hb⟩ := hy.out
  show ((x .release).bind (fun a => f a .release) = none ∧ (y .release).bind (fun a => g a .release) = none) ∨
    ∃ a b, (x .release).bind (fun a => f a .release) = some a ∧ (y .release).bind (fun a => g a .release) = some b ∧ Agree a b
  rw [ha, hb]
  exact (hf a b).out⟩

instance sim_pure {α : Type} [Same α] {a b : α} [h : Agree a b] : Sim (pure a) (pure b) := ⟨Or.inr ⟨a, b, rfl, rfl, h⟩⟩

instance (c c' : Bool) : Sim (dassert c) (dassert c') := ⟨Or.inr ⟨(), (), rfl, rfl, inferInstance⟩⟩
instance (x y : Exec Bool) : Sim (FElem.dassertE x) (FElem.dassertE y) := ⟨Or.inr ⟨(), (), rfl, rfl, inferInstance⟩⟩

theorem sim_ite {α : Type} [Same α] {c : Prop} [Decidable c] {x y x' y' : Exec α} (h : Sim x x') (h' : Sim y y') :
    Sim (if c then x else y) (if c then x' else y') := by split <;> assumption

theorem sim_loop {σ : Type} [Same σ] {n : Nat} {f g : Nat → σ → Exec σ} {s s' : σ} (h : Agree s s')
    (hf : ∀ i a b, Agree a b → Sim (f i a) (g i b)) : Sim (forN n f s) (forN n g s') := by
  induction n with
  | zero => exact sim_pure
  | succ n ih => exact sim_bind ih (hf n)

theorem sim_loopRev {σ : Type} [Same σ] {n : Nat} {f g : Nat → σ → Exec σ} {s s' : σ} (h : Agree s s')
    (hf : ∀ i a b, Agree a b → Sim (f i a) (g i b)) : Sim (Ecmult.forRev n f s) (Ecmult.forRev n g s') := by
  induction n generalizing s s' with
  | zero => exact sim_pure
  | succ n ih => exact sim_bind (hf n _ _ h) fun a b e => ih e

theorem sim_tabulate {α : Type} [Same α] {n : Nat} {f g : Nat → Exec α} (h : ∀ i, Sim (f i) (g i)) : Sim (tabulate n f) (tabulate n g) :=
  sim_loop inferInstance fun i _ _ e => sim_bind (h i) fun _ _ e' => sim_pure

theorem agree_length {α : Type} [Same α] {l l' : List α} (h : Agree l l') : l.length = l'.length := List.Forall₂.length_eq h.out

theorem agree_isEmpty {α : Type} [Same α] {l l' : List α} (h : Agree l l') : l.isEmpty = l'.isEmpty := by
  have := agree_length h
  cases l <;> cases l' <;> first | rfl | (simp at this)

instance sim_idx {α : Type} [Same α] {l l' : List α} {i : Nat} [h : Agree l l'] : Sim (idx l i) (idx l' i) := by
  have e := agree_length h
  unfold idx
  by_cases hi : i < l.length
  · rw [List.getElem?_eq_getElem hi, List.getElem?_eq_getElem (e ▸ hi)]
    have : Agree l[i] (l'[i]'(e ▸ hi)) := ⟨List.Forall₂.get h.out hi (e ▸ hi)⟩
    exact sim_pure
  · rw [List.getElem?_eq_none (by omega), List.getElem?_eq_none (by omega)]
    exact sim_refl _

theorem agree_set {α : Type} [Same α] {l l' : List α} (i : Nat) {v v' : α} (h : Agree l l') (hv : Agree v v') : Agree (l.set i v) (l'.set i v') := by
  obtain ⟨h⟩ := h
  refine ⟨?_⟩
  induction h generalizing i with
  | nil => exact List.Forall₂.nil
  | cons e _ ih =>
    cases i with
    | zero => exact List.Forall₂.cons hv.out ‹_›
    | succ i => exact List.Forall₂.cons e (ih i)

instance sim_setIdx {α : Type} [Same α] {l l' : List α} {i : Nat} {v v' : α} [h : Agree l l'] [hv : Agree v v'] : Sim (setIdx l i v) (setIdx l' i v') := by
  unfold setIdx
  rw [agree_length h]
  have := agree_set i h hv
  exact sim_bind (sim_refl _) fun _ _ _ => sim_pure

/-- The same for operations that compute a new magnitude. -/
macro "sim_mag" : tactic => `(tactic| repeat' first
  | infer_instance | (with_reducible refine elim_fe ?_) | (with_reducible refine sim_bind ?_ ?_; (with_reducible exact sim_refl _); with_reducible refine elim_plain ?_)
  | (with_reducible refine sim_seq inferInstance inferInstance ?_) | intro _ | dsimp only)

/-- Opens the next universally quantified pair of agreeing values. -/
macro "sim_elim" : tactic => `(tactic| first
  | with_reducible refine elim_plain ?_
  | with_reducible refine elim_prod ?_
  | with_reducible refine elim_key ?_
  | with_reducible refine elim_aff ?_
  | with_reducible refine elim_jac ?_
  | with_reducible refine elim_opt ?_ ?_
  | with_reducible refine elim_res ?_ ?_)

/-- Walks through the bodies of two runs of a definition. -/
macro "sim" : tactic => `(tactic| repeat' first
  | infer_instance | assumption | (with_reducible refine sim_bind ?_ ?_) | (with_reducible refine sim_ite ?_ ?_)
  | (with_reducible refine sim_loop ?_ ?_) | (with_reducible refine sim_loopRev ?_ ?_) | (with_reducible refine sim_tabulate ?_)
  | sim_elim | intro _ | dsimp only)

/-- The same for primitive operations on field elements. -/
macro "sim_fe" : tactic => `(tactic| repeat' first
  | infer_instance | assumption | (with_reducible refine sim_bind ?_ ?_) | (with_reducible refine sim_ite ?_ ?_)
  | (with_reducible refine elim_plain ?_) | (with_reducible refine elim_prod ?_) | (with_reducible refine elim_fe ?_) | intro _ | dsimp only)

instance sim_FElem_normalize (f f' : FElem) [Agree f f'] : Sim (FElem.normalize f) (FElem.normalize f') := by
  unfold FElem.normalize
  revert f f'
  sim_fe

instance sim_FElem_normalizeWeak (f f' : FElem) [Agree f f'] : Sim (FElem.normalizeWeak f) (FElem.normalizeWeak f') := by
  unfold FElem.normalizeWeak
  revert f f'
  sim_fe

instance sim_FElem_normalizeVar (f f' : FElem) [Agree f f'] : Sim (FElem.normalizeVar f) (FElem.normalizeVar f') := by
  unfold FElem.normalizeVar
  revert f f'
  sim_fe

instance sim_FElem_normalizesToZero (f f' : FElem) [Agree f f'] : Sim (FElem.normalizesToZero f) (FElem.normalizesToZero f') := by
  unfold FElem.normalizesToZero
  revert f f'
  sim_fe

instance sim_FElem_normalizesToZeroVar (f f' : FElem) [Agree f f'] : Sim (FElem.normalizesToZeroVar f) (FElem.normalizesToZeroVar f') := by
  unfold FElem.normalizesToZeroVar
  revert f f'
  sim_fe

instance sim_FElem_isZero (f f' : FElem) [Agree f f'] : Sim (FElem.isZero f) (FElem.isZero f') := by
  unfold FElem.isZero
  revert f f'
  sim_fe

instance sim_FElem_isOdd (f f' : FElem) [Agree f f'] : Sim (FElem.isOdd f) (FElem.isOdd f') := by
  unfold FElem.isOdd
  revert f f'
  sim_fe

instance sim_FElem_setB32 (f f' : FElem) [Agree f f'] {b : Vector UInt8 32} : Sim (FElem.setB32 f b) (FElem.setB32 f' b) := by
  unfold FElem.setB32
  revert f f'
  sim_fe

instance sim_FElem_b32 (f f' : FElem) [Agree f f'] : Sim (FElem.b32 f) (FElem.b32 f') := by
  unfold FElem.b32
  revert f f'
  sim_fe

instance sim_FElem_neg (f f' : FElem) [Agree f f'] {m : UInt32} : Sim (FElem.neg f m) (FElem.neg f' m) := by
  unfold FElem.neg
  revert f f'
  sim_fe

instance sim_FElem_cmpVar (f f' : FElem) [Agree f f'] (g g' : FElem) [Agree g g'] : Sim (FElem.cmpVar f g) (FElem.cmpVar f' g') := by
  unfold FElem.cmpVar
  revert f f' g g'
  sim_fe

instance sim_FElem_mul (f f' : FElem) [Agree f f'] (g g' : FElem) [Agree g g'] : Sim (FElem.mul f g) (FElem.mul f' g') := by
  unfold FElem.mul
  revert f f' g g'
  sim_fe

instance sim_FElem_sqr (f f' : FElem) [Agree f f'] : Sim (FElem.sqr f) (FElem.sqr f') := by
  unfold FElem.sqr
  revert f f'
  sim_fe

instance sim_FElem_mulInt (f f' : FElem) [Agree f f'] {a : UInt32} : Sim (FElem.mulInt f a) (FElem.mulInt f' a) := by
  unfold FElem.mulInt
  revert f f'
  sim_mag

instance sim_FElem_add (f f' : FElem) [Agree f f'] (g g' : FElem) [Agree g g'] : Sim (FElem.add f g) (FElem.add f' g') := by
  unfold FElem.add
  revert f f' g g'
  sim_mag

instance agree_FElem_cmov (f f' : FElem) [Agree f f'] (g g' : FElem) [Agree g g'] {b : Bool} : Agree (FElem.cmov f g b) (FElem.cmov f' g' b) := by
  unfold FElem.cmov
  revert f f' g g'
  refine elim_fe fun _ _ _ _ _ => elim_fe fun _ _ _ _ _ => ⟨rfl⟩

instance sim_FElem_eqVar (f f' : FElem) [Agree f f'] (g g' : FElem) [Agree g g'] : Sim (FElem.eqVar f g) (FElem.eqVar f' g') := by
  unfold FElem.eqVar
  revert f f' g g'
  sim

instance sim_FElem_sqrN {k : Nat} (f f' : FElem) [Agree f f'] : Sim (FElem.sqrN k f) (FElem.sqrN k f') := by
  unfold FElem.sqrN
  revert f f'
  sim

theorem sim_bind_eq {α β : Type} [Same β] {x y : Exec α} {f g : α → Exec β} (e : x .release = y .release) (hf : ∀ a, Sim (f a) (g a)) :
    Sim (x >>= f) (y >>= g) := ⟨by
  show ((x .release).bind (fun a => f a .release) = none ∧ (y .release).bind (fun a => g a .release) = none) ∨
    ∃ a b, (x .release).bind (fun a => f a .release) = some a ∧ (y .release).bind (fun a => g a .release) = some b ∧ Agree a b
  rw [e]
  cases y .release with
  | none => exact Or.inl ⟨rfl, rfl⟩
  | some a => exact (hf a).out⟩

theorem FElem.sqr_release (a : FElem) :
    FElem.sqr a .release = (FElem.sqrInner a.n .release).map fun t => { n := t, magnitude := 1, normalized := false } := by
  unfold FElem.sqr
  generalize FElem.sqrInner a.n = x
  show (x .release).bind _ = _
  cases x .release <;> rfl

theorem sim_bind_sqr {α : Type} [Same α] {f f' : FElem} [h : Agree f f'] {F G : FElem → Exec α} (hF : ∀ a, Sim (F a) (G a)) :
    Sim (FElem.sqr f >>= F) (FElem.sqr f' >>= G) := by
  have e : f.n = f'.n := h.out
  exact sim_bind_eq (by rw [FElem.sqr_release, FElem.sqr_release, e]) hF

/-- `PartialEq` reads the magnitude of its first argument. -/
instance sim_FElem_eq (f g g' : FElem) [Agree g g'] : Sim (FElem.eq f g) (FElem.eq f g') := by
  unfold FElem.eq
  sim

instance sim_FElem_sqrt (f f' : FElem) [Agree f f'] : Sim (FElem.sqrt f) (FElem.sqrt f') := by
  unfold FElem.sqrt
  revert f f'
  repeat' first | (with_reducible refine sim_bind_sqr ?_) | infer_instance | (with_reducible refine sim_bind ?_ ?_) | intro _

instance sim_FElem_inv (f f' : FElem) [Agree f f'] : Sim (FElem.inv f) (FElem.inv f') := by
  unfold FElem.inv
  revert f f'
  sim

instance sim_FElem_isQuadVar (f f' : FElem) [Agree f f'] : Sim (FElem.isQuadVar f) (FElem.isQuadVar f') := by
  unfold FElem.isQuadVar
  revert f f'
  sim

instance sim_FieldStorage_ofField (f f' : FElem) [Agree f f'] : Sim (FieldStorage.ofField f) (FieldStorage.ofField f') := by
  unfold FieldStorage.ofField
  revert f f'
  sim_fe

instance sim_Affine_setXquad (x x' : FElem) [Agree x x'] : Sim (Affine.setXquad x) (Affine.setXquad x') := by
  unfold Affine.setXquad
  revert x x'
  sim

instance sim_Affine_fixParity (a a' : Affine) [Agree a a'] {odd : Bool} : Sim (Affine.fixParity a odd) (Affine.fixParity a' odd) := by
  unfold Affine.fixParity
  revert a a'
  sim

instance sim_Affine_setXoVar (x x' : FElem) [Agree x x'] {odd : Bool} : Sim (Affine.setXoVar x odd) (Affine.setXoVar x' odd) := by
  unfold Affine.setXoVar
  revert x x'
  sim

instance sim_Affine_isValidVar (a a' : Affine) [Agree a a'] : Sim (Affine.isValidVar a) (Affine.isValidVar a') := by
  unfold Affine.isValidVar
  revert a a'
  sim

instance sim_Affine_neg (a a' : Affine) [Agree a a'] : Sim (Affine.neg a) (Affine.neg a') := by
  unfold Affine.neg
  revert a a'
  sim

instance sim_Affine_setGej (a a' : Jacobian) [Agree a a'] : Sim (Affine.setGej a) (Affine.setGej a') := by
  unfold Affine.setGej
  revert a a'
  sim

instance sim_Affine_setGejVar (s s' : Affine) [Agree s s'] (a a' : Jacobian) [Agree a a'] : Sim (Affine.setGejVar s a) (Affine.setGejVar s' a') := by
  unfold Affine.setGejVar
  revert s s' a a'
  sim

instance sim_Affine_setGejZinv (a a' : Jacobian) [Agree a a'] (z z' : FElem) [Agree z z'] : Sim (Affine.setGejZinv a z) (Affine.setGejZinv a' z') := by
  unfold Affine.setGejZinv
  revert a a' z z'
  sim

instance sim_Affine_toStorage (a a' : Affine) [Agree a a'] : Sim (Affine.toStorage a) (Affine.toStorage a') := by
  unfold Affine.toStorage
  revert a a'
  sim

instance sim_Jacobian_setGe (a a' : Affine) [Agree a a'] : Sim (Jacobian.setGe a) (Jacobian.setGe a') := by
  unfold Jacobian.setGe
  revert a a'
  sim

instance sim_Jacobian_eqXVar (a a' : Jacobian) [Agree a a'] (x x' : FElem) [Agree x x'] : Sim (Jacobian.eqXVar a x) (Jacobian.eqXVar a' x') := by
  unfold Jacobian.eqXVar
  revert a a' x x'
  sim

instance sim_Jacobian_neg (a a' : Jacobian) [Agree a a'] : Sim (Jacobian.neg a) (Jacobian.neg a') := by
  unfold Jacobian.neg
  revert a a'
  sim

instance sim_Jacobian_hasQuadYVar (a a' : Jacobian) [Agree a a'] : Sim (Jacobian.hasQuadYVar a) (Jacobian.hasQuadYVar a') := by
  unfold Jacobian.hasQuadYVar
  revert a a'
  sim

instance sim_Jacobian_rzrSetInt (r r' : Option FElem) [Agree r r'] {v : UInt32} : Sim (Jacobian.rzrSetInt r v) (Jacobian.rzrSetInt r' v) := by
  unfold Jacobian.rzrSetInt
  revert r r'
  sim

instance sim_Jacobian_rzrDouble (r r' : Option FElem) [Agree r r'] (y y' : FElem) [Agree y y'] : Sim (Jacobian.rzrDouble r y) (Jacobian.rzrDouble r' y') := by
  unfold Jacobian.rzrDouble
  revert r r' y y'
  sim

instance sim_Jacobian_doubleCore (a a' : Jacobian) [Agree a a'] : Sim (Jacobian.doubleCore a) (Jacobian.doubleCore a') := by
  unfold Jacobian.doubleCore
  revert a a'
  sim

instance sim_Jacobian_doubleVarInPlace (s s' : Jacobian) [Agree s s'] (a a' : Jacobian) [Agree a a'] (r r' : Option FElem) [Agree r r'] : Sim (Jacobian.doubleVarInPlace s a r) (Jacobian.doubleVarInPlace s' a' r') := by
  unfold Jacobian.doubleVarInPlace
  revert s s' a a' r r'
  sim

instance sim_Jacobian_doubleNonzeroInPlace (s s' : Jacobian) [Agree s s'] (a a' : Jacobian) [Agree a a'] (r r' : Option FElem) [Agree r r'] : Sim (Jacobian.doubleNonzeroInPlace s a r) (Jacobian.doubleNonzeroInPlace s' a' r') := by
  unfold Jacobian.doubleNonzeroInPlace
  revert s s' a a' r r'
  sim

instance sim_Jacobian_doubleVar (a a' : Jacobian) [Agree a a'] (r r' : Option FElem) [Agree r r'] : Sim (Jacobian.doubleVar a r) (Jacobian.doubleVar a' r') := by
  unfold Jacobian.doubleVar
  revert a a' r r'
  sim

instance agree_Jacobian_rzrSet (r r' : Option FElem) [Agree r r'] (h h' : FElem) [Agree h h'] : Agree (Jacobian.rzrSet r h) (Jacobian.rzrSet r' h') := by
  unfold Jacobian.rzrSet
  revert r r' h h'
  refine elim_opt (fun _ _ _ => agree_refl (none : Option FElem)) fun _ _ _ _ _ _ => by dsimp only [Option.map]; infer_instance

instance sim_Jacobian_addTail (u1 u1' : FElem) [Agree u1 u1'] (s1 s1' : FElem) [Agree s1 s1'] (h2 h2' : FElem) [Agree h2 h2'] (h3 h3' : FElem) [Agree h3 h3'] (i i' : FElem) [Agree i i'] (i2 i2' : FElem) [Agree i2 i2'] (z z' : FElem) [Agree z z'] : Sim (Jacobian.addTail u1 s1 h2 h3 i i2 z) (Jacobian.addTail u1' s1' h2' h3' i' i2' z') := by
  unfold Jacobian.addTail
  revert u1 u1' s1 s1' h2 h2' h3 h3' i i' i2 i2' z z'
  sim

instance sim_Jacobian_addEqualX (s s' : Jacobian) [Agree s s'] (a a' : Jacobian) [Agree a a'] (i i' : FElem) [Agree i i'] (r r' : Option FElem) [Agree r r'] : Sim (Jacobian.addEqualX s a i r) (Jacobian.addEqualX s' a' i' r') := by
  unfold Jacobian.addEqualX
  revert s s' a a' i i' r r'
  sim

instance sim_Jacobian_addVarCore (s s' : Jacobian) [Agree s s'] (a a' : Jacobian) [Agree a a'] (b b' : Jacobian) [Agree b b'] (r r' : Option FElem) [Agree r r'] : Sim (Jacobian.addVarCore s a b r) (Jacobian.addVarCore s' a' b' r') := by
  unfold Jacobian.addVarCore
  revert s s' a a' b b' r r'
  sim

instance sim_Jacobian_addVarInPlace (s s' : Jacobian) [Agree s s'] (a a' : Jacobian) [Agree a a'] (b b' : Jacobian) [Agree b b'] (r r' : Option FElem) [Agree r r'] : Sim (Jacobian.addVarInPlace s a b r) (Jacobian.addVarInPlace s' a' b' r') := by
  unfold Jacobian.addVarInPlace
  revert s s' a a' b b' r r'
  sim

instance sim_Jacobian_addVar (a a' : Jacobian) [Agree a a'] (b b' : Jacobian) [Agree b b'] (r r' : Option FElem) [Agree r r'] : Sim (Jacobian.addVar a b r) (Jacobian.addVar a' b' r') := by
  unfold Jacobian.addVar
  revert a a' b b' r r'
  sim

instance sim_Jacobian_addGeVarCore (s s' : Jacobian) [Agree s s'] (a a' : Jacobian) [Agree a a'] (b b' : Affine) [Agree b b'] (r r' : Option FElem) [Agree r r'] : Sim (Jacobian.addGeVarCore s a b r) (Jacobian.addGeVarCore s' a' b' r') := by
  unfold Jacobian.addGeVarCore
  revert s s' a a' b b' r r'
  sim

instance sim_Jacobian_addGeVarInPlace (s s' : Jacobian) [Agree s s'] (a a' : Jacobian) [Agree a a'] (b b' : Affine) [Agree b b'] (r r' : Option FElem) [Agree r r'] : Sim (Jacobian.addGeVarInPlace s a b r) (Jacobian.addGeVarInPlace s' a' b' r') := by
  unfold Jacobian.addGeVarInPlace
  revert s s' a a' b b' r r'
  sim

instance sim_Jacobian_addGeVar (a a' : Jacobian) [Agree a a'] (b b' : Affine) [Agree b b'] (r r' : Option FElem) [Agree r r'] : Sim (Jacobian.addGeVar a b r) (Jacobian.addGeVar a' b' r') := by
  unfold Jacobian.addGeVar
  revert a a' b b' r r'
  sim

instance sim_Jacobian_addEqualXNone (s s' : Jacobian) [Agree s s'] (a a' : Jacobian) [Agree a a'] (i i' : FElem) [Agree i i'] : Sim (Jacobian.addEqualXNone s a i) (Jacobian.addEqualXNone s' a' i') := by
  unfold Jacobian.addEqualXNone
  revert s s' a a' i i'
  sim

instance sim_Jacobian_addZinvVarCore (s s' : Jacobian) [Agree s s'] (a a' : Jacobian) [Agree a a'] (b b' : Affine) [Agree b b'] (z z' : FElem) [Agree z z'] : Sim (Jacobian.addZinvVarCore s a b z) (Jacobian.addZinvVarCore s' a' b' z') := by
  unfold Jacobian.addZinvVarCore
  revert s s' a a' b b' z z'
  sim

instance sim_Jacobian_addZinvVarInPlace (s s' : Jacobian) [Agree s s'] (a a' : Jacobian) [Agree a a'] (b b' : Affine) [Agree b b'] (z z' : FElem) [Agree z z'] : Sim (Jacobian.addZinvVarInPlace s a b z) (Jacobian.addZinvVarInPlace s' a' b' z') := by
  unfold Jacobian.addZinvVarInPlace
  revert s s' a a' b b' z z'
  sim

instance sim_Jacobian_addZinvVar (a a' : Jacobian) [Agree a a'] (b b' : Affine) [Agree b b'] (z z' : FElem) [Agree z z'] : Sim (Jacobian.addZinvVar a b z) (Jacobian.addZinvVar a' b' z') := by
  unfold Jacobian.addZinvVar
  revert a a' b b' z z'
  sim

instance sim_Jacobian_bothZero (m m' : FElem) [Agree m m'] (r r' : FElem) [Agree r r'] : Sim (Jacobian.bothZero m r) (Jacobian.bothZero m' r') := by
  unfold Jacobian.bothZero
  revert m m' r r'
  sim

instance sim_Jacobian_addGe (a a' : Jacobian) [Agree a a'] (b b' : Affine) [Agree b b'] : Sim (Jacobian.addGe a b) (Jacobian.addGe a' b') := by
  unfold Jacobian.addGe
  revert a a' b b'
  sim

instance sim_Jacobian_rescale (a a' : Jacobian) [Agree a a'] (s s' : FElem) [Agree s s'] : Sim (Jacobian.rescale a s) (Jacobian.rescale a' s') := by
  unfold Jacobian.rescale
  revert a a' s s'
  sim


theorem sim_setTableLoop {a a' : List Jacobian} {zr zr' : List FElem} [Agree a a'] [Agree zr zr'] (i : Nat) (zi zi' : FElem) [Agree zi zi']
    (r r' : List Affine) [Agree r r'] : Sim (setTableLoop a zr i zi r) (setTableLoop a' zr' i zi' r') := by
  induction i generalizing zi zi' r r' with
  | zero => exact sim_pure
  | succ i ih =>
    unfold setTableLoop
    repeat' first | infer_instance | exact ih _ _ _ _ | (with_reducible refine sim_bind ?_ ?_) | intro _

instance sim_setTableGejVar {r r' : List Affine} {a a' : List Jacobian} {zr zr' : List FElem} [h : Agree r r'] [Agree a a'] [Agree zr zr'] :
    Sim (setTableGejVar r a zr) (setTableGejVar r' a' zr') := by
  unfold setTableGejVar
  rw [agree_length h, agree_isEmpty h]
  repeat' first | infer_instance | exact sim_setTableLoop _ _ _ _ _ | (with_reducible refine sim_ite ?_ ?_) | (with_reducible refine sim_bind ?_ ?_) | sim_elim | intro _ | dsimp only

instance sim_globalzStep {zr zr' : List FElem} [Agree zr zr'] {n i : Nat} {z z' : FElem} [Agree z z'] : Sim (globalzStep zr n i z) (globalzStep zr' n i z') := by
  unfold globalzStep
  sim

theorem sim_globalzLoop {a a' : List Jacobian} {zr zr' : List FElem} [Agree a a'] [Agree zr zr'] (i : Nat) (zi zi' : FElem) [Agree zi zi']
    (r r' : List Affine) [h : Agree r r'] : Sim (globalzLoop a zr i zi r) (globalzLoop a' zr' i zi' r') := by
  induction i generalizing zi zi' r r' with
  | zero => exact sim_pure
  | succ i ih =>
    unfold globalzLoop
    rw [agree_length h]
    repeat' first | infer_instance | exact ih _ _ _ _ | (with_reducible refine sim_bind ?_ ?_) | intro _

instance sim_globalzSetTableGej {r r' : List Affine} {g g' : FElem} {a a' : List Jacobian} {zr zr' : List FElem} [h : Agree r r'] [Agree g g']
    [Agree a a'] [Agree zr zr'] : Sim (globalzSetTableGej r g a zr) (globalzSetTableGej r' g' a' zr') := by
  unfold globalzSetTableGej
  rw [agree_length h, agree_isEmpty h]
  repeat' first | infer_instance | exact sim_globalzLoop _ _ _ _ _ | (with_reducible refine sim_ite ?_ ?_) | (with_reducible refine sim_bind ?_ ?_) | sim_elim | intro _ | dsimp only

namespace Ecmult

instance sim_oddStep {d d' : Affine} [Agree d d'] {k : Nat} (s s' : List Jacobian × List FElem) [h : Agree s s'] : Sim (oddStep d k s) (oddStep d' k s') := by
  unfold oddStep
  revert s s'
  refine elim_prod fun p p' _ z z' _ => ?_
  dsimp only
  refine sim_bind inferInstance fun _ _ _ => sim_bind inferInstance fun _ _ _ => sim_bind inferInstance ?_
  refine elim_prod fun _ _ _ => elim_opt ?_ ?_
  · dsimp only [Option.getD]
    sim
  · intro _ _ _
    dsimp only [Option.getD]
    sim

instance sim_oddMultiplesTable {p p' : List Jacobian} {z z' : List FElem} (a a' : Jacobian) [h : Agree p p'] [Agree z z'] [Agree a a'] :
    Sim (oddMultiplesTable p z a) (oddMultiplesTable p' z' a') := by
  unfold oddMultiplesTable
  refine sim_bind inferInstance fun _ _ _ => sim_bind inferInstance fun _ _ _ => sim_bind inferInstance fun _ _ _ => ?_
  revert a a'
  refine elim_jac fun _ _ _ _ _ _ _ _ _ _ => ?_
  refine sim_bind inferInstance ?_
  refine elim_prod fun d d' hd => elim_opt ?_ ?_
  all_goals
    revert d d'
    refine elim_jac ?_
    intros
    dsimp only
    refine sim_bind inferInstance ?_
    refine elim_aff ?_
    intros
    dsimp only
    refine sim_bind inferInstance fun l l' hl => ?_
    rw [agree_length hl]
    sim

instance sim_oddMultiplesTableStorageVar {n : Nat} {a a' : Jacobian} [Agree a a'] :
    Sim (oddMultiplesTableStorageVar n a) (oddMultiplesTableStorageVar n a') := by
  unfold oddMultiplesTableStorageVar
  sim

instance sim_oddMultiplesTableGlobalz {a a' : Jacobian} [Agree a a'] : Sim (oddMultiplesTableGlobalz a) (oddMultiplesTableGlobalz a') := by
  unfold oddMultiplesTableGlobalz
  sim

instance sim_tableGetGe {l l' : List Affine} [Agree l l'] {n : Int} {w : Nat} : Sim (tableGetGe l n w) (tableGetGe l' n w) := by
  unfold tableGetGe
  sim

instance sim_cmovLoop {l l' : List Affine} [h : Agree l l'] {k : Nat} {r r' : Affine} [Agree r r'] : Sim (cmovLoop l k r) (cmovLoop l' k r') := by
  unfold cmovLoop
  rw [agree_length h]
  sim

instance sim_tableGetGeConst (r r' : Affine) [Agree r r'] {l l' : List Affine} [h : Agree l l'] {n : Int} {w : Nat} :
    Sim (tableGetGeConst r l n w) (tableGetGeConst r' l' n w) := by
  unfold tableGetGeConst
  sim

instance sim_ecmultAddA {l l' : List Affine} [Agree l l'] {n i b : Int} {r r' : Jacobian} [Agree r r'] :
    Sim (ecmultAddA l n i b r) (ecmultAddA l' n i b r') := by
  unfold ecmultAddA
  sim

instance sim_ecmultAddG {l : List AffineStorage} {z z' : FElem} [Agree z z'] {n i b : Int} {r r' : Jacobian} [Agree r r'] :
    Sim (ecmultAddG l z n i b r) (ecmultAddG l z' n i b r') := by
  unfold ecmultAddG
  sim

instance sim_ecmultStep {g : List AffineStorage} {l l' : List Affine} [Agree l l'] {z z' : FElem} [Agree z z'] {wa wg : List Int} {na ng : Int} {i : Nat}
    {r r' : Jacobian} [Agree r r'] : Sim (ecmultStep g l z wa wg na ng i r) (ecmultStep g l' z' wa wg na ng i r') := by
  unfold ecmultStep
  sim

instance sim_ecmultFinish (r r' : Jacobian) [Agree r r'] (z z' : FElem) [Agree z z'] : Sim (ecmultFinish r z) (ecmultFinish r' z') := by
  unfold ecmultFinish
  revert r r'
  sim

instance sim_ecmult {g : List AffineStorage} {a a' : Jacobian} [Agree a a'] {na ng : Scalar} : Sim (ecmult g a na ng) (ecmult g a' na ng) := by
  unfold ecmult
  sim

instance sim_constDouble {i : Nat} {r r' : Jacobian} [Agree r r'] : Sim (constDouble i r) (constDouble i r') := by
  unfold constDouble
  sim

instance sim_constStep {l l' : List Affine} [Agree l l'] {w : List Int} {i : Nat} (s s' : Jacobian × Affine) [Agree s s'] :
    Sim (constStep l w i s) (constStep l' w i s') := by
  unfold constStep
  revert s s'
  sim

instance sim_weakTable {l l' : List Affine} [Agree l l'] : Sim (weakTable l) (weakTable l') := by
  unfold weakTable
  sim

instance sim_constCorrect {a a' : Affine} [Agree a a'] {k : Int} {r r' : Jacobian} [Agree r r'] : Sim (constCorrect a k r) (constCorrect a' k r') := by
  unfold constCorrect
  sim

instance sim_ecmultConst {a a' : Affine} [Agree a a'] {k : Scalar} : Sim (ecmultConst a k) (ecmultConst a' k) := by
  unfold ecmultConst
  sim

theorem elim_ctx {P : GenContext → GenContext → Prop} (h : ∀ t b i i', Agree i i' → P ⟨t, b, i⟩ ⟨t, b, i'⟩) : ∀ a a', Agree a a' → P a a' := by
  rintro ⟨t, b, i⟩ ⟨t', b', i'⟩ ⟨e⟩
  obtain ⟨e1, e2, e3⟩ := e
  obtain rfl : t = t' := e1
  obtain rfl : b = b' := e2
  exact h _ _ _ _ ⟨e3⟩

instance sim_genStep (c c' : GenContext) [Agree c c'] {k : Scalar} {j : Nat} (s s' : Jacobian × AffineStorage) [Agree s s'] :
    Sim (genStep c k j s) (genStep c' k j s') := by
  unfold genStep
  revert c c' s s'
  refine elim_ctx fun _ _ _ _ _ => ?_
  sim

instance sim_ecmultGen (c c' : GenContext) [h : Agree c c'] {k : Scalar} : Sim (ecmultGen c k) (ecmultGen c' k) := by
  have e1 : c.blind = c'.blind := h.out.2.1
  have : Agree c.initial c'.initial := ⟨h.out.2.2⟩
  unfold ecmultGen
  rw [e1]
  sim

end Ecmult

namespace Ecdsa
open Ecmult

instance sim_verifySecond {p p' : Jacobian} [Agree p p'] {x x' : FElem} [Agree x x'] : Sim (verifySecond p x) (verifySecond p' x') := by
  unfold verifySecond
  sim

instance sim_verifyTail {r : Scalar} (p p' : Jacobian) [Agree p p'] : Sim (verifyTail r p) (verifyTail r p') := by
  unfold verifyTail
  revert p p'
  sim

instance sim_verifyRaw {g : List AffineStorage} {r s m : Scalar} {k k' : Affine} [Agree k k'] : Sim (verifyRaw g r s k m) (verifyRaw g r s k' m) := by
  unfold verifyRaw
  sim

instance sim_recoverX {i : UInt8} {x x' : FElem} [Agree x x'] : Sim (recoverX i x) (recoverX i x') := by
  unfold recoverX
  sim

instance sim_recoverTail {g : List AffineStorage} {r s m : Scalar} {k k' : Affine} [Agree k k'] : Sim (recoverTail g r s m k) (recoverTail g r s m k') := by
  unfold recoverTail
  sim

instance sim_signRaw {c c' : GenContext} [Agree c c'] {d m k : Scalar} : Sim (signRaw c d m k) (signRaw c' d m k) := by
  unfold signRaw
  sim

instance sim_ecdhRaw {D : Digest} {k k' : Affine} [Agree k k'] {d : Scalar} : Sim (ecdhRaw D k d) (ecdhRaw D k' d) := by
  unfold ecdhRaw
  sim

end Ecdsa

namespace PublicKey
open Ecmult

instance sim_fromSecretKeyWithContext {d : SecretKey} {c c' : GenContext} [Agree c c'] :
    Sim (fromSecretKeyWithContext d c) (fromSecretKeyWithContext d c') := by
  unfold fromSecretKeyWithContext
  sim

instance sim_checkValid (a a' : Affine) [Agree a a'] : Sim (checkValid a) (checkValid a') := by
  unfold checkValid
  revert a a'
  sim

instance sim_serialize (a a' : PublicKey) [Agree a a'] : Sim (serialize a) (serialize a') := by
  unfold serialize
  revert a a'
  sim

instance sim_serializeCompressed (a a' : PublicKey) [Agree a a'] : Sim (serializeCompressed a) (serializeCompressed a') := by
  unfold serializeCompressed
  revert a a'
  sim

instance sim_tweakAdd (a a' : PublicKey) [Agree a a'] {t : SecretKey} {g : List AffineStorage} :
    Sim (tweakAddAssignWithContext a t g) (tweakAddAssignWithContext a' t g) := by
  unfold tweakAddAssignWithContext
  revert a a'
  sim

instance sim_tweakMul (a a' : PublicKey) [Agree a a'] {t : SecretKey} {g : List AffineStorage} :
    Sim (tweakMulAssignWithContext a t g) (tweakMulAssignWithContext a' t g) := by
  unfold tweakMulAssignWithContext
  revert a a'
  sim

theorem sim_combineLoop (l l' : List PublicKey) (h : Agree l l') (q q' : Jacobian) (hq : Agree q q') : Sim (combineLoop l q) (combineLoop l' q') := by
  obtain ⟨h'⟩ := h
  have h : List.Forall₂ Same.rel l l' := h'
  clear h'
  induction h generalizing q q' with
  | nil => exact sim_pure
  | @cons a b _ _ e _ ih =>
    unfold combineLoop
    have : Agree a.pt b.pt := ⟨e⟩
    exact sim_bind inferInstance fun x y e => ih x y e

instance sim_combine (l l' : List PublicKey) [h : Agree l l'] : Sim (combine l) (combine l') := by
  unfold combine
  refine sim_bind (sim_combineLoop l l' h _ _ inferInstance) ?_
  sim

instance sim_tryFrom (a a' : Affine) [Agree a a'] : Sim (tryFrom a) (tryFrom a') := by
  unfold tryFrom
  revert a a'
  sim

instance sim_serdeSerialize {B : Base64} {h : Bool} (a a' : PublicKey) [Agree a a'] : Sim (serdeSerialize B h a) (serdeSerialize B h a') := by
  unfold serdeSerialize
  sim

end PublicKey

instance sim_shared {D : Digest} (k k' : PublicKey) [Agree k k'] {d : SecretKey} : Sim (SharedSecret.new D k d) (SharedSecret.new D k' d) := by
  unfold SharedSecret.new
  revert k k'
  sim

instance sim_verify {m : Message} {s : Signature} (k k' : PublicKey) [Agree k k'] {g : List AffineStorage} :
    Sim (verifyWithContext m s k g) (verifyWithContext m s k' g) := by
  unfold verifyWithContext
  revert k k'
  sim

instance sim_signLoop {D : Drbg} {c c' : Ecmult.GenContext} [Agree c c'] {d m : Scalar} {fuel : Nat} {t : D.State} :
    Sim (signLoop D c d m fuel t) (signLoop D c' d m fuel t) := by
  induction fuel generalizing t with
  | zero => exact sim_refl _
  | succ k ih =>
    unfold signLoop
    sim
    rename_i r
    cases r <;> sim

instance sim_sign {D : Drbg} {c c' : Ecmult.GenContext} [Agree c c'] {m : Message} {d : SecretKey} {fuel : Nat} :
    Sim (signWithContext D fuel m d c) (signWithContext D fuel m d c') := by
  unfold signWithContext
  sim

/-! Results that are equal, flags included. -/

theorem Sim.exact {α : Type} [Same α] [Plain α] {x y : Exec α} (h : Sim x y) : x .release = y .release := by
  rcases h.out with ⟨h1, h2⟩ | ⟨a, b, h1, h2, e⟩
  · rw [h1, h2]
  · rw [h1, h2, Plain.eq e.out]

theorem exact_bind {α β : Type} [Same α] {x y : Exec α} {f g : α → Exec β} (h : Sim x y) (hf : ∀ a b, Agree a b → f a .release = g b .release) :
    (x >>= f) .release = (y >>= g) .release := by
  show (x .release).bind (fun a => f a .release) = (y .release).bind (fun a => g a .release)
  rcases h.out with ⟨h1, h2⟩ | ⟨a, b, h1, h2, e⟩
  · rw [h1, h2]; rfl
  · rw [h1, h2]; exact hf a b e

theorem bind_release {α β : Type} (x : Exec α) (f : α → Exec β) : (x >>= f) .release = (x .release).bind fun a => f a .release := rfl

theorem exact_seq {α β : Type} {x y : Exec α} {f g : α → Exec β} (h : x .release = y .release) (hf : ∀ a, f a .release = g a .release) :
    (x >>= f) .release = (y >>= g) .release := by
  show (x .release).bind (fun a => f a .release) = (y .release).bind (fun a => g a .release)
  rw [h]
  congr 1
  funext a
  exact hf a

theorem FElem.mul_release (a b : FElem) :
    FElem.mul a b .release = (FElem.mulInner a.n b.n .release).map fun t => { n := t, magnitude := 1, normalized := false } := by
  unfold FElem.mul
  generalize FElem.mulInner a.n b.n = x
  show (x .release).bind _ = _
  cases x .release <;> rfl

theorem exact_mul {a a' b b' : FElem} (h : Agree a a') (h' : Agree b b') : FElem.mul a b .release = FElem.mul a' b' .release := by
  have e : a.n = a'.n := h.out
  have e' : b.n = b'.n := h'.out
  rw [FElem.mul_release, FElem.mul_release, e, e']

theorem exact_setGej : ∀ a a', Agree a a' → Affine.setGej a .release = Affine.setGej a' .release := by
  refine elim_jac fun x x' _ y y' _ z z' _ i => ?_
  unfold Affine.setGej
  dsimp only
  refine exact_bind inferInstance fun _ _ _ => exact_bind inferInstance fun _ _ _ => exact_bind inferInstance fun _ _ _ => ?_
  exact exact_seq (exact_mul ‹_› ‹_›) fun _ => exact_seq (exact_mul ‹_› ‹_›) fun _ => rfl

theorem exact_setGejVar (s : Affine) : ∀ a a', Agree a a' → Affine.setGejVar s a .release = Affine.setGejVar s a' .release := by
  refine elim_jac fun x x' _ y y' _ z z' _ i => ?_
  unfold Affine.setGejVar
  dsimp only
  split
  · rfl
  refine exact_bind inferInstance fun _ _ _ => exact_bind inferInstance fun _ _ _ => exact_bind inferInstance fun _ _ _ => ?_
  exact exact_seq (exact_mul ‹_› ‹_›) fun _ => exact_seq (exact_mul ‹_› ‹_›) fun _ => rfl

namespace Ecdsa

theorem exact_recoverTail {g : List AffineStorage} {r s m : Scalar} {k k' : Affine} (h : Agree k k') :
    recoverTail g r s m k .release = recoverTail g r s m k' .release := by
  unfold recoverTail
  refine exact_bind inferInstance fun _ _ _ => ?_
  refine exact_seq rfl fun _ => exact_seq rfl fun _ => exact_seq rfl fun _ => exact_seq rfl fun _ => ?_
  exact exact_bind inferInstance fun _ _ h => exact_seq (exact_setGejVar _ _ _ h) fun _ => rfl

end Ecdsa

namespace PublicKey

theorem exact_combine {l l' : List PublicKey} (h : Agree l l') : combine l .release = combine l' .release := by
  unfold combine
  refine exact_bind (sim_combineLoop l l' h _ _ inferInstance) ?_
  intro a a' e
  have ei : a.infinity = a'.infinity := e.out.2.2.2
  rw [ei]
  split
  · rfl
  · exact exact_seq (exact_setGej _ _ e) fun _ => rfl

theorem exact_fromSecretKey {d : SecretKey} {c c' : Ecmult.GenContext} (h : Agree c c') :
    fromSecretKeyWithContext d c .release = fromSecretKeyWithContext d c' .release := by
  unfold fromSecretKeyWithContext
  exact exact_bind inferInstance fun _ _ e => exact_seq (exact_setGej _ _ e) fun _ => rfl

theorem exact_tweakAdd {k k' : PublicKey} (h : Agree k k') (t : SecretKey) (g : List AffineStorage) :
    (∃ e, tweakAddAssignWithContext k t g .release = some (k, .error e) ∧ tweakAddAssignWithContext k' t g .release = some (k', .error e)) ∨
      tweakAddAssignWithContext k t g .release = tweakAddAssignWithContext k' t g .release := by
  have : Agree k.pt k'.pt := ⟨h.out⟩
  have hs : Sim (Jacobian.setGe k.pt >>= fun a => Ecmult.ecmult g a (Scalar.fromInt 1) t.sc) (Jacobian.setGe k'.pt >>= fun a => Ecmult.ecmult g a (Scalar.fromInt 1) t.sc) := by
    sim
  unfold tweakAddAssignWithContext
  rw [← bind_assoc, ← bind_assoc]
  generalize (Jacobian.setGe k.pt >>= fun a => Ecmult.ecmult g a (Scalar.fromInt 1) t.sc) = x at hs ⊢
  generalize (Jacobian.setGe k'.pt >>= fun a => Ecmult.ecmult g a (Scalar.fromInt 1) t.sc) = y at hs ⊢
  rw [bind_release, bind_release]
  rcases hs.out with ⟨h1, h2⟩ | ⟨a, b, h1, h2, e⟩
  · rw [h1, h2]; exact Or.inr rfl
  · have ei : a.infinity = b.infinity := e.out.2.2.2
    rw [h1, h2]
    dsimp only [Option.bind]
    rw [ei]
    cases b.infinity with
    | true => exact Or.inl ⟨_, rfl, rfl⟩
    | false =>
      rw [if_neg (by decide), if_neg (by decide)]
      exact Or.inr (exact_seq (exact_setGej _ _ e) fun _ => rfl)

theorem exact_tweakMul {k k' : PublicKey} (h : Agree k k') (t : SecretKey) (g : List AffineStorage) :
    (t.sc.isZero = true ∧ tweakMulAssignWithContext k t g .release = some (k, .error .tweakOutOfRange) ∧
      tweakMulAssignWithContext k' t g .release = some (k', .error .tweakOutOfRange)) ∨
      tweakMulAssignWithContext k t g .release = tweakMulAssignWithContext k' t g .release := by
  have : Agree k.pt k'.pt := ⟨h.out⟩
  unfold tweakMulAssignWithContext
  cases hz : t.sc.isZero with
  | true => exact Or.inl ⟨rfl, rfl, rfl⟩
  | false =>
    right
    rw [if_neg (by decide), if_neg (by decide)]
    exact exact_bind inferInstance fun _ _ _ => exact_bind inferInstance fun _ _ e => exact_seq (exact_setGej _ _ e) fun _ => rfl

end PublicKey

end Verif
