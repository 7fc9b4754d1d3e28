import Verif.Model.Boxed
import Verif.Proofs.Gen
import Verif.Proofs.Wnaf
import Verif.Proofs.Table

/-!
# The memory of the contexts (C94)
-/

namespace Verif

theorem setIdx_append {α : Type} {t l : List α} {i : ℕ} (ht : t.length = i) (v : α) (h : i < l.length) :
    setIdx (t ++ l.drop i) i v = pure ((t ++ [v]) ++ l.drop (i + 1)) := by
  subst ht
  have e : t ++ l.drop t.length = t ++ l[t.length] :: l.drop (t.length + 1) := by rw [List.getElem_cons_drop]
  rw [setIdx_pure v (by simp; omega), e, List.set_append_right _ _ le_rfl, Nat.sub_self, List.set_cons_zero,
    List.append_assoc, List.singleton_append]

theorem idx_append {α : Type} {t l : List α} {i : ℕ} (ht : t.length = i) (h : i < l.length) :
    idx (t ++ l.drop i) i = pure l[i] := by
  subst ht
  unfold idx
  rw [List.getElem?_append_right le_rfl]
  simp [h]

theorem tabulate_congr {α β : Type} {n : ℕ} {f : ℕ → Exec α} {g g' : List α → Exec β} (h : ∀ t, t.length = n → g t = g' t) :
    (tabulate n f >>= g) = (tabulate n f >>= g') := by
  have len : ∀ n p t, tabulate n f p = some t → t.length = n := by
    intro n p
    induction n with
    | zero => intro t e; cases e; rfl
    | succ n ih =>
      intro t e
      have e : ((tabulate n f p).bind fun a => (f n p).bind fun v => some (a ++ [v])) = some t := e
      obtain ⟨a, ha, e⟩ := Option.bind_eq_some_iff.1 e
      obtain ⟨v, hv, e⟩ := Option.bind_eq_some_iff.1 e
      cases e
      simp [ih a ha]
  funext p
  show (tabulate n f p).bind (fun a => g a p) = (tabulate n f p).bind (fun a => g' a p)
  cases e : tabulate n f p with
  | none => rfl
  | some t => simp only [Option.bind_some, h t (len n p t e)]

theorem forN_tab {α : Type} {F : ℕ → List α → Exec (List α)} {f : ℕ → Exec α} (l : List α) : ∀ n : ℕ,
    (∀ i < n, ∀ t : List α, t.length = i → F i (t ++ l.drop i) = do let v ← f i; pure ((t ++ [v]) ++ l.drop (i + 1))) →
    forN n F l = do let t ← tabulate n f; pure (t ++ l.drop n)
  | 0, _ => by simp [forN, tabulate]
  | n + 1, h => by
    rw [forN, forN_tab l n fun i hi => h i (by omega), bind_assoc]
    simp only [pure_bind]
    rw [tabulate_congr (fun t ht => h n (by omega) t ht)]
    show _ = (do let t ← (do let s ← tabulate n f; let v ← f n; pure (s ++ [v])); pure (t ++ l.drop (n + 1)))
    simp only [bind_assoc, pure_bind]

/-- Writing every element of a list. -/
theorem forN_write {α : Type} {f : ℕ → Exec α} (l : List α) {n : ℕ} (hl : l.length = n) :
    forN n (fun i l => do let v ← f i; setIdx l i v) l = tabulate n f := by
  rw [forN_tab (f := f) l n]
  · have : l.drop n = [] := by rw [← hl]; simp
    simp [this]
  · intro i hi t ht
    refine bind_congr fun v => ?_
    rw [setIdx_append ht v (by omega)]

theorem tabulate_pure {α : Type} (f : ℕ → α) (n : ℕ) : tabulate n (fun i => pure (f i)) = pure ((List.range n).map f) := by
  induction n with
  | zero => rfl
  | succ n ih =>
    show (do let s ← tabulate n (fun i => pure (f i)); let v ← pure (f n); pure (s ++ [v])) = _
    rw [ih]
    simp [List.range_succ]

theorem safe_pure {α : Type} (a : α) : safe (pure a) = pure a := rfl

theorem getCells_some {α : Type} (l : List α) : getCells (l.map some) = (pure l : Unsafe (List α)) := by
  unfold getCells
  induction l with
  | nil => rfl
  | cons a l ih =>
    rw [List.map_cons, List.mapM_cons, ih]
    rfl

theorem safe_bind {α β : Type} (x : Exec α) (f : α → Exec β) : (do let a ← safe x; safe (f a)) = safe (x >>= f) := by
  unfold safe
  rw [show (ExceptT.lift (x >>= f) : Unsafe β) = ExceptT.lift x >>= fun a => ExceptT.lift (f a) from (liftM_bind (n := Unsafe) x f)]

namespace Ecmult

theorem storageVarInto_eq (pre : List AffineStorage) (a : Jacobian) : storageVarInto pre a = oddMultiplesTableStorageVar pre.length a := by
  unfold storageVarInto oddMultiplesTableStorageVar
  refine bind_congr fun s => bind_congr fun prea => ?_
  rw [← forN_write (f := fun i => do let x ← idx prea i; Affine.toStorage x) pre rfl]
  simp only [bind_assoc]

theorem clear_cells (l : List (Cell AffineStorage)) {n : ℕ} (hl : l.length = n) :
    forN n (fun i c => setIdx c i (some AffineStorage.default)) l = pure ((List.replicate n AffineStorage.default).map some) := by
  have := forN_write (f := fun _ => pure (some AffineStorage.default)) l hl
  simp only [pure_bind] at this
  rw [this, tabulate_pure]
  simp

theorem clear_rows (t : List (List (Cell AffineStorage))) (h1 : t.length = 64) (h2 : ∀ r ∈ t, r.length = 16) :
    forN 64 (fun j t => do
      let row ← idx t j
      let row ← forN 16 (fun i row => setIdx row i (some AffineStorage.default)) row
      setIdx t j row) t = pure ((List.replicate 64 (List.replicate 16 AffineStorage.default)).map (·.map some)) := by
  rw [forN_tab (f := fun _ => pure ((List.replicate 16 AffineStorage.default).map some)) t 64, tabulate_pure, pure_bind]
  · rw [List.drop_eq_nil_of_le (by omega)]
    simp
  · intro i hi u hu
    rw [idx_append hu (by omega), pure_bind, clear_cells _ (h2 _ (List.getElem_mem _)), pure_bind, pure_bind, setIdx_append hu _ (by omega)]

theorem storePrec_eq (prec : List Affine) (t : List (List AffineStorage)) (h1 : t.length = 64) (h2 : ∀ r ∈ t, r.length = 16) :
    storePrec prec t = tabulate 64 fun j => tabulate 16 fun i => (idx prec (j * 16 + i) >>= Affine.toStorage) := by
  unfold storePrec
  rw [forN_tab (f := fun j => tabulate 16 fun i => (idx prec (j * 16 + i) >>= Affine.toStorage)) t 64]
  · rw [List.drop_eq_nil_of_le (by omega)]
    simp
  · intro j hj u hu
    rw [idx_append hu (by omega), pure_bind]
    have := forN_write (f := fun i => (idx prec (j * 16 + i) >>= Affine.toStorage)) t[j] (h2 _ (List.getElem_mem _))
    simp only [bind_assoc] at this
    rw [this]
    refine bind_congr fun row => ?_
    rw [setIdx_append hu _ (by omega)]

end Ecmult

namespace Props
open Ecmult

/-- C94, `ECMultContext::new_boxed`: whatever the memory holds, initialised or not, no uninitialised cell is read
and the context is the computed one. -/
theorem C94_context (mem : List (Cell AffineStorage)) (h : mem.length = tableSizeG) :
    ∃ ctx, newContext = pure ctx ∧ newBoxed (some mem) = pure ctx := by
  obtain ⟨ctx, hc, _⟩ := newContext_runs
  refine ⟨ctx, hc, ?_⟩
  unfold newBoxed
  rw [show boxFromRaw (some mem) = pure mem from rfl, pure_bind, clear_cells mem h, safe_pure, pure_bind, getCells_some, pure_bind]
  rw [safe_bind, show (do let a ← Jacobian.setGe Affine.g; storageVarInto (List.replicate tableSizeG AffineStorage.default) a) = newContext from ?_]
  rotate_left
  · unfold newContext
    refine bind_congr fun gj => ?_
    rw [storageVarInto_eq, List.length_replicate]
  rw [hc, safe_pure]

/-- C94, `ECMultGenContext::new_boxed`. -/
theorem C94_gen_context (mem : GenMem) (h1 : mem.prec.length = 64) (h2 : ∀ r ∈ mem.prec, r.length = 16) :
    ∃ ctx, newGenContext = pure ctx ∧ newGenBoxed (some mem) = pure ctx := by
  obtain ⟨ctx, hc, _⟩ := newGenContext_runs
  refine ⟨ctx, hc, ?_⟩
  unfold newGenBoxed
  rw [show boxFromRaw (some mem) = pure mem from rfl, pure_bind, clear_rows _ h1 h2, safe_pure, pure_bind]
  have hm : ((List.replicate 64 (List.replicate 16 AffineStorage.default)).map (·.map some)).mapM getCells =
      (pure (List.replicate 64 (List.replicate 16 AffineStorage.default)) : Unsafe _) := by
    generalize List.replicate 64 (List.replicate 16 AffineStorage.default) = l
    induction l with
    | nil => rfl
    | cons a l ih => rw [List.map_cons, List.mapM_cons, getCells_some, ih]; rfl
  dsimp only
  rw [hm, pure_bind]
  have e : ∀ (a : GenContext), (pure a : Unsafe GenContext) = safe (pure a) := fun _ => rfl
  simp only [Cell.get, pure_bind, e, safe_bind]
  rw [← e ctx, ← safe_pure ctx, ← hc]
  unfold newGenContext
  refine congrArg safe ?_
  refine bind_congr fun _ => bind_congr fun _ => bind_congr fun _ => bind_congr fun _ => bind_congr fun _ => bind_congr fun _ =>
    bind_congr fun _ => bind_congr fun _ => bind_congr fun prec => ?_
  rw [storePrec_eq prec _ (by simp) (by simp)]

/-- C94. The result of `alloc` is not checked: without memory both functions are undefined. -/
theorem C94_null : newBoxed none = throw .null ∧ newGenBoxed none = throw .null := ⟨rfl, rfl⟩

/-- Memory never written to meets the hypotheses; reading it would be undefined. -/
example : ∃ mem : List (Cell AffineStorage), mem.length = tableSizeG ∧ getCells mem = throw .uninit :=
  ⟨List.replicate tableSizeG none, by simp, by rw [show tableSizeG = 16383 + 1 from rfl, List.replicate_succ]; rfl⟩

example : ∃ mem : GenMem, mem.prec.length = 64 ∧ (∀ r ∈ mem.prec, r.length = 16) ∧ mem.blind.get = throw .uninit :=
  ⟨⟨List.replicate 64 (List.replicate 16 none), none, none⟩, by simp, by simp, rfl⟩

end Props
end Verif
