import Verif.Proofs.Bytes

/-! Public keys: parsing, serialization, arithmetic. -/

namespace Verif

open Spec FElem Ecmult Ecdsa

theorem enc65_unique {b : List UInt8} {x y x' y' : Fp} (h : Encodes65 b x y) (h' : Encodes65 b x' y') : x = x' ∧ y = y' := by
  obtain ⟨t, rfl, _⟩ := h
  obtain ⟨t', e, _⟩ := h'
  simp only [List.cons.injEq] at e
  obtain ⟨e1, e2⟩ := List.append_inj e.2 (by simp [beBytes_length])
  exact ⟨beBytes_fp_inj e1, beBytes_fp_inj e2⟩

theorem sec1_unique {x y x' y' : Fp} {P P' : Pt} (hP : IsPt P x y) (hP' : IsPt P' x' y') (h : sec1Compressed x y = sec1Compressed x' y') :
    P = P' := by
  unfold sec1Compressed at h
  simp only [List.cons.injEq] at h
  obtain ⟨h1, h2⟩ := h
  have := beBytes_fp_inj h2
  subst this
  rcases hP.same_x hP' with e | e
  · subst e; exact hP.unique hP'
  · exfalso
    have := y_parity hP'.y_ne
    have := y_parity hP.y_ne
    rw [e] at h1
    split at h1 <;> split at h1 <;> first | omega | (revert h1; decide)

theorem mag_le_one {f : FElem} (h : f.magnitude = 1) : f.magnitude.toNat ≤ 1 := by rw [h]; rfl

/-- The parity test on a tag. -/
theorem hybridBad_runs {tag : UInt8} {f : FElem} {y : Fp} (h : FeN f y) (ht : (tag == 0x04 || tag == 0x06 || tag == 0x07) = true) :
    Runs (PublicKey.hybridBad tag f) (fun r => r = false ↔ (tag = 4 ∨ (tag = 6 ∧ y.val % 2 = 0) ∨ (tag = 7 ∧ y.val % 2 = 1))) := by
  unfold PublicKey.hybridBad
  simp only [Bool.or_eq_true, beq_iff_eq] at ht
  rcases ht with (rfl | rfl) | rfl
  · rw [if_neg (by decide)]; exact runs_pure (by simp)
  · rw [if_pos (by decide)]
    refine Runs.bind (isOdd_runs h) fun o ho => runs_pure ?_
    rw [ho]
    simp
  · rw [if_pos (by decide)]
    refine Runs.bind (isOdd_runs h) fun o ho => runs_pure ?_
    rw [ho]
    simp

theorem checkValid_runs {a : Affine} {X Y : Fp} (hi : a.infinity = false) (hx : Fe a.x 8 X) (hy : Fe a.y 8 Y) :
    Runs (PublicKey.checkValid a) (fun o => (o = .error .invalidPublicKey ∧ Y ^ 2 ≠ X ^ 3 + 7) ∨
      (o = .ok ⟨a⟩ ∧ ∃ P, IsPt P X Y ∧ Aff a P)) := by
  unfold PublicKey.checkValid
  rw [if_neg (by rw [hi]; simp)]
  refine Runs.bind (Affine.isValidVar_runs (hx.ok (by norm_num)) (hy.ok (by norm_num))) fun v hv => ?_
  rw [hi, hx.v, hy.v] at hv
  by_cases h : Y ^ 2 = X ^ 3 + 7
  · have : v = true := by rw [hv]; simpa using h
    rw [this, if_pos rfl]
    obtain ⟨P, hP⟩ := isPt_of_eqn h
    exact runs_pure (Or.inr ⟨rfl, P, hP, aff_of_isPt hi hx hy le_rfl le_rfl hP⟩)
  · have : v = false := by rw [hv]; simpa using h
    rw [this, if_neg (by simp)]
    exact runs_pure (Or.inl ⟨rfl, h⟩)

theorem parse_runs (b : Vector UInt8 65) : Runs (PublicKey.parse b) (fun o =>
    (o = .error .invalidPublicKey ∧ ¬ ∃ x y, y ^ 2 = x ^ 3 + 7 ∧ Encodes65 b.toList x y) ∨
    ∃ k P x y, o = .ok k ∧ IsPt P x y ∧ Encodes65 b.toList x y ∧ Aff k.pt P) := by
  unfold PublicKey.parse
  by_cases ht : (b[0] == 0x04 || b[0] == 0x06 || b[0] == 0x07) = true
  swap
  · rw [if_pos (by simpa using ht)]
    refine runs_pure (Or.inl ⟨rfl, ?_⟩)
    rintro ⟨x, y, _, t, e, h⟩
    rw [split65] at e
    simp only [List.cons.injEq] at e
    apply ht
    rw [e.1]
    rcases h with rfl | ⟨rfl, _⟩ | ⟨rfl, _⟩ <;> decide
  rw [if_neg (by rw [ht]; simp)]
  refine Runs.bind (FElem.setB32_runs FElem.zero _) fun fx ⟨hx1, hx2⟩ => ?_
  have parts : ∀ x y : Fp, Encodes65 b.toList x y →
      (arrayRef32 b 1 (by decide)).toList = beBytes 32 x.val ∧ (arrayRef32 b 33 (by decide)).toList = beBytes 32 y.val ∧
      (b[0] = 4 ∨ (b[0] = 6 ∧ y.val % 2 = 0) ∨ (b[0] = 7 ∧ y.val % 2 = 1)) := by
    rintro x y ⟨t, e, h⟩
    rw [split65] at e
    simp only [List.cons.injEq] at e
    obtain ⟨e1, e2⟩ := List.append_inj e.2 (by simp [beBytes_length])
    exact ⟨e1, e2, by rw [e.1]; exact h⟩
  cases hbx : fx.2 with
  | false =>
    rw [if_pos (by simp)]
    refine runs_pure (Or.inl ⟨rfl, ?_⟩)
    rintro ⟨x, y, _, h⟩
    rw [hbx, (parts x y h).1, beNat_fp] at hx1
    exact of_decide_eq_false hx1.symm (ZMod.val_lt x)
  | true =>
    rw [if_neg (by simp)]
    refine Runs.bind (FElem.setB32_runs FElem.zero _) fun fy ⟨hy1, hy2⟩ => ?_
    cases hby : fy.2 with
    | false =>
      rw [if_pos (by simp)]
      refine runs_pure (Or.inl ⟨rfl, ?_⟩)
      rintro ⟨x, y, _, h⟩
      rw [hby, (parts x y h).2.1, beNat_fp] at hy1
      exact of_decide_eq_false hy1.symm (ZMod.val_lt y)
    | true =>
      rw [if_neg (by simp)]
      rw [hbx] at hx1
      rw [hby] at hy1
      have lx := of_decide_eq_true hx1.symm
      have ly := of_decide_eq_true hy1.symm
      obtain ⟨hfx, hmx⟩ := hx2 hbx
      obtain ⟨hfy, hmy⟩ := hy2 hby
      have ex := beBytes_of_lt (by simp) lx
      have ey := beBytes_of_lt (by simp) ly
      obtain ⟨X, hX⟩ : ∃ X : Fp, X = ((beNat (arrayRef32 b 1 (by decide)).toList : ℕ) : Fp) := ⟨_, rfl⟩
      obtain ⟨Y, hY⟩ : ∃ Y : Fp, Y = ((beNat (arrayRef32 b 33 (by decide)).toList : ℕ) : Fp) := ⟨_, rfl⟩
      rw [← hX] at hfx ex
      rw [← hY] at hfy ey
      have uniq : ∀ x y : Fp, Encodes65 b.toList x y → x = X ∧ y = Y := by
        intro x y h
        obtain ⟨h1, h2, _⟩ := parts x y h
        exact ⟨beBytes_fp_inj (h1.symm.trans ex.symm), beBytes_fp_inj (h2.symm.trans ey.symm)⟩
      refine Runs.bind (hybridBad_runs hfy ht) fun bad hbad => ?_
      cases bad with
      | true =>
        rw [if_pos rfl]
        refine runs_pure (Or.inl ⟨rfl, ?_⟩)
        rintro ⟨x, y, _, h⟩
        obtain ⟨rfl, rfl⟩ := uniq x y h
        exact absurd (hbad.2 (parts _ _ h).2.2) (by simp)
      | false =>
        rw [if_neg (by simp)]
        have henc : Encodes65 b.toList X Y := ⟨b[0]'(by decide), by rw [split65, ex, ey], hbad.1 rfl⟩
        refine (checkValid_runs (a := Affine.setXy fx.1 fy.1) (X := X) (Y := Y) (by rfl) (hfx.fe.mono (by norm_num)) (hfy.fe.mono (by norm_num))).mono fun o ho => ?_
        rcases ho with ⟨rfl, h⟩ | ⟨rfl, P, hP, ha⟩
        · refine Or.inl ⟨rfl, ?_⟩
          rintro ⟨x, y, h1, h2⟩
          obtain ⟨rfl, rfl⟩ := uniq x y h2
          exact h h1
        · exact Or.inr ⟨_, P, X, Y, rfl, hP, henc, ha⟩

theorem parseCompressed_runs (b : Vector UInt8 33) : Runs (PublicKey.parseCompressed b) (fun o =>
    (o = .error .invalidPublicKey ∧ ¬ ∃ x y, y ^ 2 = x ^ 3 + 7 ∧ b.toList = sec1Compressed x y) ∨
    ∃ k P x y, o = .ok k ∧ IsPt P x y ∧ b.toList = sec1Compressed x y ∧ Aff k.pt P) := by
  unfold PublicKey.parseCompressed
  have parts : ∀ x y : Fp, b.toList = sec1Compressed x y →
      (arrayRef32 b 1 (by decide)).toList = beBytes 32 x.val ∧ b[0] = if y.val % 2 = 1 then 3 else 2 := by
    intro x y e
    rw [split33] at e
    unfold sec1Compressed at e
    simp only [List.cons.injEq] at e
    exact ⟨e.2, e.1⟩
  by_cases ht : (b[0] == 0x02 || b[0] == 0x03) = true
  swap
  · rw [if_pos (by simpa using ht)]
    refine runs_pure (Or.inl ⟨rfl, ?_⟩)
    rintro ⟨x, y, _, h⟩
    apply ht
    rw [(parts x y h).2]
    split <;> decide
  rw [if_neg (by rw [ht]; simp)]
  refine Runs.bind (FElem.setB32_runs FElem.zero _) fun fx ⟨hx1, hx2⟩ => ?_
  cases hbx : fx.2 with
  | false =>
    rw [if_pos (by simp)]
    refine runs_pure (Or.inl ⟨rfl, ?_⟩)
    rintro ⟨x, y, _, h⟩
    rw [hbx, (parts x y h).1, beNat_fp] at hx1
    exact of_decide_eq_false hx1.symm (ZMod.val_lt x)
  | true =>
    rw [if_neg (by simp)]
    rw [hbx] at hx1
    have lx := of_decide_eq_true hx1.symm
    obtain ⟨hfx, hmx⟩ := hx2 hbx
    have ex := beBytes_of_lt (by simp) lx
    obtain ⟨X, hX⟩ : ∃ X : Fp, X = ((beNat (arrayRef32 b 1 (by decide)).toList : ℕ) : Fp) := ⟨_, rfl⟩
    rw [← hX] at hfx ex
    refine Runs.bind (Affine.setXoVar_runs (hfx.fe.mono (by norm_num)) (b[0]'(by decide) == 0x03)) fun e ⟨he1, he2, he3, he4, he5⟩ => ?_
    refine (checkValid_runs (a := e.1) (X := X) (Y := e.1.y.v) he2 (by rw [he1]; exact hfx.fe.mono (by norm_num)) (he3.mono (by norm_num))).mono fun o ho => ?_
    rcases ho with ⟨rfl, h⟩ | ⟨rfl, P, hP, ha⟩
    · refine Or.inl ⟨rfl, ?_⟩
      rintro ⟨x, y, h1, h2⟩
      have : x = X := beBytes_fp_inj ((parts x y h2).1.symm.trans ex.symm)
      subst this
      exact h (he5 ⟨y, by rw [← h1]; ring⟩).1
    · refine Or.inr ⟨_, P, X, _, rfl, hP, ?_, ha⟩
      have hpar := (he5 ⟨e.1.y.v, by rw [← hP.eqn]; ring⟩).2
      rw [split33]
      unfold sec1Compressed
      rw [ex]
      simp only [List.cons.injEq, and_true]
      simp only [Bool.or_eq_true, beq_iff_eq] at ht hpar
      rcases ht with h | h
      · rw [h] at hpar ⊢
        rw [if_neg]; intro hc; exact absurd (hpar.1 hc) (by decide)
      · rw [if_pos (hpar.2 h), h]

theorem serialize_runs {k : PublicKey} {P : Pt} {x y : Fp} (hk : Aff k.pt P) (hP : IsPt P x y) :
    Runs (PublicKey.serialize k) (fun b => b.toList = sec1Full x y) := by
  unfold PublicKey.serialize
  have hi := hk.inf_false hP.ne_zero
  obtain ⟨e1, e2⟩ := (hk.isPt hi).inj hP
  refine runs_dassert (by rw [hi]; rfl) ?_
  refine Runs.bind (fe_normalizeVar hk.x (by norm_num)) fun fx ⟨hfx, _⟩ => ?_
  refine Runs.bind (fe_normalizeVar hk.y (by norm_num)) fun fy ⟨hfy, _⟩ => ?_
  refine Runs.bind (FElem.b32_runs hfx) fun bx hbx => ?_
  refine Runs.bind (FElem.b32_runs hfy) fun b_y hby => runs_pure ?_
  rw [Vector.toList_append, Vector.toList_append, hbx, hby, e1, e2]
  unfold sec1Full
  rw [List.append_assoc]
  exact List.singleton_append

theorem serializeCompressed_runs {k : PublicKey} {P : Pt} {x y : Fp} (hk : Aff k.pt P) (hP : IsPt P x y) :
    Runs (PublicKey.serializeCompressed k) (fun b => b.toList = sec1Compressed x y) := by
  unfold PublicKey.serializeCompressed
  have hi := hk.inf_false hP.ne_zero
  obtain ⟨e1, e2⟩ := (hk.isPt hi).inj hP
  refine runs_dassert (by rw [hi]; rfl) ?_
  refine Runs.bind (fe_normalizeVar hk.x (by norm_num)) fun fx ⟨hfx, _⟩ => ?_
  refine Runs.bind (fe_normalizeVar hk.y (by norm_num)) fun fy ⟨hfy, _⟩ => ?_
  refine Runs.bind (FElem.b32_runs hfx) fun bx hbx => ?_
  refine Runs.bind (FElem.isOdd_runs hfy) fun o ho => runs_pure ?_
  rw [Vector.toList_append, hbx, ho, e1, e2]
  unfold sec1Compressed
  by_cases h : y.val % 2 = 1 <;> simp [h]

theorem keyEq_runs {a b : PublicKey} {P Q : Pt} (ha : Aff a.pt P) (hP : P ≠ 0) (hb : Aff b.pt Q) (hQ : Q ≠ 0) :
    Runs (PublicKey.eq a b) (fun r => r = true ↔ P = Q) := by
  unfold PublicKey.eq
  refine (Affine.eq_runs ha.x ha.y hb.x hb.y).mono fun r hr => ?_
  have ia := ha.inf_false hP
  have ib := hb.inf_false hQ
  have pa := ha.isPt ia
  have pb := hb.isPt ib
  rw [hr, decide_eq_true_eq, ia, ib]
  constructor
  · rintro ⟨h1, h2, _⟩
    rw [h1, h2] at pa
    exact pa.unique pb
  · rintro rfl
    obtain ⟨h1, h2⟩ := pa.inj pb
    exact ⟨h1, h2, rfl⟩

theorem fromSecretKeyCtx_runs {ctx : GenContext} {k : SecretKey} (hc : GenTable ctx.prec) (hb : ctx.blind = genBlind) (hi : ctx.initial = genInitial) :
    Runs (PublicKey.fromSecretKeyWithContext k ctx) (fun q => Aff q.pt (k.sc.val • G)) := by
  unfold PublicKey.fromSecretKeyWithContext
  refine Runs.bind (ecmultGen_runs hc hb hi) fun pj hpj => ?_
  exact Runs.bind (Affine.setGej_runs hpj) fun a ha => runs_pure ha.1

theorem fromSecretKey_runs {k : SecretKey} :
    Runs (PublicKey.fromSecretKey k) (fun q => Aff q.pt (k.sc.val • G)) := by
  unfold PublicKey.fromSecretKey
  exact Runs.bind newGenContext_runs fun ctx h => fromSecretKeyCtx_runs h.1 h.2.1 h.2.2

theorem tweakAddCtx_runs {ctx : List AffineStorage} {k : PublicKey} {t : SecretKey} {P : Pt} (hG : StoTable 16384 G ctx) (hk : Aff k.pt P) (hP : P ≠ 0)
    (ht : t.sc.val < Spec.n) : Runs (PublicKey.tweakAddAssignWithContext k t ctx) (fun r =>
      (P + t.sc.val • G = 0 ∧ r = (k, .error .tweakOutOfRange)) ∨
      (P + t.sc.val • G ≠ 0 ∧ ∃ q, r = (q, .ok ()) ∧ Aff q.pt (P + t.sc.val • G))) := by
  unfold PublicKey.tweakAddAssignWithContext
  refine Runs.bind (Jacobian.setGe_runs hk) fun j hj => ?_
  have h1 : (Scalar.fromInt 1).val = 1 := by decide
  refine Runs.bind (ecmult_runs hG hj.1 hP (by rw [h1]; decide +kernel) ht) fun r hr => ?_
  rw [h1, one_nsmul] at hr
  by_cases h0 : P + t.sc.val • G = 0
  · rw [if_pos (hr.inf_iff.2 h0)]; exact runs_pure (Or.inl ⟨h0, rfl⟩)
  · rw [if_neg (fun h => h0 (hr.inf_iff.1 h))]
    exact Runs.bind (Affine.setGej_runs hr) fun a ha => runs_pure (Or.inr ⟨h0, _, rfl, ha.1⟩)

theorem tweakAdd_runs {k : PublicKey} {t : SecretKey} {P : Pt} (hk : Aff k.pt P) (hP : P ≠ 0)
    (ht : t.sc.val < Spec.n) : Runs (PublicKey.tweakAddAssign k t) (fun r =>
      (P + t.sc.val • G = 0 ∧ r = (k, .error .tweakOutOfRange)) ∨
      (P + t.sc.val • G ≠ 0 ∧ ∃ q, r = (q, .ok ()) ∧ Aff q.pt (P + t.sc.val • G))) := by
  unfold PublicKey.tweakAddAssign
  exact Runs.bind newContext_runs fun ctx h => tweakAddCtx_runs h hk hP ht

theorem tweakMulCtx_runs {ctx : List AffineStorage} {k : PublicKey} {t : SecretKey} {P : Pt} (hG : StoTable 16384 G ctx) (hk : Aff k.pt P) (hP : P ≠ 0)
    (ht : t.sc.val < Spec.n) : Runs (PublicKey.tweakMulAssignWithContext k t ctx) (fun r =>
      (t.sc.val = 0 ∧ r = (k, .error .tweakOutOfRange)) ∨
      (t.sc.val ≠ 0 ∧ t.sc.val • P ≠ 0 ∧ ∃ q, r = (q, .ok ()) ∧ Aff q.pt (t.sc.val • P))) := by
  unfold PublicKey.tweakMulAssignWithContext
  by_cases h0 : t.sc.val = 0
  · rw [if_pos ((Scalar.isZero_iff _).2 h0)]; exact runs_pure (Or.inl ⟨h0, rfl⟩)
  rw [if_neg (fun h => h0 ((Scalar.isZero_iff _).1 h))]
  refine Runs.bind (Jacobian.setGe_runs hk) fun j hj => ?_
  have h1 : (Scalar.fromInt 0).val = 0 := by decide
  refine Runs.bind (ecmult_runs hG hj.1 hP ht (by rw [h1]; decide +kernel)) fun r hr => ?_
  rw [h1, zero_nsmul, add_zero] at hr
  have hne : t.sc.val • P ≠ 0 := by
    rw [ne_eq, smul_eq_zero_iff hP]
    exact fun hd => absurd (Nat.le_of_dvd (by omega) hd) (by omega)
  exact Runs.bind (Affine.setGej_runs hr) fun a ha => runs_pure (Or.inr ⟨h0, hne, _, rfl, ha.1⟩)

theorem tweakMul_runs {k : PublicKey} {t : SecretKey} {P : Pt} (hk : Aff k.pt P) (hP : P ≠ 0)
    (ht : t.sc.val < Spec.n) : Runs (PublicKey.tweakMulAssign k t) (fun r =>
      (t.sc.val = 0 ∧ r = (k, .error .tweakOutOfRange)) ∨
      (t.sc.val ≠ 0 ∧ t.sc.val • P ≠ 0 ∧ ∃ q, r = (q, .ok ()) ∧ Aff q.pt (t.sc.val • P))) := by
  unfold PublicKey.tweakMulAssign
  exact Runs.bind newContext_runs fun ctx h => tweakMulCtx_runs h hk hP ht

theorem combineLoop_runs {keys : List PublicKey} {pts : List Pt} (h : List.Forall₂ (fun k P => Aff k.pt P ∧ P ≠ 0) keys pts) :
    ∀ {j : Jacobian} {S : Pt}, Jac j S → Runs (PublicKey.combineLoop keys j) (fun r => Jac r (S + pts.sum)) := by
  induction h with
  | nil => intro j S hj; rw [List.sum_nil, add_zero]; exact runs_pure hj
  | cons hk _ ih =>
    intro j S hj
    unfold PublicKey.combineLoop
    refine Runs.bind (Jacobian.addGe_runs hj hk.1 (hk.1.inf_false hk.2)) fun r hr => ?_
    rw [List.sum_cons, ← add_assoc]
    exact ih hr

theorem combine_runs {keys : List PublicKey} {pts : List Pt} (h : List.Forall₂ (fun k P => Aff k.pt P ∧ P ≠ 0) keys pts) :
    Runs (PublicKey.combine keys) (fun o => (pts.sum = 0 ∧ o = .error .invalidPublicKey) ∨
      (pts.sum ≠ 0 ∧ ∃ q, o = .ok q ∧ Aff q.pt pts.sum)) := by
  unfold PublicKey.combine
  refine Runs.bind (combineLoop_runs h (Jacobian.setInfinity_jac _ _)) fun r hr => ?_
  rw [zero_add] at hr
  by_cases h0 : pts.sum = 0
  · rw [if_pos (hr.inf_iff.2 h0)]; exact runs_pure (Or.inl ⟨h0, rfl⟩)
  · rw [if_neg (fun h => h0 (hr.inf_iff.1 h))]
    exact Runs.bind (Affine.setGej_runs hr) fun a ha => runs_pure (Or.inr ⟨h0, _, rfl, ha.1⟩)

theorem tryFrom_runs {a : Affine} (hx : a.x.Ok 8) (hy : a.y.Ok 8) : Runs (PublicKey.tryFrom a) (fun o =>
    ((a.infinity = true ∨ a.y.v ^ 2 ≠ a.x.v ^ 3 + 7) ∧ o = .error .invalidAffine) ∨
    (a.infinity = false ∧ o = .ok ⟨a⟩ ∧ ∃ P, IsPt P a.x.v a.y.v ∧ Aff a P)) := by
  unfold PublicKey.tryFrom
  cases hi : a.infinity with
  | true => rw [if_pos rfl]; exact runs_pure (Or.inl ⟨Or.inl rfl, rfl⟩)
  | false =>
    rw [if_neg (by simp)]
    refine Runs.bind (Affine.isValidVar_runs hx hy) fun v hv => ?_
    rw [hi] at hv
    by_cases h : a.y.v ^ 2 = a.x.v ^ 3 + 7
    · have : v = true := by rw [hv]; simpa using h
      rw [this, if_neg (by simp)]
      obtain ⟨P, hP⟩ := isPt_of_eqn h
      exact runs_pure (Or.inr ⟨rfl, rfl, P, hP, aff_of_isPt hi hx hy le_rfl le_rfl hP⟩)
    · have : v = false := by rw [hv]; simpa using h
      rw [this, if_pos (by simp)]
      exact runs_pure (Or.inl ⟨Or.inr h, rfl⟩)

end Verif
