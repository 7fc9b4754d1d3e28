import Verif.Spec.RustConst
import Verif.Proofs.Gen
import Verif.Proofs.Table

/-! The text of the generated files reads back as the tables. -/

namespace Verif
open Spec.RustConst StaticContext Ecmult

/-- Reading `cs` between tokens gives the tokens `ts`. -/
def Lx (cs : List Char) (ts : List Tok) : Prop :=
  ∀ rest acc, lexGo (cs ++ rest) .none acc = lexGo rest .none (ts.reverse ++ acc)

theorem Lx.append {a b : List Char} {ts us : List Tok} (ha : Lx a ts) (hb : Lx b us) : Lx (a ++ b) (ts ++ us) := by
  intro rest acc
  rw [List.append_assoc, ha, hb, List.reverse_append, List.append_assoc]

theorem Lx.nil : Lx [] [] := fun _ _ => rfl

theorem Lx.flatMap {α : Type} {f : α → List Char} {g : α → List Tok} (h : ∀ a, Lx (f a) (g a)) :
    ∀ l : List α, Lx (l.flatMap f) (l.flatMap g)
  | [] => Lx.nil
  | a :: l => by rw [List.flatMap_cons, List.flatMap_cons]; exact (h a).append (Lx.flatMap h l)

theorem lex_digits : ∀ {ds : List Char} {ds0 : List Char} {c : Char} {rest : List Char} {acc : List Tok}, (∀ d ∈ ds, d.isDigit = true) →
    c = ',' ∨ c = ')' → lexGo (ds ++ c :: rest) (.num ds0) acc = lexGo rest .none (.sym c :: .num (ds0 ++ ds) :: acc)
  | [], ds0, c, rest, acc, _, hc => by
    rw [List.append_nil]
    rcases hc with rfl | rfl <;> rfl
  | d :: ds, ds0, c, rest, acc, h, hc => by
    have h1 : lexStep d (.num ds0) acc = some (.num (ds0 ++ [d]), acc) := by
      show (if d.isDigit = true then some (LexMode.num (ds0 ++ [d]), acc) else _) = _
      rw [if_pos (h d (by simp))]
    show (match lexStep d (.num ds0) acc with
      | some (m, acc) => lexGo (ds ++ c :: rest) m acc
      | none => none) = _
    rw [h1]
    show lexGo (ds ++ c :: rest) (.num (ds0 ++ [d])) acc = _
    rw [lex_digits (fun x hx => h x (by simp [hx])) hc, List.append_assoc, List.singleton_append]

/-- A number followed by a comma or a parenthesis. -/
theorem lx_num {ds : List Char} {c : Char} (h : ∀ d ∈ ds, d.isDigit = true) (h0 : ds ≠ []) (hc : c = ',' ∨ c = ')') :
    Lx (ds ++ [c]) [.num ds, .sym c] := by
  intro rest acc
  cases ds with
  | nil => exact absurd rfl h0
  | cons d ds =>
    have h1 : lexStep d .none acc = some (.num [d], acc) := by
      show lexStart d acc = _
      unfold lexStart
      rw [if_pos (h d (by simp))]
    rw [List.append_assoc, List.cons_append, List.singleton_append]
    show (match lexStep d .none acc with
      | some (m, acc) => lexGo (ds ++ c :: rest) m acc
      | none => none) = _
    rw [h1]
    exact lex_digits (fun x hx => h x (by simp [hx])) hc

theorem lx_u32 (x : UInt32) {c : Char} (hc : c = ',' ∨ c = ')') : Lx (fmtU32 x ++ [c]) [.num (fmtU32 x), .sym c] :=
  lx_num (fun _ hd => Nat.isDigit_of_mem_toDigits (by norm_num) (by norm_num) hd) Nat.toDigits_ne_nil hc

theorem decimal_u32 (x : UInt32) : decimal (fmtU32 x) = x.toNat := Nat.ofDigitChars_toDigits (by norm_num) (by norm_num)

/-- The tokens of `fmtWords`. -/
def wordToks (f : FieldStorage) : List Tok :=
  [.sym '(', .num (fmtU32 f.w7), .sym ',', .num (fmtU32 f.w6), .sym ',', .num (fmtU32 f.w5), .sym ',', .num (fmtU32 f.w4), .sym ',',
   .num (fmtU32 f.w3), .sym ',', .num (fmtU32 f.w2), .sym ',', .num (fmtU32 f.w1), .sym ',', .num (fmtU32 f.w0), .sym ')']

theorem lx_space : Lx " ".toList [] := fun _ _ => rfl

theorem lx_words (f : FieldStorage) : Lx (fmtWords f) (wordToks f) := by
  have hc : ∀ x, Lx (fmtU32 x ++ ", ".toList) [.num (fmtU32 x), .sym ','] := by
    intro x
    have := (lx_u32 x (c := ',') (Or.inl rfl)).append lx_space
    rw [List.append_assoc] at this
    exact this
  have h0 : Lx "(".toList [.sym '('] := fun _ _ => rfl
  have := h0.append ((hc f.w7).append ((hc f.w6).append ((hc f.w5).append ((hc f.w4).append ((hc f.w3).append ((hc f.w2).append
    ((hc f.w1).append (lx_u32 f.w0 (c := ')') (Or.inr rfl)))))))))
  simp only [List.append_assoc] at this
  unfold fmtWords
  exact this

/-- The tokens of a path. -/
def pathToks (t : String) : List Tok :=
  [.ident "crate".toList, .sep, .ident "curve".toList, .sep, .ident t.toList, .sep, .ident "new".toList]

/-- The tokens of `fmtEntry`. -/
def entryToks (pg : AffineStorage) : List Tok :=
  pathToks "AffineStorage" ++ ([.sym '('] ++ (pathToks "FieldStorage" ++ (wordToks pg.x ++ ([.sym ','] ++ (pathToks "FieldStorage" ++
    (wordToks pg.y ++ [.sym ')', .sym ',']))))))

theorem lx_entry (pg : AffineStorage) : Lx (fmtEntry pg) (entryToks pg) := by
  have hx := lx_words pg.x
  have hy := lx_words pg.y
  have htail : Lx "),".toList [.sym ')', .sym ','] := fun _ _ => rfl
  intro rest acc
  -- a path is followed by a parenthesis, which ends its last identifier
  have hw : ∀ f, ∃ u, fmtWords f = '(' :: u ∧ ∀ rest acc, lexGo (u ++ rest) .none (.sym '(' :: acc) = lexGo rest .none ((wordToks f).reverse ++ acc) := by
    intro f
    exact ⟨_, rfl, fun rest acc => lx_words f rest acc⟩
  obtain ⟨ux, ex, hux⟩ := hw pg.x
  obtain ⟨uy, ey, huy⟩ := hw pg.y
  unfold fmtEntry
  rw [ex, ey]
  have e1 : lexGo (("crate::curve::AffineStorage::new(crate::curve::FieldStorage::new".toList ++ ('(' :: ux ++
      (", crate::curve::FieldStorage::new".toList ++ ('(' :: uy ++ "),".toList)))) ++ rest) .none acc =
      lexGo (ux ++ ((", crate::curve::FieldStorage::new".toList ++ ('(' :: uy ++ "),".toList)) ++ rest)) .none
        (.sym '(' :: ((pathToks "AffineStorage" ++ ([Tok.sym '('] ++ pathToks "FieldStorage")).reverse ++ acc)) := by
    rw [List.append_assoc, List.append_assoc]
    rfl
  rw [e1, hux]
  have e2 : ∀ acc, lexGo ((", crate::curve::FieldStorage::new".toList ++ ('(' :: uy ++ "),".toList)) ++ rest) .none acc =
      lexGo (uy ++ ("),".toList ++ rest)) .none (.sym '(' :: (([Tok.sym ','] ++ pathToks "FieldStorage").reverse ++ acc)) := by
    intro acc
    rw [List.append_assoc, List.append_assoc]
    rfl
  rw [e2, huy, htail]
  congr 1

/-- The expression of an entry. -/
def wordsExpr (f : FieldStorage) : Expr :=
  .call ["crate".toList, "curve".toList, "FieldStorage".toList, "new".toList]
    [.num (decimal (fmtU32 f.w7)), .num (decimal (fmtU32 f.w6)), .num (decimal (fmtU32 f.w5)), .num (decimal (fmtU32 f.w4)),
     .num (decimal (fmtU32 f.w3)), .num (decimal (fmtU32 f.w2)), .num (decimal (fmtU32 f.w1)), .num (decimal (fmtU32 f.w0))]

def entryExpr (pg : AffineStorage) : Expr :=
  .call ["crate".toList, "curve".toList, "AffineStorage".toList, "new".toList] [wordsExpr pg.x, wordsExpr pg.y]

theorem evalU32_fmt (x : UInt32) : evalU32 (.num (decimal (fmtU32 x))) = some x := by
  rw [decimal_u32, evalU32, if_pos (UInt32.toNat_lt x), UInt32.ofNat_toNat]

theorem evalField_words (f : FieldStorage) : evalField (wordsExpr f) = some f := by
  unfold wordsExpr evalField
  simp only [if_true]
  simp only [evalU32_fmt]
  rfl

theorem evalAffine_entry (pg : AffineStorage) : evalAffine (entryExpr pg) = some pg := by
  unfold entryExpr evalAffine
  simp only [if_true]
  simp only [evalField_words]
  rfl

theorem parse_words (f : FieldStorage) (rest : List Tok) (st : List Frame) :
    parseGo (pathToks "FieldStorage" ++ (wordToks f ++ rest)) st .start = parseGo rest st (.done (wordsExpr f)) := rfl

theorem parse_entry (pg : AffineStorage) (rest : List Tok) (fp : Option (List (List Char))) (es : List Expr) (st : List Frame) :
    parseGo (entryToks pg ++ rest) (⟨fp, es⟩ :: st) .start = parseGo rest (⟨fp, entryExpr pg :: es⟩ :: st) .start := by
  have e : parseGo (entryToks pg ++ rest) (⟨fp, es⟩ :: st) .start =
      parseGo (pathToks "FieldStorage" ++ (wordToks pg.x ++ ([.sym ','] ++ (pathToks "FieldStorage" ++
        (wordToks pg.y ++ ([.sym ')', .sym ','] ++ rest))))))
        (⟨some ["crate".toList, "curve".toList, "AffineStorage".toList, "new".toList], []⟩ :: ⟨fp, es⟩ :: st) .start := by
    unfold entryToks
    simp only [List.append_assoc]
    rfl
  rw [e, parse_words]
  show parseGo (pathToks "FieldStorage" ++ (wordToks pg.y ++ ([.sym ')', .sym ','] ++ rest)))
      (⟨some ["crate".toList, "curve".toList, "AffineStorage".toList, "new".toList], [wordsExpr pg.x]⟩ :: ⟨fp, es⟩ :: st) .start = _
  rw [parse_words]
  rfl

theorem parse_entries : ∀ (l : List AffineStorage) (rest : List Tok) (fp : Option (List (List Char))) (es : List Expr) (st : List Frame),
    parseGo (l.flatMap entryToks ++ rest) (⟨fp, es⟩ :: st) .start = parseGo rest (⟨fp, (l.map entryExpr).reverse ++ es⟩ :: st) .start
  | [], rest, fp, es, st => rfl
  | pg :: l, rest, fp, es, st => by
    rw [List.flatMap_cons, List.append_assoc, parse_entry, parse_entries l, List.map_cons, List.reverse_cons, List.append_assoc,
      List.singleton_append]

theorem mapM_entries : ∀ l : List AffineStorage, (l.map entryExpr).mapM evalAffine = some l
  | [] => rfl
  | pg :: l => by rw [List.map_cons, List.mapM_cons, evalAffine_entry, mapM_entries l]; rfl

theorem lex_of_lx {cs : List Char} {ts : List Tok} (h : Lx cs ts) : lex cs = some ts := by
  have := h [] []
  rw [List.append_nil, List.append_nil] at this
  show lexGo cs .none [] = _
  rw [this]
  show some ts.reverse.reverse = _
  rw [List.reverse_reverse]

theorem readTable_text (l : List AffineStorage) :
    readTable l.length ("[".toList ++ (l.flatMap (fun pg => "    ".toList ++ fmtEntry pg) ++ "]".toList)) = some l := by
  have h1 : Lx "[".toList [.sym '['] := fun _ _ => rfl
  have h2 : Lx "]".toList [.sym ']'] := fun _ _ => rfl
  have h4 : Lx "    ".toList [] := fun _ _ => rfl
  have h3 := h1.append ((Lx.flatMap (fun pg => h4.append (lx_entry pg)) l).append h2)
  unfold readTable parse
  rw [lex_of_lx h3]
  have : parseGo ([.sym '['] ++ (l.flatMap (fun pg => [] ++ entryToks pg) ++ [.sym ']'])) [] .start = some (.arr (l.map entryExpr)) := by
    show parseGo (l.flatMap entryToks ++ [.sym ']']) [⟨none, []⟩] .start = _
    rw [parse_entries]
    show some (Expr.arr (((l.map entryExpr).reverse ++ []).reverse ++ [])) = _
    rw [List.append_nil, List.append_nil, List.reverse_reverse]
  rw [Option.bind_some, this, Option.bind_some]
  show (if (l.map entryExpr).length = l.length then (l.map entryExpr).mapM evalAffine else none) = _
  rw [if_pos (by simp), mapM_entries]

/-! ## The generator context -/

def rowToks (l : List AffineStorage) : List Tok := [.sym '['] ++ (l.flatMap entryToks ++ [.sym ']', .sym ','])

def rowText (l : List AffineStorage) : List Char :=
  "    [".toList ++ (l.flatMap (fun pg => "        ".toList ++ fmtEntry pg) ++ "    ],".toList)

theorem lx_row (l : List AffineStorage) : Lx (rowText l) (rowToks l) := by
  have h1 : Lx "    [".toList [.sym '['] := fun _ _ => rfl
  have h2 : Lx "    ],".toList [.sym ']', .sym ','] := fun _ _ => rfl
  have h4 : Lx "        ".toList [] := fun _ _ => rfl
  exact h1.append ((Lx.flatMap (fun pg => h4.append (lx_entry pg)) l).append h2)

theorem parse_row (l : List AffineStorage) (rest : List Tok) (fp : Option (List (List Char))) (es : List Expr) (st : List Frame) :
    parseGo (rowToks l ++ rest) (⟨fp, es⟩ :: st) .start = parseGo rest (⟨fp, .arr (l.map entryExpr) :: es⟩ :: st) .start := by
  unfold rowToks
  rw [List.append_assoc, List.append_assoc]
  show parseGo (l.flatMap entryToks ++ ([.sym ']', .sym ','] ++ rest)) (⟨none, []⟩ :: ⟨fp, es⟩ :: st) .start = _
  rw [parse_entries]
  show parseGo rest (⟨fp, .arr (((l.map entryExpr).reverse ++ []).reverse ++ []) :: es⟩ :: st) .start = _
  rw [List.append_nil, List.append_nil, List.reverse_reverse]

theorem parse_rows : ∀ (t : List (List AffineStorage)) (rest : List Tok) (fp : Option (List (List Char))) (es : List Expr) (st : List Frame),
    parseGo (t.flatMap rowToks ++ rest) (⟨fp, es⟩ :: st) .start =
      parseGo rest (⟨fp, (t.map fun l => Expr.arr (l.map entryExpr)).reverse ++ es⟩ :: st) .start
  | [], rest, fp, es, st => rfl
  | l :: t, rest, fp, es, st => by
    rw [List.flatMap_cons, List.append_assoc, parse_row, parse_rows t, List.map_cons, List.reverse_cons, List.append_assoc,
      List.singleton_append]

theorem mapM_rows {M : ℕ} : ∀ t : List (List AffineStorage), (∀ l ∈ t, l.length = M) →
    (t.map fun l => Expr.arr (l.map entryExpr)).mapM (evalArray evalAffine M) = some t
  | [], _ => rfl
  | l :: t, h => by
    have e : evalArray evalAffine M (.arr (l.map entryExpr)) = some l := by
      show (if (l.map entryExpr).length = M then (l.map entryExpr).mapM evalAffine else none) = _
      rw [if_pos (by rw [List.length_map, h l (by simp)]), mapM_entries]
    rw [List.map_cons, List.mapM_cons, e, mapM_rows t fun x hx => h x (by simp [hx])]; rfl

theorem readTable2_text {M : ℕ} (t : List (List AffineStorage)) (h : ∀ l ∈ t, l.length = M) :
    readTable2 t.length M ("[".toList ++ (t.flatMap rowText ++ "]".toList)) = some t := by
  have h1 : Lx "[".toList [.sym '['] := fun _ _ => rfl
  have h2 : Lx "]".toList [.sym ']'] := fun _ _ => rfl
  have h3 := h1.append ((Lx.flatMap lx_row t).append h2)
  unfold readTable2 parse
  rw [lex_of_lx h3]
  have : parseGo ([.sym '['] ++ (t.flatMap rowToks ++ [.sym ']'])) [] .start = some (.arr (t.map fun l => Expr.arr (l.map entryExpr))) := by
    show parseGo (t.flatMap rowToks ++ [.sym ']']) [⟨none, []⟩] .start = _
    rw [parse_rows]
    show some (Expr.arr (((t.map fun l : List AffineStorage => Expr.arr (l.map entryExpr)).reverse ++ []).reverse ++ [])) = _
    rw [List.append_nil, List.append_nil, List.reverse_reverse]
  rw [Option.bind_some, this, Option.bind_some]
  show (if (t.map fun l : List AffineStorage => Expr.arr (l.map entryExpr)).length = t.length then
    (t.map fun l : List AffineStorage => Expr.arr (l.map entryExpr)).mapM (evalArray evalAffine M) else none) = _
  rw [if_pos (by simp), mapM_rows t h]

/-- A loop that appends a text for each element. -/
theorem forN_flatMap {α : Type} (l : List α) (f : α → List Char) (g : ℕ → Exec (List Char))
    (h : ∀ i (hi : i < l.length), g i = pure (f l[i])) :
    forN l.length (fun i acc => do let r ← g i; pure (acc ++ r)) [] = pure (l.flatMap f) := by
  have : Runs (forN l.length (fun i acc => do let r ← g i; pure (acc ++ r)) []) (fun acc => acc = (l.take l.length).flatMap f) := by
    refine forN_runs (fun i acc => acc = (l.take i).flatMap f) _ _ (by simp) fun i acc hi hacc => ?_
    rw [h i hi, pure_bind]
    refine runs_pure ?_
    rw [hacc, List.take_succ_eq_append_getElem hi, List.flatMap_append]; simp
  obtain ⟨a, ha, e⟩ := this
  rw [ha, e, List.take_length]

theorem genRow_eq {prec : List (List AffineStorage)} {j : ℕ} (hj : j < prec.length) (h : prec[j].length = 16) :
    genRow prec j = pure (rowText prec[j]) := by
  unfold genRow
  have := forN_flatMap prec[j] (fun pg => "        ".toList ++ fmtEntry pg) (fun i => do
    let r ← idx prec j
    let pg ← idx r i
    pure ("        ".toList ++ fmtEntry pg)) (fun i hi => by rw [idx_pure hj, pure_bind, idx_pure hi, pure_bind])
  simp only [bind_assoc, pure_bind, h] at this
  rw [this, pure_bind]; rfl

theorem generateGenmult_eq {ctx : GenContext} (hctx : newGenContext = pure ctx) (h : GenTable ctx.prec) :
    generateGenmult = pure ("[".toList ++ (ctx.prec.flatMap rowText ++ "]".toList)) := by
  unfold generateGenmult
  rw [hctx, pure_bind]
  have := forN_flatMap ctx.prec rowText (genRow ctx.prec) fun i hi => genRow_eq hi (h.cols i hi)
  rw [h.rows] at this
  rw [this, pure_bind]

end Verif
