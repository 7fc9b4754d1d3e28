import Verif.Model.Debug
import Verif.Spec.Text
import Verif.Proofs.StaticContext

/-! The numbers in the `Debug` texts. -/

namespace Verif.Debug
open Spec StaticContext

/-- `cs`, followed by a character that is not a digit, contains the numbers `vs`. -/
def Nums (cs : List Char) (vs : List ℕ) : Prop :=
  ∀ c rest, c.isDigit = false → numbersFrom (cs ++ c :: rest) none = vs ++ numbersFrom rest none

theorem numbersFrom_sep {c : Char} (h : c.isDigit = false) (rest : List Char) (acc : Option ℕ) :
    numbersFrom (c :: rest) acc = acc.toList ++ numbersFrom rest none := by
  show (if c.isDigit = true then _ else _) = _
  rw [h, if_neg (by simp)]

theorem numbersFrom_digit {c : Char} (h : c.isDigit = true) (rest : List Char) (acc : Option ℕ) :
    numbersFrom (c :: rest) acc = numbersFrom rest (some (10 * acc.getD 0 + (c.toNat - '0'.toNat))) := by
  show (if c.isDigit = true then _ else _) = _
  rw [if_pos h]

theorem Nums.nil : Nums [] [] := fun _ rest h => by
  rw [List.nil_append, numbersFrom_sep h]; rfl

theorem Nums.text : ∀ {s : List Char}, (∀ c ∈ s, c.isDigit = false) → Nums s []
  | [], _ => Nums.nil
  | c :: s, h => fun d rest hd => by
    rw [List.cons_append, numbersFrom_sep (h c (by simp))]
    exact Nums.text (fun x hx => h x (by simp [hx])) d rest hd

/-- Text without digits in front. -/
theorem Nums.pre : ∀ {s : List Char} {f : List Char} {v : List ℕ}, (∀ c ∈ s, c.isDigit = false) → Nums f v → Nums (s ++ f) v
  | [], _, _, _, hf => hf
  | c :: s, _, _, h, hf => fun d rest hd => by
    rw [List.cons_append, List.cons_append, numbersFrom_sep (h c (by simp))]
    exact Nums.pre (fun x hx => h x (by simp [hx])) hf d rest hd

/-- Two texts with a character in between. -/
theorem Nums.sep {f g : List Char} {v w : List ℕ} {c : Char} (hf : Nums f v) (hc : c.isDigit = false) (hg : Nums g w) :
    Nums (f ++ c :: g) (v ++ w) := fun d rest hd => by
  rw [List.append_assoc, List.cons_append, hf c _ hc, hg d rest hd, List.append_assoc]

theorem Nums.post {f s : List Char} {v : List ℕ} (hf : Nums f v) (hs : ∀ c ∈ s, c.isDigit = false) : Nums (f ++ s) v := by
  cases s with
  | nil => rw [List.append_nil]; exact hf
  | cons c s =>
    have := hf.sep (hs c (by simp)) (Nums.text (s := s) fun x hx => hs x (by simp [hx]))
    rwa [List.append_nil] at this

theorem numbersFrom_digits : ∀ (ds : List Char) (acc : Option ℕ) (rest : List Char), (∀ d ∈ ds, d.isDigit = true) → ds ≠ [] →
    numbersFrom (ds ++ rest) acc = numbersFrom rest (some (ds.foldl (fun v c => 10 * v + (c.toNat - '0'.toNat)) (acc.getD 0)))
  | [], _, _, _, h => absurd rfl h
  | [d], acc, rest, h, _ => by
    rw [List.singleton_append, numbersFrom_digit (h d (by simp))]; rfl
  | d :: e :: ds, acc, rest, h, _ => by
    rw [List.cons_append, numbersFrom_digit (h d (by simp)), numbersFrom_digits (e :: ds) _ rest (fun x hx => h x (by simp [hx])) (by simp)]
    rfl

theorem Nums.nat (x : ℕ) : Nums (Nat.toDigits 10 x) [x] := fun c rest hc => by
  rw [numbersFrom_digits _ _ _ (fun _ hd => Nat.isDigit_of_mem_toDigits (by norm_num) (by norm_num) hd) Nat.toDigits_ne_nil,
    numbersFrom_sep hc]
  have : (Nat.toDigits 10 x).foldl (fun v c => 10 * v + (c.toNat - '0'.toNat)) 0 = x := Nat.ofDigitChars_toDigits (by norm_num) (by norm_num)
  show (some _).toList ++ _ = _
  rw [show (none : Option ℕ).getD 0 = 0 from rfl, this]
  rfl

theorem Nums.u32 (x : UInt32) : Nums (fmtU32 x) [x.toNat] := Nums.nat _

theorem Nums.u8 (x : UInt8) : Nums (Debug.u8 x) [x.toNat] := Nums.nat _

theorem Nums.bool (b : Bool) : Nums (Debug.bool b) [] := by
  cases b
  · exact Nums.text (s := "false".toList) (by decide)
  · exact Nums.text (s := "true".toList) (by decide)

theorem numbersFrom_indent : ∀ (cs rest : List Char) (nl : Bool) (acc : Option ℕ), (nl = true → acc = none) →
    numbersFrom (indent nl cs ++ rest) acc = numbersFrom (cs ++ rest) acc
  | [], _, _, _, _ => rfl
  | c :: cs, rest, nl, acc, h => by
    have key : ∀ acc, numbersFrom (c :: (indent (c == '\n') cs ++ rest)) acc = numbersFrom (c :: (cs ++ rest)) acc := by
      intro acc
      cases hd : c.isDigit with
      | true =>
        rw [numbersFrom_digit hd, numbersFrom_digit hd]
        refine numbersFrom_indent cs rest _ _ fun e => ?_
        rw [beq_iff_eq.1 e] at hd
        exact absurd hd (by decide)
      | false =>
        rw [numbersFrom_sep hd, numbersFrom_sep hd, numbersFrom_indent cs rest _ none fun _ => rfl]
    cases nl with
    | false => exact key acc
    | true =>
      rw [h rfl]
      show numbersFrom (' ' :: ' ' :: ' ' :: ' ' :: (c :: (indent (c == '\n') cs ++ rest))) none = _
      simp only [numbersFrom_sep (c := ' ') (by decide), Option.toList_none, List.nil_append]
      exact key none

theorem Nums.line {v : List Char} {ns : List ℕ} (h : Nums v ns) : Nums (Debug.line v) ns := fun c rest hc => by
  show numbersFrom (indent true (v ++ [',', '\n']) ++ c :: rest) none = _
  rw [numbersFrom_indent _ _ _ _ fun _ => rfl]
  exact h.post (by decide) c rest hc

/-- Lines end with a character that is not a digit. -/
theorem numbersFrom_line {v : List Char} {ns : List ℕ} (h : Nums v ns) (rest : List Char) :
    numbersFrom (Debug.line v ++ rest) none = ns ++ numbersFrom rest none := by
  show numbersFrom (indent true (v ++ [',', '\n']) ++ rest) none = _
  rw [numbersFrom_indent _ _ _ _ fun _ => rfl, List.append_assoc]
  show numbersFrom (v ++ ',' :: '\n' :: rest) none = _
  rw [h ',' _ (by decide), numbersFrom_sep (by decide)]
  rfl

theorem Nums.lines {α : Type} {f : α → List Char} {g : α → List ℕ} : ∀ {l : List α}, (∀ a ∈ l, Nums (f a) (g a)) →
    Nums (l.flatMap fun a => Debug.line (f a)) (l.flatMap g)
  | [], _ => Nums.nil
  | a :: l, h => fun c rest hc => by
    rw [List.flatMap_cons, List.flatMap_cons, List.append_assoc, numbersFrom_line (h a (by simp)), List.append_assoc]
    rw [Nums.lines (fun x hx => h x (by simp [hx])) c rest hc]

theorem Nums.rest {f : α → List Char} {g : α → List ℕ} : ∀ {l : List α}, (∀ a ∈ l, Nums (f a) (g a)) → ∀ {v : List Char} {ns : List ℕ}, Nums v ns →
    Nums (v ++ Debug.rest (l.map f)) (ns ++ l.flatMap g)
  | [], _, v, ns, hv => by
    show Nums (v ++ []) (ns ++ [])
    rw [List.append_nil, List.append_nil]; exact hv
  | a :: l, h, v, ns, hv => by
    rw [List.map_cons, List.flatMap_cons, ← List.append_assoc]
    show Nums (v ++ (([',', ' '] ++ f a) ++ Debug.rest (l.map f))) _
    rw [← List.append_assoc]
    refine Nums.rest (fun x hx => h x (by simp [hx])) ?_
    exact hv.sep (c := ',') (by decide) ((h a (by simp)).pre (s := [' ']) (by decide))

theorem Nums.tuple {pretty : Bool} {name v : List Char} {ns : List ℕ} (hn : ∀ c ∈ name, c.isDigit = false) (h : Nums v ns) :
    Nums (Debug.tuple pretty name v) ns := by
  unfold Debug.tuple
  cases pretty
  · rw [if_neg (by simp), List.append_assoc, List.append_assoc]
    exact ((h.post (s := [')']) (by decide)).pre (s := ['(']) (by decide)).pre hn
  · rw [if_pos rfl, List.append_assoc, List.append_assoc]
    exact ((h.line.post (s := [')']) (by decide)).pre (s := ['(', '\n']) (by decide)).pre hn

theorem Nums.list {α : Type} {pretty : Bool} {f : α → List Char} {g : α → List ℕ} {l : List α} (h : ∀ a ∈ l, Nums (f a) (g a)) :
    Nums (Debug.list pretty (l.map f)) (l.flatMap g) := by
  cases l with
  | nil => exact Nums.text (s := ['[', ']']) (by decide)
  | cons a l =>
    rw [List.map_cons]
    show Nums (if pretty = true then _ else _) _
    cases pretty
    · rw [if_neg (by simp), List.append_assoc, List.append_assoc, ← List.append_assoc (f a)]
      rw [List.flatMap_cons]
      exact ((Nums.rest (fun x hx => h x (by simp [hx])) (h a (by simp))).post (s := [']']) (by decide)).pre (s := ['[']) (by decide)
    · rw [if_pos rfl, List.append_assoc]
      have := Nums.lines h
      rw [show (a :: l).flatMap (fun a => Debug.line (f a)) = (f a :: l.map f).flatMap Debug.line by
        rw [← List.map_cons, List.flatMap_map]] at this
      exact (this.post (s := [']']) (by decide)).pre (s := ['[', '\n']) (by decide)

theorem Nums.field {name v : List Char} {ns : List ℕ} (hn : ∀ c ∈ name, c.isDigit = false) (h : Nums v ns) :
    Nums (Debug.field (name, v)) ns := by
  show Nums (name ++ [':', ' '] ++ v) ns
  rw [List.append_assoc]
  exact (h.pre (s := [':', ' ']) (by decide)).pre hn

theorem Nums.struct {pretty : Bool} {name : List Char} {f : List Char × List Char} {ns : List ℕ}
    {fs : List ((List Char × List Char) × List ℕ)} (hn : ∀ c ∈ name, c.isDigit = false) (h : Nums (Debug.field f) ns)
    (hs : ∀ x ∈ fs, Nums (Debug.field x.1) x.2) :
    Nums (Debug.struct pretty name f (fs.map Prod.fst)) (ns ++ fs.flatMap Prod.snd) := by
  unfold Debug.struct
  cases pretty
  · rw [if_neg (by simp), List.append_assoc, List.append_assoc, List.append_assoc]
    refine Nums.pre hn (Nums.pre (s := [' ', '{', ' ']) (by decide) ?_)
    rw [← List.append_assoc, List.map_map]
    exact (Nums.rest (f := Debug.field ∘ Prod.fst) (g := Prod.snd) hs h).post (by decide)
  · rw [if_pos rfl, List.append_assoc, List.append_assoc]
    refine Nums.pre hn (Nums.pre (s := [' ', '{', '\n']) (by decide) (Nums.post ?_ (by decide)))
    have := Nums.lines (l := (f, ns) :: fs) (f := fun x => Debug.field x.1) (g := Prod.snd)
      (fun x hx => by rcases List.mem_cons.1 hx with rfl | hx; exacts [h, hs x hx])
    rw [List.flatMap_cons, List.flatMap_cons] at this
    rw [List.flatMap_cons, List.flatMap_map]
    exact this

/-- The numbers of a closed text. -/
theorem Nums.numbers {f : List Char} {ns : List ℕ} (h : Nums f ns) : numbers f = ns := by
  have h1 := h ' ' [] (by decide)
  have : ∀ (f : List Char) (acc : Option ℕ), numbersFrom (f ++ [' ']) acc = numbersFrom f acc := by
    intro f
    induction f with
    | nil =>
      intro acc
      rw [List.nil_append, numbersFrom_sep (by decide)]
      show acc.toList ++ [] = acc.toList
      rw [List.append_nil]
    | cons c f ih =>
      intro acc
      cases hc : c.isDigit
      · rw [List.cons_append, numbersFrom_sep hc, numbersFrom_sep hc, ih]
      · rw [List.cons_append, numbersFrom_digit hc, numbersFrom_digit hc, ih]
  rw [this] at h1
  have h2 : numbersFrom [] none = [] := rfl
  rw [h2, List.append_nil] at h1
  exact h1

/-- The limbs of a scalar. -/
def scalarWords (a : Scalar) : List UInt32 := [a.d0, a.d1, a.d2, a.d3, a.d4, a.d5, a.d6, a.d7]

/-- The limbs of a field element. -/
def felemWords (a : FElem) : List UInt32 := [a.n.n0, a.n.n1, a.n.n2, a.n.n3, a.n.n4, a.n.n5, a.n.n6, a.n.n7, a.n.n8, a.n.n9]

theorem Nums.scalar (pretty : Bool) (a : Scalar) : Nums (Debug.scalar pretty a) ((scalarWords a).map (·.toNat)) := by
  refine Nums.tuple (by decide) ?_
  have := Nums.list (pretty := pretty) (l := scalarWords a) (f := fmtU32) (g := fun x => [x.toNat]) fun x _ => Nums.u32 x
  exact this

theorem Nums.felem (pretty : Bool) (a : FElem) : Nums (Debug.felem pretty a) ((felemWords a).map (·.toNat) ++ [a.magnitude.toNat]) := by
  have h1 := Nums.list (pretty := pretty) (l := felemWords a) (f := fmtU32) (g := fun x => [x.toNat]) fun x _ => Nums.u32 x
  have := Nums.struct (pretty := pretty) (name := "Field".toList) (f := ("n".toList, Debug.list pretty ((felemWords a).map fmtU32)))
    (ns := (felemWords a).flatMap fun x => [x.toNat])
    (fs := [(("magnitude".toList, fmtU32 a.magnitude), [a.magnitude.toNat]), (("normalized".toList, Debug.bool a.normalized), [])])
    (by decide) (Nums.field (by decide) h1) (fun x hx => by
      simp only [List.mem_cons, List.not_mem_nil, or_false] at hx
      rcases hx with rfl | rfl
      · exact Nums.field (by decide) (Nums.u32 _)
      · exact Nums.field (by decide) (Nums.bool _))
  exact this

theorem Nums.affine (pretty : Bool) (a : Affine) : Nums (Debug.affine pretty a)
    (((felemWords a.x).map (·.toNat) ++ [a.x.magnitude.toNat]) ++ ((felemWords a.y).map (·.toNat) ++ [a.y.magnitude.toNat])) := by
  have := Nums.struct (pretty := pretty) (name := "Affine".toList) (f := ("x".toList, Debug.felem pretty a.x))
    (ns := (felemWords a.x).map (·.toNat) ++ [a.x.magnitude.toNat])
    (fs := [(("y".toList, Debug.felem pretty a.y), (felemWords a.y).map (·.toNat) ++ [a.y.magnitude.toNat]),
      (("infinity".toList, Debug.bool a.infinity), [])])
    (by decide) (Nums.field (by decide) (Nums.felem _ _)) (fun x hx => by
      simp only [List.mem_cons, List.not_mem_nil, or_false] at hx
      rcases hx with rfl | rfl
      · exact Nums.field (by decide) (Nums.felem _ _)
      · exact Nums.field (by decide) (Nums.bool _))
  exact this

theorem Nums.signature (pretty : Bool) (a : Signature) :
    Nums (Debug.signature pretty a) ((scalarWords a.r).map (·.toNat) ++ (scalarWords a.s).map (·.toNat)) := by
  have := Nums.struct (pretty := pretty) (name := "Signature".toList) (f := ("r".toList, Debug.scalar pretty a.r))
    (ns := (scalarWords a.r).map (·.toNat)) (fs := [(("s".toList, Debug.scalar pretty a.s), (scalarWords a.s).map (·.toNat))])
    (by decide) (Nums.field (by decide) (Nums.scalar _ _)) (fun x hx => by
      simp only [List.mem_cons, List.not_mem_nil, or_false] at hx
      rcases hx with rfl
      exact Nums.field (by decide) (Nums.scalar _ _))
  rw [List.flatMap_cons, List.flatMap_nil, List.append_nil] at this
  exact this

/-- The words of a field element in storage form. -/
def storageWords (a : FieldStorage) : List UInt32 := [a.w0, a.w1, a.w2, a.w3, a.w4, a.w5, a.w6, a.w7]

theorem Nums.fieldStorage (pretty : Bool) (a : FieldStorage) : Nums (Debug.fieldStorage pretty a) ((storageWords a).map (·.toNat)) := by
  refine Nums.tuple (by decide) ?_
  have := Nums.list (pretty := pretty) (l := storageWords a) (f := fmtU32) (g := fun x => [x.toNat]) fun x _ => Nums.u32 x
  exact this

theorem Nums.affineStorage (pretty : Bool) (a : AffineStorage) :
    Nums (Debug.affineStorage pretty a) ((storageWords a.x).map (·.toNat) ++ (storageWords a.y).map (·.toNat)) := by
  have := Nums.struct (pretty := pretty) (name := "AffineStorage".toList) (f := ("x".toList, Debug.fieldStorage pretty a.x))
    (ns := (storageWords a.x).map (·.toNat)) (fs := [(("y".toList, Debug.fieldStorage pretty a.y), (storageWords a.y).map (·.toNat))])
    (by decide) (Nums.field (by decide) (Nums.fieldStorage _ _)) (fun x hx => by
      simp only [List.mem_cons, List.not_mem_nil, or_false] at hx
      rcases hx with rfl
      exact Nums.field (by decide) (Nums.fieldStorage _ _))
  rw [List.flatMap_cons, List.flatMap_nil, List.append_nil] at this
  exact this

theorem Nums.jacobian (pretty : Bool) (a : Jacobian) : Nums (Debug.jacobian pretty a)
    (((felemWords a.x).map (·.toNat) ++ [a.x.magnitude.toNat]) ++ (((felemWords a.y).map (·.toNat) ++ [a.y.magnitude.toNat]) ++
      ((felemWords a.z).map (·.toNat) ++ [a.z.magnitude.toNat]))) := by
  have := Nums.struct (pretty := pretty) (name := "Jacobian".toList) (f := ("x".toList, Debug.felem pretty a.x))
    (ns := (felemWords a.x).map (·.toNat) ++ [a.x.magnitude.toNat])
    (fs := [(("y".toList, Debug.felem pretty a.y), (felemWords a.y).map (·.toNat) ++ [a.y.magnitude.toNat]),
      (("z".toList, Debug.felem pretty a.z), (felemWords a.z).map (·.toNat) ++ [a.z.magnitude.toNat]),
      (("infinity".toList, Debug.bool a.infinity), [])])
    (by decide) (Nums.field (by decide) (Nums.felem _ _)) (fun x hx => by
      simp only [List.mem_cons, List.not_mem_nil, or_false] at hx
      rcases hx with rfl | rfl | rfl
      · exact Nums.field (by decide) (Nums.felem _ _)
      · exact Nums.field (by decide) (Nums.felem _ _)
      · exact Nums.field (by decide) (Nums.bool _))
  exact this

end Verif.Debug
