import Verif.Model.StaticContext

/-!
# Reading Rust constant expressions

Lexical and syntactic structure of the expressions used in the generated files, after the Rust
reference: decimal literals, paths, calls and array expressions, with optional trailing commas.  Only
the two constructors `FieldStorage.new` and `AffineStorage.new` are taken from the model.
-/

namespace Verif.Spec.RustConst

/-- Tokens. -/
inductive Tok
  | num (ds : List Char)
  | ident (s : List Char)
  | sep
  | sym (c : Char)

/-- The token that is being read. -/
inductive LexMode
  | none
  | num (ds : List Char)
  | ident (s : List Char)
  | colon

def isIdentStart (c : Char) : Bool := c.isAlpha || c == '_'

/-- A character that starts a token. Tokens are collected in reverse order. -/
def lexStart (c : Char) (acc : List Tok) : Option (LexMode × List Tok) :=
  if c.isDigit then some (.num [c], acc)
  else if isIdentStart c then some (.ident [c], acc)
  else match c with
    | ' ' | '\n' | '\t' => some (.none, acc)
    | ':' => some (.colon, acc)
    | '(' | ')' | '[' | ']' | ',' => some (.none, .sym c :: acc)
    | _ => none

def lexStep (c : Char) : LexMode → List Tok → Option (LexMode × List Tok)
  | .none, acc => lexStart c acc
  | .num ds, acc =>
    if c.isDigit then some (.num (ds ++ [c]), acc)
    else if isIdentStart c then none
    else lexStart c (.num ds :: acc)
  | .ident s, acc =>
    if isIdentStart c || c.isDigit then some (.ident (s ++ [c]), acc)
    else lexStart c (.ident s :: acc)
  | .colon, acc => if c == ':' then some (.none, .sep :: acc) else none

def lexGo : List Char → LexMode → List Tok → Option (List Tok)
  | [], .none, acc => some acc.reverse
  | [], .num ds, acc => some (Tok.num ds :: acc).reverse
  | [], .ident s, acc => some (Tok.ident s :: acc).reverse
  | [], .colon, _ => none
  | c :: cs, m, acc =>
    match lexStep c m acc with
    | some (m, acc) => lexGo cs m acc
    | none => none

/-- The tokens of a text. -/
def lex (cs : List Char) : Option (List Tok) := lexGo cs .none []

/-- Expressions. -/
inductive Expr
  | num (v : Nat)
  | call (path : List (List Char)) (args : List Expr)
  | arr (elems : List Expr)

/-- The value of decimal digits. -/
def decimal (ds : List Char) : Nat := ds.foldl (fun v c => 10 * v + (c.toNat - '0'.toNat)) 0

/-- An unfinished call or array: the path of the call, and the elements read so far in reverse. -/
structure Frame where
  path : Option (List (List Char))
  elems : List Expr

/-- What has been read of the innermost expression. -/
inductive Mode
  | start
  | path (p : List (List Char))
  | sep (p : List (List Char))
  | done (e : Expr)

def closeParen (elems : List Expr) : List Frame → Option (List Frame × Mode)
  | ⟨some p, es⟩ :: st => some (st, .done (.call p (es.reverse ++ elems)))
  | _ => none

def closeBracket (elems : List Expr) : List Frame → Option (List Frame × Mode)
  | ⟨none, es⟩ :: st => some (st, .done (.arr (es.reverse ++ elems)))
  | _ => none

def parseStep : Tok → List Frame → Mode → Option (List Frame × Mode)
  | .num ds, st, .start => some (st, .done (.num (decimal ds)))
  | .ident s, st, .start => some (st, .path [s])
  | .sym '[', st, .start => some (⟨none, []⟩ :: st, .start)
  | .sym ')', st, .start => closeParen [] st
  | .sym ']', st, .start => closeBracket [] st
  | .sep, st, .path p => some (st, .sep p)
  | .sym '(', st, .path p => some (⟨some p, []⟩ :: st, .start)
  | .ident s, st, .sep p => some (st, .path (p ++ [s]))
  | .sym ',', ⟨f, es⟩ :: st, .done e => some (⟨f, e :: es⟩ :: st, .start)
  | .sym ')', st, .done e => closeParen [e] st
  | .sym ']', st, .done e => closeBracket [e] st
  | _, _, _ => none

def parseGo : List Tok → List Frame → Mode → Option Expr
  | [], [], .done e => some e
  | [], _, _ => none
  | t :: ts, st, m =>
    match parseStep t st m with
    | some (st, m) => parseGo ts st m
    | none => none

/-- The expression that a text is. -/
def parse (cs : List Char) : Option Expr := (lex cs).bind fun ts => parseGo ts [] .start

/-- A `u32` literal. -/
def evalU32 : Expr → Option UInt32
  | .num v => if v < 2 ^ 32 then some (UInt32.ofNat v) else none
  | _ => none

/-- A call of `crate::curve::FieldStorage::new` with eight `u32` literals. -/
def evalField : Expr → Option FieldStorage
  | .call p [a, b, c, d, e, f, g, h] =>
    if p = ["crate".toList, "curve".toList, "FieldStorage".toList, "new".toList] then do
      let a ← evalU32 a
      let b ← evalU32 b
      let c ← evalU32 c
      let d ← evalU32 d
      let e ← evalU32 e
      let f ← evalU32 f
      let g ← evalU32 g
      let h ← evalU32 h
      some (FieldStorage.new a b c d e f g h)
    else none
  | _ => none

/-- A call of `crate::curve::AffineStorage::new`. -/
def evalAffine : Expr → Option AffineStorage
  | .call p [a, b] =>
    if p = ["crate".toList, "curve".toList, "AffineStorage".toList, "new".toList] then do
      let a ← evalField a
      let b ← evalField b
      some (AffineStorage.new a b)
    else none
  | _ => none

/-- An array expression of type `[T; N]`. -/
def evalArray {α : Type} (eval : Expr → Option α) (N : Nat) : Expr → Option (List α)
  | .arr es => if es.length = N then es.mapM eval else none
  | _ => none

/-- The value of a text as a constant of type `[AffineStorage; N]`. -/
def readTable (N : Nat) (cs : List Char) : Option (List AffineStorage) :=
  (parse cs).bind (evalArray evalAffine N)

/-- The value of a text as a constant of type `[[AffineStorage; M]; N]`. -/
def readTable2 (N M : Nat) (cs : List Char) : Option (List (List AffineStorage)) :=
  (parse cs).bind (evalArray (evalArray evalAffine M) N)

end Verif.Spec.RustConst
