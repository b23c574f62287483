/-!
# The subset of Rust the crate is written in: syntax

Tokens and abstract syntax.  Nothing here is about `/repo` in particular.  `Verif/Source/Parser.lean` reads text into it,
`Verif/Source/Semantics.lean` says what it means.
-/

set_option autoImplicit false

namespace Langtag.Source

/-- Keywords, and the names of the macros and attributes the parser knows. -/
inductive Kw
  | «use» | «mod» | «fn» | «static» | «const» | «type» | «struct» | «enum» | «impl» | «for» | «if» | «else» | «match» | «loop» | «while» | «in» | «return» | «break» | «let» | «mut» | «unsafe» | «pub» | «as» | «true» | «false» | «underscore» | «matches» | «panic» | «macro_rules» | «derive» | «literal» | «FnMut»
  deriving DecidableEq, Repr

/-- Operators and delimiters. -/
inductive Punct
  /-- `..=` -/
  | dotDotEq
  /-- `::` -/
  | colonColon
  /-- `->` -/
  | arrow
  /-- `=>` -/
  | fatArrow
  /-- `==` -/
  | eqEq
  /-- `!=` -/
  | ne
  /-- `<=` -/
  | le
  /-- `&&` -/
  | andAnd
  /-- `||` -/
  | orOr
  /-- `..` -/
  | dotDot
  /-- `+=` -/
  | plusEq
  /-- `-=` -/
  | minusEq
  /-- `+` -/
  | plus
  /-- `-` -/
  | minus
  /-- `*` -/
  | star
  /-- `=` -/
  | eq
  /-- `<` -/
  | lt
  /-- `>` -/
  | gt
  /-- `!` -/
  | not
  /-- `&` -/
  | and
  /-- `|` -/
  | or
  /-- `.` -/
  | dot
  /-- `,` -/
  | comma
  /-- `;` -/
  | semi
  /-- `:` -/
  | colon
  /-- `#` -/
  | hash
  /-- `$` -/
  | dollar
  /-- `(` -/
  | lparen
  /-- `)` -/
  | rparen
  /-- `[` -/
  | lbrack
  /-- `]` -/
  | rbrack
  /-- `{` -/
  | lbrace
  /-- `}` -/
  | rbrace
  deriving DecidableEq, Repr

/-- Tokens. -/
inductive Tok
  /-- names -/
  | ident (s : String)
  | kw (k : Kw)
  /-- `'a` -/
  | lifetime
  /-- `12`, `0x20`, `7u32` with its suffix -/
  | int (n : Nat) (suffix : String)
  /-- `'x'` -/
  | char (c : Nat)
  /-- `b'x'` -/
  | byte (c : Nat)
  /-- `"…"` -/
  | str (s : List Nat)
  /-- `b"…"` -/
  | bstr (s : List Nat)
  | punct (p : Punct)
  deriving DecidableEq, Repr

/-- Types. -/
inductive Ty
  /-- `a::b::C<T, U>`; lifetimes are left out -/
  | path (segs : List String) (args : List Ty)
  /-- `&T`, `&mut T` -/
  | ref (mutable : Bool) (t : Ty)
  /-- `[T]` -/
  | slice (t : Ty)
  /-- `[T; n]` -/
  | array (t : Ty) (n : Nat)
  /-- `(T, U)` -/
  | tuple (ts : List Ty)
  /-- `impl FnMut(T, U) -> V` -/
  | fnMut (args : List Ty) (ret : Ty)
  deriving Repr, Inhabited

/-- Literals. -/
inductive Lit
  | int (n : Nat) (suffix : String)
  /-- a character, by its code point -/
  | char (c : Nat)
  | byte (c : Nat)
  /-- a string, by its code points -/
  | str (s : List Nat)
  | bstr (s : List Nat)
  | bool (b : Bool)
  deriving DecidableEq, Repr

/-- Patterns. -/
inductive Pat
  | wild
  | lit (l : Lit)
  /-- `lo..=hi` -/
  | range (lo hi : Lit)
  /-- an identifier (a binding or a constant), or `a::B` -/
  | path (segs : List String)
  /-- `a::B(p, q)` -/
  | ctor (segs : List String) (ps : List Pat)
  /-- `(p, q)` -/
  | tuple (ps : List Pat)
  /-- `p | q` -/
  | or (ps : List Pat)
  deriving Repr, Inhabited

/-- Binary operators. -/
inductive BinOp
  | add | sub | eq | ne | lt | le | gt | ge | and | or
  deriving DecidableEq, Repr

mutual
/-- Expressions. -/
inductive Expr
  | lit (l : Lit)
  /-- a variable, a constant, a function, a constructor -/
  | path (segs : List String)
  | call (f : Expr) (args : List Expr)
  /-- `recv.name(args)` -/
  | method (recv : Expr) (name : String) (args : List Expr)
  | field (e : Expr) (name : String)
  /-- `e[i]` -/
  | index (e i : Expr)
  /-- `a..b` -/
  | range (lo hi : Expr)
  /-- `a..` -/
  | rangeFrom (lo : Expr)
  /-- `..b` -/
  | rangeTo (hi : Expr)
  /-- `&e`, `&mut e` -/
  | ref (mutable : Bool) (e : Expr)
  /-- `*e` -/
  | deref (e : Expr)
  /-- `!e` -/
  | not (e : Expr)
  | bin (op : BinOp) (a b : Expr)
  /-- `e as T` -/
  | cast (e : Expr) (t : Ty)
  /-- `if c { t } else { e }` -/
  | ite (c t e : Expr)
  | «match» (e : Expr) (arms : List Arm)
  | loop (body : Expr)
  | «while» (c body : Expr)
  | «for» (x : String) (e body : Expr)
  | «break» (e : Expr)
  | «return» (e : Expr)
  /-- `{ s; t; e }` and `unsafe { s; t; e }`; without a last expression, `e` is `()` -/
  | block (stmts : List Stmt) (last : Expr)
  | closure (params : List Pat) (body : Expr)
  /-- `T { f: e, g }` -/
  | struct (segs : List String) (fields : List Field)
  /-- `p = e` -/
  | assign (place e : Expr)
  /-- `p += e`, `p -= e` -/
  | opAssign (op : BinOp) (place e : Expr)
  /-- `(e, f)`; `()` is the unit value -/
  | tuple (es : List Expr)
  /-- `[e, f]` -/
  | array (es : List Expr)
  /-- `matches!(e, p)` -/
  | «matches» (e : Expr) (p : Pat)
  /-- `panic!(…)` -/
  | panic
/-- An arm `p => e` of a `match`. -/
inductive Arm
  | mk (p : Pat) (e : Expr)
/-- A field `f: e` of a struct expression. -/
inductive Field
  | mk (name : String) (e : Expr)
/-- Statements. -/
inductive Stmt
  /-- `let p = e;` -/
  | «let» (p : Pat) (e : Expr)
  | expr (e : Expr)
end

deriving instance Repr for Expr, Arm, Field, Stmt
instance : Inhabited Expr := ⟨.panic⟩

/-- A function. -/
structure FnDef where
  name : String
  /-- the parameters; a receiver is named `self` -/
  params : List (String × Ty)
  ret : Ty
  body : Expr
  deriving Repr

/-- The fields of a struct or of a variant of an enum. -/
inductive Shape
  | tuple (ts : List Ty)
  | named (fs : List (String × Ty))
  deriving Repr

/-- Items.  Other `use`s, `mod` and attributes other than `derive` and `automaton` are not kept. -/
inductive Item
  /-- `use E::*;` -/
  | glob (name : String)
  | fn (f : FnDef)
  /-- `static` and `const` -/
  | const (name : String) (e : Expr)
  | struct (name : String) (derives : List String) (automaton : List String) (shape : Shape)
  | enum (name : String) (derives : List String) (variants : List (String × Shape))
  /-- `type name = ty;` -/
  | alias (name : String) (ty : Ty)
  | impl (trait : Option Ty) (ty : Ty) (consts : List (String × Expr)) (fns : List FnDef)
  /-- `macro_rules! name { ($param:literal) => { body } }` -/
  | macroRules (name : String) (param : String) (body : Expr)
  deriving Repr

end Langtag.Source
