import Verif.Source.Syntax

/-!
# The subset of Rust the crate is written in: its grammar

Which tokens a line of text is made of (`IsLine`), and which abstract syntax the tokens of a file stand for (`IsFile`), after the Rust
Reference (chapters "Lexical structure", "Items", "Statements and expressions", "Patterns", "Types").  Rules, not a parser: a rule says
that these tokens, one after the other, are a phrase of that kind.

What is not kept in the abstract syntax: visibility, generic parameters, lifetimes, `use` (other than `use E::*;`), `mod`, the types of
constants, associated types, attributes other than `derive` and `automaton`, the message of `panic!`.
-/

set_option autoImplicit false

namespace Langtag.Spec.Rust
open Langtag.Source

/-! ## Tokens -/

/-- The spelling of a keyword (or of a name the grammar treats like one). -/
def keyword : Kw → String
  | .«use» => "use" | .«mod» => "mod" | .«fn» => "fn" | .«static» => "static" | .«const» => "const" | .«type» => "type"
  | .«struct» => "struct" | .«enum» => "enum" | .«impl» => "impl" | .«for» => "for" | .«if» => "if" | .«else» => "else"
  | .«match» => "match" | .«loop» => "loop" | .«while» => "while" | .«in» => "in" | .«return» => "return" | .«break» => "break"
  | .«let» => "let" | .«mut» => "mut" | .«unsafe» => "unsafe" | .«pub» => "pub" | .«as» => "as" | .«true» => "true" | .«false» => "false"
  | .«underscore» => "_" | .«matches» => "matches" | .«panic» => "panic" | .«macro_rules» => "macro_rules" | .«derive» => "derive"
  | .«literal» => "literal" | .«FnMut» => "FnMut"

/-- The spelling of an operator or delimiter. -/
def operator : Punct → String
  | .dotDotEq => "..=" | .colonColon => "::" | .arrow => "->" | .fatArrow => "=>" | .eqEq => "==" | .ne => "!=" | .le => "<="
  | .andAnd => "&&" | .orOr => "||" | .dotDot => ".." | .plusEq => "+=" | .minusEq => "-=" | .plus => "+" | .minus => "-" | .star => "*"
  | .eq => "=" | .lt => "<" | .gt => ">" | .not => "!" | .and => "&" | .or => "|" | .dot => "." | .comma => "," | .semi => ";"
  | .colon => ":" | .hash => "#" | .dollar => "$" | .lparen => "(" | .rparen => ")" | .lbrack => "[" | .rbrack => "]" | .lbrace => "{"
  | .rbrace => "}"

/-- The code points of a string. -/
def points (s : String) : List Nat := s.toList.map Char.toNat

/-- A letter `a`–`z`, `A`–`Z`, or `_`. -/
def IsLetter (c : Nat) : Prop := (97 ≤ c ∧ c ≤ 122) ∨ (65 ≤ c ∧ c ≤ 90) ∨ c = 95

/-- `0`–`9` -/
def IsDigit (c : Nat) : Prop := 48 ≤ c ∧ c ≤ 57

/-- A word: a letter, then letters and digits. -/
def IsWord (w : List Nat) : Prop := ∃ c cs, w = c :: cs ∧ IsLetter c ∧ ∀ d ∈ cs, IsLetter d ∨ IsDigit d

/-- The value of a digit, decimal or hexadecimal. -/
inductive DigitValue : Nat → Nat → Prop
  | decimal (n : Nat) (h : n < 10) : DigitValue (48 + n) n
  | lower (n : Nat) (h : n < 6) : DigitValue (97 + n) (10 + n)
  | upper (n : Nat) (h : n < 6) : DigitValue (65 + n) (10 + n)

/-- The number the digits stand for, after digits that stand for `m`. -/
inductive Number (base : Nat) : Nat → List Nat → Nat → Prop
  | nil (m : Nat) : Number base m [] m
  | cons (m c d n : Nat) (cs : List Nat) (h : DigitValue c d) (hd : d < base) (hn : Number base (m * base + d) cs n) : Number base m (c :: cs) n

/-- The text spells the token. -/
inductive Spells : List Nat → Tok → Prop
  | word (w : List Nat) (s : String) (h : IsWord w) (hs : points s = w) (hk : ∀ k, s ≠ keyword k) : Spells w (.ident s)
  | keyword (k : Kw) : Spells (points (keyword k)) (.kw k)
  | lifetime (w : List Nat) (h : IsWord w) : Spells (39 :: w) .lifetime
  | decimal (ds : List Nat) (n : Nat) (s : String) (h : ds ≠ []) (hn : Number 10 0 ds n) (hs : s ∈ ["", "u8", "u32", "usize"]) :
      Spells (ds ++ points s) (.int n s)
  | hexadecimal (ds : List Nat) (n : Nat) (s : String) (h : ds ≠ []) (hn : Number 16 0 ds n) (hs : s ∈ ["", "u8", "u32", "usize"]) :
      Spells (48 :: 120 :: ds ++ points s) (.int n s)
  | char (c : Nat) (h : c ≠ 92) (h' : c ≠ 39) : Spells [39, c, 39] (.char c)
  | byte (c : Nat) (h : c ≠ 92) (h' : c ≠ 39) : Spells [98, 39, c, 39] (.byte c)
  | str (s : List Nat) (h : ∀ c ∈ s, c ≠ 34 ∧ c ≠ 92) : Spells (34 :: s ++ [34]) (.str s)
  | bstr (s : List Nat) (h : ∀ c ∈ s, c ≠ 34 ∧ c ≠ 92) : Spells (98 :: 34 :: s ++ [34]) (.bstr s)
  | operator (p : Punct) : Spells (points (operator p)) (.punct p)

/-- The token, spelled by `w`, ends before this text: it is not the beginning of a longer one. -/
def EndsBefore (w rest : List Nat) : Tok → Prop
  | .ident _ | .kw _ | .lifetime => ∀ c ∈ rest.head?, ¬ (IsLetter c ∨ IsDigit c ∨ c = 34 ∨ c = 39)
  | .int .. => (∀ c ∈ rest.head?, ¬ (IsLetter c ∨ IsDigit c)) ∧ ∀ c, rest.take 2 = [46, c] → ¬ IsDigit c
  | .punct _ => ∀ q, points (operator q) <+: w ++ rest → (points (operator q)).length ≤ w.length
  | _ => True

/-- The tokens of a line: spaces and tabs between them are left out, and a comment at the end. -/
inductive IsLine : List Nat → List Tok → Prop
  | nil : IsLine [] []
  | space (c : Nat) (cs : List Nat) (ts : List Tok) (h : c = 32 ∨ c = 9) (hs : IsLine cs ts) : IsLine (c :: cs) ts
  | comment (cs : List Nat) : IsLine (47 :: 47 :: cs) []
  | token (w : List Nat) (t : Tok) (cs : List Nat) (ts : List Tok) (h : Spells w t) (he : EndsBefore w cs t) (hs : IsLine cs ts) :
      IsLine (w ++ cs) (t :: ts)

/-- The tokens of a text given line by line. -/
inductive IsText : List (List Nat) → List Tok → Prop
  | nil : IsText [] []
  | cons (l : List Nat) (ls : List (List Nat)) (ts us : List Tok) (h : IsLine l ts) (hs : IsText ls us) : IsText (l :: ls) (ts ++ us)

/-! ## Lists, paths and what is skipped -/

/-- Phrases separated by commas; a comma may follow the last one. -/
inductive Separated {α : Type} (R : List Tok → α → Prop) : List Tok → List α → Prop
  | nil : Separated R [] []
  | one (ts : List Tok) (a : α) (h : R ts a) : Separated R ts [a]
  | cons (ts us : List Tok) (a : α) (as : List α) (h : R ts a) (hs : Separated R us as) :
      Separated R (ts ++ .punct .comma :: us) (a :: as)

/-- `a::b::c` -/
inductive IsSegs : List Tok → List String → Prop
  | one (s : String) : IsSegs [.ident s] [s]
  | cons (s : String) (ts : List Tok) (ss : List String) (h : IsSegs ts ss) : IsSegs (.ident s :: .punct .colonColon :: ts) (s :: ss)

/-- Paths.  `$x`, in the body of a macro, is the variable `x`. -/
inductive IsPath : List Tok → List String → Prop
  | segs (ts : List Tok) (ss : List String) (h : IsSegs ts ss) : IsPath ts ss
  | global (ts : List Tok) (ss : List String) (h : IsSegs ts ss) : IsPath (.punct .colonColon :: ts) ss
  | crate (ts : List Tok) (ss : List String) (h : IsSegs (.ident "crate" :: ts) ss) : IsPath (.punct .dollar :: .ident "crate" :: ts) ss
  | var (s : String) (h : s ≠ "crate") : IsPath [.punct .dollar, .ident s] [s]

/-- Tokens in which the two delimiters are balanced. -/
inductive Balanced (l r : Punct) : List Tok → Prop
  | nil : Balanced l r []
  | other (t : Tok) (ts : List Tok) (hl : t ≠ .punct l) (hr : t ≠ .punct r) (h : Balanced l r ts) : Balanced l r (t :: ts)
  | nested (ts us : List Tok) (h : Balanced l r ts) (h' : Balanced l r us) : Balanced l r (.punct l :: ts ++ .punct r :: us)

/-- Optional generic parameters. -/
inductive Generics : List Tok → Prop
  | none : Generics []
  | some (ts : List Tok) (h : Balanced .lt .gt ts) : Generics (.punct .lt :: ts ++ [.punct .gt])

/-- Optional `pub` or `pub(crate)`. -/
inductive Visibility : List Tok → Prop
  | none : Visibility []
  | pub : Visibility [.kw .«pub»]
  | pubCrate : Visibility [.kw .«pub», .punct .lparen, .ident "crate", .punct .rparen]

/-- `use …;` -/
inductive IsUse : List Tok → Prop
  | mk (ts : List Tok) (h : .punct .semi ∉ ts) : IsUse (.kw .«use» :: ts ++ [.punct .semi])

/-! ## Types -/

mutual
inductive IsTy : List Tok → Ty → Prop
  | path (ts : List Tok) (ss : List String) (h : IsPath ts ss) : IsTy ts (.path ss [])
  | generic (ts us : List Tok) (ss : List String) (l : List (Option Ty)) (h : IsPath ts ss) (hl : Separated IsTyArg us l) :
      IsTy (ts ++ .punct .lt :: us ++ [.punct .gt]) (.path ss (l.filterMap id))
  | ref (ts : List Tok) (t : Ty) (h : IsTy ts t) : IsTy (.punct .and :: ts) (.ref false t)
  | refMut (ts : List Tok) (t : Ty) (h : IsTy ts t) : IsTy (.punct .and :: .kw .«mut» :: ts) (.ref true t)
  | refLifetime (ts : List Tok) (t : Ty) (h : IsTy ts t) : IsTy (.punct .and :: .lifetime :: ts) (.ref false t)
  | refLifetimeMut (ts : List Tok) (t : Ty) (h : IsTy ts t) : IsTy (.punct .and :: .lifetime :: .kw .«mut» :: ts) (.ref true t)
  | slice (ts : List Tok) (t : Ty) (h : IsTy ts t) : IsTy (.punct .lbrack :: ts ++ [.punct .rbrack]) (.slice t)
  | array (ts : List Tok) (t : Ty) (n : Nat) (s : String) (h : IsTy ts t) :
      IsTy (.punct .lbrack :: ts ++ [.punct .semi, .int n s, .punct .rbrack]) (.array t n)
  | unit : IsTy [.punct .lparen, .punct .rparen] (.tuple [])
  | paren (ts : List Tok) (t : Ty) (h : IsTy ts t) : IsTy (.punct .lparen :: ts ++ [.punct .rparen]) t
  | tuple (ts us : List Tok) (t : Ty) (l : List Ty) (h : IsTy ts t) (hl : Separated IsTy us l) :
      IsTy (.punct .lparen :: ts ++ .punct .comma :: us ++ [.punct .rparen]) (.tuple (t :: l))
  | fnMut (ts us : List Tok) (l : List Ty) (t : Ty) (hl : Separated IsTy ts l) (h : IsTy us t) :
      IsTy (.kw .«impl» :: .kw .«FnMut» :: .punct .lparen :: ts ++ .punct .rparen :: .punct .arrow :: us) (.fnMut l t)
/-- A generic argument; `none` for a lifetime. -/
inductive IsTyArg : List Tok → Option Ty → Prop
  | lifetime : IsTyArg [.lifetime] none
  | ty (ts : List Tok) (t : Ty) (h : IsTy ts t) : IsTyArg ts (some t)
end

/-! ## Patterns -/

inductive IsLit : Tok → Lit → Prop
  | int (n : Nat) (s : String) : IsLit (.int n s) (.int n s)
  | char (c : Nat) : IsLit (.char c) (.char c)
  | byte (c : Nat) : IsLit (.byte c) (.byte c)
  | str (s : List Nat) : IsLit (.str s) (.str s)
  | bstr (s : List Nat) : IsLit (.bstr s) (.bstr s)
  | «true» : IsLit (.kw .«true») (.bool true)
  | «false» : IsLit (.kw .«false») (.bool false)

mutual
/-- Patterns without `|` at the top. -/
inductive IsSimplePat : List Tok → Pat → Prop
  | wild : IsSimplePat [.kw .«underscore»] .wild
  | lit (t : Tok) (l : Lit) (h : IsLit t l) : IsSimplePat [t] (.lit l)
  | range (t u : Tok) (l m : Lit) (h : IsLit t l) (h' : IsLit u m) : IsSimplePat [t, .punct .dotDotEq, u] (.range l m)
  | path (ts : List Tok) (ss : List String) (h : IsPath ts ss) : IsSimplePat ts (.path ss)
  | «mut» (x : String) : IsSimplePat [.kw .«mut», .ident x] (.path [x])
  | ctor (ts us : List Tok) (ss : List String) (ps : List Pat) (h : IsPath ts ss) (hp : Separated IsPat us ps) :
      IsSimplePat (ts ++ .punct .lparen :: us ++ [.punct .rparen]) (.ctor ss ps)
  | unit : IsSimplePat [.punct .lparen, .punct .rparen] (.tuple [])
  | paren (ts : List Tok) (p : Pat) (h : IsPat ts p) : IsSimplePat (.punct .lparen :: ts ++ [.punct .rparen]) p
  | tuple (ts us : List Tok) (p : Pat) (ps : List Pat) (h : IsPat ts p) (hp : Separated IsPat us ps) :
      IsSimplePat (.punct .lparen :: ts ++ .punct .comma :: us ++ [.punct .rparen]) (.tuple (p :: ps))
inductive IsPat : List Tok → Pat → Prop
  | simple (ts : List Tok) (p : Pat) (h : IsSimplePat ts p) : IsPat ts p
  | or (ts us : List Tok) (p : Pat) (ps : List Pat) (h : IsSimplePat ts p) (hp : IsAlternatives us ps) : IsPat (ts ++ us) (.or (p :: ps))
/-- `| p | q` -/
inductive IsAlternatives : List Tok → List Pat → Prop
  | one (ts : List Tok) (p : Pat) (h : IsSimplePat ts p) : IsAlternatives (.punct .or :: ts) [p]
  | cons (ts us : List Tok) (p : Pat) (ps : List Pat) (h : IsSimplePat ts p) (hp : IsAlternatives us ps) :
      IsAlternatives (.punct .or :: ts ++ us) (p :: ps)
end

/-! ## Expressions -/

/-- The binary operators and how strongly they bind: `||` less than `&&`, that less than the comparisons, those less than `+` and `-`. -/
def binaryOperators : List (Punct × BinOp × Nat) :=
  [(.orOr, .or, 1), (.andAnd, .and, 2), (.eqEq, .eq, 3), (.ne, .ne, 3), (.lt, .lt, 3), (.le, .le, 3), (.gt, .gt, 3), (.plus, .add, 4),
   (.minus, .sub, 4)]

/-- The token begins an expression that ends with a block. -/
def BeginsBlock (t : Tok) : Prop :=
  t ∈ [.punct .lbrace, .kw .«unsafe», .kw .«if», .kw .«match», .kw .«loop», .kw .«while», .kw .«for»]

mutual
/-- Expressions; with `true`, where a struct expression may not be (before the block of `if`, `match`, `while`, `for`). -/
inductive IsExpr : Bool → List Tok → Expr → Prop
  | operators (noStruct endsCast : Bool) (ts : List Tok) (e : Expr) (h : IsOperators noStruct endsCast 1 ts e) : IsExpr noStruct ts e
  | range (noStruct f g : Bool) (ts us : List Tok) (a b : Expr) (h : IsOperators noStruct f 1 ts a) (h' : IsOperators noStruct g 1 us b)
      (hb : noStruct = true → us.head? ≠ some (.punct .lbrace)) : IsExpr noStruct (ts ++ .punct .dotDot :: us) (.range a b)
  | rangeFrom (noStruct f : Bool) (ts : List Tok) (a : Expr) (h : IsOperators noStruct f 1 ts a) :
      IsExpr noStruct (ts ++ [.punct .dotDot]) (.rangeFrom a)
  | rangeTo (noStruct f : Bool) (ts : List Tok) (b : Expr) (h : IsOperators noStruct f 1 ts b)
      (hb : noStruct = true → ts.head? ≠ some (.punct .lbrace)) : IsExpr noStruct (.punct .dotDot :: ts) (.rangeTo b)
  | assign (noStruct f : Bool) (ts us : List Tok) (a b : Expr) (h : IsOperators noStruct f 1 ts a) (h' : IsExpr noStruct us b) :
      IsExpr noStruct (ts ++ .punct .eq :: us) (.assign a b)
  | addAssign (noStruct f : Bool) (ts us : List Tok) (a b : Expr) (h : IsOperators noStruct f 1 ts a) (h' : IsExpr noStruct us b) :
      IsExpr noStruct (ts ++ .punct .plusEq :: us) (.opAssign .add a b)
  | subAssign (noStruct f : Bool) (ts us : List Tok) (a b : Expr) (h : IsOperators noStruct f 1 ts a) (h' : IsExpr noStruct us b) :
      IsExpr noStruct (ts ++ .punct .minusEq :: us) (.opAssign .sub a b)
  | closure (noStruct : Bool) (ts us : List Tok) (ps : List Pat) (b : Expr) (h : Separated IsSimplePat ts ps) (hb : IsExpr noStruct us b) :
      IsExpr noStruct (.punct .or :: ts ++ .punct .or :: us) (.closure ps b)
  | «return» : IsExpr false [.kw .«return»] (.return (.tuple []))
  | returnValue (noStruct : Bool) (ts : List Tok) (e : Expr) (h : IsExpr noStruct ts e) : IsExpr noStruct (.kw .«return» :: ts) (.return e)
  | «break» : IsExpr false [.kw .«break»] (.break (.tuple []))
  | breakValue (noStruct : Bool) (ts : List Tok) (e : Expr) (h : IsExpr noStruct ts e) : IsExpr noStruct (.kw .«break» :: ts) (.break e)
/-- Operands joined by operators that bind at least that strongly.  Operators of the same strength associate to the left.  The second
index says whether the phrase ends with a cast: then it is not followed by `<`, which would begin the arguments of the type. -/
inductive IsOperators : Bool → Bool → Nat → List Tok → Expr → Prop
  | cast (noStruct endsCast : Bool) (strength : Nat) (ts : List Tok) (e : Expr) (h : IsCast noStruct endsCast ts e) :
      IsOperators noStruct endsCast strength ts e
  | bin (noStruct f g : Bool) (strength s : Nat) (p : Punct) (op : BinOp) (ts us : List Tok) (a b : Expr) (hp : (p, op, s) ∈ binaryOperators)
      (hs : strength ≤ s) (hc : f = true → p ≠ .lt) (h : IsOperators noStruct f s ts a) (h' : IsOperators noStruct g (s + 1) us b) :
      IsOperators noStruct g strength (ts ++ .punct p :: us) (.bin op a b)
/-- `e as T` -/
inductive IsCast : Bool → Bool → List Tok → Expr → Prop
  | unary (noStruct : Bool) (ts : List Tok) (e : Expr) (h : IsUnary noStruct ts e) : IsCast noStruct false ts e
  | cast (noStruct f : Bool) (ts us : List Tok) (e : Expr) (t : Ty) (h : IsCast noStruct f ts e) (ht : IsTy us t) :
      IsCast noStruct true (ts ++ .kw .«as» :: us) (.cast e t)
inductive IsUnary : Bool → List Tok → Expr → Prop
  | «postfix» (noStruct : Bool) (ts : List Tok) (e : Expr) (h : IsPostfix noStruct ts e) : IsUnary noStruct ts e
  | ref (noStruct : Bool) (ts : List Tok) (e : Expr) (h : IsUnary noStruct ts e) : IsUnary noStruct (.punct .and :: ts) (.ref false e)
  | refMut (noStruct : Bool) (ts : List Tok) (e : Expr) (h : IsUnary noStruct ts e) :
      IsUnary noStruct (.punct .and :: .kw .«mut» :: ts) (.ref true e)
  | deref (noStruct : Bool) (ts : List Tok) (e : Expr) (h : IsUnary noStruct ts e) : IsUnary noStruct (.punct .star :: ts) (.deref e)
  | not (noStruct : Bool) (ts : List Tok) (e : Expr) (h : IsUnary noStruct ts e) : IsUnary noStruct (.punct .not :: ts) (.not e)
/-- Calls, fields and indices. -/
inductive IsPostfix : Bool → List Tok → Expr → Prop
  | primary (noStruct : Bool) (ts : List Tok) (e : Expr) (h : IsPrimary noStruct ts e) : IsPostfix noStruct ts e
  | method (noStruct : Bool) (ts us : List Tok) (e : Expr) (m : String) (es : List Expr) (h : IsPostfix noStruct ts e)
      (ha : Separated (IsExpr false) us es) :
      IsPostfix noStruct (ts ++ .punct .dot :: .ident m :: .punct .lparen :: us ++ [.punct .rparen]) (.method e m es)
  | field (noStruct : Bool) (ts : List Tok) (e : Expr) (f : String) (h : IsPostfix noStruct ts e) :
      IsPostfix noStruct (ts ++ [.punct .dot, .ident f]) (.field e f)
  | field0 (noStruct : Bool) (ts : List Tok) (e : Expr) (s : String) (h : IsPostfix noStruct ts e) :
      IsPostfix noStruct (ts ++ [.punct .dot, .int 0 s]) (.field e "0")
  /-- What is called is not `e.f`: that would be a method. -/
  | call (noStruct : Bool) (ts us : List Tok) (e : Expr) (es : List Expr) (h : IsPostfix noStruct ts e)
      (hf : ∀ f, ¬ [.punct .dot, .ident f] <:+ ts) (ha : Separated (IsExpr false) us es) :
      IsPostfix noStruct (ts ++ .punct .lparen :: us ++ [.punct .rparen]) (.call e es)
  | index (noStruct : Bool) (ts us : List Tok) (e i : Expr) (h : IsPostfix noStruct ts e) (hi : IsExpr false us i) :
      IsPostfix noStruct (ts ++ .punct .lbrack :: us ++ [.punct .rbrack]) (.index e i)
inductive IsPrimary : Bool → List Tok → Expr → Prop
  | block (noStruct : Bool) (ts : List Tok) (e : Expr) (h : IsBlockLike ts e) : IsPrimary noStruct ts e
  | lit (noStruct : Bool) (t : Tok) (l : Lit) (h : IsLit t l) : IsPrimary noStruct [t] (.lit l)
  | path (noStruct : Bool) (ts : List Tok) (ss : List String) (h : IsPath ts ss) : IsPrimary noStruct ts (.path ss)
  | struct (ts us : List Tok) (ss : List String) (fs : List Field) (h : IsPath ts ss) (hf : Separated IsField us fs) :
      IsPrimary false (ts ++ .punct .lbrace :: us ++ [.punct .rbrace]) (.struct ss fs)
  | unit (noStruct : Bool) : IsPrimary noStruct [.punct .lparen, .punct .rparen] (.tuple [])
  | paren (noStruct : Bool) (ts : List Tok) (e : Expr) (h : IsExpr false ts e) :
      IsPrimary noStruct (.punct .lparen :: ts ++ [.punct .rparen]) e
  | tuple (noStruct : Bool) (ts us : List Tok) (e : Expr) (es : List Expr) (h : IsExpr false ts e) (hs : Separated (IsExpr false) us es) :
      IsPrimary noStruct (.punct .lparen :: ts ++ .punct .comma :: us ++ [.punct .rparen]) (.tuple (e :: es))
  | array (noStruct : Bool) (ts : List Tok) (es : List Expr) (h : Separated (IsExpr false) ts es) :
      IsPrimary noStruct (.punct .lbrack :: ts ++ [.punct .rbrack]) (.array es)
  | «matches» (noStruct : Bool) (ts us : List Tok) (e : Expr) (p : Pat) (h : IsExpr false ts e) (hp : IsPat us p) :
      IsPrimary noStruct (.kw .«matches» :: .punct .not :: .punct .lparen :: ts ++ .punct .comma :: us ++ [.punct .rparen]) (.matches e p)
  | panic (noStruct : Bool) (s : List Nat) :
      IsPrimary noStruct [.kw .«panic», .punct .not, .punct .lparen, .str s, .punct .rparen] .panic
/-- Expressions that end with a block. -/
inductive IsBlockLike : List Tok → Expr → Prop
  | block (ts : List Tok) (e : Expr) (h : IsBlock ts e) : IsBlockLike ts e
  | «unsafe» (ts : List Tok) (e : Expr) (h : IsBlock ts e) : IsBlockLike (.kw .«unsafe» :: ts) e
  | «if» (ts us : List Tok) (c t : Expr) (hc : IsExpr true ts c) (ht : IsBlock us t) :
      IsBlockLike (.kw .«if» :: ts ++ us) (.ite c t (.tuple []))
  | ifElse (ts us vs : List Tok) (c t e : Expr) (hc : IsExpr true ts c) (ht : IsBlock us t) (he : IsBlock vs e) :
      IsBlockLike (.kw .«if» :: ts ++ us ++ .kw .«else» :: vs) (.ite c t e)
  | ifElseIf (ts us vs : List Tok) (c t e : Expr) (hc : IsExpr true ts c) (ht : IsBlock us t) (he : IsBlockLike (.kw .«if» :: vs) e) :
      IsBlockLike (.kw .«if» :: ts ++ us ++ .kw .«else» :: .kw .«if» :: vs) (.ite c t e)
  | «match» (ts us : List Tok) (e : Expr) (as : List Arm) (h : IsExpr true ts e) (ha : IsArms us as) :
      IsBlockLike (.kw .«match» :: ts ++ .punct .lbrace :: us ++ [.punct .rbrace]) (.match e as)
  | loop (ts : List Tok) (b : Expr) (h : IsBlock ts b) : IsBlockLike (.kw .«loop» :: ts) (.loop b)
  | «while» (ts us : List Tok) (c b : Expr) (hc : IsExpr true ts c) (hb : IsBlock us b) : IsBlockLike (.kw .«while» :: ts ++ us) (.while c b)
  | «for» (ts us : List Tok) (x : String) (e b : Expr) (he : IsExpr true ts e) (hb : IsBlock us b) :
      IsBlockLike (.kw .«for» :: .ident x :: .kw .«in» :: ts ++ us) (.for x e b)
/-- `{ … }` -/
inductive IsBlock : List Tok → Expr → Prop
  | mk (ts : List Tok) (ss : List Stmt) (e : Expr) (h : IsStmts ts ss e) : IsBlock (.punct .lbrace :: ts ++ [.punct .rbrace]) (.block ss e)
/-- Arms.  A comma is needed after an arm, except after the last one and after an expression that ends with a block. -/
inductive IsArms : List Tok → List Arm → Prop
  | nil : IsArms [] []
  | last (ts us : List Tok) (p : Pat) (e : Expr) (hp : IsPat ts p) (hb : ∀ t ∈ us.head?, ¬ BeginsBlock t) (he : IsExpr false us e) :
      IsArms (ts ++ .punct .fatArrow :: us) [.mk p e]
  | comma (ts us vs : List Tok) (p : Pat) (e : Expr) (as : List Arm) (hp : IsPat ts p) (hb : ∀ t ∈ us.head?, ¬ BeginsBlock t)
      (he : IsExpr false us e) (ha : IsArms vs as) : IsArms (ts ++ .punct .fatArrow :: us ++ .punct .comma :: vs) (.mk p e :: as)
  | block (ts us vs : List Tok) (p : Pat) (e : Expr) (as : List Arm) (hp : IsPat ts p) (he : IsBlockLike us e) (ha : IsArms vs as) :
      IsArms (ts ++ .punct .fatArrow :: us ++ vs) (.mk p e :: as)
  | blockComma (ts us vs : List Tok) (p : Pat) (e : Expr) (as : List Arm) (hp : IsPat ts p) (he : IsBlockLike us e) (ha : IsArms vs as) :
      IsArms (ts ++ .punct .fatArrow :: us ++ .punct .comma :: vs) (.mk p e :: as)
/-- A field of a struct expression. -/
inductive IsField : List Tok → Field → Prop
  | value (f : String) (ts : List Tok) (e : Expr) (h : IsExpr false ts e) : IsField (.ident f :: .punct .colon :: ts) (.mk f e)
  | short (f : String) : IsField [.ident f] (.mk f (.path [f]))
/-- The statements of a block, and its value.  A statement that begins with a block ends with it. -/
inductive IsStmts : List Tok → List Stmt → Expr → Prop
  | nil : IsStmts [] [] (.tuple [])
  | use (ts us : List Tok) (ss : List Stmt) (l : Expr) (h : IsUse ts) (hs : IsStmts us ss l) : IsStmts (ts ++ us) ss l
  | «let» (ts us vs : List Tok) (p : Pat) (e : Expr) (ss : List Stmt) (l : Expr) (hp : IsPat ts p) (he : IsExpr false us e)
      (hs : IsStmts vs ss l) : IsStmts (.kw .«let» :: ts ++ .punct .eq :: us ++ .punct .semi :: vs) (.let p e :: ss) l
  | block (ts us : List Tok) (e : Expr) (ss : List Stmt) (l : Expr) (h : IsBlockLike ts e) (hn : us ≠ []) (hs : IsStmts us ss l) :
      IsStmts (ts ++ us) (.expr e :: ss) l
  | blockSemi (ts us : List Tok) (e : Expr) (ss : List Stmt) (l : Expr) (h : IsBlockLike ts e) (hs : IsStmts us ss l) :
      IsStmts (ts ++ .punct .semi :: us) (.expr e :: ss) l
  | blockLast (ts : List Tok) (e : Expr) (h : IsBlockLike ts e) : IsStmts ts [] e
  | expr (ts us : List Tok) (e : Expr) (ss : List Stmt) (l : Expr) (hb : ∀ t ∈ ts.head?, ¬ BeginsBlock t) (h : IsExpr false ts e)
      (hs : IsStmts us ss l) : IsStmts (ts ++ .punct .semi :: us) (.expr e :: ss) l
  | last (ts : List Tok) (e : Expr) (hb : ∀ t ∈ ts.head?, ¬ BeginsBlock t) (h : IsExpr false ts e) : IsStmts ts [] e
end

/-! ## Items -/

/-- What is read of attributes: the last segments of the paths in `#[derive(…)]`, and the path in `#[automaton(…)]`. -/
inductive IsAttrs : List Tok → List String → List String → Prop
  | nil : IsAttrs [] [] []
  | inner (b ts : List Tok) (ds as : List String) (hb : Balanced .lbrack .rbrack b) (h : IsAttrs ts ds as) :
      IsAttrs (.punct .hash :: .punct .not :: .punct .lbrack :: b ++ .punct .rbrack :: ts) ds as
  | derive (us ts : List Tok) (ps : List (List String)) (ds as : List String) (hp : Separated IsPath us ps) (h : IsAttrs ts ds as) :
      IsAttrs (.punct .hash :: .punct .lbrack :: .kw .«derive» :: .punct .lparen :: us ++ .punct .rparen :: .punct .rbrack :: ts)
        (ps.map (fun ss => ss.getLast?.getD "") ++ ds) as
  | automaton (us ts : List Tok) (ss ds : List String) (hp : IsPath us ss) (h : IsAttrs ts ds []) :
      IsAttrs (.punct .hash :: .punct .lbrack :: .ident "automaton" :: .punct .lparen :: us ++ .punct .rparen :: .punct .rbrack :: ts) ds ss
  | other (b ts : List Tok) (ds as : List String) (hb : Balanced .lbrack .rbrack b)
      (hd : ¬ [.kw .«derive», .punct .lparen] <+: b) (ha : ¬ [.ident "automaton", .punct .lparen] <+: b) (h : IsAttrs ts ds as) :
      IsAttrs (.punct .hash :: .punct .lbrack :: b ++ .punct .rbrack :: ts) ds as

inductive IsParam : List Tok → String × Ty → Prop
  | self : IsParam [.ident "self"] ("self", .path ["Self"] [])
  | refSelf : IsParam [.punct .and, .ident "self"] ("self", .ref false (.path ["Self"] []))
  | refMutSelf : IsParam [.punct .and, .kw .«mut», .ident "self"] ("self", .ref true (.path ["Self"] []))
  | typed (x : String) (ts : List Tok) (t : Ty) (h : IsTy ts t) : IsParam (.ident x :: .punct .colon :: ts) (x, t)
  | mutTyped (x : String) (ts : List Tok) (t : Ty) (h : IsTy ts t) : IsParam (.kw .«mut» :: .ident x :: .punct .colon :: ts) (x, t)

/-- A function, from its name on. -/
inductive IsFn : List Tok → FnDef → Prop
  | mk (x : String) (gs ts us : List Tok) (ps : List (String × Ty)) (b : Expr) (hg : Generics gs) (hp : Separated IsParam ts ps)
      (hb : IsBlock us b) : IsFn (.ident x :: gs ++ .punct .lparen :: ts ++ .punct .rparen :: us) ⟨x, ps, .tuple [], b⟩
  | ret (x : String) (gs ts rs us : List Tok) (ps : List (String × Ty)) (t : Ty) (b : Expr) (hg : Generics gs) (hp : Separated IsParam ts ps)
      (ht : IsTy rs t) (hb : IsBlock us b) :
      IsFn (.ident x :: gs ++ .punct .lparen :: ts ++ .punct .rparen :: .punct .arrow :: rs ++ us) ⟨x, ps, t, b⟩

/-- `fn` and what follows it, or `const fn`. -/
inductive IsFunction : List Tok → FnDef → Prop
  | fn (ts : List Tok) (f : FnDef) (h : IsFn ts f) : IsFunction (.kw .«fn» :: ts) f
  | constFn (ts : List Tok) (f : FnDef) (h : IsFn ts f) : IsFunction (.kw .«const» :: .kw .«fn» :: ts) f

/-- A constant, from its name on. -/
inductive IsConst : List Tok → String × Expr → Prop
  | mk (x : String) (ts us : List Tok) (t : Ty) (e : Expr) (ht : IsTy ts t) (h : IsExpr false us e) :
      IsConst (.ident x :: .punct .colon :: ts ++ .punct .eq :: us ++ [.punct .semi]) (x, e)

/-- What is between the braces of an `impl`. -/
inductive IsImplItems : List Tok → List (String × Expr) → List FnDef → Prop
  | nil : IsImplItems [] [] []
  | type (as vs ts us : List Tok) (d m : List String) (cs : List (String × Expr)) (fs : List FnDef) (ha : IsAttrs as d m)
      (hv : Visibility vs) (ht : .punct .semi ∉ ts) (h : IsImplItems us cs fs) :
      IsImplItems (as ++ vs ++ .kw .«type» :: ts ++ .punct .semi :: us) cs fs
  | const (as vs ts us : List Tok) (d m : List String) (c : String × Expr) (cs : List (String × Expr)) (fs : List FnDef) (ha : IsAttrs as d m)
      (hv : Visibility vs) (hc : IsConst ts c) (h : IsImplItems us cs fs) :
      IsImplItems (as ++ vs ++ .kw .«const» :: ts ++ us) (c :: cs) fs
  | fn (as vs ts us : List Tok) (d m : List String) (f : FnDef) (cs : List (String × Expr)) (fs : List FnDef) (ha : IsAttrs as d m)
      (hv : Visibility vs) (hf : IsFunction ts f) (h : IsImplItems us cs fs) : IsImplItems (as ++ vs ++ ts ++ us) cs (f :: fs)

/-- A field of a tuple struct.  `pub (crate)` is a visibility, not `pub` and a type. -/
inductive IsTupleField : List Tok → Ty → Prop
  | mk (vs ts : List Tok) (t : Ty) (hv : Visibility vs) (h : IsTy ts t)
      (hc : vs = [.kw .«pub»] → ¬ [.punct .lparen, .ident "crate", .punct .rparen] <+: ts) : IsTupleField (vs ++ ts) t

inductive IsNamedField : List Tok → String × Ty → Prop
  | mk (vs ts : List Tok) (x : String) (t : Ty) (hv : Visibility vs) (h : IsTy ts t) : IsNamedField (vs ++ .ident x :: .punct .colon :: ts) (x, t)

inductive IsVariant : List Tok → String × Shape → Prop
  | unit (x : String) : IsVariant [.ident x] (x, .tuple [])
  | tuple (x : String) (ts : List Tok) (l : List Ty) (h : Separated IsTy ts l) :
      IsVariant (.ident x :: .punct .lparen :: ts ++ [.punct .rparen]) (x, .tuple l)

/-- An item after its attributes, which say `ds` and `as`, and its visibility; `none` for those not kept. -/
inductive IsItem (ds as : List String) : List Tok → Option Item → Prop
  | glob (x : String) : IsItem ds as [.kw .«use», .ident x, .punct .colonColon, .punct .star, .punct .semi] (some (.glob x))
  | use (ts : List Tok) (h : IsUse ts) (hg : ∀ x, ts ≠ [.kw .«use», .ident x, .punct .colonColon, .punct .star, .punct .semi]) :
      IsItem ds as ts none
  | modFile (x : String) : IsItem ds as [.kw .«mod», .ident x, .punct .semi] none
  | mod (x : String) (ts : List Tok) (h : Balanced .lbrace .rbrace ts) :
      IsItem ds as (.kw .«mod» :: .ident x :: .punct .lbrace :: ts ++ [.punct .rbrace]) none
  | fn (ts : List Tok) (f : FnDef) (h : IsFunction ts f) : IsItem ds as ts (some (.fn f))
  | static (ts : List Tok) (x : String) (e : Expr) (h : IsConst ts (x, e)) : IsItem ds as (.kw .«static» :: ts) (some (.const x e))
  | const (ts : List Tok) (x : String) (e : Expr) (h : IsConst ts (x, e)) : IsItem ds as (.kw .«const» :: ts) (some (.const x e))
  | alias (x : String) (ts : List Tok) (t : Ty) (h : IsTy ts t) :
      IsItem ds as (.kw .«type» :: .ident x :: .punct .eq :: ts ++ [.punct .semi]) (some (.alias x t))
  | tupleStruct (x : String) (gs ts : List Tok) (l : List Ty) (hg : Generics gs) (h : Separated IsTupleField ts l) :
      IsItem ds as (.kw .«struct» :: .ident x :: gs ++ .punct .lparen :: ts ++ [.punct .rparen, .punct .semi])
        (some (.struct x ds as (.tuple l)))
  | struct (x : String) (gs ts : List Tok) (fs : List (String × Ty)) (hg : Generics gs) (h : Separated IsNamedField ts fs) :
      IsItem ds as (.kw .«struct» :: .ident x :: gs ++ .punct .lbrace :: ts ++ [.punct .rbrace]) (some (.struct x ds as (.named fs)))
  | enum (x : String) (gs ts : List Tok) (vs : List (String × Shape)) (hg : Generics gs) (h : Separated IsVariant ts vs) :
      IsItem ds as (.kw .«enum» :: .ident x :: gs ++ .punct .lbrace :: ts ++ [.punct .rbrace]) (some (.enum x ds vs))
  | impl (gs ts us : List Tok) (t : Ty) (cs : List (String × Expr)) (fs : List FnDef) (hg : Generics gs) (ht : IsTy ts t)
      (h : IsImplItems us cs fs) :
      IsItem ds as (.kw .«impl» :: gs ++ ts ++ .punct .lbrace :: us ++ [.punct .rbrace]) (some (.impl none t cs fs))
  | implFor (gs rs ts us : List Tok) (r t : Ty) (cs : List (String × Expr)) (fs : List FnDef) (hg : Generics gs) (hr : IsTy rs r)
      (ht : IsTy ts t) (h : IsImplItems us cs fs) :
      IsItem ds as (.kw .«impl» :: gs ++ rs ++ .kw .«for» :: ts ++ .punct .lbrace :: us ++ [.punct .rbrace]) (some (.impl (some r) t cs fs))
  /-- The braces around the body are read as those of a block: the body is one expression. -/
  | macroRules (x p : String) (ts : List Tok) (b : Expr) (h : IsBlock ts b) :
      IsItem ds as (.kw .«macro_rules» :: .punct .not :: .ident x :: .punct .lbrace :: .punct .lparen :: .punct .dollar :: .ident p ::
        .punct .colon :: .kw .«literal» :: .punct .rparen :: .punct .fatArrow :: ts ++ [.punct .semi, .punct .rbrace]) (some (.macroRules x p b))

/-- The items of a file. -/
inductive IsItems : List Tok → List Item → Prop
  /-- attributes of the file -/
  | nil (ts : List Tok) (ds as : List String) (h : IsAttrs ts ds as) : IsItems ts []
  | cons (ats vs ts us : List Tok) (ds as : List String) (i : Option Item) (is : List Item) (ha : IsAttrs ats ds as) (hv : Visibility vs)
      (hi : IsItem ds as ts i) (h : IsItems us is) : IsItems (ats ++ vs ++ ts ++ us) (i.toList ++ is)

/-- The lines are those of a file with these items. -/
def IsFile (lines : List (List Nat)) (is : List Item) : Prop := ∃ ts, IsText lines ts ∧ IsItems ts is

end Langtag.Spec.Rust
