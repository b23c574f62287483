import Verif.Source.Lexer

/-!
# Reading Rust: parser

From tokens to items: a recursive descent parser.  The recursion is through `Parsers`, a record of the mutually recursive parsers:
`step` makes a record that can descend once more, and `parsers n` descends `n` times.
-/

set_option autoImplicit false

namespace Langtag.Source

/-- A parser: what it read and what is left. -/
abbrev P (α : Type) := List Tok → Option (α × List Tok)

/-- The mutually recursive parsers. -/
structure Parsers where
  ty : P Ty
  /-- types and lifetimes up to `>`; `none` for a lifetime -/
  tyArgs : P (List (Option Ty))
  /-- types up to `)` -/
  tys : P (List Ty)
  pat : P Pat
  /-- `| p | q …` after the first alternative, at least one -/
  orPats : P (List Pat)
  /-- patterns up to `)` -/
  pats : P (List Pat)
  /-- patterns up to the closing `|` of a closure -/
  closureParams : P (List Pat)
  /-- an expression; `true` where a struct expression may not begin -/
  expr : Bool → P Expr
  /-- operands and operators of at least the given precedence -/
  operators : Bool → Nat → P Expr
  /-- the same, after a left operand -/
  operatorsAfter : Bool → Nat → Expr → P Expr
  /-- `as T` after an operand, any number of times -/
  casts : Expr → P Expr
  unary : Bool → P Expr
  /-- calls, fields and indices after an operand -/
  trailing : Expr → P Expr
  /-- expressions that end with a block -/
  blockLike : P Expr
  /-- expressions up to `)` -/
  args : P (List Expr)
  /-- expressions up to `]` -/
  elems : P (List Expr)
  /-- arms up to `}` -/
  arms : P (List Arm)
  /-- fields up to `}` -/
  fields : P (List Field)
  /-- statements up to `}`, and the last expression -/
  stmts : P (List Stmt × Expr)

/-- The parsers that fail. -/
def Parsers.fail : Parsers where
  ty := fun _ => none
  tyArgs := fun _ => none
  tys := fun _ => none
  pat := fun _ => none
  orPats := fun _ => none
  pats := fun _ => none
  closureParams := fun _ => none
  expr := fun _ _ => none
  operators := fun _ _ _ => none
  operatorsAfter := fun _ _ _ _ => none
  casts := fun _ _ => none
  unary := fun _ _ => none
  trailing := fun _ _ => none
  blockLike := fun _ => none
  args := fun _ => none
  elems := fun _ => none
  arms := fun _ => none
  fields := fun _ => none
  stmts := fun _ => none

/-- The unit expression `()`. -/
def Expr.unit : Expr := .tuple []

/-- A given token. -/
def token (t : Tok) (ts : List Tok) : Option (List Tok) :=
  match ts with
  | [] => none
  | t' :: ts => if t' = t then some ts else none

/-- A given operator or delimiter. -/
def punct (p : Punct) (ts : List Tok) : Option (List Tok) := token (.punct p) ts

/-- What follows an element of a list: the delimiter that closes the list, or a comma and other elements. -/
def afterElem {α : Type} (close : Punct) (others : P (List α)) : P (List α) := fun ts =>
  match punct close ts with
  | some ts => some ([], ts)
  | none => do
    let ts ← punct .comma ts
    others ts

/-- The elements of a list up to the delimiter that closes it; a comma may follow the last one. -/
def commaList {α : Type} (close : Punct) (elem : P α) (others : P (List α)) : P (List α) := fun ts =>
  match punct close ts with
  | some ts => some ([], ts)
  | none => do
    let (a, ts) ← elem ts
    let (as, ts) ← afterElem close others ts
    return (a :: as, ts)

/-- The identifiers after a `::`. -/
def moreSegs : List Tok → List String × List Tok
  | .punct .colonColon :: .ident s :: ts =>
    let (ss, ts) := moreSegs ts
    (s :: ss, ts)
  | ts => ([], ts)

/-- `a::b::c`, `::a::b`, `$crate::a`, and `$x` in the body of a macro, read as the variable `x`. -/
def pathSegs (ts : List Tok) : Option (List String × List Tok) :=
  match ts with
  | .ident s :: ts =>
    let (ss, ts) := moreSegs ts
    some (s :: ss, ts)
  | .punct .colonColon :: .ident s :: ts =>
    let (ss, ts) := moreSegs ts
    some (s :: ss, ts)
  | .punct .dollar :: .ident "crate" :: ts =>
    let (ss, ts) := moreSegs ts
    some ("crate" :: ss, ts)
  | .punct .dollar :: .ident s :: ts => some ([s], ts)
  | _ => none

/-- A literal. -/
def literal (ts : List Tok) : Option (Lit × List Tok) :=
  match ts with
  | .int n s :: ts => some (.int n s, ts)
  | .char c :: ts => some (.char c, ts)
  | .byte c :: ts => some (.byte c, ts)
  | .str s :: ts => some (.str s, ts)
  | .bstr s :: ts => some (.bstr s, ts)
  | .kw .«true» :: ts => some (.bool true, ts)
  | .kw .«false» :: ts => some (.bool false, ts)
  | _ => none

/-- The tokens up to the `>` that closes a `<` already read. -/
def skipGenerics : (depth : Nat) → List Tok → Option (List Tok)
  | _, [] => none
  | depth, .punct .lt :: ts => skipGenerics (depth + 1) ts
  | 0, .punct .gt :: ts => some ts
  | depth + 1, .punct .gt :: ts => skipGenerics depth ts
  | depth, _ :: ts => skipGenerics depth ts

/-- Optional `<…>`. -/
def optGenerics (ts : List Tok) : Option (List Tok) :=
  match ts with
  | .punct .lt :: ts => skipGenerics 0 ts
  | ts => some ts

/-! ## Types -/

def stepTy (r : Parsers) : P Ty := fun ts =>
  match ts with
  | .punct .and :: .lifetime :: .kw .«mut» :: ts => do
    let (t, ts) ← r.ty ts
    return (.ref true t, ts)
  | .punct .and :: .lifetime :: ts => do
    let (t, ts) ← r.ty ts
    return (.ref false t, ts)
  | .punct .and :: .kw .«mut» :: ts => do
    let (t, ts) ← r.ty ts
    return (.ref true t, ts)
  | .punct .and :: ts => do
    let (t, ts) ← r.ty ts
    return (.ref false t, ts)
  | .punct .lbrack :: ts => do
    let (t, ts) ← r.ty ts
    match ts with
    | .punct .rbrack :: ts => return (.slice t, ts)
    | .punct .semi :: .int n _ :: .punct .rbrack :: ts => return (.array t n, ts)
    | _ => none
  | .punct .lparen :: .punct .rparen :: ts => some (.tuple [], ts)
  | .punct .lparen :: ts => do
    let (t, ts) ← r.ty ts
    match ts with
    | .punct .rparen :: ts => return (t, ts)
    | .punct .comma :: ts => do
      let (l, ts) ← r.tys ts
      return (.tuple (t :: l), ts)
    | _ => none
  | .kw .«impl» :: .kw .«FnMut» :: .punct .lparen :: ts => do
    let (l, ts) ← r.tys ts
    let ts ← punct .arrow ts
    let (t, ts) ← r.ty ts
    return (.fnMut l t, ts)
  | ts => do
    let (ss, ts) ← pathSegs ts
    match ts with
    | .punct .lt :: ts => do
      let (l, ts) ← r.tyArgs ts
      return (.path ss (l.filterMap id), ts)
    | ts => return (.path ss [], ts)

/-- A type or a lifetime. -/
def tyArg (r : Parsers) : P (Option Ty) := fun ts =>
  match ts with
  | .lifetime :: ts => some (none, ts)
  | ts => do
    let (t, ts) ← r.ty ts
    return (some t, ts)

def stepTyArgs (r : Parsers) : P (List (Option Ty)) := commaList .gt (tyArg r) r.tyArgs

def stepTys (r : Parsers) : P (List Ty) := commaList .rparen r.ty r.tys

/-! ## Patterns -/

/-- A pattern without a top-level `|`. -/
def simplePat (r : Parsers) : P Pat := fun ts =>
  match ts with
  | .kw .«underscore» :: ts => some (.wild, ts)
  | .punct .lparen :: .punct .rparen :: ts => some (.tuple [], ts)
  | .punct .lparen :: ts => do
    let (p, ts) ← r.pat ts
    match ts with
    | .punct .rparen :: ts => return (p, ts)
    | .punct .comma :: ts => do
      let (ps, ts) ← r.pats ts
      return (.tuple (p :: ps), ts)
    | _ => none
  | .kw .«mut» :: .ident x :: ts => some (.path [x], ts)
  | ts =>
    match literal ts with
    | some (l, .punct .dotDotEq :: ts) => do
      let (h, ts) ← literal ts
      return (.range l h, ts)
    | some (l, ts) => some (.lit l, ts)
    | none => do
      let (ss, ts) ← pathSegs ts
      match ts with
      | .punct .lparen :: ts => do
        let (ps, ts) ← r.pats ts
        return (.ctor ss ps, ts)
      | ts => return (.path ss, ts)

def stepPat (r : Parsers) : P Pat := fun ts => do
  let (p, ts) ← simplePat r ts
  match ts with
  | .punct .or :: _ => do
    let (ps, ts) ← r.orPats ts
    return (.or (p :: ps), ts)
  | ts => return (p, ts)

def stepOrPats (r : Parsers) : P (List Pat) := fun ts => do
  let ts ← punct .or ts
  let (p, ts) ← simplePat r ts
  match ts with
  | .punct .or :: _ => do
    let (ps, ts) ← r.orPats ts
    return (p :: ps, ts)
  | ts => return ([p], ts)

def stepPats (r : Parsers) : P (List Pat) := commaList .rparen r.pat r.pats

def stepClosureParams (r : Parsers) : P (List Pat) := commaList .or (simplePat r) r.closureParams

/-! ## Expressions -/

/-- The binary operators and their precedences. -/
def binOp (ts : List Tok) : Option (BinOp × Nat × List Tok) :=
  match ts with
  | .punct .orOr :: ts => some (.or, 1, ts)
  | .punct .andAnd :: ts => some (.and, 2, ts)
  | .punct .eqEq :: ts => some (.eq, 3, ts)
  | .punct .ne :: ts => some (.ne, 3, ts)
  | .punct .lt :: ts => some (.lt, 3, ts)
  | .punct .le :: ts => some (.le, 3, ts)
  | .punct .gt :: .punct .eq :: _ => none
  | .punct .gt :: ts => some (.gt, 3, ts)
  | .punct .plus :: ts => some (.add, 4, ts)
  | .punct .minus :: ts => some (.sub, 4, ts)
  | _ => none

/-- Does an expression end before these tokens? -/
def atEnd (ts : List Tok) : Bool :=
  match ts with
  | [] => true
  | .punct .semi :: _ | .punct .comma :: _ | .punct .rparen :: _ | .punct .rbrack :: _ | .punct .rbrace :: _ => true
  | _ => false

/-- Is there no upper bound: does what follows end the expression, or begin the block after it? -/
def endsRange (noStruct : Bool) (ts : List Tok) : Bool :=
  match noStruct, ts with
  | true, .punct .lbrace :: _ => true
  | _, ts => atEnd ts

/-- A block after its `{`. -/
def blockAfter (r : Parsers) : P Expr := fun ts => do
  let ((ss, e), ts) ← r.stmts ts
  return (.block ss e, ts)

/-- `{ … }` -/
def blockExpr (r : Parsers) : P Expr := fun ts => do
  let ts ← punct .lbrace ts
  blockAfter r ts

/-- Expressions that end with a block: `if`, `match`, `loop`, `while`, `for`, `unsafe { }`, `{ }`. -/
def stepBlockLike (r : Parsers) : P Expr := fun ts =>
  match ts with
  | .punct .lbrace :: ts => blockAfter r ts
  | .kw .«unsafe» :: ts => blockExpr r ts
  | .kw .«if» :: ts => do
    let (c, ts) ← r.expr true ts
    let (t, ts) ← blockExpr r ts
    match ts with
    | .kw .«else» :: .kw .«if» :: ts => do
      let (e, ts) ← r.blockLike (.kw .«if» :: ts)
      return (.ite c t e, ts)
    | .kw .«else» :: ts => do
      let (e, ts) ← blockExpr r ts
      return (.ite c t e, ts)
    | ts => return (.ite c t .unit, ts)
  | .kw .«match» :: ts => do
    let (e, ts) ← r.expr true ts
    let ts ← punct .lbrace ts
    let (as, ts) ← r.arms ts
    return (.match e as, ts)
  | .kw .«loop» :: ts => do
    let (b, ts) ← blockExpr r ts
    return (.loop b, ts)
  | .kw .«while» :: ts => do
    let (c, ts) ← r.expr true ts
    let (b, ts) ← blockExpr r ts
    return (.while c b, ts)
  | .kw .«for» :: .ident x :: .kw .«in» :: ts => do
    let (e, ts) ← r.expr true ts
    let (b, ts) ← blockExpr r ts
    return (.for x e b, ts)
  | _ => none

/-- Does an expression that ends with a block begin here? -/
def startsBlockLike (ts : List Tok) : Bool :=
  match ts with
  | .punct .lbrace :: _ | .kw .«unsafe» :: _ | .kw .«if» :: _ | .kw .«match» :: _ | .kw .«loop» :: _ | .kw .«while» :: _
  | .kw .«for» :: _ => true
  | _ => false

/-- Operands. -/
def primary (r : Parsers) (noStruct : Bool) : P Expr := fun ts =>
  if startsBlockLike ts then r.blockLike ts
  else match ts with
  | .punct .lparen :: .punct .rparen :: ts => some (.unit, ts)
  | .punct .lparen :: ts => do
    let (e, ts) ← r.expr false ts
    match ts with
    | .punct .rparen :: ts => return (e, ts)
    | .punct .comma :: ts => do
      let (es, ts) ← r.args ts
      return (.tuple (e :: es), ts)
    | _ => none
  | .punct .lbrack :: ts => do
    let (es, ts) ← r.elems ts
    return (.array es, ts)
  | .kw .«matches» :: .punct .not :: .punct .lparen :: ts => do
    let (e, ts) ← r.expr false ts
    let ts ← punct .comma ts
    let (p, ts) ← r.pat ts
    let ts ← punct .rparen ts
    return (.matches e p, ts)
  | .kw .«panic» :: .punct .not :: .punct .lparen :: .str _ :: .punct .rparen :: ts => some (.panic, ts)
  | ts =>
    match literal ts with
    | some (l, ts) => some (.lit l, ts)
    | none => do
      let (ss, ts) ← pathSegs ts
      match noStruct, ts with
      | false, .punct .lbrace :: ts => do
        let (fs, ts) ← r.fields ts
        return (.struct ss fs, ts)
      | _, ts => return (.path ss, ts)

def stepUnary (r : Parsers) (noStruct : Bool) : P Expr := fun ts =>
  match ts with
  | .punct .and :: .kw .«mut» :: ts => do
    let (e, ts) ← r.unary noStruct ts
    return (.ref true e, ts)
  | .punct .and :: ts => do
    let (e, ts) ← r.unary noStruct ts
    return (.ref false e, ts)
  | .punct .star :: ts => do
    let (e, ts) ← r.unary noStruct ts
    return (.deref e, ts)
  | .punct .not :: ts => do
    let (e, ts) ← r.unary noStruct ts
    return (.not e, ts)
  | ts => do
    let (e, ts) ← primary r noStruct ts
    r.trailing e ts

def stepTrailing (r : Parsers) (e : Expr) : P Expr := fun ts =>
  match ts with
  | .punct .dot :: .ident m :: .punct .lparen :: ts => do
    let (es, ts) ← r.args ts
    r.trailing (.method e m es) ts
  | .punct .dot :: .ident f :: ts => r.trailing (.field e f) ts
  | .punct .dot :: .int 0 _ :: ts => r.trailing (.field e "0") ts
  | .punct .lparen :: ts => do
    let (es, ts) ← r.args ts
    r.trailing (.call e es) ts
  | .punct .lbrack :: ts => do
    let (i, ts) ← r.expr false ts
    let ts ← punct .rbrack ts
    r.trailing (.index e i) ts
  | ts => some (e, ts)

def stepOperators (r : Parsers) (noStruct : Bool) (prec : Nat) : P Expr := fun ts => do
  let (e, ts) ← r.unary noStruct ts
  let (e, ts) ← r.casts e ts
  r.operatorsAfter noStruct prec e ts

def stepCasts (r : Parsers) (e : Expr) : P Expr := fun ts =>
  match ts with
  | .kw .«as» :: ts => do
    let (t, ts) ← r.ty ts
    match ts with
    | .punct .lt :: _ => none
    | ts => r.casts (.cast e t) ts
  | ts => some (e, ts)

def stepOperatorsAfter (r : Parsers) (noStruct : Bool) (prec : Nat) (e : Expr) : P Expr := fun ts =>
  match binOp ts with
  | some (op, p, ts') =>
    if prec ≤ p then do
      let (b, ts) ← r.operators noStruct (p + 1) ts'
      r.operatorsAfter noStruct prec (.bin op e b) ts
    else some (e, ts)
  | none => some (e, ts)

def stepExpr (r : Parsers) (noStruct : Bool) : P Expr := fun ts =>
  match ts with
  | .punct .dotDot :: ts =>
    if endsRange noStruct ts then none else do
      let (e, ts) ← r.operators noStruct 1 ts
      return (.rangeTo e, ts)
  | .punct .or :: ts => do
    let (ps, ts) ← r.closureParams ts
    let (b, ts) ← r.expr noStruct ts
    return (.closure ps b, ts)
  | .kw .«return» :: ts =>
    if !noStruct && atEnd ts then some (.return .unit, ts) else do
      let (e, ts) ← r.expr noStruct ts
      return (.return e, ts)
  | .kw .«break» :: ts =>
    if !noStruct && atEnd ts then some (.break .unit, ts) else do
      let (e, ts) ← r.expr noStruct ts
      return (.break e, ts)
  | ts => do
    let (e, ts) ← r.operators noStruct 1 ts
    match ts with
    | .punct .dotDot :: ts =>
      if endsRange noStruct ts then return (.rangeFrom e, ts) else do
        let (h, ts) ← r.operators noStruct 1 ts
        return (.range e h, ts)
    | .punct .eq :: ts => do
      let (v, ts) ← r.expr noStruct ts
      return (.assign e v, ts)
    | .punct .plusEq :: ts => do
      let (v, ts) ← r.expr noStruct ts
      return (.opAssign .add e v, ts)
    | .punct .minusEq :: ts => do
      let (v, ts) ← r.expr noStruct ts
      return (.opAssign .sub e v, ts)
    | ts => return (e, ts)

def stepArgs (r : Parsers) : P (List Expr) := commaList .rparen (r.expr false) r.args

def stepElems (r : Parsers) : P (List Expr) := commaList .rbrack (r.expr false) r.elems

def stepArms (r : Parsers) : P (List Arm) := fun ts =>
  match ts with
  | .punct .rbrace :: ts => some ([], ts)
  | ts => do
    let (p, ts) ← r.pat ts
    let ts ← punct .fatArrow ts
    if startsBlockLike ts then do
      let (e, ts) ← r.blockLike ts
      match ts with
      | .punct .comma :: ts => do
        let (as, ts) ← r.arms ts
        return (.mk p e :: as, ts)
      | ts => do
        let (as, ts) ← r.arms ts
        return (.mk p e :: as, ts)
    else do
      let (e, ts) ← r.expr false ts
      let (as, ts) ← afterElem .rbrace r.arms ts
      return (.mk p e :: as, ts)

/-- A field of a struct expression: `f: e` or `f`. -/
def fieldExpr (r : Parsers) : P Field := fun ts =>
  match ts with
  | .ident f :: .punct .colon :: ts => do
    let (e, ts) ← r.expr false ts
    return (.mk f e, ts)
  | .ident f :: ts => some (.mk f (.path [f]), ts)
  | _ => none

def stepFields (r : Parsers) : P (List Field) := commaList .rbrace (fieldExpr r) r.fields

/-- The tokens after the next `;`. -/
def skipSemi : List Tok → Option (List Tok)
  | [] => none
  | .punct .semi :: ts => some ts
  | _ :: ts => skipSemi ts

def stepStmts (r : Parsers) : P (List Stmt × Expr) := fun ts =>
  match ts with
  | .punct .rbrace :: ts => some (([], .unit), ts)
  | .kw .«use» :: ts => do
    let ts ← skipSemi ts
    r.stmts ts
  | .kw .«let» :: ts => do
    let (p, ts) ← r.pat ts
    let ts ← punct .eq ts
    let (e, ts) ← r.expr false ts
    let ts ← punct .semi ts
    let ((ss, l), ts) ← r.stmts ts
    return ((.let p e :: ss, l), ts)
  | ts =>
    if startsBlockLike ts then do
      let (e, ts) ← r.blockLike ts
      match ts with
      | .punct .rbrace :: ts => return (([], e), ts)
      | .punct .semi :: ts => do
        let ((ss, l), ts) ← r.stmts ts
        return ((.expr e :: ss, l), ts)
      | ts => do
        let ((ss, l), ts) ← r.stmts ts
        return ((.expr e :: ss, l), ts)
    else do
      let (e, ts) ← r.expr false ts
      match ts with
      | .punct .rbrace :: ts => return (([], e), ts)
      | .punct .semi :: ts => do
        let ((ss, l), ts) ← r.stmts ts
        return ((.expr e :: ss, l), ts)
      | _ => none

/-- Parsers that can descend once more. -/
def Parsers.step (r : Parsers) : Parsers where
  ty := stepTy r
  tyArgs := stepTyArgs r
  tys := stepTys r
  pat := stepPat r
  orPats := stepOrPats r
  pats := stepPats r
  closureParams := stepClosureParams r
  expr := stepExpr r
  operators := stepOperators r
  operatorsAfter := stepOperatorsAfter r
  casts := stepCasts r
  unary := stepUnary r
  trailing := stepTrailing r
  blockLike := stepBlockLike r
  args := stepArgs r
  elems := stepElems r
  arms := stepArms r
  fields := stepFields r
  stmts := stepStmts r

/-- Parsers that can descend `n` times. -/
def parsers : Nat → Parsers
  | 0 => .fail
  | n + 1 => (parsers n).step

/-! ## Items -/

/-- What is kept of the attributes before an item. -/
structure Attrs where
  derives : List String
  automaton : List String

/-- Paths up to `)`, of each the last segment. -/
def deriveNames : (fuel : Nat) → P (List String)
  | 0 => fun _ => none
  | fuel + 1 => commaList .rparen (fun ts => do
      let (ss, ts) ← pathSegs ts
      return (ss.getLast?.getD "", ts)) (deriveNames fuel)

/-- The tokens up to the `]` that closes a `[` already read. -/
def skipBrackets : (depth : Nat) → List Tok → Option (List Tok)
  | _, [] => none
  | depth, .punct .lbrack :: ts => skipBrackets (depth + 1) ts
  | 0, .punct .rbrack :: ts => some ts
  | depth + 1, .punct .rbrack :: ts => skipBrackets depth ts
  | depth, _ :: ts => skipBrackets depth ts

/-- The tokens up to the `}` that closes a `{` already read. -/
def skipBraces : (depth : Nat) → List Tok → Option (List Tok)
  | _, [] => none
  | depth, .punct .lbrace :: ts => skipBraces (depth + 1) ts
  | 0, .punct .rbrace :: ts => some ts
  | depth + 1, .punct .rbrace :: ts => skipBraces depth ts
  | depth, _ :: ts => skipBraces depth ts

/-- Attributes, as many as there are. -/
def attrs : (fuel : Nat) → P Attrs
  | 0, _ => none
  | fuel + 1, ts =>
    match ts with
    | .punct .hash :: .punct .not :: .punct .lbrack :: ts => do
      let ts ← skipBrackets 0 ts
      attrs fuel ts
    | .punct .hash :: .punct .lbrack :: .kw .«derive» :: .punct .lparen :: ts => do
      let (ds, ts) ← deriveNames fuel ts
      let ts ← punct .rbrack ts
      let (a, ts) ← attrs fuel ts
      return (⟨ds ++ a.derives, a.automaton⟩, ts)
    | .punct .hash :: .punct .lbrack :: .ident "automaton" :: .punct .lparen :: ts => do
      let (ss, ts) ← pathSegs ts
      let ts ← punct .rparen ts
      let ts ← punct .rbrack ts
      let (a, ts) ← attrs fuel ts
      match a.automaton with
      | [] => return (⟨a.derives, ss⟩, ts)
      | _ => none
    | .punct .hash :: .punct .lbrack :: ts => do
      let ts ← skipBrackets 0 ts
      attrs fuel ts
    | ts => some (⟨[], []⟩, ts)

/-- Without `pub` or `pub(crate)`. -/
def visibility (ts : List Tok) : List Tok :=
  match ts with
  | .kw .«pub» :: .punct .lparen :: .ident "crate" :: .punct .rparen :: ts => ts
  | .kw .«pub» :: ts => ts
  | ts => ts

/-- A parameter of a function. -/
def param (r : Parsers) : P (String × Ty) := fun ts =>
  match ts with
  | .punct .and :: .ident "self" :: ts => some (("self", .ref false (.path ["Self"] [])), ts)
  | .punct .and :: .kw .«mut» :: .ident "self" :: ts => some (("self", .ref true (.path ["Self"] [])), ts)
  | .kw .«mut» :: .ident x :: .punct .colon :: ts => do
    let (t, ts) ← r.ty ts
    return ((x, t), ts)
  | .ident x :: .punct .colon :: ts => do
    let (t, ts) ← r.ty ts
    return ((x, t), ts)
  | .ident "self" :: ts => some (("self", .path ["Self"] []), ts)
  | _ => none

/-- The parameters of a function up to `)`. -/
def params (r : Parsers) : (fuel : Nat) → P (List (String × Ty))
  | 0 => fun _ => none
  | fuel + 1 => commaList .rparen (param r) (params r fuel)

/-- A function after `fn`, with at most `m` parameters. -/
def function (r : Parsers) (m : Nat) (ts : List Tok) : Option (FnDef × List Tok) :=
  match ts with
  | .ident name :: ts => do
    let ts ← optGenerics ts
    let ts ← punct .lparen ts
    let (ps, ts) ← params r m ts
    match ts with
    | .punct .arrow :: ts => do
      let (t, ts) ← r.ty ts
      let (b, ts) ← blockExpr r ts
      return (⟨name, ps, t, b⟩, ts)
    | ts => do
      let (b, ts) ← blockExpr r ts
      return (⟨name, ps, .tuple [], b⟩, ts)
  | _ => none

/-- A constant after `const` or `static`. -/
def constant (r : Parsers) (ts : List Tok) : Option ((String × Expr) × List Tok) :=
  match ts with
  | .ident name :: .punct .colon :: ts => do
    let (_, ts) ← r.ty ts
    let ts ← punct .eq ts
    let (e, ts) ← r.expr false ts
    let ts ← punct .semi ts
    return ((name, e), ts)
  | _ => none

/-- The contents of an `impl` up to `}`; `m` bounds the lists in them. -/
def implItems (r : Parsers) (m : Nat) : (fuel : Nat) → P (List (String × Expr) × List FnDef)
  | 0, _ => none
  | fuel + 1, ts =>
    match punct .rbrace ts with
    | some ts => some (([], []), ts)
    | none => do
      let (_, ts) ← attrs m ts
      match visibility ts with
      | .kw .«type» :: ts => do
        let ts ← skipSemi ts
        implItems r m fuel ts
      | .kw .«const» :: .kw .«fn» :: ts => do
        let (f, ts) ← function r m ts
        let ((cs, fs), ts) ← implItems r m fuel ts
        return ((cs, f :: fs), ts)
      | .kw .«const» :: ts => do
        let (c, ts) ← constant r ts
        let ((cs, fs), ts) ← implItems r m fuel ts
        return ((c :: cs, fs), ts)
      | .kw .«fn» :: ts => do
        let (f, ts) ← function r m ts
        let ((cs, fs), ts) ← implItems r m fuel ts
        return ((cs, f :: fs), ts)
      | _ => none

/-- A field of a tuple struct. -/
def tupleField (r : Parsers) : P Ty := fun ts => r.ty (visibility ts)

/-- The fields of a tuple struct up to `)`. -/
def tupleFields (r : Parsers) : (fuel : Nat) → P (List Ty)
  | 0 => fun _ => none
  | fuel + 1 => commaList .rparen (tupleField r) (tupleFields r fuel)

/-- A named field. -/
def namedField (r : Parsers) : P (String × Ty) := fun ts =>
  match visibility ts with
  | .ident x :: .punct .colon :: ts => do
    let (t, ts) ← r.ty ts
    return ((x, t), ts)
  | _ => none

/-- Named fields up to `}`. -/
def namedFields (r : Parsers) : (fuel : Nat) → P (List (String × Ty))
  | 0 => fun _ => none
  | fuel + 1 => commaList .rbrace (namedField r) (namedFields r fuel)

/-- A variant of an enum. -/
def variant (r : Parsers) : P (String × Shape) := fun ts =>
  match ts with
  | .ident x :: .punct .lparen :: ts => do
    let (l, ts) ← r.tys ts
    return ((x, .tuple l), ts)
  | .ident x :: ts => some ((x, .tuple []), ts)
  | _ => none

/-- Variants of an enum up to `}`. -/
def variants (r : Parsers) : (fuel : Nat) → P (List (String × Shape))
  | 0 => fun _ => none
  | fuel + 1 => commaList .rbrace (variant r) (variants r fuel)

/-- One item; `m` bounds the lists in it.  `none` in the first component for the items that are not kept. -/
def item (r : Parsers) (m : Nat) (a : Attrs) (ts : List Tok) : Option (Option Item × List Tok) :=
  match visibility ts with
  | .kw .«use» :: .ident x :: .punct .colonColon :: .punct .star :: .punct .semi :: ts => some (some (.glob x), ts)
  | .kw .«use» :: ts => do
    let ts ← skipSemi ts
    return (none, ts)
  | .kw .«mod» :: .ident _ :: .punct .semi :: ts => some (none, ts)
  | .kw .«mod» :: .ident _ :: .punct .lbrace :: ts => do
    let ts ← skipBraces 0 ts
    return (none, ts)
  | .kw .«fn» :: ts => do
    let (f, ts) ← function r m ts
    return (some (.fn f), ts)
  | .kw .«const» :: .kw .«fn» :: ts => do
    let (f, ts) ← function r m ts
    return (some (.fn f), ts)
  | .kw .«static» :: ts => do
    let ((x, e), ts) ← constant r ts
    return (some (.const x e), ts)
  | .kw .«const» :: ts => do
    let ((x, e), ts) ← constant r ts
    return (some (.const x e), ts)
  | .kw .«type» :: .ident x :: .punct .eq :: ts => do
    let (t, ts) ← r.ty ts
    let ts ← punct .semi ts
    return (some (.alias x t), ts)
  | .kw .«struct» :: .ident x :: ts => do
    let ts ← optGenerics ts
    match ts with
    | .punct .lparen :: ts => do
      let (l, ts) ← tupleFields r m ts
      let ts ← punct .semi ts
      return (some (.struct x a.derives a.automaton (.tuple l)), ts)
    | .punct .lbrace :: ts => do
      let (fs, ts) ← namedFields r m ts
      return (some (.struct x a.derives a.automaton (.named fs)), ts)
    | _ => none
  | .kw .«enum» :: .ident x :: ts => do
    let ts ← optGenerics ts
    let ts ← punct .lbrace ts
    let (vs, ts) ← variants r m ts
    return (some (.enum x a.derives vs), ts)
  | .kw .«impl» :: ts => do
    let ts ← optGenerics ts
    let (t, ts) ← r.ty ts
    match ts with
    | .kw .«for» :: ts => do
      let (t', ts) ← r.ty ts
      let ts ← punct .lbrace ts
      let ((cs, fs), ts) ← implItems r m m ts
      return (some (.impl (some t) t' cs fs), ts)
    | ts => do
      let ts ← punct .lbrace ts
      let ((cs, fs), ts) ← implItems r m m ts
      return (some (.impl none t cs fs), ts)
  | .kw .«macro_rules» :: .punct .not :: .ident x :: .punct .lbrace ::
      .punct .lparen :: .punct .dollar :: .ident p :: .punct .colon :: .kw .«literal» :: .punct .rparen :: .punct .fatArrow :: ts => do
    let (b, ts) ← blockExpr r ts
    let ts ← punct .semi ts
    let ts ← punct .rbrace ts
    return (some (.macroRules x p b), ts)
  | _ => none

/-- The items of a file. -/
def items (r : Parsers) (m : Nat) : (fuel : Nat) → List Tok → Option (List Item)
  | _, [] => some []
  | 0, _ => none
  | fuel + 1, ts =>
    match attrs m ts with
    | some (_, []) => some []
    | some (a, ts) =>
      match item r m a ts with
      | some (some i, ts) => (items r m fuel ts).map (i :: ·)
      | some (none, ts) => items r m fuel ts
      | none => none
    | none => none

/-- The items of a file, given by the code points of its lines. -/
def parseCodes (lines : List (List Nat)) : Option (List Item) :=
  match lex lines with
  | some ts => items (parsers 2000) 2000 2000 ts
  | none => none

end Langtag.Source
