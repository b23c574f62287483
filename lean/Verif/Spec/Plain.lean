import Verif.Source.Crate

/-!
# What makes the semantics of the subset exact

`Verif/Source/Semantics.lean` takes some shortcuts: a `&mut` argument is copied in and out, a closure keeps a copy of the variables it sees,
names are resolved by their last segment, a method that Rust resolves by the type of its result is resolved by the type of the result of
the function it is in.  Here is what a text must not do for these to be what Rust does.
-/

set_option autoImplicit false

namespace Langtag.Spec.Plain
open Langtag.Source

/-! ## Parts of expressions -/

mutual
/-- The expression and all the expressions in it. -/
def within : Expr → List Expr
  | e@(.lit _) | e@(.path _) | e@.panic => [e]
  | e@(.call f as) => e :: within f ++ withinAll as
  | e@(.method r _ as) => e :: within r ++ withinAll as
  | e@(.field a _) | e@(.rangeFrom a) | e@(.rangeTo a) | e@(.ref _ a) | e@(.deref a) | e@(.not a) | e@(.cast a _) | e@(.loop a) | e@(.break a)
  | e@(.return a) | e@(.closure _ a) | e@(.matches a _) => e :: within a
  | e@(.index a b) | e@(.range a b) | e@(.bin _ a b) | e@(.while a b) | e@(.for _ a b) | e@(.assign a b) | e@(.opAssign _ a b) =>
    e :: within a ++ within b
  | e@(.ite c a b) => e :: within c ++ within a ++ within b
  | e@(.match a arms) => e :: within a ++ withinArms arms
  | e@(.block ss l) => e :: withinStmts ss ++ within l
  | e@(.struct _ fs) => e :: withinFields fs
  | e@(.tuple es) | e@(.array es) => e :: withinAll es
/-- See `within`. -/
def withinAll : List Expr → List Expr
  | [] => []
  | e :: es => within e ++ withinAll es
/-- See `within`. -/
def withinArms : List Arm → List Expr
  | [] => []
  | .mk _ e :: as => within e ++ withinArms as
/-- See `within`. -/
def withinFields : List Field → List Expr
  | [] => []
  | .mk _ e :: fs => within e ++ withinFields fs
/-- See `within`. -/
def withinStmts : List Stmt → List Expr
  | [] => []
  | .let _ e :: ss => within e ++ withinStmts ss
  | .expr e :: ss => within e ++ withinStmts ss
end

mutual
/-- The expressions one of which is the value of the expression, if it has one. -/
def results : Expr → List Expr
  | .block _ l => results l
  | .ite _ a b => results a ++ results b
  | .match _ arms => resultsArms arms
  | e => [e]
/-- See `results`. -/
def resultsArms : List Arm → List Expr
  | [] => []
  | .mk _ e :: as => results e ++ resultsArms as
end

mutual
/-- The names a pattern may bind: its paths of one segment. -/
def patNames : Pat → List String
  | .path [x] => [x]
  | .ctor _ ps | .tuple ps | .or ps => patNamesAll ps
  | _ => []
/-- See `patNames`. -/
def patNamesAll : List Pat → List String
  | [] => []
  | p :: ps => patNames p ++ patNamesAll ps
end

/-- The names the patterns and loops of an expression (not of those in it) may bind. -/
def bound : Expr → List String
  | .match _ arms => arms.flatMap fun (.mk p _) => patNames p
  | .block ss _ => ss.flatMap fun
    | .let p _ => patNames p
    | .expr _ => []
  | .closure ps _ => patNamesAll ps
  | .matches _ p => patNames p
  | .for x _ _ => [x]
  | _ => []

mutual
/-- How often `&mut` occurs in a type. -/
def muts : Ty → Nat
  | .path _ ts | .tuple ts => mutsAll ts
  | .ref m t => (if m then 1 else 0) + muts t
  | .slice t | .array t _ => muts t
  | .fnMut ts t => mutsAll ts + muts t
/-- See `muts`. -/
def mutsAll : List Ty → Nat
  | [] => 0
  | t :: ts => muts t + mutsAll ts
end

/-- The types of the fields. -/
def shapeTys : Shape → List Ty
  | .tuple ts => ts
  | .named fs => fs.map (·.2)

/-- The types of the fields of a type. -/
def fieldTys : TypeDef → List Ty
  | .struct _ _ s => shapeTys s
  | .enum _ vs => vs.flatMap fun (_, s) => shapeTys s

/-- A call of a method of this name. -/
def callsMethod (m : String) : Expr → Bool
  | .method _ n _ => n = m
  | _ => false

/-- The name of what is called: a method, or the last segment of a path. -/
def callee : Expr → Option String
  | .method _ m _ => some m
  | .call (.path ss) _ => ss.getLast?
  | _ => none

/-- The body of a closure. -/
def closureBody : Expr → Option Expr
  | .closure _ c => some c
  | _ => none

/-- `&mut e` -/
def borrowsMut : Expr → Bool
  | .ref m _ => m
  | _ => false

/-- Assignments, and what leaves a body. -/
def assignsOrLeaves : Expr → Bool
  | .assign .. | .opAssign .. | .break _ | .return _ => true
  | _ => false

/-- A sum or a difference the left operand of which is a number without a suffix. -/
def literalOnTheLeft : Expr → Bool
  | .bin op (.lit (.int _ "")) _ => op = .add || op = .sub
  | _ => false

/-- `_.chars().next()` -/
def takesFirstChar : Expr → Bool
  | .method (.method _ "chars" []) "next" [] => true
  | _ => false

/-- `_.try_into().map_err(_)` -/
def convertsOrFails : Expr → Bool
  | .method (.method _ "try_into" []) "map_err" [_] => true
  | _ => false

/-! ## Programs -/

/-- The bodies of the functions and the values of the constants. -/
def bodies (P : Program) : List Expr := P.fns.map (·.fn.body) ++ P.consts.map (·.2.2)

/-- How many `&mut` parameters a function has. -/
def mutParams (f : FnDef) : Nat := (f.params.filter fun (_, t) => match t with | .ref m _ => m | _ => false).length

/-- Names of functions that write to an argument: those of the program, and those of `core` the semantics covers. -/
def writers (P : Program) : List String := "next" :: "fmt" :: "hash" :: (P.fns.filter fun f => 0 < mutParams f.fn).map (·.fn.name)

/-- No reference that can be written through has another name, is stored or is returned. -/
structure NoAliases (P : Program) : Prop where
  /-- a function has at most one `&mut` parameter -/
  params : ∀ f ∈ P.fns, mutParams f.fn ≤ 1
  /-- `&mut` is nowhere else in the type of a parameter, and not in the type of the result -/
  only : ∀ f ∈ P.fns, ((f.fn.params.map fun (_, t) => muts t).sum + muts f.fn.ret) = mutParams f.fn
  /-- nor in the type of a field -/
  fields : ∀ t ∈ P.types, ∀ u ∈ fieldTys t.2, muts u = 0
  /-- and there is no `&mut e` -/
  exprs : ∀ b ∈ bodies P, ∀ e ∈ within b, borrowsMut e = false

/-- The body of a closure does not assign to a variable, does not leave the function, and calls nothing that writes to an argument. -/
def PureBody (P : Program) (c : Expr) : Prop :=
  ∀ d ∈ within c, assignsOrLeaves d = false ∧ ∀ x ∈ (callee d).toList, x ∉ writers P

/-- Closures only look at the variables they see. -/
def PureClosures (P : Program) : Prop :=
  ∀ b ∈ bodies P, ∀ e ∈ within b, ∀ c ∈ (closureBody e).toList, PureBody P c

/-- Every iterator over characters is asked for the first one, where it is made. -/
def FirstChars (P : Program) : Prop :=
  ∀ b ∈ bodies P, (within b).countP (callsMethod "chars") = (within b).countP takesFirstChar

/-- `unwrap_or_default` is the result of the function it is in, and `try_into` up to the type of the error. -/
def ResultTypes (P : Program) : Prop :=
  ∀ b ∈ bodies P, (within b).countP (callsMethod "unwrap_or_default") = (results b).countP (callsMethod "unwrap_or_default") ∧
    (within b).countP (callsMethod "try_into") = (results b).countP convertsOrFails

/-- No name is given twice, or to something of `core`. -/
structure Names (P : Program) : Prop where
  types : (P.types.map (·.1) ++ P.aliases.map fun a => [a.1]).Nodup
  core : ∀ x ∈ ["Option", "Result", "Ordering", "Some", "None", "Ok", "Err", "str", "u8", "u32", "usize", "char", "bool", "Self"],
    ([x] ∉ P.types.map (·.1)) ∧ x ∉ P.aliases.map (·.1)
  consts : (P.consts.map fun (o, x, _) => (o, x)).Nodup
  /-- functions of one name and one type are told apart by their arguments, except `fmt` of two traits -/
  fns : P.fns.Pairwise fun f g => f.owner = g.owner → f.fn.name = g.fn.name →
    (f.fn.name = "fmt" ∧ f.trait ≠ g.trait) ∨ ∀ vs, ¬ (admitsAll f.owner vs f.fn.params = true ∧ admitsAll g.owner vs g.fn.params = true)
  /-- no constant and function of one name and one type -/
  members : ∀ c ∈ P.consts, ∀ f ∈ P.fns, ¬ (f.owner = c.1 ∧ f.fn.name = c.2.1)
  /-- what a pattern could bind is not the name of a constant -/
  patterns : ∀ b ∈ bodies P, ∀ e ∈ within b, ∀ x ∈ bound e, x ∉ P.consts.map (·.2.1)

/-- The program is one for which the shortcuts of the semantics are exact. -/
structure Plain (P : Program) : Prop where
  noAliases : NoAliases P
  closures : PureClosures P
  firstChars : FirstChars P
  resultTypes : ResultTypes P
  /-- a number without a suffix takes the type of the operand before it -/
  literals : ∀ b ∈ bodies P, ∀ e ∈ within b, literalOnTheLeft e = false
  names : Names P

end Langtag.Spec.Plain
