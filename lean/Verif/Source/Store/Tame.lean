import Verif.Spec.Store
import Verif.Spec.Plain

/-!
# Programs for which copying is as good as a memory

Conditions on a program, checked by going through its expressions.
-/

set_option autoImplicit false

namespace Langtag.Source.Store
open Langtag.Spec.Store (Scope)
open Langtag.Spec.Plain (patNames patNamesAll)

/-- An argument that is a variable or temporary. -/
def simple : Expr → Bool
  | .ref .. | .deref _ | .field .. | .index .. => false
  | _ => true

/-- Methods of `core` that call their argument. -/
def higher : List String := ["map", "and_then", "map_err"]

/-- Names: of the functions that write to an argument, of those that take a closure, and the paths under which these are called. -/
structure Cfg where
  W : List String
  T : List String
  Q : List (List String)

variable (c : Cfg)

mutual
/-- In a function whose closures are the parameters `K`: the expression makes closures only as last arguments of functions that take one, does nothing
with a closure but call it, and passes places to functions that write only as variables and beside arguments that write nothing.  Without `w` it does
not write to any variable. -/
def okE (w : Bool) (K : List String) : Expr → Bool
  | .lit _ | .panic => true
  | .path segs =>
    match segs with
    | [x] => !K.contains x
    | _ => true
  | .call f args =>
    match f with
    | .path segs =>
      if c.W.contains (segs.getLast?.getD "") then w && args.all simple && okArgs false false K args
      else okArgs (c.Q.contains segs) w K args
    | _ => true
  | .method r m args =>
    if c.W.contains m then w && simple r && args.all simple && okE false K r && okArgs false false K args
    else okE w K r && okArgs (higher.contains m) w K args
  | .field e _ | .not e | .cast e _ | .break e | .return e | .rangeFrom e | .rangeTo e | .ref _ e | .deref e | .matches e _ | .loop e => okE w K e
  | .index a b | .range a b | .bin _ a b | .while a b => okE w K a && okE w K b
  | .for x a b => !c.T.contains x && okE w K a && okE w K b
  | .ite a b d => okE w K a && okE w K b && okE w K d
  | .match e arms => okE w K e && okArms w K arms
  | .block ss l => okStmts w K ss && okE w K l
  | .closure .. => false
  | .struct _ fs => okFields w K fs
  | .assign p e => w && okE w K p && okE w K e
  | .opAssign _ p e => w && okE w K p && okE w K e
  | .tuple es => okArgs false w K es
  | .array es => okArgs false w K es
/-- Arguments; with `cl`, the last one may be a closure. -/
def okArgs (cl w : Bool) (K : List String) : List Expr → Bool
  | [] => true
  | e :: es =>
    (match e with
    | .closure ps b => cl && es.isEmpty && K.isEmpty && (patNamesAll ps).all (fun x => !c.T.contains x) && okE false [] b
    | e => okE w K e) && okArgs cl w K es
/-- Arms of a `match`. -/
def okArms (w : Bool) (K : List String) : List Arm → Bool
  | [] => true
  | .mk p e :: as => (patNames p).all (fun x => !c.T.contains x) && okE w K e && okArms w K as
/-- Fields. -/
def okFields (w : Bool) (K : List String) : List Field → Bool
  | [] => true
  | .mk _ e :: fs => okE w K e && okFields w K fs
/-- Statements. -/
def okStmts (w : Bool) (K : List String) : List Stmt → Bool
  | [] => true
  | .let p e :: ss => (patNames p).all (fun x => !c.T.contains x) && okE w K e && okStmts w K ss
  | .expr e :: ss => okE w K e && okStmts w K ss
end

/-- The parameters that are closures. -/
def closureParams (f : FnDef) : List String := f.params.filterMap fun (x, t) => match t with | .fnMut .. => some x | _ => none

/-- A `&mut` parameter. -/
def isMut : String × Ty → Bool
  | (_, .ref true _) => true
  | _ => false

/-- The last parameter is a closure. -/
def takesClosure (f : FnDef) : Bool :=
  match f.params.getLast? with
  | some (_, .fnMut ..) => true
  | _ => false

/-- Conditions on a function. -/
structure OkFn (f : FnDef) : Prop where
  names : (f.params.map (·.1)).Nodup
  free : ∀ p ∈ f.params, p.1 ∉ c.T
  one : f.params.countP isMut ≤ 1
  writer : 0 < f.params.countP isMut → f.name ∈ c.W
  closures : closureParams f ≠ [] → f.params.countP isMut = 0
  taker : f.name ∈ c.T → takesClosure f = true
  body : okE c true (closureParams f) f.body = true

/-- Conditions on a program. -/
structure Tame (P : Program) : Prop where
  fns : ∀ f ∈ P.fns, OkFn c f.fn
  consts : ∀ d ∈ P.consts, okE c false [] d.2.2 = true
  tryFrom : "try_from" ∉ c.W
  core : "fmt" ∈ c.W ∧ "hash" ∈ c.W
  higher : ∀ f ∈ P.fns, f.fn.name ∉ higher
  takers : ∀ s ∈ c.Q, s.getLast?.getD "" ∈ c.T ∧ ∀ C, ctorOf P C s = none

end Langtag.Source.Store
