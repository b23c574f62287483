import Verif.Source.Semantics

/-!
# The same semantics, with calls nested to a depth only

The evaluator of `Verif/Source/Semantics.lean` once more, with a depth `δ`: a call of a function of the program or of a closure is executed at the
depth below, and at depth `0` there is no result.  So what has a result at depth `δ` has never more than `δ` calls under way at the same time.
`Verif/Source/Deep/Sound.lean` shows that the results are the same.

Not counted: the functions of `core`, and those the derive macros write, which call at most one function of the program or closure each.
-/

set_option autoImplicit false

namespace Langtag.Source.Deep
open Langtag.Model (Panic Rust)

/-- A call below the last depth: no result. -/
def tooDeep {α : Type} : M α := fun _ => none

mutual

/-- The value of an expression. -/
def eval (δ : Nat) (P : Program) (C : Ctx) (e : Expr) : M Val :=
  match e with
  | .lit l =>
    match litVal l with
    | some v => pure v
    | none => M.stuck
  | .path segs => evalPath δ P C segs
  | .call f args =>
    match f with
    | .path segs => do
      let vs ← evalList δ P C args
      let σ ← M.env
      match segs, σ.lookup (segs.getLast?.getD "") with
      | [_], some g => applyVal δ P C g vs
      | _, _ =>
        match ctorOf P C segs with
        | some (ty, x) => pure (.ctor ty x vs)
        | none => do
          let (v, ws) ← callPath δ P C (memberOf P C segs).1 (memberOf P C segs).2 vs
          writeBack args ws
          pure v
    | _ => M.stuck
  | .method recv m args => do
    let v ← eval δ P C recv
    let vs ← evalList δ P C args
    let (r, ws) ← callMethod δ P C v m vs
    writeBack (recv :: args) ws
    pure r
  | .field e f => do fieldVal (← eval δ P C e) f
  | .index e i => do
    let v ← eval δ P C e
    let n ← eval δ P C i
    indexVal v n
  | .range lo hi => do
    let a ← eval δ P C lo
    let b ← eval δ P C hi
    match a, b with
    | .usize a, .usize b => pure (.range a b)
    | _, _ => M.stuck
  | .rangeFrom lo => do
    match ← eval δ P C lo with
    | .usize a => pure (.rangeFrom a)
    | _ => M.stuck
  | .rangeTo hi => do
    match ← eval δ P C hi with
    | .usize b => pure (.rangeTo b)
    | _ => M.stuck
  | .ref _ e => eval δ P C e
  | .deref e => eval δ P C e
  | .not e => do
    match ← eval δ P C e with
    | .bool b => pure (.bool (!b))
    | _ => M.stuck
  | .bin op a b =>
    match op with
    | .and => do
      match ← eval δ P C a with
      | .bool true => eval δ P C b
      | .bool false => pure (.bool false)
      | _ => M.stuck
    | .or => do
      match ← eval δ P C a with
      | .bool true => pure (.bool true)
      | .bool false => eval δ P C b
      | _ => M.stuck
    | op => do
      let x ← eval δ P C a
      let y ← eval δ P C b
      binVal P op x y
  | .cast e t => do castVal (← eval δ P C e) t
  | .ite c t e => do
    match ← eval δ P C c with
    | .bool true => eval δ P C t
    | .bool false => eval δ P C e
    | _ => M.stuck
  | .match e arms => do
    let v ← eval δ P C e
    evalArms δ P C v arms
  | .loop body => evalLoop δ P C body
  | .while c body => evalWhile δ P C c body
  | .for x e body => do
    match iterate (← eval δ P C e) with
    | some vs => evalFor δ P C x vs body
    | none => M.stuck
  | .break e => do M.throw (.brk (← eval δ P C e))
  | .return e => do M.throw (.ret (← eval δ P C e))
  | .block stmts last => inScope [] (evalBlock δ P C stmts last)
  | .closure params body => do
    let σ ← M.env
    pure (.closure params body σ C)
  | .struct segs fields => do
    let fs ← evalFields δ P C fields
    pure (.struct (typePath P C segs) fs)
  | .assign p e => do
    let v ← eval δ P C e
    assignPlace p v
    pure .unit
  | .opAssign op p e => do
    let v ← eval δ P C e
    let w ← readPlace p
    let r ← binVal P op w v
    assignPlace p r
    pure .unit
  | .tuple es => do return .tuple (← evalList δ P C es)
  | .array es => do return .array (← evalList δ P C es)
  | .matches e p => do return .bool (matchPat P C p (← eval δ P C e)).isSome
  | .panic => M.throw (.panic .explicit)
partial_fixpoint

/-- The value of a path: a variable, a constructor without arguments, a constant, or a function. -/
def evalPath (δ : Nat) (P : Program) (C : Ctx) (segs : List String) : M Val := do
  let σ ← M.env
  match segs, σ.lookup (segs.getLast?.getD "") with
  | [_], some v => pure v
  | _, _ =>
    match ctorOf P C segs with
    | some (ty, x) => pure (.ctor ty x [])
    | none =>
      if segs = ["u8", "MAX"] then pure (.u8 255)
      else
        match P.consts.find? fun (o, x, _) => o = (memberOf P C segs).1 && x = (memberOf P C segs).2 with
        | some (o, _, e) => calledIn [] (eval δ P ⟨o, "", .tuple []⟩ e)
        | none => pure (.fn (memberOf P C segs).1 (memberOf P C segs).2)
partial_fixpoint

/-- The values of expressions, from left to right. -/
def evalList (δ : Nat) (P : Program) (C : Ctx) (es : List Expr) : M (List Val) :=
  match es with
  | [] => pure []
  | e :: es => do
    let v ← eval δ P C e
    let vs ← evalList δ P C es
    pure (v :: vs)
partial_fixpoint

/-- The values of fields, in the order they are written. -/
def evalFields (δ : Nat) (P : Program) (C : Ctx) (fs : List Field) : M (List (String × Val)) :=
  match fs with
  | [] => pure []
  | .mk f e :: fs => do
    let v ← eval δ P C e
    let vs ← evalFields δ P C fs
    pure ((f, v) :: vs)
partial_fixpoint

/-- The first arm that matches. -/
def evalArms (δ : Nat) (P : Program) (C : Ctx) (v : Val) (arms : List Arm) : M Val :=
  match arms with
  | [] => M.stuck
  | .mk p e :: arms =>
    match matchPat P C p v with
    | some new => inScope new (eval δ P C e)
    | none => evalArms δ P C v arms
partial_fixpoint

/-- Statements and the last expression of a block. -/
def evalBlock (δ : Nat) (P : Program) (C : Ctx) (stmts : List Stmt) (last : Expr) : M Val :=
  match stmts with
  | [] => eval δ P C last
  | .expr e :: stmts => do
    let _ ← eval δ P C e
    evalBlock δ P C stmts last
  | .let p e :: stmts => do
    let v ← eval δ P C e
    match matchPat P C p v with
    | some new =>
      let σ ← M.env
      M.setEnv (new ++ σ)
      evalBlock δ P C stmts last
    | none => M.stuck
partial_fixpoint

/-- `loop` -/
def evalLoop (δ : Nat) (P : Program) (C : Ctx) (body : Expr) : M Val :=
  afterBody (evalLoop δ P C body) (eval δ P C body)
partial_fixpoint

/-- `while` -/
def evalWhile (δ : Nat) (P : Program) (C : Ctx) (c body : Expr) : M Val := do
  match ← eval δ P C c with
  | .bool true => afterBody (evalWhile δ P C c body) (eval δ P C body)
  | .bool false => pure .unit
  | _ => M.stuck
partial_fixpoint

/-- `for` -/
def evalFor (δ : Nat) (P : Program) (C : Ctx) (x : String) (vs : List Val) (body : Expr) : M Val :=
  match vs with
  | [] => pure .unit
  | v :: vs => afterBody (evalFor δ P C x vs body) (inScope [(x, v)] (eval δ P C body))
partial_fixpoint

/-- A call of a function of the program. -/
def callFn (δ : Nat) (P : Program) (f : Fn) (vs : List Val) : M (Val × List (Option Val)) :=
  match δ with
  | 0 => tooDeep
  | δ + 1 => called f.fn.params vs (eval δ P ⟨f.owner, f.trait, f.fn.ret⟩ f.fn.body)
partial_fixpoint

/-- A call of a function by its name. -/
def callPath (δ : Nat) (P : Program) (C : Ctx) (owner : List String) (name : String) (vs : List Val) : M (Val × List (Option Val)) :=
  match P.lookup owner name vs with
  | some f => callFn δ P f vs
  | none =>
    match newOf P owner name vs with
    | some (a, s) => do
      let (r, _) ← callPath δ P C a "validate_str" [.str s]
      match r with
      | .bool true => pure (.ok (newtype owner s), [])
      | .bool false => pure (.err (.str s), [])
      | _ => M.stuck
    | none => do return (← corePath P owner name vs, [])
partial_fixpoint

/-- A call of a value. -/
def applyVal (δ : Nat) (P : Program) (C : Ctx) (f : Val) (vs : List Val) : M Val :=
  match f with
  | .closure params body env ctx =>
    match matchPats P ctx params vs with
    | some new =>
      match δ with
      | 0 => tooDeep
      | δ + 1 => calledIn (new ++ env) (eval δ P ctx body)
    | none => M.stuck
  | .fn owner name => do
    let (r, _) ← callPath δ P C owner name vs
    pure r
  | _ => M.stuck
partial_fixpoint

/-- A call of a method: the result and the values of the `&mut` arguments afterwards, the receiver first. -/
def callMethod (δ : Nat) (P : Program) (C : Ctx) (v : Val) (m : String) (vs : List Val) : M (Val × List (Option Val)) :=
  match methodOf P v m vs with
  | some f => callFn δ P f (v :: vs)
  | none =>
    match higherOrder v m, vs with
    | some (.inl r), [_] => pure (r, [])
    | some (.inr (w, k)), [f] => do
      let r ← applyVal δ P C f [w]
      pure (k r, [])
    | _, _ =>
      match v, m, vs with
      | .char c, "try_into", [] => callPath δ P C (okType P C) "try_from" [.char c]
      | v, m, vs => coreMethod P C v m vs
partial_fixpoint

end

end Langtag.Source.Deep
