import Verif.Source.Semantics

/-!
# The meaning of the subset of Rust, with a memory

`Verif/Source/Semantics.lean` copies `&mut` arguments in and out and lets a closure keep a copy of the variables it sees.  Here is the meaning of
the same syntax without these shortcuts.  A variable is a cell of a memory.  A `&mut` parameter is the cell of the argument.  A closure keeps the
cells of the variables it sees and reads them when it is called.

Everything that is not about variables is shared with `Verif/Source/Semantics.lean`: what names stand for, patterns, operators, `core`.
-/

set_option autoImplicit false

namespace Langtag.Spec.Store
open Langtag.Source

/-- The cells of the variables in scope, innermost first. -/
abbrev Scope := List (String × Nat)

/-! ## Memory

The state of `M` is the memory: the values in the cells, each with the name of the variable the cell was made for. -/

/-- What is in a cell. -/
def read (l : Nat) : M Val := fun S =>
  match S[l]? with
  | some (_, v) => some (.ok v S)
  | none => some (.ctl .stuck S)

/-- Puts a value in a cell. -/
def write (l : Nat) (v : Val) : M Unit := fun S =>
  match S[l]? with
  | some (x, _) => some (.ok () (S.set l (x, v)))
  | none => some (.ctl .stuck S)

/-- The variables, in cells from the `n`-th on. -/
def cells (n : Nat) : Env → Scope
  | [] => []
  | (x, _) :: new => (x, n) :: cells (n + 1) new

/-- New cells for variables. -/
def alloc (new : Env) : M Scope := fun S => some (.ok (cells S.length new) (S ++ new))

/-- Where the value of an expression is. -/
inductive Where
  /-- in a cell -/
  | at (l : Nat)
  /-- in a part of a cell -/
  | part
  /-- nowhere: it is temporary -/
  | temp

/-- Where the value of an expression is. -/
def whereIs (ρ : Scope) : Expr → Where
  | .path [x] =>
    match ρ.lookup x with
    | some l => .at l
    | none => .temp
  | .ref true e => whereIs ρ e
  | .deref e => whereIs ρ e
  | .field _ _ => .part
  | .index _ _ => .part
  | _ => .temp

/-- What is at a place: a variable, or a field of a place. -/
def readPlace (ρ : Scope) : Expr → M Val
  | .path [x] =>
    match ρ.lookup x with
    | some l => read l
    | none => M.stuck
  | .field e f => do fieldVal (← readPlace ρ e) f
  | _ => M.stuck

/-- Puts a value at a place. -/
def assignPlace (ρ : Scope) : Expr → Val → M Unit
  | .path [x], v =>
    match ρ.lookup x with
    | some l => write l v
    | none => pure ()
  | .field e f, v => do
    match ← readPlace ρ e with
    | .struct ty fs => assignPlace ρ e (.struct ty (setField f v fs))
    | _ => M.stuck
  | _, _ => M.stuck

/-- The parameters of a call.  A `&mut` parameter is the cell the argument is in; a parameter of another type, or the argument of which is
temporary, is a new variable.  (A `&mut` to a part of a cell is not covered.) -/
def bindParams : List (String × Ty) → List Val → List Where → M Scope
  | (x, .ref true _) :: ps, _ :: vs, .at l :: ls => do return (x, l) :: (← bindParams ps vs ls)
  | (_, .ref true _) :: _, _ :: _, .part :: _ => M.stuck
  | (x, _) :: ps, v :: vs, _ :: ls => do return (← alloc [(x, v)]) ++ (← bindParams ps vs ls)
  | _, _, _ => pure []

/-- What a function of `core` writes to its `&mut` arguments. -/
def writeAll : List Where → List (Option Val) → M Unit
  | l :: ls, w :: ws => do
    match l, w with
    | .at l, some v => write l v
    | .part, some _ => M.stuck
    | _, _ => pure ()
    writeAll ls ws
  | _, _ => pure ()

/-- The end of a call. -/
def endCall : Res Val → Res Val
  | .ok v S => .ok v S
  | .ctl (.ret v) S => .ok v S
  | .ctl (.panic p) S => .ctl (.panic p) S
  | .ctl _ S => .ctl .stuck S

/-- A call of a body. -/
def called (x : M Val) : M Val := fun S => (x S).bind fun r => some (endCall r)

open Lean.Order in
@[partial_fixpoint_monotone]
theorem monotone_called {γ : Sort _} [PartialOrder γ] (f : γ → M Val) (h : monotone f) : monotone fun x => called (f x) := by
  intro x y hxy S
  exact MonoBind.bind_mono_left (m := Option) (h x y hxy _)

/-- What a closure keeps: the cells of the variables it sees. -/
def keep (ρ : Scope) : Env := ρ.map fun (x, l) => (x, .usize l)

/-- The cells a closure kept. -/
def kept (σ : Env) : Scope := σ.map fun (x, v) => (x, (natOf v).getD 0)

/-! ## Expressions -/

mutual

/-- The value of an expression. -/
def eval (P : Program) (C : Ctx) (ρ : Scope) (e : Expr) : M Val :=
  match e with
  | .lit l =>
    match litVal l with
    | some v => pure v
    | none => M.stuck
  | .path segs => evalPath P C ρ segs
  | .call f args =>
    match f with
    | .path segs => do
      let vs ← evalList P C ρ args
      match segs, ρ.lookup (segs.getLast?.getD "") with
      | [_], some l => do
        let g ← read l
        applyVal P C g vs
      | _, _ =>
        match ctorOf P C segs with
        | some (ty, x) => pure (.ctor ty x vs)
        | none => callPath P C (memberOf P C segs).1 (memberOf P C segs).2 vs (args.map (whereIs ρ))
    | _ => M.stuck
  | .method recv m args => do
    let v ← eval P C ρ recv
    let vs ← evalList P C ρ args
    callMethod P C v m vs ((recv :: args).map (whereIs ρ))
  | .field e f => do fieldVal (← eval P C ρ e) f
  | .index e i => do
    let v ← eval P C ρ e
    let n ← eval P C ρ i
    indexVal v n
  | .range lo hi => do
    let a ← eval P C ρ lo
    let b ← eval P C ρ hi
    match a, b with
    | .usize a, .usize b => pure (.range a b)
    | _, _ => M.stuck
  | .rangeFrom lo => do
    match ← eval P C ρ lo with
    | .usize a => pure (.rangeFrom a)
    | _ => M.stuck
  | .rangeTo hi => do
    match ← eval P C ρ hi with
    | .usize b => pure (.rangeTo b)
    | _ => M.stuck
  | .ref _ e => eval P C ρ e
  | .deref e => eval P C ρ e
  | .not e => do
    match ← eval P C ρ e with
    | .bool b => pure (.bool (!b))
    | _ => M.stuck
  | .bin op a b =>
    match op with
    | .and => do
      match ← eval P C ρ a with
      | .bool true => eval P C ρ b
      | .bool false => pure (.bool false)
      | _ => M.stuck
    | .or => do
      match ← eval P C ρ a with
      | .bool true => pure (.bool true)
      | .bool false => eval P C ρ b
      | _ => M.stuck
    | op => do
      let x ← eval P C ρ a
      let y ← eval P C ρ b
      binVal P op x y
  | .cast e t => do castVal (← eval P C ρ e) t
  | .ite c t e => do
    match ← eval P C ρ c with
    | .bool true => eval P C ρ t
    | .bool false => eval P C ρ e
    | _ => M.stuck
  | .match e arms => do
    let v ← eval P C ρ e
    evalArms P C ρ v arms
  | .loop body => evalLoop P C ρ body
  | .while c body => evalWhile P C ρ c body
  | .for x e body => do
    match iterate (← eval P C ρ e) with
    | some vs => evalFor P C ρ x vs body
    | none => M.stuck
  | .break e => do M.throw (.brk (← eval P C ρ e))
  | .return e => do M.throw (.ret (← eval P C ρ e))
  | .block stmts last => evalBlock P C ρ stmts last
  | .closure params body => pure (.closure params body (keep ρ) C)
  | .struct segs fields => do
    let fs ← evalFields P C ρ fields
    pure (.struct (typePath P C segs) fs)
  | .assign p e => do
    let v ← eval P C ρ e
    assignPlace ρ p v
    pure .unit
  | .opAssign op p e => do
    let v ← eval P C ρ e
    let w ← readPlace ρ p
    let r ← binVal P op w v
    assignPlace ρ p r
    pure .unit
  | .tuple es => do return .tuple (← evalList P C ρ es)
  | .array es => do return .array (← evalList P C ρ es)
  | .matches e p => do return .bool (matchPat P C p (← eval P C ρ e)).isSome
  | .panic => M.throw (.panic .explicit)
partial_fixpoint

/-- The value of a path: a variable, a constructor without arguments, a constant, or a function. -/
def evalPath (P : Program) (C : Ctx) (ρ : Scope) (segs : List String) : M Val :=
  match segs, ρ.lookup (segs.getLast?.getD "") with
  | [_], some l => read l
  | _, _ =>
    match ctorOf P C segs with
    | some (ty, x) => pure (.ctor ty x [])
    | none =>
      if segs = ["u8", "MAX"] then pure (.u8 255)
      else
        match P.consts.find? fun (o, x, _) => o = (memberOf P C segs).1 && x = (memberOf P C segs).2 with
        | some (o, _, e) => called (eval P ⟨o, "", .tuple []⟩ [] e)
        | none => pure (.fn (memberOf P C segs).1 (memberOf P C segs).2)
partial_fixpoint

/-- The values of expressions, from left to right. -/
def evalList (P : Program) (C : Ctx) (ρ : Scope) (es : List Expr) : M (List Val) :=
  match es with
  | [] => pure []
  | e :: es => do
    let v ← eval P C ρ e
    let vs ← evalList P C ρ es
    pure (v :: vs)
partial_fixpoint

/-- The values of fields, in the order they are written. -/
def evalFields (P : Program) (C : Ctx) (ρ : Scope) (fs : List Field) : M (List (String × Val)) :=
  match fs with
  | [] => pure []
  | .mk f e :: fs => do
    let v ← eval P C ρ e
    let vs ← evalFields P C ρ fs
    pure ((f, v) :: vs)
partial_fixpoint

/-- The first arm that matches. -/
def evalArms (P : Program) (C : Ctx) (ρ : Scope) (v : Val) (arms : List Arm) : M Val :=
  match arms with
  | [] => M.stuck
  | .mk p e :: arms =>
    match matchPat P C p v with
    | some new => do
      let ρ' ← alloc new
      eval P C (ρ' ++ ρ) e
    | none => evalArms P C ρ v arms
partial_fixpoint

/-- Statements and the last expression of a block. -/
def evalBlock (P : Program) (C : Ctx) (ρ : Scope) (stmts : List Stmt) (last : Expr) : M Val :=
  match stmts with
  | [] => eval P C ρ last
  | .expr e :: stmts => do
    let _ ← eval P C ρ e
    evalBlock P C ρ stmts last
  | .let p e :: stmts => do
    let v ← eval P C ρ e
    match matchPat P C p v with
    | some new => do
      let ρ' ← alloc new
      evalBlock P C (ρ' ++ ρ) stmts last
    | none => M.stuck
partial_fixpoint

/-- `loop` -/
def evalLoop (P : Program) (C : Ctx) (ρ : Scope) (body : Expr) : M Val :=
  afterBody (evalLoop P C ρ body) (eval P C ρ body)
partial_fixpoint

/-- `while` -/
def evalWhile (P : Program) (C : Ctx) (ρ : Scope) (c body : Expr) : M Val := do
  match ← eval P C ρ c with
  | .bool true => afterBody (evalWhile P C ρ c body) (eval P C ρ body)
  | .bool false => pure .unit
  | _ => M.stuck
partial_fixpoint

/-- `for` -/
def evalFor (P : Program) (C : Ctx) (ρ : Scope) (x : String) (vs : List Val) (body : Expr) : M Val :=
  match vs with
  | [] => pure .unit
  | v :: vs => afterBody (evalFor P C ρ x vs body) (do
    let ρ' ← alloc [(x, v)]
    eval P C (ρ' ++ ρ) body)
partial_fixpoint

/-- A call of a function of the program: the values of the arguments, and where they are. -/
def callFn (P : Program) (f : Fn) (vs : List Val) (ls : List Where) : M Val :=
  called (do
    let ρ ← bindParams f.fn.params vs ls
    eval P ⟨f.owner, f.trait, f.fn.ret⟩ ρ f.fn.body)
partial_fixpoint

/-- A call of a function by its name. -/
def callPath (P : Program) (C : Ctx) (owner : List String) (name : String) (vs : List Val) (ls : List Where) : M Val :=
  match P.lookup owner name vs with
  | some f => callFn P f vs ls
  | none =>
    match newOf P owner name vs with
    | some (a, s) => do
      match ← callPath P C a "validate_str" [.str s] [.temp] with
      | .bool true => pure (.ok (newtype owner s))
      | .bool false => pure (.err (.str s))
      | _ => M.stuck
    | none => corePath P owner name vs
partial_fixpoint

/-- A call of a value, with temporary arguments. -/
def applyVal (P : Program) (C : Ctx) (f : Val) (vs : List Val) : M Val :=
  match f with
  | .closure params body env ctx =>
    match matchPats P ctx params vs with
    | some new => called (do
      let ρ ← alloc new
      eval P ctx (ρ ++ kept env) body)
    | none => M.stuck
  | .fn owner name => callPath P C owner name vs (vs.map fun _ => .temp)
  | _ => M.stuck
partial_fixpoint

/-- A call of a method: the values of the receiver and of the arguments, and where they are. -/
def callMethod (P : Program) (C : Ctx) (v : Val) (m : String) (vs : List Val) (ls : List Where) : M Val :=
  match methodOf P v m vs with
  | some f => callFn P f (v :: vs) ls
  | none =>
    match higherOrder v m, vs with
    | some (.inl r), [_] => pure r
    | some (.inr (w, k)), [f] => do
      let r ← applyVal P C f [w]
      pure (k r)
    | _, _ =>
      match v, m, vs with
      | .char c, "try_into", [] => callPath P C (okType P C) "try_from" [.char c] [.temp]
      | v, m, vs => do
        let (r, ws) ← coreMethod P C v m vs
        writeAll ls ws
        pure r
partial_fixpoint

end

end Langtag.Spec.Store

namespace Langtag.Source.Store

/-- Values with no closure in them. -/
inductive FO : Val → Prop
  | bool (b : Bool) : FO (.bool b)
  | u8 (n : UInt8) : FO (.u8 n)
  | u32 (n : Nat) : FO (.u32 n)
  | usize (n : Nat) : FO (.usize n)
  | char (c : Char) : FO (.char c)
  | str (s : List UInt8) : FO (.str s)
  | bytes (s : List UInt8) : FO (.bytes s)
  | tuple {vs : List Val} (h : ∀ v ∈ vs, FO v) : FO (.tuple vs)
  | ctor {ty : List String} {x : String} {vs : List Val} (h : ∀ v ∈ vs, FO v) : FO (.ctor ty x vs)
  | struct {ty : List String} {fs : List (String × Val)} (h : ∀ e ∈ fs, FO e.2) : FO (.struct ty fs)
  | range (a b : Nat) : FO (.range a b)
  | rangeFrom (a : Nat) : FO (.rangeFrom a)
  | rangeTo (b : Nat) : FO (.rangeTo b)
  | array {vs : List Val} (h : ∀ v ∈ vs, FO v) : FO (.array vs)
  | fn (o : List String) (f : String) : FO (.fn o f)
  | chars (s : List UInt8) : FO (.chars s)
  | hasher (w : List UInt8) : FO (.hasher w)
  | formatter (f : Langtag.Model.Formatter) (o : List Char) : FO (.formatter f o)

end Langtag.Source.Store
