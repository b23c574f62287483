import Verif.Source.Semantics

/-!
# The same semantics, counting

The evaluator of `Verif/Source/Semantics.lean` once more, with a counter: one for each time the body of a `loop`, `while` or `for` is executed, and one
for each byte `str::split_once` looks at.  `Verif/Source/Counted/Erase.lean` shows that the results are the same.
-/

set_option autoImplicit false

namespace Langtag.Source.Counted
open Langtag.Model (Panic Rust)

/-- How a computation ends, and what was counted; `none` if it does not end. -/
abbrev Out (α : Type) := Option (Res α × Nat)

/-- An end, with nothing counted. -/
def fin {α : Type} (r : Res α) : Out α := some (r, 0)

/-- Adds to what was counted. -/
def addTicks {α : Type} (n : Nat) (o : Out α) : Out α := o.bind fun (r, m) => some (r, n + m)

/-- A computation that reads and writes variables, counts, and may not end. -/
abbrev M (α : Type) := Env → Out α

namespace M

def pure {α : Type} (a : α) : M α := fun σ => fin (.ok a σ)

def bind {α β : Type} (x : M α) (f : α → M β) : M β := fun σ =>
  (x σ).bind fun
    | (.ok a σ, n) => addTicks n (f a σ)
    | (.ctl c σ, n) => some (.ctl c σ, n)

instance : Monad M where
  pure := M.pure
  bind := M.bind

open Lean.Order in
instance (α : Type) : PartialOrder (M α) := inferInstanceAs (PartialOrder (Env → Option (Res α × Nat)))

open Lean.Order in
instance (α : Type) : CCPO (M α) := inferInstanceAs (CCPO (Env → Option (Res α × Nat)))

open Lean.Order in
theorem addTicks_mono {α : Type} (n : Nat) {x y : Out α} (h : x ⊑ y) : addTicks n x ⊑ addTicks n y :=
  MonoBind.bind_mono_left (m := Option) h

open Lean.Order in
instance : MonoBind M where
  bind_mono_left h σ := MonoBind.bind_mono_left (m := Option) (h σ)
  bind_mono_right h σ := MonoBind.bind_mono_right (m := Option) fun r => by
    rcases r with ⟨a | c, n⟩
    · exact addTicks_mono n (h _ _)
    · exact PartialOrder.rel_refl

/-- Not covered. -/
def stuck {α : Type} : M α := fun σ => fin (.ctl .stuck σ)

/-- `return`, `break`, a panic. -/
def throw {α : Type} (c : Ctl) : M α := fun σ => fin (.ctl c σ)

/-- The variables. -/
def env : M Env := fun σ => fin (.ok σ σ)

/-- Replaces the variables. -/
def setEnv (σ : Env) : M Unit := fun _ => fin (.ok () σ)

end M

/-- The end of a computation in which nothing is counted. -/
def freeR {α : Type} (o : Option (Res α)) : Out α := o.bind fin

/-- A computation in which nothing is counted. -/
def free {α : Type} (x : Source.M α) : M α := fun σ => freeR (x σ)

/-- Adds to what is counted. -/
def tick {α : Type} (n : Nat) (x : M α) : M α := fun σ => addTicks n (x σ)

open Lean.Order in
@[partial_fixpoint_monotone]
theorem monotone_tick {γ : Sort _} [PartialOrder γ] {α : Type} (n : Nat) (f : γ → M α) (h : monotone f) :
    monotone fun x => tick n (f x) := by
  intro x y hxy σ
  exact M.addTicks_mono n (h x y hxy σ)

/-- Evaluation in a new scope with some variables. -/
def inScope {α : Type} (new : Env) (x : M α) : M α := fun σ =>
  (x (new ++ σ)).bind fun r => some (closeScope σ.length r.1, r.2)

open Lean.Order in
@[partial_fixpoint_monotone]
theorem monotone_scoped {γ : Sort _} [PartialOrder γ] {α : Type} (new : Env) (f : γ → M α) (h : monotone f) :
    monotone fun x => inScope new (f x) := by
  intro x y hxy σ
  exact MonoBind.bind_mono_left (m := Option) (h x y hxy (new ++ σ))

/-- A call: the body in the variables of the parameters. -/
def called (params : List (String × Ty)) (vs : List Val) (x : M Val) : M (Val × List (Option Val)) := fun σ =>
  (x ((params.map (·.1)).zip vs)).bind fun r => some (closeCall params σ r.1, r.2)

open Lean.Order in
@[partial_fixpoint_monotone]
theorem monotone_called {γ : Sort _} [PartialOrder γ] (params : List (String × Ty)) (vs : List Val) (f : γ → M Val) (h : monotone f) :
    monotone fun x => called params vs (f x) := by
  intro x y hxy σ
  exact MonoBind.bind_mono_left (m := Option) (h x y hxy _)

/-- The end of a call of a closure. -/
def closeClosure (σ : Env) : Res Val → Res Val
  | .ok v _ => .ok v σ
  | .ctl (.ret v) _ => .ok v σ
  | .ctl (.panic p) _ => .ctl (.panic p) σ
  | .ctl _ _ => .ctl .stuck σ

/-- A call of a closure: the body in the variables it saw. -/
def calledIn (new : Env) (x : M Val) : M Val := fun σ =>
  (x new).bind fun r => some (closeClosure σ r.1, r.2)

open Lean.Order in
@[partial_fixpoint_monotone]
theorem monotone_calledIn {γ : Sort _} [PartialOrder γ] (new : Env) (f : γ → M Val) (h : monotone f) :
    monotone fun x => calledIn new (f x) := by
  intro x y hxy σ
  exact MonoBind.bind_mono_left (m := Option) (h x y hxy _)

/-- The body of a loop, which counts, and what follows: `again` at the end of the body. -/
def afterBody (again : M Val) (body : M Val) : M Val := fun σ =>
  (body σ).bind fun
    | (.ok _ σ, n) => addTicks (n + 1) (again σ)
    | (.ctl (.brk v) σ, n) => some (.ok v σ, n + 1)
    | (.ctl c σ, n) => some (.ctl c σ, n + 1)

open Lean.Order in
@[partial_fixpoint_monotone]
theorem monotone_afterBody {γ : Sort _} [PartialOrder γ] (f g : γ → M Val) (hf : monotone f) (hg : monotone g) :
    monotone fun x => afterBody (f x) (g x) := by
  intro x y hxy σ
  apply PartialOrder.rel_trans
  · exact MonoBind.bind_mono_left (m := Option) (hg x y hxy σ)
  · apply MonoBind.bind_mono_right (m := Option)
    intro r
    rcases r with ⟨_ | ⟨c, _⟩, n⟩
    · exact M.addTicks_mono _ (hf x y hxy _)
    · cases c <;> exact PartialOrder.rel_refl

/-- How many bytes `split_once('-')` looks at: those up to the first `-`. -/
def lookedAt : List UInt8 → Nat
  | [] => 0
  | b :: s => if b = 45 then 1 else lookedAt s + 1

/-- What is counted for a method of `core`. -/
def coreCost : Val → String → Nat
  | .str s, "split_once" => lookedAt s
  | _, _ => 0

/-! ## Expressions -/

mutual

/-- The value of an expression. -/
def eval (P : Program) (C : Ctx) (e : Expr) : M Val :=
  match e with
  | .lit l =>
    match litVal l with
    | some v => pure v
    | none => M.stuck
  | .path segs => evalPath P C segs
  | .call f args =>
    match f with
    | .path segs => do
      let vs ← evalList P C args
      let σ ← M.env
      match segs, σ.lookup (segs.getLast?.getD "") with
      | [_], some g => applyVal P C g vs
      | _, _ =>
        match ctorOf P C segs with
        | some (ty, x) => pure (.ctor ty x vs)
        | none => do
          let (v, ws) ← callPath P C (memberOf P C segs).1 (memberOf P C segs).2 vs
          free (writeBack args ws)
          pure v
    | _ => M.stuck
  | .method recv m args => do
    let v ← eval P C recv
    let vs ← evalList P C args
    let (r, ws) ← callMethod P C v m vs
    free (writeBack (recv :: args) ws)
    pure r
  | .field e f => do free (fieldVal (← eval P C e) f)
  | .index e i => do
    let v ← eval P C e
    let n ← eval P C i
    free (indexVal v n)
  | .range lo hi => do
    let a ← eval P C lo
    let b ← eval P C hi
    match a, b with
    | .usize a, .usize b => pure (.range a b)
    | _, _ => M.stuck
  | .rangeFrom lo => do
    match ← eval P C lo with
    | .usize a => pure (.rangeFrom a)
    | _ => M.stuck
  | .rangeTo hi => do
    match ← eval P C hi with
    | .usize b => pure (.rangeTo b)
    | _ => M.stuck
  | .ref _ e => eval P C e
  | .deref e => eval P C e
  | .not e => do
    match ← eval P C e with
    | .bool b => pure (.bool (!b))
    | _ => M.stuck
  | .bin op a b =>
    match op with
    | .and => do
      match ← eval P C a with
      | .bool true => eval P C b
      | .bool false => pure (.bool false)
      | _ => M.stuck
    | .or => do
      match ← eval P C a with
      | .bool true => pure (.bool true)
      | .bool false => eval P C b
      | _ => M.stuck
    | op => do
      let x ← eval P C a
      let y ← eval P C b
      free (binVal P op x y)
  | .cast e t => do free (castVal (← eval P C e) t)
  | .ite c t e => do
    match ← eval P C c with
    | .bool true => eval P C t
    | .bool false => eval P C e
    | _ => M.stuck
  | .match e arms => do
    let v ← eval P C e
    evalArms P C v arms
  | .loop body => evalLoop P C body
  | .while c body => evalWhile P C c body
  | .for x e body => do
    match iterate (← eval P C e) with
    | some vs => evalFor P C x vs body
    | none => M.stuck
  | .break e => do M.throw (.brk (← eval P C e))
  | .return e => do M.throw (.ret (← eval P C e))
  | .block stmts last => inScope [] (evalBlock P C stmts last)
  | .closure params body => do
    let σ ← M.env
    pure (.closure params body σ C)
  | .struct segs fields => do
    let fs ← evalFields P C fields
    pure (.struct (typePath P C segs) fs)
  | .assign p e => do
    let v ← eval P C e
    free (assignPlace p v)
    pure .unit
  | .opAssign op p e => do
    let v ← eval P C e
    let w ← free (readPlace p)
    let r ← free (binVal P op w v)
    free (assignPlace p r)
    pure .unit
  | .tuple es => do return .tuple (← evalList P C es)
  | .array es => do return .array (← evalList P C es)
  | .matches e p => do return .bool (matchPat P C p (← eval P C e)).isSome
  | .panic => M.throw (.panic .explicit)
partial_fixpoint

/-- The value of a path: a variable, a constructor without arguments, a constant, or a function. -/
def evalPath (P : Program) (C : Ctx) (segs : List String) : M Val := do
  let σ ← M.env
  match segs, σ.lookup (segs.getLast?.getD "") with
  | [_], some v => pure v
  | _, _ =>
    match ctorOf P C segs with
    | some (ty, x) => pure (.ctor ty x [])
    | none =>
      if segs = ["u8", "MAX"] then pure (.u8 255)
      else
        match P.consts.find? fun (o, x, _) => o = (memberOf P C segs).1 && x = (memberOf P C segs).2 with
        | some (o, _, e) => calledIn [] (eval P ⟨o, "", .tuple []⟩ e)
        | none => pure (.fn (memberOf P C segs).1 (memberOf P C segs).2)
partial_fixpoint

/-- The values of expressions, from left to right. -/
def evalList (P : Program) (C : Ctx) (es : List Expr) : M (List Val) :=
  match es with
  | [] => pure []
  | e :: es => do
    let v ← eval P C e
    let vs ← evalList P C es
    pure (v :: vs)
partial_fixpoint

/-- The values of fields, in the order they are written. -/
def evalFields (P : Program) (C : Ctx) (fs : List Field) : M (List (String × Val)) :=
  match fs with
  | [] => pure []
  | .mk f e :: fs => do
    let v ← eval P C e
    let vs ← evalFields P C fs
    pure ((f, v) :: vs)
partial_fixpoint

/-- The first arm that matches. -/
def evalArms (P : Program) (C : Ctx) (v : Val) (arms : List Arm) : M Val :=
  match arms with
  | [] => M.stuck
  | .mk p e :: arms =>
    match matchPat P C p v with
    | some new => inScope new (eval P C e)
    | none => evalArms P C v arms
partial_fixpoint

/-- Statements and the last expression of a block. -/
def evalBlock (P : Program) (C : Ctx) (stmts : List Stmt) (last : Expr) : M Val :=
  match stmts with
  | [] => eval P C last
  | .expr e :: stmts => do
    let _ ← eval P C e
    evalBlock P C stmts last
  | .let p e :: stmts => do
    let v ← eval P C e
    match matchPat P C p v with
    | some new =>
      let σ ← M.env
      M.setEnv (new ++ σ)
      evalBlock P C stmts last
    | none => M.stuck
partial_fixpoint

/-- `loop` -/
def evalLoop (P : Program) (C : Ctx) (body : Expr) : M Val :=
  afterBody (evalLoop P C body) (eval P C body)
partial_fixpoint

/-- `while` -/
def evalWhile (P : Program) (C : Ctx) (c body : Expr) : M Val := do
  match ← eval P C c with
  | .bool true => afterBody (evalWhile P C c body) (eval P C body)
  | .bool false => pure .unit
  | _ => M.stuck
partial_fixpoint

/-- `for` -/
def evalFor (P : Program) (C : Ctx) (x : String) (vs : List Val) (body : Expr) : M Val :=
  match vs with
  | [] => pure .unit
  | v :: vs => afterBody (evalFor P C x vs body) (inScope [(x, v)] (eval P C body))
partial_fixpoint

/-- A call of a function of the program. -/
def callFn (P : Program) (f : Fn) (vs : List Val) : M (Val × List (Option Val)) :=
  called f.fn.params vs (eval P ⟨f.owner, f.trait, f.fn.ret⟩ f.fn.body)
partial_fixpoint

/-- A call of a function by its name. -/
def callPath (P : Program) (C : Ctx) (owner : List String) (name : String) (vs : List Val) : M (Val × List (Option Val)) :=
  match P.lookup owner name vs with
  | some f => callFn P f vs
  | none =>
    match newOf P owner name vs with
    | some (a, s) => do
      let (r, _) ← callPath P C a "validate_str" [.str s]
      match r with
      | .bool true => pure (.ok (newtype owner s), [])
      | .bool false => pure (.err (.str s), [])
      | _ => M.stuck
    | none => do return (← free (corePath P owner name vs), [])
partial_fixpoint

/-- A call of a value. -/
def applyVal (P : Program) (C : Ctx) (f : Val) (vs : List Val) : M Val :=
  match f with
  | .closure params body env ctx =>
    match matchPats P ctx params vs with
    | some new => calledIn (new ++ env) (eval P ctx body)
    | none => M.stuck
  | .fn owner name => do
    let (r, _) ← callPath P C owner name vs
    pure r
  | _ => M.stuck
partial_fixpoint

/-- A call of a method: the result and the values of the `&mut` arguments afterwards, the receiver first. -/
def callMethod (P : Program) (C : Ctx) (v : Val) (m : String) (vs : List Val) : M (Val × List (Option Val)) :=
  match methodOf P v m vs with
  | some f => callFn P f (v :: vs)
  | none =>
    match higherOrder v m, vs with
    | some (.inl r), [_] => pure (r, [])
    | some (.inr (w, k)), [f] => do
      let r ← applyVal P C f [w]
      pure (k r, [])
    | _, _ =>
      match v, m, vs with
      | .char c, "try_into", [] => callPath P C (okType P C) "try_from" [.char c]
      | v, m, vs => tick (coreCost v m) (free (coreMethod P C v m vs))
partial_fixpoint

end

end Langtag.Source.Counted
