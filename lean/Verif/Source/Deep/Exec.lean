import Verif.Source.Deep.Attr
import Verif.Source.Deep.Semantics
import Verif.Source.Exec

/-!
# Executing programs by rewriting, with bounded nesting

The equations of the evaluator, applied to the variables, as rules for `simp only [dep]`.
-/

set_option autoImplicit false

namespace Langtag.Source.Deep

open Langtag.Model (Panic Rust)

variable {δ : Nat} {P : Program} {C : Ctx} {σ : Env}

/-! ## Scopes and calls -/

/-! ## Expressions -/

@[dep] theorem eval_lit (l : Lit) : eval δ P C (.lit l) σ = litR (litVal l) σ := by
  rw [eval]
  cases litVal l <;> rfl

/-- A path that is not a variable. -/
def evalGlobal (δ : Nat) (P : Program) (C : Ctx) (segs : List String) : M Val :=
  match ctorOf P C segs with
  | some (ty, x) => pure (.ctor ty x [])
  | none =>
    if segs = ["u8", "MAX"] then pure (.u8 255)
    else
      match P.consts.find? fun (o, x, _) => o = (memberOf P C segs).1 && x = (memberOf P C segs).2 with
      | some (o, _, e) => calledIn [] (eval δ P ⟨o, "", .tuple []⟩ e)
      | none => pure (.fn (memberOf P C segs).1 (memberOf P C segs).2)

@[dep] theorem eval_var (x : String) : eval δ P C (.path [x]) σ = orVar (σ.lookup x) (evalGlobal δ P C [x]) σ := by
  rw [eval, evalPath, bind_apply, env_apply, bindR_ok]
  simp only [List.getLast?_singleton, Option.getD_some]
  cases σ.lookup x <;> rfl

@[dep] theorem eval_path (x y : String) (segs : List String) : eval δ P C (.path (x :: y :: segs)) σ = evalGlobal δ P C (x :: y :: segs) σ := by
  rw [eval, evalPath, bind_apply, env_apply, bindR_ok]
  rfl

/-- A call of a path that is not a variable. -/
def callGlobal (δ : Nat) (P : Program) (C : Ctx) (segs : List String) (args : List Expr) (vs : List Val) : M Val :=
  match ctorOf P C segs with
  | some (ty, x) => pure (.ctor ty x vs)
  | none => do
    let (v, ws) ← callPath δ P C (memberOf P C segs).1 (memberOf P C segs).2 vs
    writeBack args ws
    pure v

/-- A call of a variable if there is one, something else if not. -/
def orCall (δ : Nat) (P : Program) (C : Ctx) (vs : List Val) (g : Option Val) (other : M Val) (σ : Env) : Option (Res Val) :=
  match g with
  | some g => applyVal δ P C g vs σ
  | none => other σ

@[dep] theorem orCall_some (vs : List Val) (g : Val) (other : M Val) : orCall δ P C vs (some g) other σ = applyVal δ P C g vs σ := rfl

@[dep] theorem orCall_none (vs : List Val) (other : M Val) : orCall δ P C vs none other σ = other σ := rfl

@[congr] theorem orCall_congr {vs : List Val} {g g' : Option Val} {other : M Val} (h : g = g') :
    orCall δ P C vs g other σ = orCall δ P C vs g' other σ := by rw [h]

@[dep] theorem eval_call_var (x : String) (args : List Expr) : eval δ P C (.call (.path [x]) args) σ =
    bindR (evalList δ P C args σ) fun vs σ => orCall δ P C vs (σ.lookup x) (callGlobal δ P C [x] args vs) σ := by
  rw [eval, bind_apply]
  congr 1
  funext vs σ
  rw [bind_apply, env_apply, bindR_ok]
  simp only [List.getLast?_singleton, Option.getD_some]
  cases σ.lookup x <;> rfl

@[dep] theorem eval_call_path (x y : String) (segs : List String) (args : List Expr) : eval δ P C (.call (.path (x :: y :: segs)) args) σ =
    bindR (evalList δ P C args σ) fun vs σ => callGlobal δ P C (x :: y :: segs) args vs σ := by
  rw [eval, bind_apply]
  congr 1

@[dep] theorem eval_method (recv : Expr) (m : String) (args : List Expr) : eval δ P C (.method recv m args) σ =
    bindR (eval δ P C recv σ) fun v => evalList δ P C args >>= fun vs => callMethod δ P C v m vs >>= fun r => writeBack (recv :: args) r.2 >>= fun _ => pure r.1 := by
  rw [eval]
  rfl

@[dep] theorem eval_field (e : Expr) (f : String) : eval δ P C (.field e f) σ = bindR (eval δ P C e σ) fun v => fieldVal v f := by
  rw [eval]
  rfl

@[dep] theorem eval_index (e i : Expr) : eval δ P C (.index e i) σ = bindR (eval δ P C e σ) fun v => eval δ P C i >>= fun n => indexVal v n := by
  rw [eval]
  rfl

@[dep] theorem eval_range (lo hi : Expr) : eval δ P C (.range lo hi) σ = bindR (eval δ P C lo σ) fun a => eval δ P C hi >>= fun b => mkRange a b := by
  rw [eval]
  rfl

@[dep] theorem eval_rangeFrom (lo : Expr) : eval δ P C (.rangeFrom lo) σ = bindR (eval δ P C lo σ) mkRangeFrom := by
  rw [eval]
  rfl

@[dep] theorem eval_rangeTo (hi : Expr) : eval δ P C (.rangeTo hi) σ = bindR (eval δ P C hi σ) mkRangeTo := by
  rw [eval]
  rfl

@[dep] theorem eval_ref (m : Bool) (e : Expr) : eval δ P C (.ref m e) σ = eval δ P C e σ := by rw [eval]

@[dep] theorem eval_deref (e : Expr) : eval δ P C (.deref e) σ = eval δ P C e σ := by rw [eval]

@[dep] theorem eval_not (e : Expr) : eval δ P C (.not e) σ = bindR (eval δ P C e σ) notVal := by
  rw [eval]
  rfl

/-- `v && e` -/
def andK (δ : Nat) (P : Program) (C : Ctx) (b : Expr) (v : Val) : M Val :=
  match v with
  | .bool true => eval δ P C b
  | .bool false => pure (.bool false)
  | _ => M.stuck

/-- `v || e` -/
def orK (δ : Nat) (P : Program) (C : Ctx) (b : Expr) (v : Val) : M Val :=
  match v with
  | .bool true => pure (.bool true)
  | .bool false => eval δ P C b
  | _ => M.stuck

@[dep] theorem andK_apply (e : Expr) (b : Bool) : andK δ P C e (.bool b) σ = if b = true then eval δ P C e σ else some (.ok (.bool false) σ) := by
  cases b <;> rfl

@[dep] theorem orK_apply (e : Expr) (b : Bool) : orK δ P C e (.bool b) σ = if b = true then some (.ok (.bool true) σ) else eval δ P C e σ := by
  cases b <;> rfl

@[dep] theorem eval_and (a b : Expr) : eval δ P C (.bin .and a b) σ = bindR (eval δ P C a σ) (andK δ P C b) := by
  rw [eval]
  rfl

@[dep] theorem eval_or (a b : Expr) : eval δ P C (.bin .or a b) σ = bindR (eval δ P C a σ) (orK δ P C b) := by
  rw [eval]
  rfl

theorem eval_bin (op : BinOp) (h : op ≠ .and ∧ op ≠ .or) (a b : Expr) :
    eval δ P C (.bin op a b) σ = bindR (eval δ P C a σ) fun x => eval δ P C b >>= fun y => binVal P op x y := by
  cases op <;> first | exact absurd rfl h.1 | exact absurd rfl h.2 | (rw [eval] <;> first | rfl | nofun)

@[dep] theorem eval_add (a b : Expr) : eval δ P C (.bin .add a b) σ = bindR (eval δ P C a σ) fun x => eval δ P C b >>= fun y => binVal P .add x y := eval_bin _ (by decide) _ _

@[dep] theorem eval_sub (a b : Expr) : eval δ P C (.bin .sub a b) σ = bindR (eval δ P C a σ) fun x => eval δ P C b >>= fun y => binVal P .sub x y := eval_bin _ (by decide) _ _

@[dep] theorem eval_eq (a b : Expr) : eval δ P C (.bin .eq a b) σ = bindR (eval δ P C a σ) fun x => eval δ P C b >>= fun y => binVal P .eq x y := eval_bin _ (by decide) _ _

@[dep] theorem eval_ne (a b : Expr) : eval δ P C (.bin .ne a b) σ = bindR (eval δ P C a σ) fun x => eval δ P C b >>= fun y => binVal P .ne x y := eval_bin _ (by decide) _ _

@[dep] theorem eval_lt (a b : Expr) : eval δ P C (.bin .lt a b) σ = bindR (eval δ P C a σ) fun x => eval δ P C b >>= fun y => binVal P .lt x y := eval_bin _ (by decide) _ _

@[dep] theorem eval_le (a b : Expr) : eval δ P C (.bin .le a b) σ = bindR (eval δ P C a σ) fun x => eval δ P C b >>= fun y => binVal P .le x y := eval_bin _ (by decide) _ _

@[dep] theorem eval_gt (a b : Expr) : eval δ P C (.bin .gt a b) σ = bindR (eval δ P C a σ) fun x => eval δ P C b >>= fun y => binVal P .gt x y := eval_bin _ (by decide) _ _

@[dep] theorem eval_cast (e : Expr) (t : Ty) : eval δ P C (.cast e t) σ = bindR (eval δ P C e σ) fun v => castVal v t := by
  rw [eval]
  rfl

/-- `if v { t } else { e }` -/
def iteK (δ : Nat) (P : Program) (C : Ctx) (t e : Expr) (v : Val) : M Val :=
  match v with
  | .bool true => eval δ P C t
  | .bool false => eval δ P C e
  | _ => M.stuck

@[dep] theorem iteK_apply (t e : Expr) (b : Bool) : iteK δ P C t e (.bool b) σ = if b = true then eval δ P C t σ else eval δ P C e σ := by
  cases b <;> rfl

@[dep] theorem eval_ite (c t e : Expr) : eval δ P C (.ite c t e) σ = bindR (eval δ P C c σ) (iteK δ P C t e) := by
  rw [eval]
  rfl

@[dep] theorem eval_match (e : Expr) (arms : List Arm) : eval δ P C (.match e arms) σ = bindR (eval δ P C e σ) fun v => evalArms δ P C v arms := by
  rw [eval]
  rfl

@[dep] theorem eval_loop (body : Expr) : eval δ P C (.loop body) σ = evalLoop δ P C body σ := by rw [eval]

@[dep] theorem eval_while (c body : Expr) : eval δ P C (.while c body) σ = evalWhile δ P C c body σ := by rw [eval]

/-- `for x in v { body }` -/
def forK (δ : Nat) (P : Program) (C : Ctx) (x : String) (body : Expr) (v : Val) : M Val :=
  match iterate v with
  | some vs => evalFor δ P C x vs body
  | none => M.stuck

@[dep] theorem forK_range (x : String) (body : Expr) (a b : Nat) :
    forK δ P C x body (.range a b) σ = evalFor δ P C x ((List.range' a (b - a)).map .usize) body σ := rfl

@[dep] theorem forK_bytes (x : String) (body : Expr) (s : List UInt8) : forK δ P C x body (.bytes s) σ = evalFor δ P C x (s.map .u8) body σ := rfl

@[dep] theorem forK_array (x : String) (body : Expr) (vs : List Val) : forK δ P C x body (.array vs) σ = evalFor δ P C x vs body σ := rfl

@[dep] theorem eval_for (x : String) (e body : Expr) : eval δ P C (.for x e body) σ = bindR (eval δ P C e σ) (forK δ P C x body) := by
  rw [eval]
  rfl

@[dep] theorem eval_break (e : Expr) : eval δ P C (.break e) σ = bindR (eval δ P C e σ) fun v => M.throw (.brk v) := by
  rw [eval]
  rfl

@[dep] theorem eval_return (e : Expr) : eval δ P C (.return e) σ = bindR (eval δ P C e σ) fun v => M.throw (.ret v) := by
  rw [eval]
  rfl

@[dep] theorem eval_block (stmts : List Stmt) (last : Expr) : eval δ P C (.block stmts last) σ = closeR σ.length (evalBlock δ P C stmts last σ) := by
  rw [eval, inScope_apply]
  rfl

@[dep] theorem eval_closure (params : List Pat) (body : Expr) : eval δ P C (.closure params body) σ = some (.ok (.closure params body σ C) σ) := by
  rw [eval]
  rfl

@[dep] theorem eval_struct (segs : List String) (fields : List Field) : eval δ P C (.struct segs fields) σ =
    bindR (evalFields δ P C fields σ) fun fs => pure (.struct (typePath P C segs) fs) := by
  rw [eval]
  rfl

@[dep] theorem eval_assign (p e : Expr) : eval δ P C (.assign p e) σ =
    bindR (eval δ P C e σ) fun v => assignPlace p v >>= fun _ => pure .unit := by
  rw [eval]
  rfl

@[dep] theorem eval_opAssign (op : BinOp) (p e : Expr) : eval δ P C (.opAssign op p e) σ =
    bindR (eval δ P C e σ) fun v => readPlace p >>= fun w => binVal P op w v >>= fun r => assignPlace p r >>= fun _ => pure .unit := by
  rw [eval]
  rfl

@[dep] theorem eval_tuple (es : List Expr) : eval δ P C (.tuple es) σ = bindR (evalList δ P C es σ) fun vs => pure (.tuple vs) := by
  rw [eval]
  rfl

@[dep] theorem eval_array (es : List Expr) : eval δ P C (.array es) σ = bindR (evalList δ P C es σ) fun vs => pure (.array vs) := by
  rw [eval]
  rfl

@[dep] theorem eval_matches (e : Expr) (p : Pat) : eval δ P C (.matches e p) σ =
    bindR (eval δ P C e σ) fun v => pure (.bool (matchPat P C p v).isSome) := by
  rw [eval]
  rfl

@[dep] theorem eval_panic : eval δ P C .panic σ = some (.ctl (.panic .explicit) σ) := by
  rw [eval]
  rfl

@[dep] theorem evalList_nil : evalList δ P C [] σ = some (.ok [] σ) := by
  rw [evalList]
  rfl

@[dep] theorem evalList_cons (e : Expr) (es : List Expr) : evalList δ P C (e :: es) σ =
    bindR (eval δ P C e σ) fun v => evalList δ P C es >>= fun vs => pure (v :: vs) := by
  rw [evalList]
  rfl

@[dep] theorem evalFields_nil : evalFields δ P C [] σ = some (.ok [] σ) := by
  rw [evalFields]
  rfl

@[dep] theorem evalFields_cons (f : String) (e : Expr) (fs : List Field) : evalFields δ P C (.mk f e :: fs) σ =
    bindR (eval δ P C e σ) fun v => evalFields δ P C fs >>= fun vs => pure ((f, v) :: vs) := by
  rw [evalFields]
  rfl

/-- An arm of a `match`. -/
def armR (δ : Nat) (P : Program) (C : Ctx) (v : Val) (e : Expr) (arms : List Arm) (new : Option Env) (σ : Env) : Option (Res Val) :=
  match new with
  | some new => closeR σ.length (eval δ P C e (new ++ σ))
  | none => evalArms δ P C v arms σ

@[dep] theorem armR_some (v : Val) (e : Expr) (arms : List Arm) (new : Env) :
    armR δ P C v e arms (some new) σ = closeR σ.length (eval δ P C e (new ++ σ)) := rfl

@[dep] theorem armR_none (v : Val) (e : Expr) (arms : List Arm) : armR δ P C v e arms none σ = evalArms δ P C v arms σ := rfl

@[dep] theorem armR_ite {c : Prop} [Decidable c] (v : Val) (e : Expr) (arms : List Arm) (x y : Option Env) :
    armR δ P C v e arms (if c then x else y) σ = if c then armR δ P C v e arms x σ else armR δ P C v e arms y σ := by split <;> rfl

@[dep] theorem evalArms_cons (v : Val) (p : Pat) (e : Expr) (arms : List Arm) :
    evalArms δ P C v (.mk p e :: arms) σ = armR δ P C v e arms (matchPat P C p v) σ := by
  rw [evalArms]
  cases matchPat P C p v <;> simp only [armR, inScope_apply]

@[dep] theorem evalBlock_nil (last : Expr) : evalBlock δ P C [] last σ = eval δ P C last σ := by rw [evalBlock]

@[dep] theorem evalBlock_expr (e : Expr) (stmts : List Stmt) (last : Expr) : evalBlock δ P C (.expr e :: stmts) last σ =
    bindR (eval δ P C e σ) fun _ => evalBlock δ P C stmts last := by
  rw [evalBlock]
  rfl

/-- What follows a `let`. -/
def letR (δ : Nat) (P : Program) (C : Ctx) (stmts : List Stmt) (last : Expr) (new : Option Env) (σ : Env) : Option (Res Val) :=
  match new with
  | some new => evalBlock δ P C stmts last (new ++ σ)
  | none => some (.ctl .stuck σ)

@[dep] theorem letR_some (stmts : List Stmt) (last : Expr) (new : Env) :
    letR δ P C stmts last (some new) σ = evalBlock δ P C stmts last (new ++ σ) := rfl

@[dep] theorem evalBlock_let (p : Pat) (e : Expr) (stmts : List Stmt) (last : Expr) : evalBlock δ P C (.let p e :: stmts) last σ =
    bindR (eval δ P C e σ) fun v σ => letR δ P C stmts last (matchPat P C p v) σ := by
  rw [evalBlock, bind_apply]
  congr 1
  funext v σ
  cases h : matchPat P C p v <;> simp only [letR] <;> rfl

theorem evalLoop_apply (body : Expr) : evalLoop δ P C body σ = loopR (evalLoop δ P C body) (eval δ P C body σ) := by
  conv => lhs; rw [evalLoop]
  rfl

/-- What follows the condition of a `while`. -/
def whileK (δ : Nat) (P : Program) (C : Ctx) (c body : Expr) (v : Val) : M Val :=
  match v with
  | .bool true => afterBody (evalWhile δ P C c body) (eval δ P C body)
  | .bool false => pure .unit
  | _ => M.stuck

@[dep] theorem whileK_apply (c body : Expr) (b : Bool) : whileK δ P C c body (.bool b) σ =
    if b = true then loopR (evalWhile δ P C c body) (eval δ P C body σ) else some (.ok .unit σ) := by
  cases b <;> rfl

theorem evalWhile_apply (c body : Expr) : evalWhile δ P C c body σ = bindR (eval δ P C c σ) (whileK δ P C c body) := by
  conv => lhs; rw [evalWhile]
  rfl

@[dep] theorem evalFor_nil (x : String) (body : Expr) : evalFor δ P C x [] body σ = some (.ok .unit σ) := by
  rw [evalFor]
  rfl

@[dep] theorem evalFor_cons (x : String) (v : Val) (vs : List Val) (body : Expr) : evalFor δ P C x (v :: vs) body σ =
    loopR (evalFor δ P C x vs body) (closeR σ.length (eval δ P C body ((x, v) :: σ))) := by
  rw [evalFor, afterBody_apply, inScope_apply]
  rfl

theorem callFn_apply (f : Fn) (vs : List Val) : callFn (δ + 1) P f vs σ =
    callR f.fn.params σ (eval δ P ⟨f.owner, f.trait, f.fn.ret⟩ f.fn.body ((f.fn.params.map (·.1)).zip vs)) := by
  rw [callFn, called_apply]

@[dep] theorem applyVal_closure (params : List Pat) (body : Expr) (env : List (String × Val)) (ctx : Ctx) (vs : List Val) :
    applyVal (δ + 1) P C (.closure params body env ctx) vs σ =
      match matchPats P ctx params vs with
      | some new => closureR σ (eval δ P ctx body (new ++ env))
      | none => some (.ctl .stuck σ) := by
  rw [applyVal]
  cases matchPats P ctx params vs with
  | none => rfl
  | some new => exact calledIn_apply _ _

@[dep] theorem applyVal_fn (owner : List String) (name : String) (vs : List Val) :
    applyVal δ P C (.fn owner name) vs σ = bindR (callPath δ P C owner name vs σ) fun r => pure r.1 := by
  rw [applyVal]
  rfl

/-! ## Variables, places, operators, `core` -/

theorem callMethod_fn {v : Val} {m : String} {vs : List Val} {f : Fn} (h : methodOf P v m vs = some f) :
    callMethod δ P C v m vs σ = callFn δ P f (v :: vs) σ := by
  rw [callMethod.eq_def, h]

theorem callPath_fn {owner : List String} {name : String} {vs : List Val} {f : Fn} (h : P.lookup owner name vs = some f) :
    callPath δ P C owner name vs σ = callFn δ P f vs σ := by
  rw [callPath, h]

section

variable {r : Val × List (Option Val)}

theorem core_eq {v : Val} {m : String} {vs : List Val} (h1 : methodOf P v m vs = none) (h2 : higherOrder v m = none)
    (h3 : m ≠ "try_into") : callMethod δ P C v m vs σ = coreMethod P C v m vs σ := by
  rw [callMethod.eq_def, h1]
  simp only [h2]
  split
  · exact absurd rfl h3
  · rfl

end

end Langtag.Source.Deep
