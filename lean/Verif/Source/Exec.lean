import Verif.Source.Attr
import Verif.Source.Semantics

/-!
# Executing programs by rewriting

The equations of the evaluator, applied to the variables, as rules for `simp only [src]`.
-/

set_option autoImplicit false

namespace Langtag.Source
open Langtag.Model (Panic Rust)

variable {P : Program} {C : Ctx} {σ : Env}

/-- What follows a computation. -/
def bindR {α β : Type} (r : Option (Res α)) (f : α → M β) : Option (Res β) :=
  r.bind fun
    | .ok a σ => f a σ
    | .ctl c σ => some (.ctl c σ)

@[congr] theorem bindR_congr {α β : Type} {r r' : Option (Res α)} {f : α → M β} (h : r = r') : bindR r f = bindR r' f := by rw [h]

@[src] theorem bind_apply {α β : Type} (x : M α) (f : α → M β) : (x >>= f) σ = bindR (x σ) f := rfl
@[src] theorem map_apply {α β : Type} (x : M α) (f : α → β) : (f <$> x) σ = bindR (x σ) fun a => pure (f a) := rfl
@[src] theorem pure_apply {α : Type} (a : α) : (pure a : M α) σ = some (.ok a σ) := rfl
@[src] theorem bindR_ok {α β : Type} (a : α) (f : α → M β) : bindR (some (.ok a σ)) f = f a σ := rfl
@[src] theorem bindR_ctl {α β : Type} (c : Ctl) (f : α → M β) : bindR (some (.ctl c σ)) f = some (.ctl c σ) := rfl
@[src] theorem bindR_ite {α β : Type} {c : Prop} [Decidable c] (x y : Option (Res α)) (f : α → M β) :
    bindR (if c then x else y) f = if c then bindR x f else bindR y f := by split <;> rfl
@[src] theorem bindR_bindR {α β γ : Type} (r : Option (Res α)) (f : α → M β) (g : β → M γ) :
    bindR (bindR r f) g = bindR r fun a => f a >>= g := by
  rcases r with _ | ⟨_ | _⟩ <;> rfl

@[src] theorem stuck_apply {α : Type} : (M.stuck : M α) σ = some (.ctl .stuck σ) := rfl
@[src] theorem throw_apply {α : Type} (c : Ctl) : (M.throw c : M α) σ = some (.ctl c σ) := rfl
@[src] theorem env_apply : M.env σ = some (.ok σ σ) := rfl
@[src] theorem setEnv_apply (τ : Env) : M.setEnv τ σ = some (.ok () τ) := rfl

/-- The result of a function of the model, as the end of a computation. -/
def lift {α β : Type} (k : α → β) (r : Rust α) (σ : Env) : Option (Res β) :=
  match r with
  | .ok a => some (.ok (k a) σ)
  | .error p => some (.ctl (.panic p) σ)

@[src] theorem lift_ok {α β : Type} (k : α → β) (a : α) : lift k (.ok a) σ = some (.ok (k a) σ) := rfl
@[src] theorem lift_error {α β : Type} (k : α → β) (p : Panic) : lift k (.error p) σ = some (.ctl (.panic p) σ) := rfl
@[src] theorem ofRust_apply {α : Type} (r : Rust α) : M.ofRust r σ = lift id r σ := by cases r <;> rfl
theorem bindR_lift_pure {α β γ : Type} (k : α → β) (g : β → γ) (r : Rust α) : bindR (lift k r σ) (fun a => pure (g a)) = lift (fun a => g (k a)) r σ := by
  cases r <;> rfl

/-! ## Scopes and calls -/

/-- The end of a scope. -/
def closeR {α : Type} (n : Nat) (r : Option (Res α)) : Option (Res α) := r.map (closeScope n)

@[src] theorem inScope_apply {α : Type} (new : Env) (x : M α) : inScope new x σ = closeR σ.length (x (new ++ σ)) := by
  unfold inScope closeR
  cases x (new ++ σ) <;> rfl
@[src] theorem closeR_ok {α : Type} (n : Nat) (a : α) : closeR n (some (.ok a σ)) = some (.ok a (σ.drop (σ.length - n))) := rfl
@[src] theorem closeR_ctl {α : Type} (n : Nat) (c : Ctl) : closeR (α := α) n (some (.ctl c σ)) = some (.ctl c (σ.drop (σ.length - n))) := rfl
@[src] theorem closeR_ite {α : Type} {c : Prop} [Decidable c] (n : Nat) (x y : Option (Res α)) :
    closeR n (if c then x else y) = if c then closeR n x else closeR n y := by split <;> rfl

/-- The end of a call. -/
def callR (params : List (String × Ty)) (σ : Env) (r : Option (Res Val)) : Option (Res (Val × List (Option Val))) := r.map (closeCall params σ)

@[src] theorem called_apply (params : List (String × Ty)) (vs : List Val) (x : M Val) :
    called params vs x σ = callR params σ (x ((params.map (·.1)).zip vs)) := by
  unfold called callR
  cases x ((params.map (·.1)).zip vs) <;> rfl
@[src] theorem callR_ok (ps : List (String × Ty)) (τ : Env) (v : Val) : callR ps σ (some (.ok v τ)) = some (.ok (v, finals ps τ) σ) := rfl
@[src] theorem callR_ret (ps : List (String × Ty)) (τ : Env) (v : Val) : callR ps σ (some (.ctl (.ret v) τ)) = some (.ok (v, finals ps τ) σ) := rfl
@[src] theorem callR_panic (ps : List (String × Ty)) (τ : Env) (p : Panic) : callR ps σ (some (.ctl (.panic p) τ)) = some (.ctl (.panic p) σ) := rfl
@[src] theorem callR_ite {c : Prop} [Decidable c] (ps : List (String × Ty)) (x y : Option (Res Val)) :
    callR ps σ (if c then x else y) = if c then callR ps σ x else callR ps σ y := by split <;> rfl

/-- The end of a call of a closure. -/
def closureR (σ : Env) (r : Option (Res Val)) : Option (Res Val) := r.map fun
  | .ok v _ => .ok v σ
  | .ctl (.ret v) _ => .ok v σ
  | .ctl (.panic p) _ => .ctl (.panic p) σ
  | .ctl _ _ => .ctl .stuck σ

@[src] theorem calledIn_apply (new : Env) (x : M Val) : calledIn new x σ = closureR σ (x new) := by
  unfold calledIn closureR
  cases x new <;> rfl
@[src] theorem closureR_ok (τ : Env) (v : Val) : closureR σ (some (.ok v τ)) = some (.ok v σ) := rfl
@[src] theorem closureR_ret (τ : Env) (v : Val) : closureR σ (some (.ctl (.ret v) τ)) = some (.ok v σ) := rfl
@[src] theorem closureR_panic (τ : Env) (p : Panic) : closureR σ (some (.ctl (.panic p) τ)) = some (.ctl (.panic p) σ) := rfl
@[src] theorem closureR_ite {c : Prop} [Decidable c] (x y : Option (Res Val)) :
    closureR σ (if c then x else y) = if c then closureR σ x else closureR σ y := by split <;> rfl

/-- What a loop does after its body. -/
def loopR (again : M Val) (r : Option (Res Val)) : Option (Res Val) :=
  r.bind fun
    | .ok _ σ => again σ
    | .ctl (.brk v) σ => some (.ok v σ)
    | .ctl c σ => some (.ctl c σ)

@[src] theorem afterBody_apply (again body : M Val) : afterBody again body σ = loopR again (body σ) := rfl
@[src] theorem loopR_ok (again : M Val) (v : Val) : loopR again (some (.ok v σ)) = again σ := rfl
@[src] theorem loopR_brk (again : M Val) (v : Val) : loopR again (some (.ctl (.brk v) σ)) = some (.ok v σ) := rfl
@[src] theorem loopR_ret (again : M Val) (v : Val) : loopR again (some (.ctl (.ret v) σ)) = some (.ctl (.ret v) σ) := rfl
@[src] theorem loopR_panic (again : M Val) (p : Panic) : loopR again (some (.ctl (.panic p) σ)) = some (.ctl (.panic p) σ) := rfl
@[src] theorem loopR_ite {c : Prop} [Decidable c] (again : M Val) (x y : Option (Res Val)) :
    loopR again (if c then x else y) = if c then loopR again x else loopR again y := by split <;> rfl
@[congr] theorem loopR_congr {again : M Val} {r r' : Option (Res Val)} (h : r = r') : loopR again r = loopR again r' := by rw [h]

/-! ## Expressions -/

/-- The value of a literal. -/
def litR (v : Option Val) (σ : Env) : Option (Res Val) :=
  match v with
  | some v => some (.ok v σ)
  | none => some (.ctl .stuck σ)
@[src] theorem litR_some (v : Val) : litR (some v) σ = some (.ok v σ) := rfl
@[src] theorem eval_lit (l : Lit) : eval P C (.lit l) σ = litR (litVal l) σ := by
  rw [eval]
  cases litVal l <;> rfl
@[src] theorem litVal_usize (n : Nat) : litVal (.int n "") = some (.usize n) := rfl
@[src] theorem litVal_u32 (n : Nat) : litVal (.int n "u32") = some (.u32 n) := rfl
@[src] theorem litVal_byte (n : Nat) : litVal (.byte n) = some (.u8 (UInt8.ofNat n)) := rfl
@[src] theorem litVal_char (n : Nat) : litVal (.char n) = some (.char (Char.ofNat n)) := rfl
@[src] theorem litVal_bool (b : Bool) : litVal (.bool b) = some (.bool b) := rfl
@[src] theorem litVal_str (s : List Nat) : litVal (.str s) = if s.all (· < 128) then some (.str (litBytes s)) else none := rfl
@[src] theorem litVal_bstr (s : List Nat) : litVal (.bstr s) = if s.all (· < 128) then some (.bytes (litBytes s)) else none := rfl

/-- A variable if there is one, something else if not. -/
def orVar (v : Option Val) (other : M Val) (σ : Env) : Option (Res Val) :=
  match v with
  | some v => some (.ok v σ)
  | none => other σ
@[src] theorem orVar_some (v : Val) (other : M Val) : orVar (some v) other σ = some (.ok v σ) := rfl
@[src] theorem orVar_none (other : M Val) : orVar none other σ = other σ := rfl
@[congr] theorem orVar_congr {v v' : Option Val} {other : M Val} (h : v = v') : orVar v other σ = orVar v' other σ := by rw [h]

/-- A path that is not a variable. -/
def evalGlobal (P : Program) (C : Ctx) (segs : List String) : M Val :=
  match ctorOf P C segs with
  | some (ty, x) => pure (.ctor ty x [])
  | none =>
    if segs = ["u8", "MAX"] then pure (.u8 255)
    else
      match P.consts.find? fun (o, x, _) => o = (memberOf P C segs).1 && x = (memberOf P C segs).2 with
      | some (o, _, e) => calledIn [] (eval P ⟨o, "", .tuple []⟩ e)
      | none => pure (.fn (memberOf P C segs).1 (memberOf P C segs).2)

@[src] theorem eval_var (x : String) : eval P C (.path [x]) σ = orVar (σ.lookup x) (evalGlobal P C [x]) σ := by
  rw [eval, evalPath, bind_apply, env_apply, bindR_ok]
  simp only [List.getLast?_singleton, Option.getD_some]
  cases σ.lookup x <;> rfl
@[src] theorem eval_path (x y : String) (segs : List String) : eval P C (.path (x :: y :: segs)) σ = evalGlobal P C (x :: y :: segs) σ := by
  rw [eval, evalPath, bind_apply, env_apply, bindR_ok]
  rfl

/-- A call of a path that is not a variable. -/
def callGlobal (P : Program) (C : Ctx) (segs : List String) (args : List Expr) (vs : List Val) : M Val :=
  match ctorOf P C segs with
  | some (ty, x) => pure (.ctor ty x vs)
  | none => do
    let (v, ws) ← callPath P C (memberOf P C segs).1 (memberOf P C segs).2 vs
    writeBack args ws
    pure v

/-- A call of a variable if there is one, something else if not. -/
def orCall (P : Program) (C : Ctx) (vs : List Val) (g : Option Val) (other : M Val) (σ : Env) : Option (Res Val) :=
  match g with
  | some g => applyVal P C g vs σ
  | none => other σ
@[src] theorem orCall_some (vs : List Val) (g : Val) (other : M Val) : orCall P C vs (some g) other σ = applyVal P C g vs σ := rfl
@[src] theorem orCall_none (vs : List Val) (other : M Val) : orCall P C vs none other σ = other σ := rfl
@[congr] theorem orCall_congr {vs : List Val} {g g' : Option Val} {other : M Val} (h : g = g') :
    orCall P C vs g other σ = orCall P C vs g' other σ := by rw [h]

@[src] theorem eval_call_var (x : String) (args : List Expr) : eval P C (.call (.path [x]) args) σ =
    bindR (evalList P C args σ) fun vs σ => orCall P C vs (σ.lookup x) (callGlobal P C [x] args vs) σ := by
  rw [eval, bind_apply]
  congr 1
  funext vs σ
  rw [bind_apply, env_apply, bindR_ok]
  simp only [List.getLast?_singleton, Option.getD_some]
  cases σ.lookup x <;> rfl
@[src] theorem eval_call_path (x y : String) (segs : List String) (args : List Expr) : eval P C (.call (.path (x :: y :: segs)) args) σ =
    bindR (evalList P C args σ) fun vs σ => callGlobal P C (x :: y :: segs) args vs σ := by
  rw [eval, bind_apply]
  congr 1

@[src] theorem eval_method (recv : Expr) (m : String) (args : List Expr) : eval P C (.method recv m args) σ =
    bindR (eval P C recv σ) fun v => evalList P C args >>= fun vs => callMethod P C v m vs >>= fun r => writeBack (recv :: args) r.2 >>= fun _ => pure r.1 := by
  rw [eval]
  rfl

@[src] theorem eval_field (e : Expr) (f : String) : eval P C (.field e f) σ = bindR (eval P C e σ) fun v => fieldVal v f := by
  rw [eval]
  rfl

@[src] theorem eval_index (e i : Expr) : eval P C (.index e i) σ = bindR (eval P C e σ) fun v => eval P C i >>= fun n => indexVal v n := by
  rw [eval]
  rfl

/-- `a..b` of values. -/
def mkRange (a b : Val) : M Val :=
  match a, b with
  | .usize a, .usize b => pure (.range a b)
  | _, _ => M.stuck
/-- `a..` of a value. -/
def mkRangeFrom (a : Val) : M Val :=
  match a with
  | .usize a => pure (.rangeFrom a)
  | _ => M.stuck
/-- `..b` of a value. -/
def mkRangeTo (b : Val) : M Val :=
  match b with
  | .usize b => pure (.rangeTo b)
  | _ => M.stuck
@[src] theorem mkRange_apply (a b : Nat) : mkRange (.usize a) (.usize b) σ = some (.ok (.range a b) σ) := rfl
@[src] theorem mkRangeFrom_apply (a : Nat) : mkRangeFrom (.usize a) σ = some (.ok (.rangeFrom a) σ) := rfl
@[src] theorem mkRangeTo_apply (b : Nat) : mkRangeTo (.usize b) σ = some (.ok (.rangeTo b) σ) := rfl
@[src] theorem eval_range (lo hi : Expr) : eval P C (.range lo hi) σ = bindR (eval P C lo σ) fun a => eval P C hi >>= fun b => mkRange a b := by
  rw [eval]
  rfl
@[src] theorem eval_rangeFrom (lo : Expr) : eval P C (.rangeFrom lo) σ = bindR (eval P C lo σ) mkRangeFrom := by
  rw [eval]
  rfl
@[src] theorem eval_rangeTo (hi : Expr) : eval P C (.rangeTo hi) σ = bindR (eval P C hi σ) mkRangeTo := by
  rw [eval]
  rfl

@[src] theorem eval_ref (m : Bool) (e : Expr) : eval P C (.ref m e) σ = eval P C e σ := by rw [eval]
@[src] theorem eval_deref (e : Expr) : eval P C (.deref e) σ = eval P C e σ := by rw [eval]

/-- `!v` -/
def notVal (v : Val) : M Val :=
  match v with
  | .bool b => pure (.bool (!b))
  | _ => M.stuck
@[src] theorem notVal_apply (b : Bool) : notVal (.bool b) σ = some (.ok (.bool (!b)) σ) := rfl
@[src] theorem eval_not (e : Expr) : eval P C (.not e) σ = bindR (eval P C e σ) notVal := by
  rw [eval]
  rfl

/-- `v && e` -/
def andK (P : Program) (C : Ctx) (b : Expr) (v : Val) : M Val :=
  match v with
  | .bool true => eval P C b
  | .bool false => pure (.bool false)
  | _ => M.stuck
/-- `v || e` -/
def orK (P : Program) (C : Ctx) (b : Expr) (v : Val) : M Val :=
  match v with
  | .bool true => pure (.bool true)
  | .bool false => eval P C b
  | _ => M.stuck
@[src] theorem andK_apply (e : Expr) (b : Bool) : andK P C e (.bool b) σ = if b = true then eval P C e σ else some (.ok (.bool false) σ) := by
  cases b <;> rfl
@[src] theorem orK_apply (e : Expr) (b : Bool) : orK P C e (.bool b) σ = if b = true then some (.ok (.bool true) σ) else eval P C e σ := by
  cases b <;> rfl
@[src] theorem eval_and (a b : Expr) : eval P C (.bin .and a b) σ = bindR (eval P C a σ) (andK P C b) := by
  rw [eval]
  rfl
@[src] theorem eval_or (a b : Expr) : eval P C (.bin .or a b) σ = bindR (eval P C a σ) (orK P C b) := by
  rw [eval]
  rfl
theorem eval_bin (op : BinOp) (h : op ≠ .and ∧ op ≠ .or) (a b : Expr) :
    eval P C (.bin op a b) σ = bindR (eval P C a σ) fun x => eval P C b >>= fun y => binVal P op x y := by
  cases op <;> first | exact absurd rfl h.1 | exact absurd rfl h.2 | (rw [eval] <;> first | rfl | nofun)
@[src] theorem eval_add (a b : Expr) : eval P C (.bin .add a b) σ = bindR (eval P C a σ) fun x => eval P C b >>= fun y => binVal P .add x y := eval_bin _ (by decide) _ _
@[src] theorem eval_sub (a b : Expr) : eval P C (.bin .sub a b) σ = bindR (eval P C a σ) fun x => eval P C b >>= fun y => binVal P .sub x y := eval_bin _ (by decide) _ _
@[src] theorem eval_eq (a b : Expr) : eval P C (.bin .eq a b) σ = bindR (eval P C a σ) fun x => eval P C b >>= fun y => binVal P .eq x y := eval_bin _ (by decide) _ _
@[src] theorem eval_ne (a b : Expr) : eval P C (.bin .ne a b) σ = bindR (eval P C a σ) fun x => eval P C b >>= fun y => binVal P .ne x y := eval_bin _ (by decide) _ _
@[src] theorem eval_lt (a b : Expr) : eval P C (.bin .lt a b) σ = bindR (eval P C a σ) fun x => eval P C b >>= fun y => binVal P .lt x y := eval_bin _ (by decide) _ _
@[src] theorem eval_le (a b : Expr) : eval P C (.bin .le a b) σ = bindR (eval P C a σ) fun x => eval P C b >>= fun y => binVal P .le x y := eval_bin _ (by decide) _ _
@[src] theorem eval_gt (a b : Expr) : eval P C (.bin .gt a b) σ = bindR (eval P C a σ) fun x => eval P C b >>= fun y => binVal P .gt x y := eval_bin _ (by decide) _ _

@[src] theorem eval_cast (e : Expr) (t : Ty) : eval P C (.cast e t) σ = bindR (eval P C e σ) fun v => castVal v t := by
  rw [eval]
  rfl

/-- `if v { t } else { e }` -/
def iteK (P : Program) (C : Ctx) (t e : Expr) (v : Val) : M Val :=
  match v with
  | .bool true => eval P C t
  | .bool false => eval P C e
  | _ => M.stuck
@[src] theorem iteK_apply (t e : Expr) (b : Bool) : iteK P C t e (.bool b) σ = if b = true then eval P C t σ else eval P C e σ := by
  cases b <;> rfl
@[src] theorem eval_ite (c t e : Expr) : eval P C (.ite c t e) σ = bindR (eval P C c σ) (iteK P C t e) := by
  rw [eval]
  rfl

@[src] theorem eval_match (e : Expr) (arms : List Arm) : eval P C (.match e arms) σ = bindR (eval P C e σ) fun v => evalArms P C v arms := by
  rw [eval]
  rfl
@[src] theorem eval_loop (body : Expr) : eval P C (.loop body) σ = evalLoop P C body σ := by rw [eval]
@[src] theorem eval_while (c body : Expr) : eval P C (.while c body) σ = evalWhile P C c body σ := by rw [eval]

/-- `for x in v { body }` -/
def forK (P : Program) (C : Ctx) (x : String) (body : Expr) (v : Val) : M Val :=
  match iterate v with
  | some vs => evalFor P C x vs body
  | none => M.stuck
@[src] theorem forK_range (x : String) (body : Expr) (a b : Nat) :
    forK P C x body (.range a b) σ = evalFor P C x ((List.range' a (b - a)).map .usize) body σ := rfl
@[src] theorem forK_bytes (x : String) (body : Expr) (s : List UInt8) : forK P C x body (.bytes s) σ = evalFor P C x (s.map .u8) body σ := rfl
@[src] theorem forK_array (x : String) (body : Expr) (vs : List Val) : forK P C x body (.array vs) σ = evalFor P C x vs body σ := rfl
@[src] theorem eval_for (x : String) (e body : Expr) : eval P C (.for x e body) σ = bindR (eval P C e σ) (forK P C x body) := by
  rw [eval]
  rfl

@[src] theorem eval_break (e : Expr) : eval P C (.break e) σ = bindR (eval P C e σ) fun v => M.throw (.brk v) := by
  rw [eval]
  rfl
@[src] theorem eval_return (e : Expr) : eval P C (.return e) σ = bindR (eval P C e σ) fun v => M.throw (.ret v) := by
  rw [eval]
  rfl
@[src] theorem eval_block (stmts : List Stmt) (last : Expr) : eval P C (.block stmts last) σ = closeR σ.length (evalBlock P C stmts last σ) := by
  rw [eval, inScope_apply]
  rfl
@[src] theorem eval_closure (params : List Pat) (body : Expr) : eval P C (.closure params body) σ = some (.ok (.closure params body σ C) σ) := by
  rw [eval]
  rfl
@[src] theorem eval_struct (segs : List String) (fields : List Field) : eval P C (.struct segs fields) σ =
    bindR (evalFields P C fields σ) fun fs => pure (.struct (typePath P C segs) fs) := by
  rw [eval]
  rfl
@[src] theorem eval_assign (p e : Expr) : eval P C (.assign p e) σ =
    bindR (eval P C e σ) fun v => assignPlace p v >>= fun _ => pure .unit := by
  rw [eval]
  rfl
@[src] theorem eval_opAssign (op : BinOp) (p e : Expr) : eval P C (.opAssign op p e) σ =
    bindR (eval P C e σ) fun v => readPlace p >>= fun w => binVal P op w v >>= fun r => assignPlace p r >>= fun _ => pure .unit := by
  rw [eval]
  rfl
@[src] theorem eval_tuple (es : List Expr) : eval P C (.tuple es) σ = bindR (evalList P C es σ) fun vs => pure (.tuple vs) := by
  rw [eval]
  rfl
@[src] theorem eval_array (es : List Expr) : eval P C (.array es) σ = bindR (evalList P C es σ) fun vs => pure (.array vs) := by
  rw [eval]
  rfl
@[src] theorem eval_matches (e : Expr) (p : Pat) : eval P C (.matches e p) σ =
    bindR (eval P C e σ) fun v => pure (.bool (matchPat P C p v).isSome) := by
  rw [eval]
  rfl
@[src] theorem eval_panic : eval P C .panic σ = some (.ctl (.panic .explicit) σ) := by
  rw [eval]
  rfl

@[src] theorem evalList_nil : evalList P C [] σ = some (.ok [] σ) := by
  rw [evalList]
  rfl
@[src] theorem evalList_cons (e : Expr) (es : List Expr) : evalList P C (e :: es) σ =
    bindR (eval P C e σ) fun v => evalList P C es >>= fun vs => pure (v :: vs) := by
  rw [evalList]
  rfl
@[src] theorem evalFields_nil : evalFields P C [] σ = some (.ok [] σ) := by
  rw [evalFields]
  rfl
@[src] theorem evalFields_cons (f : String) (e : Expr) (fs : List Field) : evalFields P C (.mk f e :: fs) σ =
    bindR (eval P C e σ) fun v => evalFields P C fs >>= fun vs => pure ((f, v) :: vs) := by
  rw [evalFields]
  rfl

/-- An arm of a `match`. -/
def armR (P : Program) (C : Ctx) (v : Val) (e : Expr) (arms : List Arm) (new : Option Env) (σ : Env) : Option (Res Val) :=
  match new with
  | some new => closeR σ.length (eval P C e (new ++ σ))
  | none => evalArms P C v arms σ
@[src] theorem armR_some (v : Val) (e : Expr) (arms : List Arm) (new : Env) :
    armR P C v e arms (some new) σ = closeR σ.length (eval P C e (new ++ σ)) := rfl
@[src] theorem armR_none (v : Val) (e : Expr) (arms : List Arm) : armR P C v e arms none σ = evalArms P C v arms σ := rfl
@[src] theorem armR_ite {c : Prop} [Decidable c] (v : Val) (e : Expr) (arms : List Arm) (x y : Option Env) :
    armR P C v e arms (if c then x else y) σ = if c then armR P C v e arms x σ else armR P C v e arms y σ := by split <;> rfl
@[src] theorem evalArms_cons (v : Val) (p : Pat) (e : Expr) (arms : List Arm) :
    evalArms P C v (.mk p e :: arms) σ = armR P C v e arms (matchPat P C p v) σ := by
  rw [evalArms]
  cases matchPat P C p v <;> simp only [armR, inScope_apply]

@[src] theorem evalBlock_nil (last : Expr) : evalBlock P C [] last σ = eval P C last σ := by rw [evalBlock]
@[src] theorem evalBlock_expr (e : Expr) (stmts : List Stmt) (last : Expr) : evalBlock P C (.expr e :: stmts) last σ =
    bindR (eval P C e σ) fun _ => evalBlock P C stmts last := by
  rw [evalBlock]
  rfl
/-- What follows a `let`. -/
def letR (P : Program) (C : Ctx) (stmts : List Stmt) (last : Expr) (new : Option Env) (σ : Env) : Option (Res Val) :=
  match new with
  | some new => evalBlock P C stmts last (new ++ σ)
  | none => some (.ctl .stuck σ)
@[src] theorem letR_some (stmts : List Stmt) (last : Expr) (new : Env) :
    letR P C stmts last (some new) σ = evalBlock P C stmts last (new ++ σ) := rfl
@[src] theorem evalBlock_let (p : Pat) (e : Expr) (stmts : List Stmt) (last : Expr) : evalBlock P C (.let p e :: stmts) last σ =
    bindR (eval P C e σ) fun v σ => letR P C stmts last (matchPat P C p v) σ := by
  rw [evalBlock, bind_apply]
  congr 1
  funext v σ
  cases h : matchPat P C p v <;> simp only [letR] <;> rfl

theorem evalLoop_apply (body : Expr) : evalLoop P C body σ = loopR (evalLoop P C body) (eval P C body σ) := by
  conv => lhs; rw [evalLoop]
  rfl
/-- What follows the condition of a `while`. -/
def whileK (P : Program) (C : Ctx) (c body : Expr) (v : Val) : M Val :=
  match v with
  | .bool true => afterBody (evalWhile P C c body) (eval P C body)
  | .bool false => pure .unit
  | _ => M.stuck
@[src] theorem whileK_apply (c body : Expr) (b : Bool) : whileK P C c body (.bool b) σ =
    if b = true then loopR (evalWhile P C c body) (eval P C body σ) else some (.ok .unit σ) := by
  cases b <;> rfl
theorem evalWhile_apply (c body : Expr) : evalWhile P C c body σ = bindR (eval P C c σ) (whileK P C c body) := by
  conv => lhs; rw [evalWhile]
  rfl
@[src] theorem evalFor_nil (x : String) (body : Expr) : evalFor P C x [] body σ = some (.ok .unit σ) := by
  rw [evalFor]
  rfl
@[src] theorem evalFor_cons (x : String) (v : Val) (vs : List Val) (body : Expr) : evalFor P C x (v :: vs) body σ =
    loopR (evalFor P C x vs body) (closeR σ.length (eval P C body ((x, v) :: σ))) := by
  rw [evalFor, afterBody_apply, inScope_apply]
  rfl

theorem callFn_apply (f : Fn) (vs : List Val) : callFn P f vs σ =
    callR f.fn.params σ (eval P ⟨f.owner, f.trait, f.fn.ret⟩ f.fn.body ((f.fn.params.map (·.1)).zip vs)) := by
  rw [callFn, called_apply]

@[src] theorem applyVal_closure (params : List Pat) (body : Expr) (env : List (String × Val)) (ctx : Ctx) (vs : List Val) :
    applyVal P C (.closure params body env ctx) vs σ =
      match matchPats P ctx params vs with
      | some new => closureR σ (eval P ctx body (new ++ env))
      | none => some (.ctl .stuck σ) := by
  rw [applyVal]
  cases matchPats P ctx params vs with
  | none => rfl
  | some new => exact calledIn_apply _ _
@[src] theorem applyVal_fn (owner : List String) (name : String) (vs : List Val) :
    applyVal P C (.fn owner name) vs σ = bindR (callPath P C owner name vs σ) fun r => pure r.1 := by
  rw [applyVal]
  rfl

/-! ## Variables, places, operators, `core` -/

@[src] theorem lookup_cons_eq {α : Type} (x : String) (v : α) (τ : List (String × α)) : ((x, v) :: τ).lookup x = some v := by
  simp
theorem lookup_cons_ne {α : Type} (x y : String) (h : (x == y) = false) (v : α) (τ : List (String × α)) : ((y, v) :: τ).lookup x = τ.lookup x := by
  simp [List.lookup_cons, h]
@[src] theorem lookup_nil {α : Type} (x : String) : ([] : List (String × α)).lookup x = none := rfl
@[src] theorem setField_cons_eq (x : String) (v w : Val) (τ : List (String × Val)) : setField x w ((x, v) :: τ) = (x, w) :: τ := by
  simp [setField]
theorem setField_cons_ne (x y : String) (h : (x == y) = false) (v w : Val) (τ : List (String × Val)) :
    setField x w ((y, v) :: τ) = (y, v) :: setField x w τ := by
  simp only [beq_eq_false_iff_ne] at h
  simp [setField, Ne.symm h]

@[src] theorem setVar_apply (x : String) (v : Val) : setVar x v σ = some (.ok () (setField x v σ)) := rfl
@[src] theorem varVal_apply (x : String) : varVal x σ = litR (σ.lookup x) σ := by
  unfold varVal
  rw [bind_apply, env_apply, bindR_ok]
  cases σ.lookup x <;> rfl
@[src] theorem readPlace_var (x : String) : readPlace (.path [x]) σ = litR (σ.lookup x) σ := by
  rw [readPlace, varVal_apply]
@[src] theorem readPlace_field (e : Expr) (f : String) : readPlace (.field e f) σ = bindR (readPlace e σ) fun v => fieldVal v f := by
  rw [readPlace]
  rfl
@[src] theorem assignPlace_var (x : String) (v : Val) : assignPlace (.path [x]) v σ = some (.ok () (setField x v σ)) := by
  rw [assignPlace]
  rfl
/-- Assignment to a field of a value at a place. -/
def assignField (e : Expr) (f : String) (v : Val) (w : Val) : M Unit :=
  match w with
  | .struct ty fs => assignPlace e (.struct ty (setField f v fs))
  | _ => M.stuck
@[src] theorem assignField_apply (e : Expr) (f : String) (v : Val) (ty : List String) (fs : List (String × Val)) :
    assignField e f v (.struct ty fs) σ = assignPlace e (.struct ty (setField f v fs)) σ := rfl
@[src] theorem assignPlace_field (e : Expr) (f : String) (v : Val) :
    assignPlace (.field e f) v σ = bindR (readPlace e σ) (assignField e f v) := by
  rw [assignPlace]
  rfl

@[src] theorem writeBack_nil (es : List Expr) : writeBack es [] σ = some (.ok () σ) := by
  cases es <;> rfl
@[src] theorem writeBack_nil' (ws : List (Option Val)) : writeBack [] ws σ = some (.ok () σ) := rfl
@[src] theorem writeBack_none (e : Expr) (es : List Expr) (ws : List (Option Val)) : writeBack (e :: es) (none :: ws) σ = writeBack es ws σ := rfl
@[src] theorem writeBack_var (x : String) (es : List Expr) (v : Val) (ws : List (Option Val)) :
    writeBack (.path [x] :: es) (some v :: ws) σ = writeBack es ws (setField x v σ) := rfl
@[src] theorem writeBack_method (r : Expr) (m : String) (as : List Expr) (es : List Expr) (v : Val) (ws : List (Option Val)) :
    writeBack (.method r m as :: es) (some v :: ws) σ = writeBack es ws σ := rfl

@[src] theorem fieldVal_struct (ty : List String) (fs : List (String × Val)) (f : String) :
    fieldVal (.struct ty fs) f σ = litR (fs.lookup f) σ := by
  simp only [fieldVal]
  cases fs.lookup f <;> rfl
@[src] theorem fieldVal_zero (ty : List String) (x : String) (w : Val) : fieldVal (.ctor ty x [w]) "0" σ = some (.ok w σ) := rfl
@[src] theorem fieldVal_end (a b : Nat) : fieldVal (.range a b) "end" σ = some (.ok (.usize b) σ) := rfl

@[src] theorem indexVal_bytes (s : List UInt8) (n : Nat) : indexVal (.bytes s) (.usize n) σ = lift .u8 (Langtag.Model.index s n) σ := by
  rw [indexVal, bind_apply, ofRust_apply, bindR_lift_pure]
  rfl
@[src] theorem indexVal_range (s : List UInt8) (a b : Nat) :
    indexVal (.str s) (.range a b) σ = lift .str (Langtag.Model.sliceRange s a b) σ := by
  rw [indexVal, bind_apply, ofRust_apply, bindR_lift_pure]
  rfl
@[src] theorem indexVal_rangeFrom (s : List UInt8) (a : Nat) : indexVal (.str s) (.rangeFrom a) σ = lift .str (Langtag.Model.sliceFrom s a) σ := by
  rw [indexVal, bind_apply, ofRust_apply, bindR_lift_pure]
  rfl
@[src] theorem indexVal_rangeTo (s : List UInt8) (b : Nat) :
    indexVal (.str s) (.rangeTo b) σ = lift .str (Langtag.Model.sliceRange s 0 b) σ := by
  rw [indexVal, bind_apply, ofRust_apply, bindR_lift_pure]
  rfl

@[src] theorem castVal_char (c : Char) : castVal (.char c) (.path ["u32"] []) σ = some (.ok (.u32 c.toNat) σ) := rfl
@[src] theorem castVal_u8 (n : UInt8) : castVal (.u8 n) (.path ["u32"] []) σ = some (.ok (.u32 n.toNat) σ) := rfl
@[src] theorem castVal_u32 (n : Nat) : castVal (.u32 n) (.path ["u8"] []) σ = some (.ok (.u8 (UInt8.ofNat n)) σ) := rfl
@[src] theorem castVal_toChar (n : UInt8) : castVal (.u8 n) (.path ["char"] []) σ = some (.ok (.char (Char.ofNat n.toNat)) σ) := rfl

theorem decide_beq (m n : Nat) : (m == n) = decide (m = n) := rfl
@[src] theorem eq_usize (m n : Nat) : binVal P .eq (.usize m) (.usize n) σ = some (.ok (.bool (decide (m = n))) σ) := rfl
@[src] theorem ne_usize (m n : Nat) : binVal P .ne (.usize m) (.usize n) σ = some (.ok (.bool (decide (m ≠ n))) σ) := by
  simp only [binVal, natOf]
  rw [show (m != n) = decide (m ≠ n) by simp only [bne, decide_beq, decide_not, ne_eq]]
  rfl
@[src] theorem lt_usize (m n : Nat) : binVal P .lt (.usize m) (.usize n) σ = some (.ok (.bool (decide (m < n))) σ) := rfl
@[src] theorem le_usize (m n : Nat) : binVal P .le (.usize m) (.usize n) σ = some (.ok (.bool (decide (m ≤ n))) σ) := rfl
@[src] theorem gt_usize (m n : Nat) : binVal P .gt (.usize m) (.usize n) σ = some (.ok (.bool (decide (m > n))) σ) := rfl
@[src] theorem lt_u32 (m n : Nat) : binVal P .lt (.u32 m) (.u32 n) σ = some (.ok (.bool (decide (m < n))) σ) := rfl
@[src] theorem eq_u32 (m n : Nat) : binVal P .eq (.u32 m) (.u32 n) σ = some (.ok (.bool (decide (m = n))) σ) := rfl
theorem beq_u8 (m n : UInt8) : (m.toNat == n.toNat) = decide (m = n) := by
  rw [decide_beq]
  exact decide_eq_decide.mpr UInt8.toNat_inj
@[src] theorem eq_u8 (m n : UInt8) : binVal P .eq (.u8 m) (.u8 n) σ = some (.ok (.bool (decide (m = n))) σ) := by
  simp only [binVal, natOf, beq_u8]
  rfl
@[src] theorem ne_u8 (m n : UInt8) : binVal P .ne (.u8 m) (.u8 n) σ = some (.ok (.bool (decide (m ≠ n))) σ) := by
  simp only [binVal, natOf]
  rw [show (m.toNat != n.toNat) = decide (m ≠ n) by simp only [bne, beq_u8, decide_not, ne_eq]]
  rfl

theorem callMethod_fn {v : Val} {m : String} {vs : List Val} {f : Fn} (h : methodOf P v m vs = some f) :
    callMethod P C v m vs σ = callFn P f (v :: vs) σ := by
  rw [callMethod.eq_def, h]
theorem callPath_fn {owner : List String} {name : String} {vs : List Val} {f : Fn} (h : P.lookup owner name vs = some f) :
    callPath P C owner name vs σ = callFn P f vs σ := by
  rw [callPath, h]

section
variable {r : Val × List (Option Val)}

theorem core_eq {v : Val} {m : String} {vs : List Val} (h1 : methodOf P v m vs = none) (h2 : higherOrder v m = none)
    (h3 : m ≠ "try_into") : callMethod P C v m vs σ = coreMethod P C v m vs σ := by
  rw [callMethod.eq_def, h1]
  simp only [h2]
  split
  · exact absurd rfl h3
  · rfl
end

end Langtag.Source
