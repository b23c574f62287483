import Verif.Source.Counted.Attr
import Verif.Source.Counted.Semantics
import Verif.Source.Core
import Verif.Model.Timed

/-!
# Executing programs by rewriting, counting

The equations of the counting evaluator, applied to the variables, as rules for `simp only [cnt]`.
-/

set_option autoImplicit false

namespace Langtag.Source.Counted
open Langtag.Model (Panic Rust Timed)

variable {P : Program} {C : Ctx} {σ : Env}

/-! ## What is counted -/

theorem addTicks_zero {α : Type} (o : Out α) : addTicks 0 o = o := by
  rcases o with _ | ⟨r, n⟩
  · rfl
  · simp [addTicks]
@[cnt] theorem addTicks_addTicks {α : Type} (m n : Nat) (o : Out α) : addTicks m (addTicks n o) = addTicks (m + n) o := by
  rcases o with _ | ⟨r, k⟩
  · rfl
  · simp [addTicks, Nat.add_assoc]
@[cnt] theorem addTicks_zero' {α : Type} (o : Out α) : addTicks 0 o = o := addTicks_zero o
theorem addTicks_ite {α : Type} {c : Prop} [Decidable c] (n : Nat) (x y : Out α) :
    addTicks n (if c then x else y) = if c then addTicks n x else addTicks n y := by split <;> rfl
theorem addTicks_fin {α : Type} (n : Nat) (r : Res α) : addTicks n (fin r) = some (r, n) := by simp [addTicks, fin]

@[cnt] theorem free_apply {α : Type} (x : Source.M α) : free x σ = freeR (x σ) := rfl
@[cnt] theorem freeR_some {α : Type} (r : Res α) : freeR (some r) = fin r := rfl
@[cnt] theorem freeR_ite {α : Type} {c : Prop} [Decidable c] (x y : Option (Res α)) :
    freeR (if c then x else y) = if c then freeR x else freeR y := by split <;> rfl
@[cnt] theorem tick_apply {α : Type} (n : Nat) (x : M α) : tick n x σ = addTicks n (x σ) := rfl

/-- What follows a computation. -/
def bindR {α β : Type} (r : Out α) (f : α → M β) : Out β :=
  r.bind fun
    | (.ok a σ, n) => addTicks n (f a σ)
    | (.ctl c σ, n) => some (.ctl c σ, n)

@[congr] theorem bindR_congr {α β : Type} {r r' : Out α} {f : α → M β} (h : r = r') : bindR r f = bindR r' f := by rw [h]

@[cnt] theorem bind_apply {α β : Type} (x : M α) (f : α → M β) : (x >>= f) σ = bindR (x σ) f := rfl
@[cnt] theorem map_apply {α β : Type} (x : M α) (f : α → β) : (f <$> x) σ = bindR (x σ) fun a => pure (f a) := rfl
@[cnt] theorem pure_apply {α : Type} (a : α) : (pure a : M α) σ = fin (.ok a σ) := rfl
@[cnt] theorem bindR_ok {α β : Type} (a : α) (f : α → M β) : bindR (fin (.ok a σ)) f = f a σ := addTicks_zero _
@[cnt] theorem bindR_ctl {α β : Type} (c : Ctl) (f : α → M β) : bindR (fin (.ctl c σ)) f = fin (.ctl c σ) := rfl
@[cnt] theorem bindR_ite {α β : Type} {c : Prop} [Decidable c] (x y : Out α) (f : α → M β) :
    bindR (if c then x else y) f = if c then bindR x f else bindR y f := by split <;> rfl
@[cnt] theorem bindR_ticks {α β : Type} (n : Nat) (x : Out α) (f : α → M β) : bindR (addTicks n x) f = addTicks n (bindR x f) := by
  rcases x with _ | ⟨_ | _, m⟩
  · rfl
  · simp only [bindR, addTicks, Option.bind_some]
    exact (addTicks_addTicks n m _).symm
  · rfl
@[cnt] theorem bindR_bindR {α β γ : Type} (r : Out α) (f : α → M β) (g : β → M γ) :
    bindR (bindR r f) g = bindR r fun a => f a >>= g := by
  rcases r with _ | ⟨_ | _, n⟩
  · rfl
  · exact bindR_ticks _ _ _
  · rfl

@[cnt] theorem stuck_apply {α : Type} : (M.stuck : M α) σ = fin (.ctl .stuck σ) := rfl
@[cnt] theorem throw_apply {α : Type} (c : Ctl) : (M.throw c : M α) σ = fin (.ctl c σ) := rfl
@[cnt] theorem env_apply : M.env σ = fin (.ok σ σ) := rfl
@[cnt] theorem setEnv_apply (τ : Env) : M.setEnv τ σ = fin (.ok () τ) := rfl

/-! ## The model's side -/

/-- The result of a counting function of the model, as the end of a computation. -/
def liftT {α β : Type} (k : α → β) (t : Timed α) (σ : Env) : Out β := addTicks t.steps (freeR (lift k t.result σ))

@[cnt] theorem liftT_ok {α β : Type} (k : α → β) (a : α) (n : Nat) : liftT k ⟨.ok a, n⟩ σ = addTicks n (fin (.ok (k a) σ)) := rfl
@[cnt] theorem liftT_error {α β : Type} (k : α → β) (p : Panic) (n : Nat) : liftT k ⟨.error p, n⟩ σ = addTicks n (fin (.ctl (.panic p) σ)) := rfl
@[cnt] theorem liftT_pure {α β : Type} (k : α → β) (a : α) : liftT k (pure a) σ = fin (.ok (k a) σ) := rfl
@[cnt] theorem liftT_rust {α β : Type} (k : α → β) (r : Rust α) : liftT k (liftM r) σ = freeR (lift k r σ) := by
  rcases r with _ | _ <;> rfl
@[cnt] theorem timed_ok_bind {α β γ : Type} (k : β → γ) (a : α) (n : Nat) (f : α → Timed β) :
    liftT k ((⟨.ok a, n⟩ : Timed α) >>= f) σ = addTicks n (liftT k (f a) σ) := (addTicks_addTicks ..).symm
@[cnt] theorem timed_error_bind {α β γ : Type} (k : β → γ) (p : Panic) (n : Nat) (f : α → Timed β) :
    liftT k ((⟨.error p, n⟩ : Timed α) >>= f) σ = addTicks n (fin (.ctl (.panic p) σ)) := rfl
@[cnt] theorem timed_liftM_ok {α β γ : Type} (k : β → γ) (a : α) (f : α → Timed β) :
    liftT k ((liftM (.ok a : Rust α) : Timed α) >>= f) σ = liftT k (f a) σ := (timed_ok_bind k a 0 f).trans (addTicks_zero _)
@[cnt] theorem timed_liftM_error {α β γ : Type} (k : β → γ) (p : Panic) (f : α → Timed β) :
    liftT k ((liftM (.error p : Rust α) : Timed α) >>= f) σ = fin (.ctl (.panic p) σ) := rfl
@[cnt] theorem timed_pure_bind {α β γ : Type} (k : β → γ) (a : α) (f : α → Timed β) :
    liftT k ((pure a : Timed α) >>= f) σ = liftT k (f a) σ := (timed_ok_bind k a 0 f).trans (addTicks_zero _)
@[cnt] theorem timed_tick_bind {β γ : Type} (k : β → γ) (f : Unit → Timed β) :
    liftT k (Timed.tick >>= f) σ = addTicks 1 (liftT k (f ()) σ) := timed_ok_bind k () 1 f
@[cnt] theorem liftT_ite {α β : Type} {c : Prop} [Decidable c] (k : α → β) (x y : Timed α) :
    liftT k (if c then x else y) σ = if c then liftT k x σ else liftT k y σ := by split <;> rfl
@[cnt] theorem timed_ite_bind {α β : Type} {c : Prop} [Decidable c] (x y : Timed α) (f : α → Timed β) :
    ((if c then x else y) >>= f) = if c then x >>= f else y >>= f := by split <;> rfl

/-! ## Scopes and calls -/

/-- The end of a scope. -/
def closeR {α : Type} (n : Nat) (r : Out α) : Out α := r.map fun (r, k) => (closeScope n r, k)

@[cnt] theorem inScope_apply {α : Type} (new : Env) (x : M α) : inScope new x σ = closeR σ.length (x (new ++ σ)) := by
  unfold inScope closeR
  cases x (new ++ σ) <;> rfl
@[cnt] theorem closeR_ok {α : Type} (n : Nat) (a : α) : closeR n (fin (.ok a σ)) = fin (.ok a (σ.drop (σ.length - n))) := rfl
@[cnt] theorem closeR_ctl {α : Type} (n : Nat) (c : Ctl) : closeR (α := α) n (fin (.ctl c σ)) = fin (.ctl c (σ.drop (σ.length - n))) := rfl
@[cnt] theorem closeR_ite {α : Type} {c : Prop} [Decidable c] (n : Nat) (x y : Out α) :
    closeR n (if c then x else y) = if c then closeR n x else closeR n y := by split <;> rfl
@[cnt] theorem closeR_ticks {α : Type} (n k : Nat) (x : Out α) : closeR n (addTicks k x) = addTicks k (closeR n x) := by
  rcases x with _ | ⟨_, m⟩ <;> rfl

/-- The end of a call. -/
def callR (params : List (String × Ty)) (σ : Env) (r : Out Val) : Out (Val × List (Option Val)) := r.map fun (r, k) => (closeCall params σ r, k)

@[cnt] theorem called_apply (params : List (String × Ty)) (vs : List Val) (x : M Val) :
    called params vs x σ = callR params σ (x ((params.map (·.1)).zip vs)) := by
  unfold called callR
  cases x ((params.map (·.1)).zip vs) <;> rfl
@[cnt] theorem callR_ok (ps : List (String × Ty)) (τ : Env) (v : Val) : callR ps σ (fin (.ok v τ)) = fin (.ok (v, finals ps τ) σ) := rfl
@[cnt] theorem callR_ret (ps : List (String × Ty)) (τ : Env) (v : Val) : callR ps σ (fin (.ctl (.ret v) τ)) = fin (.ok (v, finals ps τ) σ) := rfl
@[cnt] theorem callR_panic (ps : List (String × Ty)) (τ : Env) (p : Panic) : callR ps σ (fin (.ctl (.panic p) τ)) = fin (.ctl (.panic p) σ) := rfl
@[cnt] theorem callR_ite {c : Prop} [Decidable c] (ps : List (String × Ty)) (x y : Out Val) :
    callR ps σ (if c then x else y) = if c then callR ps σ x else callR ps σ y := by split <;> rfl
@[cnt] theorem callR_ticks (ps : List (String × Ty)) (k : Nat) (x : Out Val) : callR ps σ (addTicks k x) = addTicks k (callR ps σ x) := by
  rcases x with _ | ⟨_, m⟩ <;> rfl

/-- The end of a call of a closure. -/
def closureR (σ : Env) (r : Out Val) : Out Val := r.map fun (r, k) => (closeClosure σ r, k)

@[cnt] theorem calledIn_apply (new : Env) (x : M Val) : calledIn new x σ = closureR σ (x new) := by
  unfold calledIn closureR
  cases x new <;> rfl
@[cnt] theorem closureR_ok (τ : Env) (v : Val) : closureR σ (fin (.ok v τ)) = fin (.ok v σ) := rfl
@[cnt] theorem closureR_ret (τ : Env) (v : Val) : closureR σ (fin (.ctl (.ret v) τ)) = fin (.ok v σ) := rfl
@[cnt] theorem closureR_panic (τ : Env) (p : Panic) : closureR σ (fin (.ctl (.panic p) τ)) = fin (.ctl (.panic p) σ) := rfl
@[cnt] theorem closureR_ite {c : Prop} [Decidable c] (x y : Out Val) :
    closureR σ (if c then x else y) = if c then closureR σ x else closureR σ y := by split <;> rfl
@[cnt] theorem closureR_ticks (k : Nat) (x : Out Val) : closureR σ (addTicks k x) = addTicks k (closureR σ x) := by
  rcases x with _ | ⟨_, m⟩ <;> rfl

/-- What a loop does after its body. -/
def loopR (again : M Val) (r : Out Val) : Out Val :=
  r.bind fun
    | (.ok _ σ, n) => addTicks (n + 1) (again σ)
    | (.ctl (.brk v) σ, n) => some (.ok v σ, n + 1)
    | (.ctl c σ, n) => some (.ctl c σ, n + 1)

@[cnt] theorem afterBody_apply (again body : M Val) : afterBody again body σ = loopR again (body σ) := rfl
@[cnt] theorem loopR_ok (again : M Val) (v : Val) : loopR again (fin (.ok v σ)) = addTicks 1 (again σ) := rfl
@[cnt] theorem loopR_brk (again : M Val) (v : Val) : loopR again (fin (.ctl (.brk v) σ)) = addTicks 1 (fin (.ok v σ)) := rfl
@[cnt] theorem loopR_ret (again : M Val) (v : Val) : loopR again (fin (.ctl (.ret v) σ)) = addTicks 1 (fin (.ctl (.ret v) σ)) := rfl
@[cnt] theorem loopR_panic (again : M Val) (p : Panic) : loopR again (fin (.ctl (.panic p) σ)) = addTicks 1 (fin (.ctl (.panic p) σ)) := rfl
@[cnt] theorem loopR_ite {c : Prop} [Decidable c] (again : M Val) (x y : Out Val) :
    loopR again (if c then x else y) = if c then loopR again x else loopR again y := by split <;> rfl
@[cnt] theorem loopR_ticks (again : M Val) (k : Nat) (x : Out Val) : loopR again (addTicks k x) = addTicks k (loopR again x) := by
  rcases x with _ | ⟨_ | ⟨c, _⟩, m⟩
  · rfl
  · simp only [loopR, addTicks, Option.bind_some]
    exact (addTicks_addTicks k (m + 1) _).symm
  · cases c <;> rfl
@[congr] theorem loopR_congr {again : M Val} {r r' : Out Val} (h : r = r') : loopR again r = loopR again r' := by rw [h]

/-! ## Expressions -/

/-- The value of a literal. -/
def litR (v : Option Val) (σ : Env) : Out Val :=
  match v with
  | some v => fin (.ok v σ)
  | none => fin (.ctl .stuck σ)
@[cnt] theorem litR_some (v : Val) : litR (some v) σ = fin (.ok v σ) := rfl
@[cnt] theorem eval_lit (l : Lit) : eval P C (.lit l) σ = litR (litVal l) σ := by
  rw [eval]
  cases litVal l <;> rfl

/-- A variable if there is one, something else if not. -/
def orVar (v : Option Val) (other : M Val) (σ : Env) : Out Val :=
  match v with
  | some v => fin (.ok v σ)
  | none => other σ
@[cnt] theorem orVar_some (v : Val) (other : M Val) : orVar (some v) other σ = fin (.ok v σ) := rfl
@[cnt] theorem orVar_none (other : M Val) : orVar none other σ = other σ := rfl
@[congr] theorem orVar_congr {v v' : Option Val} {other : M Val} (h : v = v') : orVar v other σ = orVar v' other σ := by rw [h]

/-- A path that is not a variable. -/
def evalGlobal (P : Program) (C : Ctx) (segs : List String) : M Val :=
  match ctorOf P C segs with
  | some (ty, x) => pure (.ctor ty x [])
  | none =>
    if segs = ["u8", "MAX"] then pure (.u8 255)
    else
      match P.consts.find? fun (o, x, _) => o = (memberOf P C segs).1 && x = (memberOf P C segs).2 with
      | some (o, _, e) => calledIn [] (eval P ⟨o, "", .tuple []⟩ e)
      | none => pure (.fn (memberOf P C segs).1 (memberOf P C segs).2)

@[cnt] theorem eval_var (x : String) : eval P C (.path [x]) σ = orVar (σ.lookup x) (evalGlobal P C [x]) σ := by
  rw [eval, evalPath, bind_apply, env_apply, bindR_ok]
  simp only [List.getLast?_singleton, Option.getD_some]
  cases σ.lookup x <;> rfl
@[cnt] theorem eval_path (x y : String) (segs : List String) : eval P C (.path (x :: y :: segs)) σ = evalGlobal P C (x :: y :: segs) σ := by
  rw [eval, evalPath, bind_apply, env_apply, bindR_ok]
  rfl

/-- A call of a path that is not a variable. -/
def callGlobal (P : Program) (C : Ctx) (segs : List String) (args : List Expr) (vs : List Val) : M Val :=
  match ctorOf P C segs with
  | some (ty, x) => pure (.ctor ty x vs)
  | none => do
    let (v, ws) ← callPath P C (memberOf P C segs).1 (memberOf P C segs).2 vs
    free (writeBack args ws)
    pure v

/-- A call of a variable if there is one, something else if not. -/
def orCall (P : Program) (C : Ctx) (vs : List Val) (g : Option Val) (other : M Val) (σ : Env) : Out Val :=
  match g with
  | some g => applyVal P C g vs σ
  | none => other σ
@[cnt] theorem orCall_some (vs : List Val) (g : Val) (other : M Val) : orCall P C vs (some g) other σ = applyVal P C g vs σ := rfl
@[cnt] theorem orCall_none (vs : List Val) (other : M Val) : orCall P C vs none other σ = other σ := rfl
@[congr] theorem orCall_congr {vs : List Val} {g g' : Option Val} {other : M Val} (h : g = g') :
    orCall P C vs g other σ = orCall P C vs g' other σ := by rw [h]

@[cnt] theorem eval_call_var (x : String) (args : List Expr) : eval P C (.call (.path [x]) args) σ =
    bindR (evalList P C args σ) fun vs σ => orCall P C vs (σ.lookup x) (callGlobal P C [x] args vs) σ := by
  rw [eval, bind_apply]
  congr 1
  funext vs σ
  rw [bind_apply, env_apply, bindR_ok]
  simp only [List.getLast?_singleton, Option.getD_some]
  cases σ.lookup x <;> rfl
@[cnt] theorem eval_call_path (x y : String) (segs : List String) (args : List Expr) : eval P C (.call (.path (x :: y :: segs)) args) σ =
    bindR (evalList P C args σ) fun vs σ => callGlobal P C (x :: y :: segs) args vs σ := by
  rw [eval, bind_apply]
  congr 1
  funext vs σ
  rw [bind_apply, env_apply, bindR_ok]
  rfl

@[cnt] theorem eval_method (recv : Expr) (m : String) (args : List Expr) : eval P C (.method recv m args) σ =
    bindR (eval P C recv σ) fun v => evalList P C args >>= fun vs => callMethod P C v m vs >>= fun r => free (writeBack (recv :: args) r.2) >>= fun _ => pure r.1 := by
  rw [eval]
  rfl

@[cnt] theorem eval_field (e : Expr) (f : String) : eval P C (.field e f) σ = bindR (eval P C e σ) fun v => free (fieldVal v f) := by
  rw [eval]
  rfl

@[cnt] theorem eval_index (e i : Expr) : eval P C (.index e i) σ = bindR (eval P C e σ) fun v => eval P C i >>= fun n => free (indexVal v n) := by
  rw [eval]
  rfl

/-- `a..b` of values. -/
def mkRange (a b : Val) : M Val :=
  match a, b with
  | .usize a, .usize b => pure (.range a b)
  | _, _ => M.stuck
/-- `a..` of a value. -/
def mkRangeFrom (a : Val) : M Val :=
  match a with
  | .usize a => pure (.rangeFrom a)
  | _ => M.stuck
/-- `..b` of a value. -/
def mkRangeTo (b : Val) : M Val :=
  match b with
  | .usize b => pure (.rangeTo b)
  | _ => M.stuck
@[cnt] theorem mkRange_apply (a b : Nat) : mkRange (.usize a) (.usize b) σ = fin (.ok (.range a b) σ) := rfl
@[cnt] theorem mkRangeFrom_apply (a : Nat) : mkRangeFrom (.usize a) σ = fin (.ok (.rangeFrom a) σ) := rfl
@[cnt] theorem mkRangeTo_apply (b : Nat) : mkRangeTo (.usize b) σ = fin (.ok (.rangeTo b) σ) := rfl
@[cnt] theorem eval_range (lo hi : Expr) : eval P C (.range lo hi) σ = bindR (eval P C lo σ) fun a => eval P C hi >>= fun b => mkRange a b := by
  rw [eval]
  rfl
@[cnt] theorem eval_rangeFrom (lo : Expr) : eval P C (.rangeFrom lo) σ = bindR (eval P C lo σ) mkRangeFrom := by
  rw [eval]
  rfl
@[cnt] theorem eval_rangeTo (hi : Expr) : eval P C (.rangeTo hi) σ = bindR (eval P C hi σ) mkRangeTo := by
  rw [eval]
  rfl

@[cnt] theorem eval_ref (m : Bool) (e : Expr) : eval P C (.ref m e) σ = eval P C e σ := by rw [eval]
@[cnt] theorem eval_deref (e : Expr) : eval P C (.deref e) σ = eval P C e σ := by rw [eval]

/-- `!v` -/
def notVal (v : Val) : M Val :=
  match v with
  | .bool b => pure (.bool (!b))
  | _ => M.stuck
@[cnt] theorem notVal_apply (b : Bool) : notVal (.bool b) σ = fin (.ok (.bool (!b)) σ) := rfl
@[cnt] theorem eval_not (e : Expr) : eval P C (.not e) σ = bindR (eval P C e σ) notVal := by
  rw [eval]
  rfl

/-- `v && e` -/
def andK (P : Program) (C : Ctx) (b : Expr) (v : Val) : M Val :=
  match v with
  | .bool true => eval P C b
  | .bool false => pure (.bool false)
  | _ => M.stuck
/-- `v || e` -/
def orK (P : Program) (C : Ctx) (b : Expr) (v : Val) : M Val :=
  match v with
  | .bool true => pure (.bool true)
  | .bool false => eval P C b
  | _ => M.stuck
@[cnt] theorem andK_apply (e : Expr) (b : Bool) : andK P C e (.bool b) σ = if b = true then eval P C e σ else fin (.ok (.bool false) σ) := by
  cases b <;> rfl
@[cnt] theorem orK_apply (e : Expr) (b : Bool) : orK P C e (.bool b) σ = if b = true then fin (.ok (.bool true) σ) else eval P C e σ := by
  cases b <;> rfl
@[cnt] theorem eval_and (a b : Expr) : eval P C (.bin .and a b) σ = bindR (eval P C a σ) (andK P C b) := by
  rw [eval]
  rfl
@[cnt] theorem eval_or (a b : Expr) : eval P C (.bin .or a b) σ = bindR (eval P C a σ) (orK P C b) := by
  rw [eval]
  rfl
theorem eval_bin (op : BinOp) (h : op ≠ .and ∧ op ≠ .or) (a b : Expr) :
    eval P C (.bin op a b) σ = bindR (eval P C a σ) fun x => eval P C b >>= fun y => free (binVal P op x y) := by
  cases op <;> first | exact absurd rfl h.1 | exact absurd rfl h.2 | (rw [eval] <;> first | rfl | nofun)
@[cnt] theorem eval_add (a b : Expr) : eval P C (.bin .add a b) σ = bindR (eval P C a σ) fun x => eval P C b >>= fun y => free (binVal P .add x y) := eval_bin _ (by decide) _ _
@[cnt] theorem eval_sub (a b : Expr) : eval P C (.bin .sub a b) σ = bindR (eval P C a σ) fun x => eval P C b >>= fun y => free (binVal P .sub x y) := eval_bin _ (by decide) _ _
@[cnt] theorem eval_eq (a b : Expr) : eval P C (.bin .eq a b) σ = bindR (eval P C a σ) fun x => eval P C b >>= fun y => free (binVal P .eq x y) := eval_bin _ (by decide) _ _
@[cnt] theorem eval_ne (a b : Expr) : eval P C (.bin .ne a b) σ = bindR (eval P C a σ) fun x => eval P C b >>= fun y => free (binVal P .ne x y) := eval_bin _ (by decide) _ _
@[cnt] theorem eval_lt (a b : Expr) : eval P C (.bin .lt a b) σ = bindR (eval P C a σ) fun x => eval P C b >>= fun y => free (binVal P .lt x y) := eval_bin _ (by decide) _ _
@[cnt] theorem eval_le (a b : Expr) : eval P C (.bin .le a b) σ = bindR (eval P C a σ) fun x => eval P C b >>= fun y => free (binVal P .le x y) := eval_bin _ (by decide) _ _
@[cnt] theorem eval_gt (a b : Expr) : eval P C (.bin .gt a b) σ = bindR (eval P C a σ) fun x => eval P C b >>= fun y => free (binVal P .gt x y) := eval_bin _ (by decide) _ _

@[cnt] theorem eval_cast (e : Expr) (t : Ty) : eval P C (.cast e t) σ = bindR (eval P C e σ) fun v => free (castVal v t) := by
  rw [eval]
  rfl

/-- `if v { t } else { e }` -/
def iteK (P : Program) (C : Ctx) (t e : Expr) (v : Val) : M Val :=
  match v with
  | .bool true => eval P C t
  | .bool false => eval P C e
  | _ => M.stuck
@[cnt] theorem iteK_apply (t e : Expr) (b : Bool) : iteK P C t e (.bool b) σ = if b = true then eval P C t σ else eval P C e σ := by
  cases b <;> rfl
@[cnt] theorem eval_ite (c t e : Expr) : eval P C (.ite c t e) σ = bindR (eval P C c σ) (iteK P C t e) := by
  rw [eval]
  rfl

@[cnt] theorem eval_match (e : Expr) (arms : List Arm) : eval P C (.match e arms) σ = bindR (eval P C e σ) fun v => evalArms P C v arms := by
  rw [eval]
  rfl
@[cnt] theorem eval_loop (body : Expr) : eval P C (.loop body) σ = evalLoop P C body σ := by rw [eval]
@[cnt] theorem eval_while (c body : Expr) : eval P C (.while c body) σ = evalWhile P C c body σ := by rw [eval]

/-- `for x in v { body }` -/
def forK (P : Program) (C : Ctx) (x : String) (body : Expr) (v : Val) : M Val :=
  match iterate v with
  | some vs => evalFor P C x vs body
  | none => M.stuck
@[cnt] theorem forK_range (x : String) (body : Expr) (a b : Nat) :
    forK P C x body (.range a b) σ = evalFor P C x ((List.range' a (b - a)).map .usize) body σ := rfl
@[cnt] theorem forK_bytes (x : String) (body : Expr) (s : List UInt8) : forK P C x body (.bytes s) σ = evalFor P C x (s.map .u8) body σ := rfl
@[cnt] theorem forK_array (x : String) (body : Expr) (vs : List Val) : forK P C x body (.array vs) σ = evalFor P C x vs body σ := rfl
@[cnt] theorem eval_for (x : String) (e body : Expr) : eval P C (.for x e body) σ = bindR (eval P C e σ) (forK P C x body) := by
  rw [eval]
  rfl

@[cnt] theorem eval_break (e : Expr) : eval P C (.break e) σ = bindR (eval P C e σ) fun v => M.throw (.brk v) := by
  rw [eval]
  rfl
@[cnt] theorem eval_return (e : Expr) : eval P C (.return e) σ = bindR (eval P C e σ) fun v => M.throw (.ret v) := by
  rw [eval]
  rfl
@[cnt] theorem eval_block (stmts : List Stmt) (last : Expr) : eval P C (.block stmts last) σ = closeR σ.length (evalBlock P C stmts last σ) := by
  rw [eval, inScope_apply]
  rfl
@[cnt] theorem eval_closure (params : List Pat) (body : Expr) : eval P C (.closure params body) σ = fin (.ok (.closure params body σ C) σ) := by
  rw [eval]
  rfl
@[cnt] theorem eval_struct (segs : List String) (fields : List Field) : eval P C (.struct segs fields) σ =
    bindR (evalFields P C fields σ) fun fs => pure (.struct (typePath P C segs) fs) := by
  rw [eval]
  rfl
@[cnt] theorem eval_assign (p e : Expr) : eval P C (.assign p e) σ =
    bindR (eval P C e σ) fun v => free (assignPlace p v) >>= fun _ => pure .unit := by
  rw [eval]
  rfl
@[cnt] theorem eval_opAssign (op : BinOp) (p e : Expr) : eval P C (.opAssign op p e) σ =
    bindR (eval P C e σ) fun v => free (readPlace p) >>= fun w => free (binVal P op w v) >>= fun r => free (assignPlace p r) >>= fun _ => pure .unit := by
  rw [eval]
  rfl
@[cnt] theorem eval_tuple (es : List Expr) : eval P C (.tuple es) σ = bindR (evalList P C es σ) fun vs => pure (.tuple vs) := by
  rw [eval]
  rfl
@[cnt] theorem eval_array (es : List Expr) : eval P C (.array es) σ = bindR (evalList P C es σ) fun vs => pure (.array vs) := by
  rw [eval]
  rfl
@[cnt] theorem eval_matches (e : Expr) (p : Pat) : eval P C (.matches e p) σ =
    bindR (eval P C e σ) fun v => pure (.bool (matchPat P C p v).isSome) := by
  rw [eval]
  rfl
@[cnt] theorem eval_panic : eval P C .panic σ = fin (.ctl (.panic .explicit) σ) := by
  rw [eval]
  rfl

@[cnt] theorem evalList_nil : evalList P C [] σ = fin (.ok [] σ) := by
  rw [evalList]
  rfl
@[cnt] theorem evalList_cons (e : Expr) (es : List Expr) : evalList P C (e :: es) σ =
    bindR (eval P C e σ) fun v => evalList P C es >>= fun vs => pure (v :: vs) := by
  rw [evalList]
  rfl
@[cnt] theorem evalFields_nil : evalFields P C [] σ = fin (.ok [] σ) := by
  rw [evalFields]
  rfl
@[cnt] theorem evalFields_cons (f : String) (e : Expr) (fs : List Field) : evalFields P C (.mk f e :: fs) σ =
    bindR (eval P C e σ) fun v => evalFields P C fs >>= fun vs => pure ((f, v) :: vs) := by
  rw [evalFields]
  rfl

/-- An arm of a `match`. -/
def armR (P : Program) (C : Ctx) (v : Val) (e : Expr) (arms : List Arm) (new : Option Env) (σ : Env) : Out Val :=
  match new with
  | some new => closeR σ.length (eval P C e (new ++ σ))
  | none => evalArms P C v arms σ
@[cnt] theorem armR_some (v : Val) (e : Expr) (arms : List Arm) (new : Env) :
    armR P C v e arms (some new) σ = closeR σ.length (eval P C e (new ++ σ)) := rfl
@[cnt] theorem armR_none (v : Val) (e : Expr) (arms : List Arm) : armR P C v e arms none σ = evalArms P C v arms σ := rfl
@[cnt] theorem armR_ite {c : Prop} [Decidable c] (v : Val) (e : Expr) (arms : List Arm) (x y : Option Env) :
    armR P C v e arms (if c then x else y) σ = if c then armR P C v e arms x σ else armR P C v e arms y σ := by split <;> rfl
@[cnt] theorem evalArms_cons (v : Val) (p : Pat) (e : Expr) (arms : List Arm) :
    evalArms P C v (.mk p e :: arms) σ = armR P C v e arms (matchPat P C p v) σ := by
  rw [evalArms]
  cases matchPat P C p v <;> simp only [armR, inScope_apply]

@[cnt] theorem evalBlock_nil (last : Expr) : evalBlock P C [] last σ = eval P C last σ := by rw [evalBlock]
@[cnt] theorem evalBlock_expr (e : Expr) (stmts : List Stmt) (last : Expr) : evalBlock P C (.expr e :: stmts) last σ =
    bindR (eval P C e σ) fun _ => evalBlock P C stmts last := by
  rw [evalBlock]
  rfl
/-- What follows a `let`. -/
def letR (P : Program) (C : Ctx) (stmts : List Stmt) (last : Expr) (new : Option Env) (σ : Env) : Out Val :=
  match new with
  | some new => evalBlock P C stmts last (new ++ σ)
  | none => fin (.ctl .stuck σ)
@[cnt] theorem letR_some (stmts : List Stmt) (last : Expr) (new : Env) :
    letR P C stmts last (some new) σ = evalBlock P C stmts last (new ++ σ) := rfl
@[cnt] theorem evalBlock_let (p : Pat) (e : Expr) (stmts : List Stmt) (last : Expr) : evalBlock P C (.let p e :: stmts) last σ =
    bindR (eval P C e σ) fun v σ => letR P C stmts last (matchPat P C p v) σ := by
  rw [evalBlock, bind_apply]
  congr 1
  funext v σ
  cases h : matchPat P C p v
  · rfl
  · simp only [letR, bind_apply, env_apply, setEnv_apply, bindR_ok]

theorem evalLoop_apply (body : Expr) : evalLoop P C body σ = loopR (evalLoop P C body) (eval P C body σ) := by
  conv => lhs; rw [evalLoop]
  rfl
/-- What follows the condition of a `while`. -/
def whileK (P : Program) (C : Ctx) (c body : Expr) (v : Val) : M Val :=
  match v with
  | .bool true => afterBody (evalWhile P C c body) (eval P C body)
  | .bool false => pure .unit
  | _ => M.stuck
@[cnt] theorem whileK_apply (c body : Expr) (b : Bool) : whileK P C c body (.bool b) σ =
    if b = true then loopR (evalWhile P C c body) (eval P C body σ) else fin (.ok .unit σ) := by
  cases b <;> rfl
theorem evalWhile_apply (c body : Expr) : evalWhile P C c body σ = bindR (eval P C c σ) (whileK P C c body) := by
  conv => lhs; rw [evalWhile]
  rfl
@[cnt] theorem evalFor_nil (x : String) (body : Expr) : evalFor P C x [] body σ = fin (.ok .unit σ) := by
  rw [evalFor]
  rfl
@[cnt] theorem evalFor_cons (x : String) (v : Val) (vs : List Val) (body : Expr) : evalFor P C x (v :: vs) body σ =
    loopR (evalFor P C x vs body) (closeR σ.length (eval P C body ((x, v) :: σ))) := by
  rw [evalFor, afterBody_apply, inScope_apply]
  rfl

theorem callFn_apply (f : Fn) (vs : List Val) : callFn P f vs σ =
    callR f.fn.params σ (eval P ⟨f.owner, f.trait, f.fn.ret⟩ f.fn.body ((f.fn.params.map (·.1)).zip vs)) := by
  rw [callFn, called_apply]

@[cnt] theorem applyVal_closure (params : List Pat) (body : Expr) (env : List (String × Val)) (ctx : Ctx) (vs : List Val) :
    applyVal P C (.closure params body env ctx) vs σ =
      match matchPats P ctx params vs with
      | some new => closureR σ (eval P ctx body (new ++ env))
      | none => fin (.ctl .stuck σ) := by
  rw [applyVal]
  cases matchPats P ctx params vs with
  | none => rfl
  | some new => exact calledIn_apply _ _
@[cnt] theorem applyVal_fn (owner : List String) (name : String) (vs : List Val) :
    applyVal P C (.fn owner name) vs σ = bindR (callPath P C owner name vs σ) fun r => pure r.1 := by
  rw [applyVal]
  rfl


theorem callMethod_fn {v : Val} {m : String} {vs : List Val} {f : Fn} (h : methodOf P v m vs = some f) :
    callMethod P C v m vs σ = callFn P f (v :: vs) σ := by
  rw [callMethod.eq_def, h]
theorem callPath_fn {owner : List String} {name : String} {vs : List Val} {f : Fn} (h : P.lookup owner name vs = some f) :
    callPath P C owner name vs σ = callFn P f vs σ := by
  rw [callPath, h]

section
variable {r : Val × List (Option Val)}

theorem core_eq {v : Val} {m : String} {vs : List Val} (h1 : methodOf P v m vs = none) (h2 : higherOrder v m = none)
    (h3 : m ≠ "try_into") : callMethod P C v m vs σ = addTicks (coreCost v m) (freeR (coreMethod P C v m vs σ)) := by
  rw [callMethod.eq_def, h1]
  simp only [h2]
  split
  · exact absurd rfl h3
  · rfl
end

end Langtag.Source.Counted
