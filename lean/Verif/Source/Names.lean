import Lean.Elab.Command
import Verif.Source.Langtag
import Verif.Source.Exec

/-!
# The names of the crate

Which constructor, function or type a path of the crate names, and which function a call calls: as rules for `simp only [src]`.

The rules are stated by a command that goes through the functions of the crate.  Each is an equation checked by the kernel, like any other.
-/

set_option autoImplicit false

namespace Langtag.Source.Names
open Lean Meta Elab Command

/-- The paths in a pattern. -/
partial def patPaths : Pat → List (List String)
  | .path s => [s]
  | .ctor s ps => s :: ps.flatMap patPaths
  | .tuple ps => ps.flatMap patPaths
  | .or ps => ps.flatMap patPaths
  | _ => []

mutual
/-- The paths in an expression: those in patterns, those that are values, and those of struct expressions. -/
partial def exprPaths : Expr → List (Nat × List String)
  | .lit _ | .panic => []
  | .path s => [(1, s)]
  | .call f as => exprPaths f ++ as.flatMap exprPaths
  | .method r _ as => exprPaths r ++ as.flatMap exprPaths
  | .field e _ | .rangeFrom e | .rangeTo e | .ref _ e | .deref e | .not e | .cast e _ | .loop e | .break e | .return e => exprPaths e
  | .index a b | .range a b | .bin _ a b | .while a b | .for _ a b | .assign a b | .opAssign _ a b => exprPaths a ++ exprPaths b
  | .ite a b c => exprPaths a ++ exprPaths b ++ exprPaths c
  | .match e as => exprPaths e ++ as.flatMap armPaths
  | .block ss e => ss.flatMap stmtPaths ++ exprPaths e
  | .closure ps e => (ps.flatMap patPaths).map (0, ·) ++ exprPaths e
  | .struct s fs => (2, s) :: fs.flatMap fieldPaths
  | .tuple es | .array es => es.flatMap exprPaths
  | .matches e p => exprPaths e ++ (patPaths p).map (0, ·)
partial def armPaths : Langtag.Source.Arm → List (Nat × List String)
  | .mk p e => (patPaths p).map (0, ·) ++ exprPaths e
partial def fieldPaths : Field → List (Nat × List String)
  | .mk _ e => exprPaths e
partial def stmtPaths : Stmt → List (Nat × List String)
  | .let p e => (patPaths p).map (0, ·) ++ exprPaths e
  | .expr e => exprPaths e
end

/-- The constants of type `FnDef` in the definition of a file, in order; `none` for a macro. -/
partial def fnConsts (e : Lean.Expr) : MetaM (List (Option Name)) := do
  if e.isAppOf ``Item.macroRules then return [none]
  match e with
  | .app f a => return (← fnConsts f) ++ (← fnConsts a)
  | .mdata _ e => fnConsts e
  | .letE _ _ v b _ => return (← fnConsts b) ++ (← fnConsts v) -- `v` is the end of a long list
  | .const n _ =>
    match (← getConstInfo n).type with
    | .const ``FnDef [] => return [some n]
    | _ => return []
  | _ => return []

/-- The constants of the functions of the crate, in order. -/
def allFnConsts : MetaM (List (Option Name)) := do
  let some (.defnInfo d) := (← getEnv).find? ``files | throwError "files"
  let fs := d.value.getUsedConstantsAsSet
  let rec go (e : Lean.Expr) (acc : List Name) : List Name :=
    match e with
    | .app f a => go f (go a acc)
    | .const n _ => if fs.contains n && (`Langtag.Source.Ast).isPrefixOf n then n :: acc else acc
    | _ => acc
  let names := go d.value []
  let mut r := []
  for n in names do
    let some (.defnInfo d) := (← getEnv).find? n | throwError "file"
    r := r ++ (← fnConsts d.value)
  return r

/-- Adds a theorem and makes it a rule. -/
def addRule (name : Name) (type value : Lean.Expr) : MetaM Unit := do
  let type ← instantiateMVars type
  let value ← instantiateMVars value
  addDecl (.thmDecl { name, levelParams := [], type, value })
  let some ext ← getSimpExtension? `src | throwError "src"
  addSimpTheorem ext name true false .global (eval_prio default)

/-- Adds an equation, by evaluation in the kernel. -/
def addEq (name : Name) (xs : Array Lean.Expr) (lhs rhs : Lean.Expr) : MetaM Unit := do
  let type ← mkForallFVars xs (← mkEq lhs rhs)
  let value ← mkLambdaFVars xs (← mkEqRefl lhs)
  addRule name type value

/-- A context, with anything but the type `Self`, and not even that if it does not matter. -/
def withCtx (owner : Option (List String)) (k : Array Lean.Expr → Lean.Expr → MetaM Unit) : MetaM Unit :=
  match owner with
  | none => withLocalDeclD `C (mkConst ``Ctx) fun C => k #[C] C
  | some o =>
    withLocalDeclD `t (mkConst ``String) fun t =>
    withLocalDeclD `r (mkConst ``Ty) fun r => do
      k #[t, r] (mkApp3 (mkConst ``Ctx.mk) (toExpr o) t r)

/-- What is said about a path. -/
inductive Rule
  /-- the constructor it names -/
  | ctor
  /-- the function or constant it names -/
  | member
  /-- the type it names -/
  | type
  deriving BEq

/-- The rules needed for the paths of a function. -/
def pathRules (P : Program) (owner : List String) (body : Expr) : List (Rule × Option (List String) × List String) :=
  (exprPaths body).flatMap fun (kind, segs) =>
    let o := if segs.contains "Self" then some owner else none
    let C : Ctx := ⟨owner, "", .tuple []⟩
    if kind = 2 then [(.type, o, segs)]
    else if kind = 0 || (ctorOf P C segs).isSome then [(.ctor, o, segs)]
    else if segs.length > 1 || P.fns.any (fun f => f.owner.isEmpty && f.fn.name = segs.head!) || P.consts.any (fun (_, x, _) => x = segs.head!) then
      [(.ctor, o, segs), (.member, o, segs)]
    else [] -- a variable

/-- Adds a rule for a path. -/
def pathRule (r : Rule) (o : Option (List String)) (segs : List String) (i : Nat) : MetaM Unit := do
  let C : Ctx := ⟨o.getD [], "", .tuple []⟩
  let P := crate 0
  withLocalDeclD `m (mkConst ``Nat) fun m =>
  withCtx o fun xs C' => do
    let P' := mkApp (mkConst ``crate) m
    let base := `Langtag.Source.Names ++ Name.mkSimple s!"path_{i}"
    match r with
    | .type => addEq (base.str "type") (#[m] ++ xs) (mkApp3 (mkConst ``typePath) P' C' (toExpr segs)) (toExpr (typePath P C segs))
    | .ctor => addEq (base.str "ctor") (#[m] ++ xs) (mkApp3 (mkConst ``ctorOf) P' C' (toExpr segs)) (toExpr (ctorOf P C segs))
    | .member => addEq (base.str "member") (#[m] ++ xs) (mkApp3 (mkConst ``memberOf) P' C' (toExpr segs)) (toExpr (memberOf P C segs))

/-- Arguments a function can be called with. -/
partial def withArgs (P : Program) (owner : List String) (ps : List (String × Ty)) (k : Array Lean.Expr → List Lean.Expr → MetaM Unit) : MetaM Unit :=
  match ps with
  | [] => k #[] []
  | (_, t) :: ps =>
    let rec base : Ty → Ty
      | .ref _ t => base t
      | t => t
    let next (xs : Array Lean.Expr) (v : Lean.Expr) := withArgs P owner ps fun ys vs => k (xs ++ ys) (v :: vs)
    match base t with
    | .path ["u8"] [] => withLocalDeclD `n (mkConst ``UInt8) fun n => next #[n] (mkApp (mkConst ``Val.u8) n)
    | .path ["char"] [] => withLocalDeclD `c (mkConst ``Char) fun n => next #[n] (mkApp (mkConst ``Val.char) n)
    | .path ["Self"] [] =>
      match P.types.lookup owner with
      | some (.struct _ _ (.named _)) => do
        let ft ← mkAppM ``List #[← mkAppM ``Prod #[mkConst ``String, mkConst ``Val]]
        withLocalDeclD `fs ft fun fs => next #[fs] (mkApp2 (mkConst ``Val.struct) (toExpr owner) fs)
      | _ => do
        withLocalDeclD `x (mkConst ``String) fun x => do
        withLocalDeclD `ws (← mkAppM ``List #[mkConst ``Val]) fun ws => next #[x, ws] (mkApp3 (mkConst ``Val.ctor) (toExpr owner) x ws)
    | _ => withLocalDeclD `v (mkConst ``Val) fun v => next #[v] v

/-- The rules for the calls of a function. -/
def fnRules (f : Fn) (n : Name) (owner : List String) : MetaM Unit := do
  let F := mkApp3 (mkConst ``Fn.mk) (toExpr owner) (toExpr f.trait) (mkConst n)
  let base := `Langtag.Source.Names ++ n.replacePrefix `Langtag.Source.Ast .anonymous
  withLocalDeclD `m (mkConst ``Nat) fun m =>
  withLocalDeclD `C (mkConst ``Ctx) fun C =>
  withLocalDeclD `σ (mkConst ``Env) fun σ =>
  withArgs (crate 0) owner f.fn.params fun xs vs => do
    let P' := mkApp (mkConst ``crate) m
    let args ← mkListLit (mkConst ``Val) vs
    let h ← mkEqRefl (mkApp4 (mkConst ``Program.lookup) P' (toExpr owner) (toExpr f.fn.name) args)
    let rhs := mkApp4 (mkConst ``callFn) P' F args σ
    let ys := #[m, C] ++ xs ++ #[σ]
    let lhs := mkAppN (mkConst ``callPath) #[P', C, toExpr owner, toExpr f.fn.name, args, σ]
    addRule (base.str "callPath") (← mkForallFVars ys (← mkEq lhs rhs))
      (← mkLambdaFVars ys (mkAppN (mkConst ``callPath_fn) #[P', C, σ, toExpr owner, toExpr f.fn.name, args, F, h]))
    if f.fn.params.head?.map (·.1) = some "self" then
      let rest ← mkListLit (mkConst ``Val) vs.tail!
      let lhs := mkAppN (mkConst ``callMethod) #[P', C, vs.head!, toExpr f.fn.name, rest, σ]
      addRule (base.str "callMethod") (← mkForallFVars ys (← mkEq lhs rhs))
        (← mkLambdaFVars ys (mkAppN (mkConst ``callMethod_fn) #[P', C, σ, vs.head!, toExpr f.fn.name, rest, F, h]))

/-- The rules for the paths in the functions and constants of the crate, other than those of `grammar.rs`: one in `n`, from number `k`. -/
elab "path_rules " k:num n:num : command => liftTermElabM do
  let P := crate 0
  let mut rules : Array (Rule × Option (List String) × List String) := #[]
  for (owner, body) in (P.fns.filter (·.owner.length < 2)).map (fun f => (f.owner, f.fn.body)) ++ P.consts.map (fun (o, _, e) => (o, e)) do
    for r in pathRules P owner body do
      unless rules.contains r do rules := rules.push r
  for ((r, o, segs), i) in rules.toList.zipIdx do
    if i % n.getNat = k.getNat then pathRule r o segs i

/-- The rules for the calls of the functions of the crate, other than those of `grammar.rs`: one in `n`, from number `k`. -/
elab "fn_rules " k:num n:num : command => liftTermElabM do
  for ((f, c), i) in ((crate 0).fns.zip (← allFnConsts)).zipIdx do
    if i % n.getNat = k.getNat then
      match c with
      -- `<Singleton as Debug>::fmt` is never what `fmt` names
      | some c => unless f.trait = "Debug" do fnRules f c f.owner
      | none => pure ()

end Langtag.Source.Names

namespace Langtag.Source

variable {P : Program} {C : Ctx} {σ : Env}

/-! ## Types with an automaton -/

/-- `as_bytes` and `as_str` of a type with an automaton are those of the derive macros. -/
theorem as_bytes_newtype {ty : List String} {x : String} {s : List UInt8} (h1 : methodOf P (.ctor ty x [.str s]) "as_bytes" [] = none)
    (h2 : higherOrder (.ctor ty x [.str s]) "as_bytes" = none)
    (h3 : coreMethod P C (.ctor ty x [.str s]) "as_bytes" [] = if (automatonOf P ty).isSome then pure (.bytes s, []) else M.stuck)
    (h4 : (automatonOf P ty).isSome = true) :
    callMethod P C (.ctor ty x [.str s]) "as_bytes" [] σ = some (.ok (.bytes s, []) σ) := by
  rw [core_eq h1 h2 (by decide), h3, if_pos h4]
  rfl
theorem as_str_newtype {ty : List String} {x : String} {s : List UInt8} (h1 : methodOf P (.ctor ty x [.str s]) "as_str" [] = none)
    (h2 : higherOrder (.ctor ty x [.str s]) "as_str" = none)
    (h3 : coreMethod P C (.ctor ty x [.str s]) "as_str" [] = if (automatonOf P ty).isSome then pure (.str s, []) else M.stuck)
    (h4 : (automatonOf P ty).isSome = true) :
    callMethod P C (.ctor ty x [.str s]) "as_str" [] σ = some (.ok (.str s, []) σ) := by
  rw [core_eq h1 h2 (by decide), h3, if_pos h4]
  rfl
theorem new_unchecked_newtype {ty : List String} {s : List UInt8} (h1 : P.lookup ty "new_unchecked" [.str s] = none)
    (h2 : newOf P ty "new_unchecked" [.str s] = none)
    (h3 : corePath P ty "new_unchecked" [.str s] = if (automatonOf P ty).isSome then pure (newtype ty s) else M.stuck)
    (h4 : (automatonOf P ty).isSome = true) :
    callPath P C ty "new_unchecked" [.str s] σ = some (.ok (newtype ty s, []) σ) := by
  rw [callPath, h1]
  simp only [h2, bind_apply]
  rw [h3, if_pos h4]
  rfl

/-- The rules for a type with an automaton. -/
macro "newtype_rules " t:str n:ident : command => do
  let a := Lean.mkIdent (n.getId.str "as_bytes")
  let b := Lean.mkIdent (n.getId.str "as_str")
  let c := Lean.mkIdent (n.getId.str "new_unchecked")
  `(@[src] theorem $a (max : Nat) (C : Ctx) (σ : Env) (x : String) (s : List UInt8) :
      callMethod (crate max) C (.ctor [$t] x [.str s]) "as_bytes" [] σ = some (.ok (.bytes s, []) σ) :=
      as_bytes_newtype (by kernel_rfl) (by kernel_rfl) (by kernel_rfl) (by kernel_rfl)
    @[src] theorem $b (max : Nat) (C : Ctx) (σ : Env) (x : String) (s : List UInt8) :
      callMethod (crate max) C (.ctor [$t] x [.str s]) "as_str" [] σ = some (.ok (.str s, []) σ) :=
      as_str_newtype (by kernel_rfl) (by kernel_rfl) (by kernel_rfl) (by kernel_rfl)
    @[src] theorem $c (max : Nat) (C : Ctx) (σ : Env) (s : List UInt8) :
      callPath (crate max) C [$t] "new_unchecked" [.str s] σ = some (.ok (.ctor [$t] $t [.str s], []) σ) :=
      new_unchecked_newtype (ty := [$t]) (by kernel_rfl) (by kernel_rfl) (by kernel_rfl) (by kernel_rfl))

end Langtag.Source
