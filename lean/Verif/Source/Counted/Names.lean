import Verif.Source.Counted.Exec

/-!
# The names of the crate, for the counting evaluator

Which function a call calls: the rules of `Verif/Source/Names.lean` once more, for `simp only [cnt]`.
-/

set_option autoImplicit false

namespace Langtag.Source.Counted.Names
open Lean Meta Elab Command
open Langtag.Source.Names (withArgs allFnConsts)

/-- Adds a theorem and makes it a rule. -/
def addRule (name : Name) (type value : Lean.Expr) : MetaM Unit := do
  let type ← instantiateMVars type
  let value ← instantiateMVars value
  addDecl (.thmDecl { name, levelParams := [], type, value })
  let some ext ← getSimpExtension? `cnt | throwError "cnt"
  addSimpTheorem ext name true false .global (eval_prio default)

/-- The rules for the calls of a function. -/
def fnRules (f : Fn) (n : Name) (owner : List String) : MetaM Unit := do
  let F := mkApp3 (mkConst ``Fn.mk) (toExpr owner) (toExpr f.trait) (mkConst n)
  let base := `Langtag.Source.Counted.Names ++ n.replacePrefix `Langtag.Source.Ast .anonymous
  withLocalDeclD `m (mkConst ``Nat) fun m =>
  withLocalDeclD `C (mkConst ``Ctx) fun C =>
  withLocalDeclD `σ (mkConst ``Env) fun σ =>
  withArgs (crate 0) owner f.fn.params fun xs vs => do
    let P' := mkApp (mkConst ``crate) m
    let args ← mkListLit (mkConst ``Val) vs
    let h ← mkEqRefl (mkApp4 (mkConst ``Program.lookup) P' (toExpr owner) (toExpr f.fn.name) args)
    let rhs := mkApp4 (mkConst ``callFn) P' F args σ
    let ys := #[m, C] ++ xs ++ #[σ]
    let lhs := mkAppN (mkConst ``callPath) #[P', C, toExpr owner, toExpr f.fn.name, args, σ]
    addRule (base.str "callPath") (← mkForallFVars ys (← mkEq lhs rhs))
      (← mkLambdaFVars ys (mkAppN (mkConst ``callPath_fn) #[P', C, σ, toExpr owner, toExpr f.fn.name, args, F, h]))
    if f.fn.params.head?.map (·.1) = some "self" then
      let rest ← mkListLit (mkConst ``Val) vs.tail!
      let lhs := mkAppN (mkConst ``callMethod) #[P', C, vs.head!, toExpr f.fn.name, rest, σ]
      addRule (base.str "callMethod") (← mkForallFVars ys (← mkEq lhs rhs))
        (← mkLambdaFVars ys (mkAppN (mkConst ``callMethod_fn) #[P', C, σ, vs.head!, toExpr f.fn.name, rest, F, h]))

/-- The rules for the calls of the functions of the crate, other than those of `grammar.rs`: one in `n`, from number `k`. -/
elab "counted_fn_rules " k:num n:num : command => liftTermElabM do
  for ((f, c), i) in ((crate 0).fns.zip (← allFnConsts)).zipIdx do
    if i % n.getNat = k.getNat then
      match c with
      | some c => unless f.trait = "Debug" do fnRules f c f.owner
      | none => pure ()

end Langtag.Source.Counted.Names

namespace Langtag.Source.Counted

variable {P : Program} {C : Ctx} {σ : Env}

/-! ## Types with an automaton -/

theorem as_bytes_newtype {ty : List String} {x : String} {s : List UInt8} (h1 : methodOf P (.ctor ty x [.str s]) "as_bytes" [] = none)
    (h2 : higherOrder (.ctor ty x [.str s]) "as_bytes" = none)
    (h3 : coreMethod P C (.ctor ty x [.str s]) "as_bytes" [] = if (automatonOf P ty).isSome then pure (.bytes s, []) else Source.M.stuck)
    (h4 : (automatonOf P ty).isSome = true) :
    callMethod P C (.ctor ty x [.str s]) "as_bytes" [] σ = fin (.ok (.bytes s, []) σ) := by
  rw [core_eq h1 h2 (by decide), h3, if_pos h4]
  rfl
theorem as_str_newtype {ty : List String} {x : String} {s : List UInt8} (h1 : methodOf P (.ctor ty x [.str s]) "as_str" [] = none)
    (h2 : higherOrder (.ctor ty x [.str s]) "as_str" = none)
    (h3 : coreMethod P C (.ctor ty x [.str s]) "as_str" [] = if (automatonOf P ty).isSome then pure (.str s, []) else Source.M.stuck)
    (h4 : (automatonOf P ty).isSome = true) :
    callMethod P C (.ctor ty x [.str s]) "as_str" [] σ = fin (.ok (.str s, []) σ) := by
  rw [core_eq h1 h2 (by decide), h3, if_pos h4]
  rfl
theorem new_unchecked_newtype {ty : List String} {s : List UInt8} (h1 : P.lookup ty "new_unchecked" [.str s] = none)
    (h2 : newOf P ty "new_unchecked" [.str s] = none)
    (h3 : corePath P ty "new_unchecked" [.str s] = if (automatonOf P ty).isSome then pure (newtype ty s) else Source.M.stuck)
    (h4 : (automatonOf P ty).isSome = true) :
    callPath P C ty "new_unchecked" [.str s] σ = fin (.ok (newtype ty s, []) σ) := by
  rw [callPath, h1]
  simp only [h2, bind_apply]
  rw [h3, if_pos h4]
  rfl

/-- The rules for a type with an automaton. -/
macro "counted_newtype_rules " t:str n:ident : command => do
  let a := Lean.mkIdent (n.getId.str "as_bytes")
  let b := Lean.mkIdent (n.getId.str "as_str")
  let c := Lean.mkIdent (n.getId.str "new_unchecked")
  `(@[cnt] theorem $a (max : Nat) (C : Ctx) (σ : Env) (x : String) (s : List UInt8) :
      callMethod (crate max) C (.ctor [$t] x [.str s]) "as_bytes" [] σ = fin (.ok (.bytes s, []) σ) :=
      as_bytes_newtype (by kernel_rfl) (by kernel_rfl) (by kernel_rfl) (by kernel_rfl)
    @[cnt] theorem $b (max : Nat) (C : Ctx) (σ : Env) (x : String) (s : List UInt8) :
      callMethod (crate max) C (.ctor [$t] x [.str s]) "as_str" [] σ = fin (.ok (.str s, []) σ) :=
      as_str_newtype (by kernel_rfl) (by kernel_rfl) (by kernel_rfl) (by kernel_rfl)
    @[cnt] theorem $c (max : Nat) (C : Ctx) (σ : Env) (s : List UInt8) :
      callPath (crate max) C [$t] "new_unchecked" [.str s] σ = fin (.ok (.ctor [$t] $t [.str s], []) σ) :=
      new_unchecked_newtype (ty := [$t]) (by kernel_rfl) (by kernel_rfl) (by kernel_rfl) (by kernel_rfl))

end Langtag.Source.Counted
