import Verif.Source.Semantics
import Verif.Source.Parser

/-!
# From the items of files to a program

Functions, constants and types are collected from the items of the files.  A type is identified by the last segment of its path;
`grammar.rs` is a module of its own, the types of which are identified by `["grammar", name]`.  Functions outside of `impl` blocks are
identified by their names.
-/

set_option autoImplicit false

namespace Langtag.Source

/-- The identifier of a type of the module: `pre` is `["grammar"]` or nothing. -/
def typeId (pre : List String) : Ty → List String
  | .path segs _ => pre ++ [segs.getLast?.getD ""]
  | _ => []

/-- The name of a trait. -/
def traitId : Option Ty → String
  | some (.path segs _) => segs.getLast?.getD ""
  | _ => ""

/-- The functions of an item. -/
def itemFns (pre : List String) : Item → List Fn
  | .fn f => [⟨[], "", f⟩]
  | .impl tr ty _ fs => fs.map fun f => ⟨typeId pre ty, traitId tr, f⟩
  | .macroRules name param body =>
    -- a macro with one argument, a literal, as a function
    [⟨[], "", ⟨name, [(param, .path ["literal"] [])], .tuple [], body⟩⟩]
  | _ => []

/-- The constants of an item. -/
def itemConsts (pre : List String) : Item → List (List String × String × Expr)
  | .const x e => [([], x, e)]
  | .impl _ ty cs _ => cs.map fun (x, e) => (typeId pre ty, x, e)
  | _ => []

/-- The types of an item. -/
def itemTypes (pre : List String) : Item → List (List String × TypeDef)
  | .struct x ds a s => [(pre ++ [x], .struct ds a s)]
  | .enum x ds vs => [(pre ++ [x], .enum ds vs)]
  | _ => []

/-- The alias an item is. -/
def itemAliases : Item → List (String × List String)
  | .alias x t => [(x, typeId [] t)]
  | _ => []

/-- The enum the variants of which an item brings into scope. -/
def itemGlobs : Item → List String
  | .glob x => [x]
  | _ => []

/-- The program made of `grammar.rs` and other files, on a machine with this largest `usize`, built with overflow checks. -/
def program (usizeMax : Nat) (grammar : List Item) (files : List (List Item)) : Program where
  usizeMax := usizeMax
  wraps := false
  fns := (files.flatMap fun is => is.flatMap (itemFns [])) ++ grammar.flatMap (itemFns ["grammar"])
  consts := (files.flatMap fun is => is.flatMap (itemConsts [])) ++ grammar.flatMap (itemConsts ["grammar"])
  types := (files.flatMap fun is => is.flatMap (itemTypes [])) ++ grammar.flatMap (itemTypes ["grammar"])
  aliases := files.flatMap fun is => is.flatMap itemAliases
  globs := files.flatMap fun is => is.flatMap itemGlobs

end Langtag.Source
