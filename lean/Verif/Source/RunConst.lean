import Verif.Source.Run
import Verif.Source.RunTypes

/-!
# The constants of the crate

`runConst max path` is the value of the `const` or `static` with this path, according to the text of the files of `/repo/src`.
-/

set_option autoImplicit false

namespace Langtag.Source
open Langtag.Model

/-- How the evaluation of an expression ends. -/
def outcomeConst : Option (Res Val) → Option Outcome
  | none => none
  | some (.ok v _) => some (.returns v [])
  | some (.ctl (.panic p) _) => some (.panics p)
  | some (.ctl _ _) => some .stuck

/-- The value of a path in a program, if the program could be read. -/
def runConstIn (path : List String) : Option Program → Option Outcome
  | some P => outcomeConst (evalGlobal P ⟨[], "", .tuple []⟩ path [])
  | none => some .stuck

/-- The value of a path: the text of the crate is read, and the initialiser of the constant is evaluated.  `none` if that does not end. -/
def runConst (max : Nat) (path : List String) : Option Outcome := runConstIn path (readCrate max)

theorem runConst_eq {max : Nat} {path : List String} {v : Val} (hc : ctorOf (crate max) ⟨[], "", .tuple []⟩ path = none)
    (h : globalR (crate max) ⟨[], "", .tuple []⟩ path none [] = some (.ok v [])) : runConst max path = some (.returns v []) := by
  refine (congrArg (runConstIn path) (readCrate_eq max)).trans ?_
  show outcomeConst (globalR (crate max) ⟨[], "", .tuple []⟩ path (ctorOf (crate max) ⟨[], "", .tuple []⟩ path) []) = _
  rw [hc, h]
  rfl

attribute [irreducible] runConst

end Langtag.Source
