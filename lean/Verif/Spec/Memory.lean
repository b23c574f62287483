import Verif.Spec.Store
import Verif.Source.Run
import Verif.Spec.Release

/-!
# Running the crate with a memory

`run` (`Verif/Source/Run.lean`), `runAs` and `runRelease`, with the meaning of `Verif/Spec/Store.lean`.
-/

set_option autoImplicit false

namespace Langtag.Spec.Store
open Langtag.Source

/-- What is in the cells of the `&mut` arguments, the arguments being in the first cells. -/
def mutArgs : List (String × Ty) → Env → List Val
  | (_, .ref true _) :: ps, (_, v) :: S => v :: mutArgs ps S
  | _ :: ps, _ :: S => mutArgs ps S
  | _, _ => []

/-- How a call ends; `none` if it does not.  `ps` are the parameters. -/
def outcome (ps : List (String × Ty)) : Option (Res Val) → Option Outcome
  | none => none
  | some (.ok v S) => some (.returns v (mutArgs ps S))
  | some (.ctl (.panic p) _) => some (.panics p)
  | some (.ctl _ _) => some .stuck

/-- The memory before the call: each argument is in a cell. -/
def before (args : List Val) : Env := args.map fun v => ("", v)

/-- Where the arguments are. -/
def places (args : List Val) : List Where := (List.range args.length).map .at

/-- The call `T::f(args)` in a program, if the program could be read. -/
def runIn (T : List String) (f : String) (args : List Val) : Option Program → Option Outcome
  | some P => outcome (((P.lookup T f args).map (·.fn.params)).getD []) (callPath P ⟨[], "", .tuple []⟩ T f args (places args) (before args))
  | none => some .stuck

/-- The call `T::f(args)`. -/
def run (max : Nat) (T : List String) (f : String) (args : List Val) : Option Outcome := runIn T f args (readCrate max)

/-- The call `T::f(args)` in a release build. -/
def runRelease (max : Nat) (T : List String) (f : String) (args : List Val) : Option Outcome := runIn T f args ((readCrate max).map Program.release)

/-- The call `<T as Tr>::f(args)` in a program, if the program could be read. -/
def runAsIn (tr : String) (T : String) (f : String) (args : List Val) : Option Program → Option Outcome
  | some P =>
    match P.fns.find? fun F => F.owner = [T] && F.trait = tr && F.fn.name = f with
    | some F => outcome F.fn.params (callFn P F args (places args) (before args))
    | none => some .stuck
  | none => some .stuck

/-- The call `<T as Tr>::f(args)`. -/
def runAs (max : Nat) (tr : String) (T : String) (f : String) (args : List Val) : Option Outcome := runAsIn tr T f args (readCrate max)

end Langtag.Spec.Store
