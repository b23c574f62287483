import Verif.Source.Run

/-!
# Release builds

A release build is compiled without overflow checks: a sum or difference that does not fit its type wraps around instead of panicking.
-/

set_option autoImplicit false

namespace Langtag.Source

/-- The program built without overflow checks, as in a release build. -/
def Program.release (P : Program) : Program := { P with wraps := true }

/-- The call `T::f(args)` in a release build of the crate; `none` if it does not end. -/
def runRelease (max : Nat) (T : List String) (f : String) (args : List Val) : Option Outcome :=
  runIn T f args ((readCrate max).map Program.release)

theorem runRelease_eq (max : Nat) (T : List String) (f : String) (args : List Val) :
    runRelease max T f args = outcome (callPath (crate max).release ⟨[], "", .tuple []⟩ T f args []) := by
  rw [runRelease, readCrate_eq, Option.map_some, runIn]

attribute [irreducible] runRelease

end Langtag.Source
