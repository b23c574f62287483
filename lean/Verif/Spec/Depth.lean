import Verif.Source.Deep.Run
import Verif.Spec.Run

/-! # Vocabulary for statements about how deep calls are nested -/

set_option autoImplicit false

namespace Langtag.Spec
open Langtag.Source Langtag.Source.Deep

/-- The call ends without ever having more than `n` calls under way at the same time, itself included; the bound does not change the result.
Calls of functions of the crate are counted, and of closures in it. -/
def NestsWithin (n max : Nat) (T : List String) (f : String) (args : List Val) : Prop :=
  ∃ o, runWithin n max T f args = some o ∧ run max T f args = some o

end Langtag.Spec
