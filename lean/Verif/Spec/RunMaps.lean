import Verif.Spec.Run
import Verif.Spec.Maps
import Verif.Spec.SortedLists

/-!
# Keys compared and hashed by the text of the crate

The containers of `Verif/Spec/Maps.lean` and `Verif/Spec/SortedLists.lean` ask of their keys how they compare and what they hash to.  Here the answers
are those of running the text of the crate.
-/

set_option autoImplicit false

namespace Langtag.Spec
open Langtag.Model Langtag.Source

/-- A value of the type `T` of the crate: a text that fits into the memory. -/
structure Key (max : Nat) (T : String) where
  text : Text
  fits : text.length + 1 ≤ max

/-- The `bool` a call returns. -/
def answersBool : Option Outcome → Rust Bool
  | some (.returns (.bool b) []) => .ok b
  | some (.panics p) => .error p
  | _ => .error .explicit

/-- The `Ordering` that a value is. -/
def orderingOf : Val → Option Ordering
  | .ctor ["Ordering"] "Less" [] => some .lt
  | .ctor ["Ordering"] "Equal" [] => some .eq
  | .ctor ["Ordering"] "Greater" [] => some .gt
  | _ => none

/-- The `Ordering` a call returns. -/
def answersOrdering : Option Outcome → Rust Ordering
  | some (.returns v []) => match orderingOf v with | some o => .ok o | none => .error .explicit
  | some (.panics p) => .error p
  | _ => .error .explicit

/-- The `Option<Ordering>` a call returns. -/
def answersPartial : Option Outcome → Rust (Option Ordering)
  | some (.returns (.ctor ["Option"] "Some" [v]) []) => match orderingOf v with | some o => .ok (some o) | none => .error .explicit
  | some (.returns (.ctor ["Option"] "None" []) []) => .ok none
  | some (.panics p) => .error p
  | _ => .error .explicit

/-- The bytes a call writes to a hasher. -/
def answersHash : Option Outcome → Rust (List UInt8)
  | some (.returns _ [.hasher w]) => .ok w
  | some (.panics p) => .error p
  | _ => .error .explicit

/-- `==`, `cmp`, `partial_cmp` and `hash` of keys: what the text of the crate computes. -/
instance (max : Nat) (T : String) : Compare (Key max T) where
  eq a b := answersBool (run max [T] "eq" [tag T a.text, tag T b.text])
  cmp a b := answersOrdering (run max [T] "cmp" [tag T a.text, tag T b.text])
  partialCmp a b := answersPartial (run max [T] "partial_cmp" [tag T a.text, tag T b.text])
  hash H a st := (answersHash (run max [T] "hash" [tag T a.text, .hasher []])).map fun w => w.foldl H.writeU8 st

/-- No element is greater than the next one, by the text of the crate. -/
def RunSorted (max : Nat) (T : String) (l : List (Key max T)) : Prop :=
  ∀ (i : Nat) a b, l[i]? = some a → l[i + 1]? = some b → run max [T] "cmp" [tag T a.text, tag T b.text] ≠ returns (.ordering .gt)

end Langtag.Spec
