import Verif.Model.Timed
import Verif.Spec.Api

/-! # Vocabulary for statements about the work done -/

set_option autoImplicit false

namespace Langtag.Spec
open Langtag.Model

/-- The counted program computes the same as the plain one, panics included, in at most `n` iterations. -/
def WorkAtMost {α : Type} (counted : Timed α) (plain : Rust α) (n : Nat) : Prop :=
  counted.result = plain ∧ counted.steps ≤ n

/-- `collect`, counting the iterations of all the calls. -/
def collectTimed {σ α : Type} (next : σ → Timed (Option α × σ)) : Nat → σ → Timed (List (Option α))
  | 0, _ => return []
  | n + 1, it => do
    let (x, it) ← next it
    let xs ← collectTimed next n it
    return x :: xs

/-- `collectSides`, counting the iterations of all the calls. -/
def collectSidesTimed {σ α : Type} (next nextBack : σ → Timed (Option α × σ)) : List Side → σ → Timed (List (Option α))
  | [], _ => return []
  | side :: history, it => do
    let (x, it) ← match side with
      | .front => next it
      | .back => nextBack it
    let xs ← collectSidesTimed next nextBack history it
    return x :: xs

end Langtag.Spec
