import Verif.Source.Counted.Run
import Verif.Spec.Run

/-! # Vocabulary for statements about the work done by the text of the crate -/

set_option autoImplicit false

namespace Langtag.Spec
open Langtag.Source Langtag.Source.Counted

/-- The call ends, and executes bodies of loops at most `n` times; counting does not change the result. -/
def EndsWithin (max : Nat) (T : List String) (f : String) (args : List Val) (n : Nat) : Prop :=
  ∃ o k, runCounted max T f args = some (o, k) ∧ run max T f args = some o ∧ k ≤ n

/-- What a call on an iterator counts, together with what further calls on the iterator count; if it panics there are none. -/
def countedWith (further : Val → Option Nat) : Option (Outcome × Nat) → Option Nat
  | some (.returns _ [it], n) => (further it).map (n + ·)
  | some (_, n) => some n
  | none => none

/-- How many times calls of these functions of `T`, one after the other, on an iterator, execute bodies of loops; `none` if one does not end. -/
def countCalls (max : Nat) (T : String) : List String → Val → Option Nat
  | [], _ => some 0
  | f :: fs, it => countedWith (countCalls max T fs) (runCounted max [T] f [it])

/-- Calls of these functions of `T`, one after the other, on an iterator end, and execute bodies of loops at most `n` times, all together. -/
def CallsEndWithin (max : Nat) (T : String) (fs : List String) (it : Val) (n : Nat) : Prop := ∃ k, countCalls max T fs it = some k ∧ k ≤ n

/-- The call returns an iterator of type `I`, itself within `m` iterations, on which any number of calls of `next` make at most `n`, all together. -/
def IteratesWithin (max : Nat) (T f : String) (args : List Val) (I : String) (m n : Nat) : Prop :=
  ∃ it, run max [T] f args = returns it ∧ EndsWithin max [T] f args m ∧ ∀ calls, CallsEndWithin max I (List.replicate calls "next") it n

end Langtag.Spec
