import Verif.Source.Refine.Macro
import Verif.Source.Refine.Compare
import Verif.Source.Refine.Singleton
import Verif.Model.Compare

/-!
# Running the crate

`run max T f args` is what the call `T::f(args)` does according to the text of the files of `/repo/src`, on a machine the largest `usize`
of which is `max`.
-/

set_option autoImplicit false

namespace Langtag.Source
open Langtag.Model (Panic Rust StrNewtype)
open Langtag.Model

/-- How a call ends. -/
inductive Outcome
  /-- with a value; `after` are the values of the `&mut` arguments afterwards -/
  | returns (v : Val) (after : List Val)
  | panics (p : Panic)
  /-- the text cannot be read, or does something the semantics does not cover -/
  | stuck

/-- How a call ends; `none` if it does not. -/
def outcome : Option (Res (Val × List (Option Val))) → Option Outcome
  | none => none
  | some (.ok (v, ws) _) => some (.returns v (ws.filterMap id))
  | some (.ctl (.panic p) _) => some (.panics p)
  | some (.ctl _ _) => some .stuck

/-- The call `T::f(args)` in a program, if the program could be read. -/
def runIn (T : List String) (f : String) (args : List Val) : Option Program → Option Outcome
  | some P => outcome (callPath P ⟨[], "", .tuple []⟩ T f args [])
  | none => some .stuck

/-- The call `T::f(args)`: the text of the crate is read, and the function of that name executed.  `none` if it does not end. -/
def run (max : Nat) (T : List String) (f : String) (args : List Val) : Option Outcome := runIn T f args (readCrate max)

/-- The call `<T as Tr>::f(args)` in a program, if the program could be read. -/
def runAsIn (tr : String) (T : String) (f : String) (args : List Val) : Option Program → Option Outcome
  | some P =>
    match P.fns.find? fun F => F.owner = [T] && F.trait = tr && F.fn.name = f with
    | some F => outcome (callFn P F args [])
    | none => some .stuck
  | none => some .stuck

/-- The call `<T as Tr>::f(args)`, `tr` being the name of the trait. -/
def runAs (max : Nat) (tr : String) (T : String) (f : String) (args : List Val) : Option Outcome := runAsIn tr T f args (readCrate max)

/-- The call ends like this computation of the model; `k` says which value stands for the result. -/
def givesBy {α : Type} (k : α → Val) : Rust α → Option Outcome
  | .ok a => some (.returns (k a) [])
  | .error p => some (.panics p)

/-- The call ends like this computation of the model. -/
def gives {α : Type} [Rep α] (r : Rust α) : Option Outcome := givesBy val r

/-- The call of a `&mut self` function ends like this computation of the model: with an item and an iterator. -/
def givesNext {α β : Type} [Rep α] [Rep β] : Rust (Option α × β) → Option Outcome
  | .ok (a, it) => some (.returns (val a) [val it])
  | .error p => some (.panics p)

theorem run_eq (max : Nat) (T : List String) (f : String) (args : List Val) :
    run max T f args = outcome (callPath (crate max) ⟨[], "", .tuple []⟩ T f args []) :=
  congrArg (runIn T f args) (readCrate_eq max)

theorem runAs_eq {max : Nat} {tr T f : String} {args : List Val} {F : Fn}
    (h : ((crate max).fns.find? fun F => F.owner = [T] && F.trait = tr && F.fn.name = f) = some F) :
    runAs max tr T f args = outcome (callFn (crate max) F args []) := by
  refine (congrArg (runAsIn tr T f args) (readCrate_eq max)).trans ?_
  rw [runAsIn, h]

/-- The statement holds for each of the fifteen string types, with its name. -/
def ForEachSource (P : String → (T : Type) → [StrNewtype T] → [Compare T] → [Rep T] → Prop) : Prop :=
  P "LangTag" LangTag ∧ P "NormalLangTag" NormalLangTag ∧ P "Language" Language ∧ P "PrimaryLanguage" PrimaryLanguage ∧
  P "LanguageExtension" LanguageExtension ∧ P "ExtendedLangTag" ExtendedLangTag ∧ P "Script" Script ∧ P "Region" Region ∧
  P "Variant" Variant ∧ P "Variants" Variants ∧ P "Extension" Extension ∧ P "Extensions" Extensions ∧ P "ExtensionSubtag" ExtensionSubtag ∧
  P "PrivateUse" PrivateUse ∧ P "PrivateUseSubtag" PrivateUseSubtag

/-- A value of one of the string types, with this text. -/
def tag (T : String) (s : List UInt8) : Val := .ctor [T] T [.str s]

instance : Rep Str := ⟨.str⟩

variable {α β : Type} [Rep α] [Rep β]

theorem outcome_lift1 (r : Rust α) (σ : Env) : outcome (lift (fun r => (val r, [none])) r σ) = gives r := by cases r <;> rfl
theorem outcome_lift2 (r : Rust α) (σ : Env) : outcome (lift (fun r => (val r, [none, none])) r σ) = gives r := by cases r <;> rfl
theorem outcome_ok0 (a : α) (σ : Env) : outcome (some (.ok (val a, []) σ)) = gives (.ok a) := rfl
theorem outcome_ok1 (a : α) (σ : Env) : outcome (some (.ok (val a, [none]) σ)) = gives (.ok a) := rfl
theorem outcome_ok2 (a : α) (σ : Env) : outcome (some (.ok (val a, [none, none]) σ)) = gives (.ok a) := rfl
theorem outcome_next (r : Rust (Option α × β)) (σ : Env) : outcome (lift nextVal r σ) = givesNext r := by rcases r with _ | ⟨a, b⟩ <;> rfl

theorem outcome_lift1' {α : Type} (k : α → Val) (r : Rust α) (σ : Env) : outcome (lift (fun r => (k r, [none])) r σ) = givesBy k r := by cases r <;> rfl

section
variable {max : Nat} {T : List String} {f : String} {args : List Val} {F : Fn}
  (h : callPath (crate max) ⟨[], "", .tuple []⟩ T f args [] = callFn (crate max) F args [])
include h

theorem run_lift1 {r : Rust α} (h' : callFn (crate max) F args [] = lift (fun r => (val r, [none])) r []) : run max T f args = gives r := by
  rw [run_eq, h, h', outcome_lift1]
theorem run_lift2 {r : Rust α} (h' : callFn (crate max) F args [] = lift (fun r => (val r, [none, none])) r []) : run max T f args = gives r := by
  rw [run_eq, h, h', outcome_lift2]
theorem run_lift1' {α : Type} {k : α → Val} {r : Rust α} (h' : callFn (crate max) F args [] = lift (fun r => (k r, [none])) r []) :
    run max T f args = givesBy k r := by
  rw [run_eq, h, h', outcome_lift1']
theorem run_ok1' {v : Val} (h' : callFn (crate max) F args [] = some (.ok (v, [none]) [])) : run max T f args = some (.returns v []) := by
  rw [run_eq, h, h']
  rfl
theorem run_fmt {v w : Val} (h' : callFn (crate max) F args [] = some (.ok (v, [none, some w]) [])) : run max T f args = some (.returns v [w]) := by
  rw [run_eq, h, h']
  rfl
theorem run_ok0 {a : α} (h' : callFn (crate max) F args [] = some (.ok (val a, []) [])) : run max T f args = gives (.ok a) := by
  rw [run_eq, h, h', outcome_ok0]
theorem run_ok1 {a : α} (h' : callFn (crate max) F args [] = some (.ok (val a, [none]) [])) : run max T f args = gives (.ok a) := by
  rw [run_eq, h, h', outcome_ok1]
theorem run_ok2 {a : α} (h' : callFn (crate max) F args [] = some (.ok (val a, [none, none]) [])) : run max T f args = gives (.ok a) := by
  rw [run_eq, h, h', outcome_ok2]
theorem run_next {r : Rust (Option α × β)} (h' : callFn (crate max) F args [] = lift nextVal r []) : run max T f args = givesNext r := by
  rw [run_eq, h, h', outcome_next]
end

attribute [irreducible] run runAs

end Langtag.Source
