import Verif.Source.Counted.Lib
import Verif.Source.Counted.Compare
import Verif.Source.Counted.Erase
import Verif.Source.Run

/-!
# Running the crate, counting

`runCounted max T f args` is `run max T f args` with the number of iterations of loops the call makes.
-/

set_option autoImplicit false

namespace Langtag.Source.Counted
open Langtag.Source (val tag)
open Langtag.Model

/-- How a call ends, and what was counted; `none` if it does not end. -/
def counted : Out (Val × List (Option Val)) → Option (Outcome × Nat)
  | none => none
  | some (r, n) => (outcome (some r)).map fun o => (o, n)

/-- The call `T::f(args)` in a program, if the program could be read. -/
def countedIn (T : List String) (f : String) (args : List Val) : Option Program → Option (Outcome × Nat)
  | some P => counted (callPath P ⟨[], "", .tuple []⟩ T f args [])
  | none => some (.stuck, 0)

/-- The call `T::f(args)`, and how many times it executes the body of a loop: the text of the crate is read, and the function of that name executed.
`none` if it does not end. -/
def runCounted (max : Nat) (T : List String) (f : String) (args : List Val) : Option (Outcome × Nat) := countedIn T f args (readCrate max)

theorem runCounted_eq (max : Nat) (T : List String) (f : String) (args : List Val) :
    runCounted max T f args = counted (callPath (crate max) ⟨[], "", .tuple []⟩ T f args []) :=
  congrArg (countedIn T f args) (readCrate_eq max)

/-- Counting does not change how a call ends. -/
theorem runCounted_run {max : Nat} {T : List String} {f : String} {args : List Val} {o : Outcome} {n : Nat}
    (h : runCounted max T f args = some (o, n)) : run max T f args = some o := by
  rw [runCounted_eq] at h
  rw [run_eq]
  cases hc : callPath (crate max) ⟨[], "", .tuple []⟩ T f args [] with
  | none => rw [hc] at h; cases h
  | some p =>
    obtain ⟨r, k⟩ := p
    rw [hc] at h
    have he : Erases _ _ := (erases_all (crate max)).2.2.2.2.2.2.2.2.1 ⟨[], "", .tuple []⟩ T f args
    unfold Erases at he
    rw [he _ _ _ hc]
    obtain ⟨_, h', e⟩ := Option.map_eq_some_iff.mp h
    cases e
    exact h'

/-- The end of a computation of the counting model. -/
def countedBy {α : Type} (k : α → Val) (t : Timed α) : Option (Outcome × Nat) := (givesBy k t.result).map fun o => (o, t.steps)

/-- The end of a step of an iterator in the counting model. -/
def countedNext {α β : Type} [Rep α] [Rep β] (t : Timed (Option α × β)) : Option (Outcome × Nat) := (givesNext t.result).map fun o => (o, t.steps)

/-- The call ends with this count. -/
def Counts (max : Nat) (T : List String) (f : String) (args : List Val) (n : Nat) : Prop := ∃ o, runCounted max T f args = some (o, n)

variable {max : Nat} {T : List String} {f : String} {args : List Val} {F : Fn}

theorem counted_liftT {α : Type} (k : α → Val × List (Option Val)) (t : Timed α) (σ : Env) :
    ∃ o, counted (liftT k t σ) = some (o, t.steps) := by
  rcases t with ⟨_ | a, n⟩ <;> exact ⟨_, rfl⟩
theorem counted_addTicks_ite {c : Prop} [Decidable c] (a b : Val × List (Option Val)) (n : Nat) (σ : Env) :
    ∃ o, counted (addTicks n (if c then fin (.ok a σ) else fin (.ok b σ))) = some (o, n) := by
  split <;> exact ⟨_, rfl⟩

/-- A call that does what the counting model says makes as many iterations. -/
theorem counts_of (h : callPath (crate max) ⟨[], "", .tuple []⟩ T f args [] = callFn (crate max) F args [])
    {α : Type} {k : α → Val × List (Option Val)} {t : Timed α} (h' : callFn (crate max) F args [] = liftT k t []) :
    Counts max T f args t.steps := by
  unfold Counts
  rw [runCounted_eq, h, h']
  exact counted_liftT k t []

theorem runCounted_next {α β : Type} [Rep α] [Rep β] (h : callPath (crate max) ⟨[], "", .tuple []⟩ T f args [] = callFn (crate max) F args [])
    {t : Timed (Option α × β)} (h' : callFn (crate max) F args [] = liftT nextVal t []) :
    runCounted max T f args = countedNext t := by
  rw [runCounted_eq, h, h']
  rcases t with ⟨_ | ⟨a, b⟩, n⟩ <;> rfl

attribute [irreducible] runCounted

/-! ## The functions every string type has -/

/-- The functions every string type has: run, they make as many iterations as the model says. -/
structure CountsSource (n : String) (T : Type) [StrNewtype T] : Prop where
  new : ∀ (max : Nat) (s : Str), s.length + 1 ≤ max → Counts max [n] "new" [.str s] (Timed.new T s).steps
  eq : ∀ (max : Nat) (a b : Str), Counts max [n] "eq" [tag n a, tag n b] (Timed.caseInsensitiveEq a b).steps
  cmp : ∀ (max : Nat) (a b : Str), a.length + 1 ≤ max → Counts max [n] "cmp" [tag n a, tag n b] (Timed.caseInsensitiveCmp a b).steps
  partialCmp : ∀ (max : Nat) (a b : Str), a.length + 1 ≤ max →
    Counts max [n] "partial_cmp" [tag n a, tag n b] (some <$> Timed.caseInsensitiveCmp a b : Timed _).steps
  hash : ∀ (max : Nat) (a : Str) (w : List UInt8), Counts max [n] "hash" [tag n a, .hasher w] (hashLog a w).steps

macro "counted_type " t:str M:ident : command => do
  let .str _ T := M.getId | Lean.Macro.throwUnsupported
  let i := Lean.mkIdent (.mkStr2 T "counts")
  let n := Lean.mkIdent (.mkStr2 T "new_eq")
  let e := Lean.mkIdent (.mkStr2 T "eq_eq")
  let c := Lean.mkIdent (.mkStr2 T "cmp_eq")
  let p := Lean.mkIdent (.mkStr2 T "partial_cmp_eq")
  let h := Lean.mkIdent (.mkStr2 T "hash_eq")
  let e' := Lean.mkIdent (.mkStr3 "Names" (T ++ "_PartialEq_eq") "callPath")
  let c' := Lean.mkIdent (.mkStr3 "Names" (T ++ "_Ord_cmp") "callPath")
  let p' := Lean.mkIdent (.mkStr3 "Names" (T ++ "_PartialOrd_partial_cmp") "callPath")
  let h' := Lean.mkIdent (.mkStr3 "Names" (T ++ "_Hash_hash") "callPath")
  `(theorem $i : CountsSource $t $M where
      new max s hs := by
        unfold Counts
        rw [runCounted_eq, $n:ident _ _ _ _ hs]
        exact counted_addTicks_ite ..
      eq max a b := counts_of ($e' ..) ($e ..)
      cmp max a b h := counts_of ($c' ..) ($c _ _ _ _ h)
      partialCmp max a b h := counts_of ($p' ..) ($p _ _ _ _ h)
      hash max a w := counts_of ($h' ..) ($h ..))

counted_type "LangTag" Langtag.Model.LangTag
counted_type "NormalLangTag" Langtag.Model.NormalLangTag
counted_type "Language" Langtag.Model.Language
counted_type "PrimaryLanguage" Langtag.Model.PrimaryLanguage
counted_type "LanguageExtension" Langtag.Model.LanguageExtension
counted_type "ExtendedLangTag" Langtag.Model.ExtendedLangTag
counted_type "Script" Langtag.Model.Script
counted_type "Region" Langtag.Model.Region
counted_type "Variant" Langtag.Model.Variant
counted_type "Variants" Langtag.Model.Variants
counted_type "Extension" Langtag.Model.Extension
counted_type "Extensions" Langtag.Model.Extensions
counted_type "ExtensionSubtag" Langtag.Model.ExtensionSubtag
counted_type "PrivateUse" Langtag.Model.PrivateUse
counted_type "PrivateUseSubtag" Langtag.Model.PrivateUseSubtag

end Langtag.Source.Counted
