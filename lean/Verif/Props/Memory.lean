import Verif.Source.Store.Check
import Verif.Props.Source

/-!
# The code with a memory

`run` copies `&mut` arguments in and out, and lets closures keep copies of the variables they see.  For this crate that is exact: with a memory, in
which a `&mut` argument is the cell of a variable and a closure reads the cells of the variables it sees (`Verif/Spec/Store.lean`), every call ends the
same.
-/

set_option autoImplicit false

namespace Langtag.Props
open Langtag.Source Langtag.Source.Store
open Langtag.Spec
open Langtag.Model

/-- C69: a call of a function of the crate that ends, with a value or a panic, ends so with a memory too: with the same value or panic, and the same
values in the cells of the `&mut` arguments. -/
theorem C69_memory (max : Nat) (T : List String) (f : String) (args : List Val) (o : Outcome) (ha : ∀ v ∈ args, FO v)
    (h : run max T f args = some o) (ho : o ≠ .stuck) : Spec.Store.run max T f args = some o := by
  rw [run_eq] at h
  unfold Spec.Store.run
  rw [readCrate_eq]
  exact run_memory (tame max) ha h ho

/-- C69: so do the functions of traits. -/
theorem C69_memory_traits (max : Nat) (tr T f : String) (args : List Val) (o : Outcome) (ha : ∀ v ∈ args, FO v)
    (hn : ∀ P, readCrate max = some P → ∀ F ∈ P.fns, F.owner = [T] → F.trait = tr → F.fn.name = f → args.length = F.fn.params.length)
    (h : runAs max tr T f args = some o) (ho : o ≠ .stuck) : Spec.Store.runAs max tr T f args = some o := by
  have hn := hn _ (readCrate_eq max)
  unfold Spec.Store.runAs
  rw [readCrate_eq, Spec.Store.runAsIn]
  have e := readCrate_eq max
  cases hF : (crate max).fns.find? fun F => F.owner = [T] && F.trait = tr && F.fn.name = f with
  | none =>
    unfold runAs at h
    rw [e, runAsIn, hF] at h
    cases h
    exact absurd rfl ho
  | some F =>
    rw [runAs_eq hF] at h
    have h1 := List.mem_of_find?_eq_some hF
    have h2 := List.find?_some hF
    simp only [Bool.and_eq_true, decide_eq_true_eq] at h2
    exact fn_memory (tame max) h1 (hn F h1 h2.1.1 h2.1.2 h2.2) ha h ho

/-- C69: and so do calls in a release build. -/
theorem C69_memory_release (max : Nat) (T : List String) (f : String) (args : List Val) (o : Outcome) (ha : ∀ v ∈ args, FO v)
    (h : runRelease max T f args = some o) (ho : o ≠ .stuck) : Spec.Store.runRelease max T f args = some o := by
  rw [runRelease_eq] at h
  unfold Spec.Store.runRelease
  rw [readCrate_eq, Option.map_some]
  exact run_memory (tame_release max) ha h ho

theorem memory_next {max : Nat} {T : List String} {f : String} {v : Val} {α β : Type} [Rep α] [Rep β] {r : Rust (Option α × β)} (hv : FO v)
    (h : run max T f [v] = givesNext r) : Spec.Store.run max T f [v] = givesNext r := by
  rcases r with p | ⟨a, b⟩
  · exact C69_memory max T f [v] _ (by simpa using hv) h (by simp)
  · exact C69_memory max T f [v] _ (by simpa using hv) h (by simp)

/-- C69: with a memory, what `next` and `next_back` of the iterators do: the item, and the iterator in the cell afterwards. -/
theorem C69_memory_iterators (max : Nat) (d : Str) (o e : Nat) (h : d.length + 1 ≤ max) :
    (e ≤ d.length → Spec.Store.run max ["VariantsIter"] "next" [val (⟨d, o, e⟩ : VariantsIter)] = givesNext (VariantsIter.next ⟨d, o, e⟩)) ∧
    Spec.Store.run max ["VariantsIter"] "next_back" [val (⟨d, o, e⟩ : VariantsIter)] = givesNext (VariantsIter.nextBack ⟨d, o, e⟩) ∧
    Spec.Store.run max ["ExtensionIter"] "next" [val (⟨d, o⟩ : ExtensionIter)] = givesNext (ExtensionIter.next ⟨d, o⟩) ∧
    Spec.Store.run max ["ExtensionsIter"] "next" [val (⟨d, o⟩ : ExtensionsIter)] = givesNext (ExtensionsIter.next ⟨d, o⟩) ∧
    Spec.Store.run max ["PrivateUseIter"] "next" [val (⟨d, o⟩ : PrivateUseIter)] = givesNext (PrivateUseIter.next ⟨d, o⟩) ∧
    Spec.Store.run max ["LanguageExtensionIter"] "next" [val (⟨d, o⟩ : LanguageExtensionIter)] = givesNext (LanguageExtensionIter.next ⟨d, o⟩) := by
  obtain ⟨_, _, _, _, _, _, _, _, _, h1, h2, h3, h4, h5, h6⟩ := C69_iterators max d o e h
  have two : ∀ ty x y, FO (.struct ty [(x, .str d), (y, .usize o)]) := fun ty x y => .struct (by
    simp only [List.mem_cons, List.not_mem_nil, or_false]
    rintro _ (rfl | rfl) <;> constructor)
  have three : FO (val (⟨d, o, e⟩ : VariantsIter)) := .struct (by
    simp only [List.mem_cons, List.not_mem_nil, or_false]
    rintro _ (rfl | rfl | rfl) <;> constructor)
  exact ⟨fun he => memory_next three (h1 he), memory_next three h2, memory_next (two ..) h3, memory_next (two ..) h4, memory_next (two ..) h5, memory_next (two ..) h6⟩

section
/-- `{ let i = 0; let g = || i; i = 1; g() }` -/
private def seesChange : Expr :=
  .block [.let (.path ["i"]) (.lit (.int 0 "")), .let (.path ["g"]) (.closure [] (.path ["i"])), .expr (.assign (.path ["i"]) (.lit (.int 1 "")))]
    (.call (.path ["g"]) [])
private def C₀ : Ctx := ⟨[], "", .tuple []⟩

/-- The two meanings are not the same: a closure that is called after a change of a variable it sees. -/
example : (∃ σ, eval (program 255 [] []) C₀ seesChange [] = some (.ok (.usize 0) σ)) ∧
    (∃ S, Spec.Store.eval (program 255 [] []) C₀ [] seesChange [] = some (.ok (.usize 1) S)) := by
  let P := program 255 [] []
  let clo : Val := .closure [] (.path ["i"]) [("i", .usize 0)] C₀
  let clo' : Val := .closure [] (.path ["i"]) [("i", .usize 0)] C₀
  have l0 : ∀ σ, eval P C₀ (.lit (.int 0 "")) σ = some (.ok (.usize 0) σ) := fun σ => by rw [eval.eq_def]; rfl
  have l1 : ∀ σ, eval P C₀ (.lit (.int 1 "")) σ = some (.ok (.usize 1) σ) := fun σ => by rw [eval.eq_def]; rfl
  have l2 : eval P C₀ (.path ["i"]) [("i", .usize 0)] = some (.ok (.usize 0) [("i", .usize 0)]) := by rw [eval.eq_def]; dsimp only; rw [evalPath.eq_def]; rfl
  have l3 : eval P C₀ (.assign (.path ["i"]) (.lit (.int 1 ""))) [("g", clo), ("i", .usize 0)] = some (.ok .unit [("g", clo), ("i", .usize 1)]) := by
    rw [eval.eq_def]
    show (eval P C₀ (.lit (.int 1 "")) _).bind _ = _
    rw [l1]
    rfl
  have l4 : ∀ σ, applyVal P C₀ clo [] σ = some (.ok (.usize 0) σ) := fun σ => by
    rw [applyVal.eq_def]
    show (eval P C₀ (.path ["i"]) [("i", .usize 0)]).bind _ = _
    rw [l2]
    rfl
  have l5 : eval P C₀ (.call (.path ["g"]) []) [("g", clo), ("i", .usize 1)] = some (.ok (.usize 0) [("g", clo), ("i", .usize 1)]) := by
    rw [eval.eq_def]
    show (evalList P C₀ [] _).bind _ = _
    rw [evalList.eq_def]
    exact l4 _
  have m0 : ∀ S, Spec.Store.eval P C₀ [] (.lit (.int 0 "")) S = some (.ok (.usize 0) S) := fun S => by rw [Spec.Store.eval.eq_def]; rfl
  have m1 : ∀ ρ S, Spec.Store.eval P C₀ ρ (.lit (.int 1 "")) S = some (.ok (.usize 1) S) := fun ρ S => by rw [Spec.Store.eval.eq_def]; rfl
  have m2 : Spec.Store.eval P C₀ [("i", 0)] (.path ["i"]) [("i", .usize 1), ("g", clo')] = some (.ok (.usize 1) [("i", .usize 1), ("g", clo')]) := by
    rw [Spec.Store.eval.eq_def]; dsimp only; rw [Spec.Store.evalPath.eq_def]; rfl
  have m3 : Spec.Store.eval P C₀ [("g", 1), ("i", 0)] (.assign (.path ["i"]) (.lit (.int 1 ""))) [("i", .usize 0), ("g", clo')] =
      some (.ok .unit [("i", .usize 1), ("g", clo')]) := by
    rw [Spec.Store.eval.eq_def]
    show (Spec.Store.eval P C₀ _ (.lit (.int 1 "")) _).bind _ = _
    rw [m1]
    rfl
  have m4 : Spec.Store.applyVal P C₀ clo' [] [("i", .usize 1), ("g", clo')] = some (.ok (.usize 1) [("i", .usize 1), ("g", clo')]) := by
    rw [Spec.Store.applyVal.eq_def]
    show (Spec.Store.eval P C₀ [("i", 0)] (.path ["i"]) [("i", .usize 1), ("g", clo')]).bind _ = _
    rw [m2]
    rfl
  have m5 : Spec.Store.eval P C₀ [("g", 1), ("i", 0)] (.call (.path ["g"]) []) [("i", .usize 1), ("g", clo')] = some (.ok (.usize 1) [("i", .usize 1), ("g", clo')]) := by
    rw [Spec.Store.eval.eq_def]
    show (Spec.Store.evalList P C₀ _ [] _).bind _ = _
    rw [Spec.Store.evalList.eq_def]
    exact m4
  constructor
  · refine ⟨[], ?_⟩
    rw [eval.eq_def]
    show (evalBlock P C₀ _ _ []).bind _ = _
    rw [evalBlock.eq_def]
    show ((eval P C₀ (.lit (.int 0 "")) []).bind _).bind _ = _
    rw [l0]
    show (evalBlock P C₀ _ _ [("i", .usize 0)]).bind _ = _
    rw [evalBlock.eq_def]
    show ((eval P C₀ (.closure [] (.path ["i"])) [("i", .usize 0)]).bind _).bind _ = _
    rw [eval.eq_def]
    show (evalBlock P C₀ _ _ [("g", clo), ("i", .usize 0)]).bind _ = _
    rw [evalBlock.eq_def]
    show ((eval P C₀ _ [("g", clo), ("i", .usize 0)]).bind _).bind _ = _
    rw [l3]
    show (evalBlock P C₀ _ _ [("g", clo), ("i", .usize 1)]).bind _ = _
    rw [evalBlock.eq_def]
    show (eval P C₀ _ [("g", clo), ("i", .usize 1)]).bind _ = _
    rw [l5]
    rfl
  · refine ⟨[("i", .usize 1), ("g", clo')], ?_⟩
    rw [Spec.Store.eval.eq_def]
    show Spec.Store.evalBlock P C₀ _ _ _ [] = _
    rw [Spec.Store.evalBlock.eq_def]
    show ((Spec.Store.eval P C₀ _ (.lit (.int 0 "")) []).bind _) = _
    rw [m0]
    show Spec.Store.evalBlock P C₀ [("i", 0)] _ _ [("i", .usize 0)] = _
    rw [Spec.Store.evalBlock.eq_def]
    show (Spec.Store.eval P C₀ _ (.closure [] (.path ["i"])) [("i", .usize 0)]).bind _ = _
    rw [Spec.Store.eval.eq_def]
    show Spec.Store.evalBlock P C₀ [("g", 1), ("i", 0)] _ _ [("i", .usize 0), ("g", clo')] = _
    rw [Spec.Store.evalBlock.eq_def]
    show (Spec.Store.eval P C₀ _ _ _).bind _ = _
    rw [m3]
    show Spec.Store.evalBlock P C₀ [("g", 1), ("i", 0)] _ _ [("i", .usize 1), ("g", clo')] = _
    rw [Spec.Store.evalBlock.eq_def]
    exact m5
end

end Langtag.Props
