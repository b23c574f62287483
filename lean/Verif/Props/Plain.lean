import Verif.Spec.Plain
import Verif.Source.Langtag
import Verif.Source.KernelRfl

/-!
# C69: the text does nothing the semantics would get wrong

The shortcuts of the semantics of Rust (`Verif/Source/Semantics.lean`) are exact for programs that are `Plain` (`Verif/Spec/Plain.lean`),
and the crate is.
-/

set_option autoImplicit false

namespace Langtag.Props
open Langtag.Source Langtag.Spec.Plain

/-- The program does not depend on the size of `usize`, except where it says so. -/
private theorem bodies_eq (max : Nat) : bodies (crate max) = bodies (crate 0) := rfl

private theorem noAliases (max : Nat) : NoAliases (crate max) where
  params := show ∀ f ∈ (crate 0).fns, _ by decide +kernel
  only := show ∀ f ∈ (crate 0).fns, _ by decide +kernel
  fields := show ∀ f ∈ (crate 0).types, _ by decide +kernel
  exprs := show ∀ b ∈ bodies (crate 0), _ by decide +kernel

instance (P : Program) (c : Expr) : Decidable (PureBody P c) := by
  unfold PureBody
  infer_instance

private theorem pureClosures (max : Nat) : PureClosures (crate max) := show PureClosures (crate 0) by
  unfold PureClosures
  decide +kernel

private theorem firstChars (max : Nat) : FirstChars (crate max) := show FirstChars (crate 0) by
  unfold FirstChars
  decide +kernel

private theorem resultTypes (max : Nat) : ResultTypes (crate max) := show ResultTypes (crate 0) by
  unfold ResultTypes
  decide +kernel

/-- A value of one type is ruled out by the other. -/
private def apartTy (t u : Ty) : Bool :=
  match t, u with
  | .path ["u8"] [], .path ["char"] [] => true
  | .ref _ (.path ["u8"] []), .ref _ (.path ["char"] []) => true
  | _, _ => false

private theorem apartTy_sound {o : List String} {t u : Ty} (h : apartTy t u = true) (v : Val) : ¬ (admits o v t = true ∧ admits o v u = true) := by
  unfold apartTy at h
  split at h
  · cases v <;> simp [admits]
  · cases v <;> simp [admits]
  · cases h

/-- Arguments of one function are ruled out by the parameters of the other. -/
private def apart : List (String × Ty) → List (String × Ty) → Bool
  | (_, t) :: ps, (_, u) :: qs => apartTy t u || apart ps qs
  | _, _ => false

private theorem apart_sound {o : List String} {ps qs : List (String × Ty)} (h : apart ps qs = true) (vs : List Val) :
    ¬ (admitsAll o vs ps = true ∧ admitsAll o vs qs = true) := by
  induction ps generalizing qs vs with
  | nil => cases h
  | cons p ps ih =>
    cases qs with
    | nil => cases h
    | cons q qs =>
      cases vs with
      | nil => simp [admitsAll]
      | cons v vs =>
        simp only [admitsAll, Bool.and_eq_true]
        rintro ⟨⟨h1, h2⟩, h3, h4⟩
        simp only [apart, Bool.or_eq_true] at h
        rcases h with h | h
        · exact apartTy_sound h v ⟨h1, h3⟩
        · exact ih h vs ⟨h2, h4⟩

private theorem fns_check : (crate 0).fns.Pairwise fun f g => f.owner = g.owner → f.fn.name = g.fn.name →
    (f.fn.name = "fmt" ∧ f.trait ≠ g.trait) ∨ apart f.fn.params g.fn.params = true := by
  decide +kernel

private theorem names (max : Nat) : Names (crate max) where
  types := show ((crate 0).types.map (·.1) ++ (crate 0).aliases.map fun a => [a.1]).Nodup by decide +kernel
  core := show ∀ x ∈ _, [x] ∉ (crate 0).types.map (·.1) ∧ x ∉ (crate 0).aliases.map (·.1) by decide +kernel
  consts := show ((crate 0).consts.map fun (o, x, _) => (o, x)).Nodup by decide +kernel
  fns := by
    refine List.Pairwise.imp ?_ (show (crate max).fns.Pairwise _ from fns_check)
    intro f g h h1 h2
    rcases h h1 h2 with h | h
    · exact .inl h
    · exact .inr fun vs => h1 ▸ apart_sound h vs
  members := show ∀ c ∈ (crate 0).consts, ∀ f ∈ (crate 0).fns, _ by decide +kernel
  patterns := show ∀ b ∈ bodies (crate 0), ∀ e ∈ within b, ∀ x ∈ bound e, x ∉ (crate 0).consts.map (·.2.1) by decide +kernel

/-- C69: the crate can be read, and does nothing for which the semantics would not be exact: it has no two names for what can be written, its
closures only look at variables, and its names are unambiguous. -/
theorem C69_plain (max : Nat) : ∃ P, readCrate max = some P ∧ Plain P :=
  ⟨_, readCrate_eq max, noAliases max, pureClosures max, firstChars max, resultTypes max,
    show ∀ b ∈ bodies (crate 0), ∀ e ∈ within b, literalOnTheLeft e = false by decide +kernel, names max⟩

section
/-- `fn f(a: &mut u8, b: &mut u8) {}` -/
private def twoMuts : Program :=
  program 255 [] [[.fn ⟨"f", [("a", .ref true (.path ["u8"] [])), ("b", .ref true (.path ["u8"] []))], .tuple [], .block [] (.tuple [])⟩]]
/-- `fn f() { let i = 0; let g = || i += 1; }` -/
private def counts : Program := program 255 [] [[.fn ⟨"f", [], .tuple [],
  .block [.let (.path ["i"]) (.lit (.int 0 "")), .let (.path ["g"]) (.closure [] (.opAssign .add (.path ["i"]) (.lit (.int 1 ""))))] (.tuple [])⟩]]
/-- `fn f(s: &str) { let c = s.chars(); c.next(); }` -/
private def keepsChars : Program := program 255 [] [[.fn ⟨"f", [("s", .ref false (.path ["str"] []))], .tuple [],
  .block [.let (.path ["c"]) (.method (.path ["s"]) "chars" []), .expr (.method (.path ["c"]) "next" [])] (.tuple [])⟩]]
/-- Two types of one name. -/
private def twoTypes : Program := program 255 [] [[.struct "T" [] [] (.tuple [])], [.struct "T" [] [] (.named [])]]

/-- Programs that are not `Plain`, each for one of the reasons. -/
example : ¬ Plain twoMuts := fun h => absurd h.noAliases.params (by decide +kernel)
example : ¬ Plain counts := fun h => absurd h.closures (by unfold PureClosures; decide +kernel)
example : ¬ Plain keepsChars := fun h => absurd h.firstChars (by unfold FirstChars; decide +kernel)
example : ¬ Plain twoTypes := fun h => absurd h.names.types (by decide +kernel)
/-- What is counted is there: closures, `chars`, `unwrap_or_default`, `try_into`. -/
example : ((bodies (crate 0)).flatMap within).countP (fun e => (closureBody e).isSome) = 14 ∧
    ((bodies (crate 0)).flatMap within).countP takesFirstChar = 1 ∧
    ((bodies (crate 0)).flatMap within).countP (callsMethod "unwrap_or_default") = 2 ∧
    ((bodies (crate 0)).flatMap within).countP (callsMethod "try_into") = 1 := by decide +kernel
end

end Langtag.Props
