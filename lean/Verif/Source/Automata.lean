import Verif.Source.Syntax
import Verif.Model.Automata

/-!
# The abstract syntax of an automaton

What `grammar.rs` says for an automaton, as a function of its table.  `Verif/Source/Parsed/Grammar.lean` proves that `grammar.rs` reads as the
fifteen automata the tables of which are in `Verif/Model/Automata.lean`.
-/

set_option autoImplicit false

namespace Langtag.Source.Automata
open Langtag.Model (Dfa Row)

/-- `'c'` or `'a'..='z'` -/
def rangePat : Char × Char → Pat
  | (lo, hi) => if lo.toNat == hi.toNat then .lit (.char lo.toNat) else .range (.char lo.toNat) (.char hi.toNat)

/-- `p`, or `p | q` -/
def orPat : List Pat → Pat
  | [p] => p
  | ps => .or ps

/-- `Nu32` -/
def state (n : Nat) : Lit := .int n "u32"

/-- `self.state` -/
def selfState : Expr := .field (.path ["self"]) "state"

/-- `_ => return false` -/
def reject : Arm := .mk .wild (.return (.lit (.bool false)))

/-- `'A' | 'a' => 1u32` -/
def armAst (a : Langtag.Model.Arm) : Arm := .mk (orPat (a.ranges.map rangePat)) (.lit (state a.target))

/-- `0u32 => match token { … }` -/
def rowAst (r : Row) : Arm := .mk (.lit (state r.state)) (.match (.path ["token"]) (r.arms.map armAst ++ [reject]))

/-- `fn new() -> Self { Self { state: 0u32 } }` -/
def newAst (d : Dfa) : FnDef :=
  ⟨"new", [], .path ["Self"] [], .block [] (.struct ["Self"] [.mk "state" (.lit (state d.init))])⟩

/-- `fn push(&mut self, token: char) -> bool { self.state = match self.state { … }; true }` -/
def pushAst (d : Dfa) : FnDef :=
  ⟨"push", [("self", .ref true (.path ["Self"] [])), ("token", .path ["char"] [])], .path ["bool"] [],
    .block [.expr (.assign selfState (.match selfState (d.rows.map rowAst ++ [reject])))] (.lit (.bool true))⟩

/-- `fn is_accepting(&self) -> bool { matches!(self.state, …) }` -/
def isAcceptingAst (d : Dfa) : FnDef :=
  ⟨"is_accepting", [("self", .ref false (.path ["Self"] []))], .path ["bool"] [],
    .block [] (.matches selfState (orPat (d.accepting.map fun n => .lit (state n))))⟩

/-- `fn validate_str(s: &str) -> bool { Self::validate_bytes(s.as_bytes()) }` -/
def validateStrAst : FnDef :=
  ⟨"validate_str", [("s", .ref false (.path ["str"] []))], .path ["bool"] [],
    .block [] (.call (.path ["Self", "validate_bytes"]) [.method (.path ["s"]) "as_bytes" []])⟩

/-- `if !automaton.push(c) { return false; } i += len;` -/
def validateArm : Expr :=
  .block [
    .expr (.ite (.not (.method (.path ["automaton"]) "push" [.path ["c"]]))
      (.block [.expr (.return (.lit (.bool false)))] (.tuple []))
      (.tuple [])),
    .expr (.opAssign .add (.path ["i"]) (.path ["len"]))]
    (.tuple [])

/-- The body of the loop of `validate_bytes`. -/
def validateBody : Expr :=
  .block []
    (.match (.call (.path ["static_automata", "decode_utf8_char"]) [.path ["bytes"], .path ["i"]]) [
      .mk (.ctor ["Ok"] [.tuple [.path ["c"], .path ["len"]]]) validateArm,
      .mk (.ctor ["Err"] [.wild]) (.return (.lit (.bool false)))])

/-- `fn validate_bytes(bytes: &[u8]) -> bool { … }` -/
def validateBytesAst : FnDef :=
  ⟨"validate_bytes", [("bytes", .ref false (.slice (.path ["u8"] [])))], .path ["bool"] [],
    .block [
      .let (.path ["i"]) (.lit (.int 0 "")),
      .let (.path ["automaton"]) (.call (.path ["Self", "new"]) []),
      .expr (.while (.bin .lt (.path ["i"]) (.method (.path ["bytes"]) "len" [])) validateBody)]
      (.method (.path ["automaton"]) "is_accepting" [])⟩

/-- The items of an automaton. -/
def itemsAst (name : String) (d : Dfa) : List Item := [
  .struct name [] [] (.named [("state", .path ["u32"] [])]),
  .impl none (.path [name] []) [] [newAst d, pushAst d, isAcceptingAst d, validateStrAst, validateBytesAst]]

open Langtag.Model.Automata in
/-- The automata of `grammar.rs`, in order. -/
def automata : List (String × Dfa) := [
  ("LanguageTag", languageTag), ("Privateuse", privateuse), ("PrivateuseSubtag", privateuseSubtag), ("Langtag", langtag),
  ("Language", language), ("Primary", primary), ("Extlang", extlang), ("ExtlangTag", extlangTag), ("Script", script), ("Region", region),
  ("Variant", variant), ("Variants", variants), ("Extension", extension), ("ExtensionSubtag", extensionSubtag), ("Extensions", extensions)]

/-- The items of `grammar.rs`. -/
def grammarRs : List Item := automata.flatMap fun (name, d) => itemsAst name d

end Langtag.Source.Automata
