import Verif.Spec.AbnfText

/-!
# The rules of `Spec/Grammar.lean` are those of `grammar.abnf`

Reading the text of the file gives, rule by rule, the definitions of `Spec/Grammar.lean`, and these are all the rules of the file.
The same for the text of RFC 5646, which does without the auxiliary rules.
-/

set_option autoImplicit false

namespace Langtag.Proof
open Langtag.Spec Langtag.Spec.AbnfText

/-- The rules of `grammar.abnf`, in the order of the file. -/
def fileRules : List (String × Abnf) := [
  ("Language-Tag", Grammar.languageTag),
  ("langtag", Grammar.langtag),
  ("language", Grammar.language),
  ("primary", Grammar.primary),
  ("extlang", Grammar.extlang),
  ("extlang-tag", Grammar.extlangTag),
  ("script", Grammar.script),
  ("region", Grammar.region),
  ("variant", Grammar.variant),
  ("variants", Grammar.variants),
  ("extension", Grammar.extension),
  ("extension-subtag", Grammar.extensionSubtag),
  ("extensions", Grammar.extensions),
  ("singleton", Grammar.singleton),
  ("privateuse", Grammar.privateuse),
  ("privateuse-subtag", Grammar.privateuseSubtag),
  ("grandfathered", Grammar.grandfathered),
  ("irregular", Grammar.irregular),
  ("regular", Grammar.regular),
  ("alphanum", Grammar.alphanum)]

/-- The rules of RFC 5646 §2.1, in order. -/
def rfcRules : List (String × Abnf) := [
  ("Language-Tag", Grammar.languageTag),
  ("langtag", Grammar.langtag),
  ("language", Grammar.language),
  ("extlang", Grammar.extlang),
  ("script", Grammar.script),
  ("region", Grammar.region),
  ("variant", Grammar.variant),
  ("extension", Grammar.extension),
  ("singleton", Grammar.singleton),
  ("privateuse", Grammar.privateuse),
  ("grandfathered", Grammar.grandfathered),
  ("irregular", Grammar.irregular),
  ("regular", Grammar.regular),
  ("alphanum", Grammar.alphanum)]

/-- The names of the rules of the file, in order, and what each describes (one evaluation for both: it takes half a minute). -/
theorem rules_grammarAbnf :
    (rules grammarAbnf).map (fun rs => (rs.map List.head?, fileRules.map fun r => describe rs r.1)) =
      some (fileRules.map (fun r => some (.name r.1.toList)), fileRules.map fun r => some r.2) := by
  decide +kernel

/-- The same for the text of the RFC. -/
theorem rules_rfc5646 :
    (rules rfc5646).map (fun rs => (rs.map List.head?, rfcRules.map fun r => describe rs r.1)) =
      some (rfcRules.map (fun r => some (.name r.1.toList)), rfcRules.map fun r => some r.2) := by
  decide +kernel

theorem read_of_rules {lines : List String} {named : List (String × Abnf)} {x : List (Option Tok)}
    (h : (rules lines).map (fun rs => (rs.map List.head?, named.map fun r => describe rs r.1)) =
      some (x, named.map fun r => some r.2)) : ∀ r ∈ named, AbnfText.read lines r.1 = some r.2 := by
  unfold AbnfText.read
  cases hr : rules lines with
  | none => simp [hr] at h
  | some rs =>
    rw [hr] at h
    simp only [Option.map_some, Option.some.injEq, Prod.mk.injEq, List.map_inj_left] at h
    exact fun r hm => h.2 r hm

theorem read_grammarAbnf : ∀ r ∈ fileRules, AbnfText.read grammarAbnf r.1 = some r.2 := read_of_rules rules_grammarAbnf
theorem read_rfc5646 : ∀ r ∈ rfcRules, AbnfText.read rfc5646 r.1 = some r.2 := read_of_rules rules_rfc5646

end Langtag.Proof
