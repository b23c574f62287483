import Verif.Proof.Validate
import Verif.Model.Types
import Verif.Spec.Grammar

/-! # The `LanguageTag` automaton and the ABNF `Language-Tag` -/

set_option autoImplicit false

namespace Langtag.Proof
open Langtag.Spec Langtag.Model

theorem check_languageTag : checkRel Automata.languageTag (.ofAbnf Grammar.languageTag)
    (relOf Automata.languageTag (.ofAbnf Grammar.languageTag)) = true := by decide +kernel

end Langtag.Proof
