import Verif.Proof.Validate
import Verif.Model.Types
import Verif.Spec.Grammar

/-! # The other automata and their ABNF rules -/

set_option autoImplicit false

namespace Langtag.Proof
open Langtag.Spec Langtag.Model

theorem check_langtag : checkRel Automata.langtag (.ofAbnf Grammar.langtag)
    (relOf Automata.langtag (.ofAbnf Grammar.langtag)) = true := by decide +kernel

theorem check_privateuse : checkRel Automata.privateuse (.ofAbnf Grammar.privateuse)
    (relOf Automata.privateuse (.ofAbnf Grammar.privateuse)) = true := by decide +kernel

theorem check_privateuseSubtag : checkRel Automata.privateuseSubtag (.ofAbnf Grammar.privateuseSubtag)
    (relOf Automata.privateuseSubtag (.ofAbnf Grammar.privateuseSubtag)) = true := by decide +kernel

theorem check_language : checkRel Automata.language (.ofAbnf Grammar.language)
    (relOf Automata.language (.ofAbnf Grammar.language)) = true := by decide +kernel

theorem check_primary : checkRel Automata.primary (.ofAbnf Grammar.primary)
    (relOf Automata.primary (.ofAbnf Grammar.primary)) = true := by decide +kernel

theorem check_extlang : checkRel Automata.extlang (.ofAbnf Grammar.extlang)
    (relOf Automata.extlang (.ofAbnf Grammar.extlang)) = true := by decide +kernel

theorem check_extlangTag : checkRel Automata.extlangTag (.ofAbnf Grammar.extlangTag)
    (relOf Automata.extlangTag (.ofAbnf Grammar.extlangTag)) = true := by decide +kernel

theorem check_script : checkRel Automata.script (.ofAbnf Grammar.script)
    (relOf Automata.script (.ofAbnf Grammar.script)) = true := by decide +kernel

theorem check_region : checkRel Automata.region (.ofAbnf Grammar.region)
    (relOf Automata.region (.ofAbnf Grammar.region)) = true := by decide +kernel

theorem check_variant : checkRel Automata.variant (.ofAbnf Grammar.variant)
    (relOf Automata.variant (.ofAbnf Grammar.variant)) = true := by decide +kernel

theorem check_variants : checkRel Automata.variants (.ofAbnf Grammar.variants)
    (relOf Automata.variants (.ofAbnf Grammar.variants)) = true := by decide +kernel

theorem check_extension : checkRel Automata.extension (.ofAbnf Grammar.extension)
    (relOf Automata.extension (.ofAbnf Grammar.extension)) = true := by decide +kernel

theorem check_extensionSubtag : checkRel Automata.extensionSubtag (.ofAbnf Grammar.extensionSubtag)
    (relOf Automata.extensionSubtag (.ofAbnf Grammar.extensionSubtag)) = true := by decide +kernel

theorem check_extensions : checkRel Automata.extensions (.ofAbnf Grammar.extensions)
    (relOf Automata.extensions (.ofAbnf Grammar.extensions)) = true := by decide +kernel

end Langtag.Proof
