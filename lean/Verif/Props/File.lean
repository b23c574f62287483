import Verif.Props.Acceptance
import Verif.Proof.GrammarText

/-!
# C01–C07, with the grammar read from the text of `grammar.abnf` and of RFC 5646

The grammars of `C01_langTag`, … are definitions of `Spec/Grammar.lean`.  Here they are what the text of the file, and of the RFC, says
(`Spec/AbnfText.lean`).
-/

set_option autoImplicit false

namespace Langtag.Props
open Langtag.Model Langtag.Spec Langtag.Proof Langtag.Spec.AbnfText

/-- The constructor of `T` accepts what the rule `name` of an ABNF text describes, and nothing else. -/
def ConstructorIsRule (T : Type) [StrNewtype T] (lines : List String) (name : String) : Prop :=
  ∃ g, AbnfText.read lines name = some g ∧ ConstructorIs T g

/-- C01: `LangTag`, by the text of `grammar.abnf`. -/
theorem C01_file :
    ConstructorIsRule LangTag grammarAbnf "Language-Tag" :=
  ⟨_, read_grammarAbnf ("Language-Tag", Grammar.languageTag) (by simp [fileRules]), C01_langTag⟩
/-- C01: by the text of RFC 5646 §2.1. -/
theorem C01_rfc :
    ConstructorIsRule LangTag rfc5646 "Language-Tag" :=
  ⟨_, read_rfc5646 ("Language-Tag", Grammar.languageTag) (by simp [rfcRules]), C01_langTag⟩

/-- C02: `NormalLangTag`, by the text of `grammar.abnf`. -/
theorem C02_file :
    ConstructorIsRule NormalLangTag grammarAbnf "langtag" :=
  ⟨_, read_grammarAbnf ("langtag", Grammar.langtag) (by simp [fileRules]), C02_normalLangTag⟩
/-- C02: by the text of RFC 5646 §2.1. -/
theorem C02_rfc :
    ConstructorIsRule NormalLangTag rfc5646 "langtag" :=
  ⟨_, read_rfc5646 ("langtag", Grammar.langtag) (by simp [rfcRules]), C02_normalLangTag⟩

/-- C03: `PrivateUse` and `PrivateUseSubtag`, by the text of `grammar.abnf`. -/
theorem C03_file :
    ConstructorIsRule PrivateUse grammarAbnf "privateuse" ∧
    ConstructorIsRule PrivateUseSubtag grammarAbnf "privateuse-subtag" :=
  ⟨⟨_, read_grammarAbnf ("privateuse", Grammar.privateuse) (by simp [fileRules]), C03_privateUse⟩,
    ⟨_, read_grammarAbnf ("privateuse-subtag", Grammar.privateuseSubtag) (by simp [fileRules]), C03_privateUseSubtag⟩⟩
/-- C03: by the text of RFC 5646 §2.1. -/
theorem C03_rfc :
    ConstructorIsRule PrivateUse rfc5646 "privateuse" :=
  ⟨_, read_rfc5646 ("privateuse", Grammar.privateuse) (by simp [rfcRules]), C03_privateUse⟩

/-- C04: the language types, by the text of `grammar.abnf`. -/
theorem C04_file :
    ConstructorIsRule Language grammarAbnf "language" ∧
    ConstructorIsRule PrimaryLanguage grammarAbnf "primary" ∧
    ConstructorIsRule LanguageExtension grammarAbnf "extlang" ∧
    ConstructorIsRule ExtendedLangTag grammarAbnf "extlang-tag" :=
  ⟨⟨_, read_grammarAbnf ("language", Grammar.language) (by simp [fileRules]), C04_language⟩,
    ⟨_, read_grammarAbnf ("primary", Grammar.primary) (by simp [fileRules]), C04_primaryLanguage⟩,
    ⟨_, read_grammarAbnf ("extlang", Grammar.extlang) (by simp [fileRules]), C04_languageExtension⟩,
    ⟨_, read_grammarAbnf ("extlang-tag", Grammar.extlangTag) (by simp [fileRules]), C04_extendedLangTag⟩⟩
/-- C04: by the text of RFC 5646 §2.1. -/
theorem C04_rfc :
    ConstructorIsRule Language rfc5646 "language" ∧
    ConstructorIsRule LanguageExtension rfc5646 "extlang" :=
  ⟨⟨_, read_rfc5646 ("language", Grammar.language) (by simp [rfcRules]), C04_language⟩,
    ⟨_, read_rfc5646 ("extlang", Grammar.extlang) (by simp [rfcRules]), C04_languageExtension⟩⟩

/-- C05: `Script` and `Region`, by the text of `grammar.abnf`. -/
theorem C05_file :
    ConstructorIsRule Script grammarAbnf "script" ∧
    ConstructorIsRule Region grammarAbnf "region" :=
  ⟨⟨_, read_grammarAbnf ("script", Grammar.script) (by simp [fileRules]), C05_script⟩,
    ⟨_, read_grammarAbnf ("region", Grammar.region) (by simp [fileRules]), C05_region⟩⟩
/-- C05: by the text of RFC 5646 §2.1. -/
theorem C05_rfc :
    ConstructorIsRule Script rfc5646 "script" ∧
    ConstructorIsRule Region rfc5646 "region" :=
  ⟨⟨_, read_rfc5646 ("script", Grammar.script) (by simp [rfcRules]), C05_script⟩,
    ⟨_, read_rfc5646 ("region", Grammar.region) (by simp [rfcRules]), C05_region⟩⟩

/-- C06: `Variant` and `Variants`, by the text of `grammar.abnf`. -/
theorem C06_file :
    ConstructorIsRule Variant grammarAbnf "variant" ∧
    ConstructorIsRule Variants grammarAbnf "variants" :=
  ⟨⟨_, read_grammarAbnf ("variant", Grammar.variant) (by simp [fileRules]), C06_variant⟩,
    ⟨_, read_grammarAbnf ("variants", Grammar.variants) (by simp [fileRules]), C06_variants⟩⟩
/-- C06: by the text of RFC 5646 §2.1. -/
theorem C06_rfc :
    ConstructorIsRule Variant rfc5646 "variant" :=
  ⟨_, read_rfc5646 ("variant", Grammar.variant) (by simp [rfcRules]), C06_variant⟩

/-- C07: the extension types, by the text of `grammar.abnf`. -/
theorem C07_file :
    ConstructorIsRule Extension grammarAbnf "extension" ∧
    ConstructorIsRule ExtensionSubtag grammarAbnf "extension-subtag" ∧
    ConstructorIsRule Extensions grammarAbnf "extensions" :=
  ⟨⟨_, read_grammarAbnf ("extension", Grammar.extension) (by simp [fileRules]), C07_extension⟩,
    ⟨_, read_grammarAbnf ("extension-subtag", Grammar.extensionSubtag) (by simp [fileRules]), C07_extensionSubtag⟩,
    ⟨_, read_grammarAbnf ("extensions", Grammar.extensions) (by simp [fileRules]), C07_extensions⟩⟩
/-- C07: by the text of RFC 5646 §2.1. -/
theorem C07_rfc :
    ConstructorIsRule Extension rfc5646 "extension" :=
  ⟨_, read_rfc5646 ("extension", Grammar.extension) (by simp [rfcRules]), C07_extension⟩

end Langtag.Props
