import Verif.Source.Deep.Names

/-! Rules for the functions the derive macros write for the types of the crate, with bounded nesting (part). -/

set_option autoImplicit false

namespace Langtag.Source.Deep

deep_newtype_rules "LangTag" LangTag
deep_newtype_rules "Language" Language
deep_newtype_rules "LanguageExtension" LanguageExtension
deep_newtype_rules "Script" Script
deep_newtype_rules "Variant" Variant
deep_newtype_rules "Extension" Extension
deep_newtype_rules "ExtensionSubtag" ExtensionSubtag
deep_newtype_rules "PrivateUseSubtag" PrivateUseSubtag

end Langtag.Source.Deep
