import Verif.Source.Counted.Names

/-! Rules for the functions the derive macros write for the types of the crate, counting (part). -/

set_option autoImplicit false

namespace Langtag.Source.Counted

counted_newtype_rules "LangTag" LangTag
counted_newtype_rules "Language" Language
counted_newtype_rules "LanguageExtension" LanguageExtension
counted_newtype_rules "Script" Script
counted_newtype_rules "Variant" Variant
counted_newtype_rules "Extension" Extension
counted_newtype_rules "ExtensionSubtag" ExtensionSubtag
counted_newtype_rules "PrivateUseSubtag" PrivateUseSubtag

end Langtag.Source.Counted
