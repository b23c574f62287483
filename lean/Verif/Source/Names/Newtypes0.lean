import Verif.Source.Names

/-! Rules for the functions the derive macros write for the types of the crate (part). -/

set_option autoImplicit false

namespace Langtag.Source

newtype_rules "LangTag" LangTag
newtype_rules "Language" Language
newtype_rules "LanguageExtension" LanguageExtension
newtype_rules "Script" Script
newtype_rules "Variant" Variant
newtype_rules "Extension" Extension
newtype_rules "ExtensionSubtag" ExtensionSubtag
newtype_rules "PrivateUseSubtag" PrivateUseSubtag

end Langtag.Source
