import Verif.Source.Deep.Names

/-! Rules for the functions the derive macros write for the types of the crate, with bounded nesting (part). -/

set_option autoImplicit false

namespace Langtag.Source.Deep

deep_newtype_rules "NormalLangTag" NormalLangTag
deep_newtype_rules "PrimaryLanguage" PrimaryLanguage
deep_newtype_rules "ExtendedLangTag" ExtendedLangTag
deep_newtype_rules "Region" Region
deep_newtype_rules "Variants" Variants
deep_newtype_rules "Extensions" Extensions
deep_newtype_rules "PrivateUse" PrivateUse

end Langtag.Source.Deep
