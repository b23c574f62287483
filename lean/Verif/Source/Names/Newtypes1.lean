import Verif.Source.Names

/-! Rules for the functions the derive macros write for the types of the crate (part). -/

set_option autoImplicit false

namespace Langtag.Source

newtype_rules "NormalLangTag" NormalLangTag
newtype_rules "PrimaryLanguage" PrimaryLanguage
newtype_rules "ExtendedLangTag" ExtendedLangTag
newtype_rules "Region" Region
newtype_rules "Variants" Variants
newtype_rules "Extensions" Extensions
newtype_rules "PrivateUse" PrivateUse

end Langtag.Source
