import Verif.Source.Counted.Names

/-! Rules for the functions the derive macros write for the types of the crate, counting (part). -/

set_option autoImplicit false

namespace Langtag.Source.Counted

counted_newtype_rules "NormalLangTag" NormalLangTag
counted_newtype_rules "PrimaryLanguage" PrimaryLanguage
counted_newtype_rules "ExtendedLangTag" ExtendedLangTag
counted_newtype_rules "Region" Region
counted_newtype_rules "Variants" Variants
counted_newtype_rules "Extensions" Extensions
counted_newtype_rules "PrivateUse" PrivateUse

end Langtag.Source.Counted
