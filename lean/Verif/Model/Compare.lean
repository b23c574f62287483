import Verif.Model.Types

/-!
# Comparison and hashing of the string types

`impl PartialEq`, `Ord`, `PartialOrd` and `Hash` of each of the fifteen types.
-/

set_option autoImplicit false

namespace Langtag.Model

/-- The comparison traits of a type: `PartialEq::eq`, `Ord::cmp`, `PartialOrd::partial_cmp`, `Hash::hash`, as src/lib.rs:180-204. -/
class Compare (T : Type) where
  eq : T → T → Rust Bool
  cmp : T → T → Rust Ordering
  partialCmp : T → T → Rust (Option Ordering)
  hash : (H : Hasher) → T → H.State → Rust H.State

/-- `PartialEq::eq`, src/lib.rs:180-184 -/
def LangTag.eq (a b : LangTag) : Rust Bool := caseInsensitiveEq a.str b.str
/-- `Ord::cmp`, src/lib.rs:194-198 -/
def LangTag.cmp (a b : LangTag) : Rust Ordering := caseInsensitiveCmp a.str b.str
/-- `PartialOrd::partial_cmp`, src/lib.rs:188-192 -/
def LangTag.partialCmp (a b : LangTag) : Rust (Option Ordering) := do return some (← LangTag.cmp a b)
/-- `Hash::hash`, src/lib.rs:200-204 -/
def LangTag.hash (H : Hasher) (a : LangTag) (state : H.State) : Rust H.State := caseInsensitiveHash H a.str state
/-- The four implementations above, src/lib.rs:180-204. -/
instance : Compare LangTag := ⟨LangTag.eq, LangTag.cmp, LangTag.partialCmp, LangTag.hash⟩

/-- `PartialEq::eq`, src/normal/mod.rs:153-157 -/
def NormalLangTag.eq (a b : NormalLangTag) : Rust Bool := caseInsensitiveEq a.str b.str
/-- `Ord::cmp`, src/normal/mod.rs:167-171 -/
def NormalLangTag.cmp (a b : NormalLangTag) : Rust Ordering := caseInsensitiveCmp a.str b.str
/-- `PartialOrd::partial_cmp`, src/normal/mod.rs:161-165 -/
def NormalLangTag.partialCmp (a b : NormalLangTag) : Rust (Option Ordering) := do return some (← NormalLangTag.cmp a b)
/-- `Hash::hash`, src/normal/mod.rs:173-177 -/
def NormalLangTag.hash (H : Hasher) (a : NormalLangTag) (state : H.State) : Rust H.State := caseInsensitiveHash H a.str state
/-- The four implementations above, src/normal/mod.rs:153-177. -/
instance : Compare NormalLangTag := ⟨NormalLangTag.eq, NormalLangTag.cmp, NormalLangTag.partialCmp, NormalLangTag.hash⟩

/-- `PartialEq::eq`, src/normal/language/mod.rs:67-71 -/
def Language.eq (a b : Language) : Rust Bool := caseInsensitiveEq a.str b.str
/-- `Ord::cmp`, src/normal/language/mod.rs:81-85 -/
def Language.cmp (a b : Language) : Rust Ordering := caseInsensitiveCmp a.str b.str
/-- `PartialOrd::partial_cmp`, src/normal/language/mod.rs:75-79 -/
def Language.partialCmp (a b : Language) : Rust (Option Ordering) := do return some (← Language.cmp a b)
/-- `Hash::hash`, src/normal/language/mod.rs:87-91 -/
def Language.hash (H : Hasher) (a : Language) (state : H.State) : Rust H.State := caseInsensitiveHash H a.str state
/-- The four implementations above, src/normal/language/mod.rs:67-91. -/
instance : Compare Language := ⟨Language.eq, Language.cmp, Language.partialCmp, Language.hash⟩

/-- `PartialEq::eq`, src/normal/language/primary.rs:21-25 -/
def PrimaryLanguage.eq (a b : PrimaryLanguage) : Rust Bool := caseInsensitiveEq a.str b.str
/-- `Ord::cmp`, src/normal/language/primary.rs:35-39 -/
def PrimaryLanguage.cmp (a b : PrimaryLanguage) : Rust Ordering := caseInsensitiveCmp a.str b.str
/-- `PartialOrd::partial_cmp`, src/normal/language/primary.rs:29-33 -/
def PrimaryLanguage.partialCmp (a b : PrimaryLanguage) : Rust (Option Ordering) := do return some (← PrimaryLanguage.cmp a b)
/-- `Hash::hash`, src/normal/language/primary.rs:41-45 -/
def PrimaryLanguage.hash (H : Hasher) (a : PrimaryLanguage) (state : H.State) : Rust H.State := caseInsensitiveHash H a.str state
/-- The four implementations above, src/normal/language/primary.rs:21-45. -/
instance : Compare PrimaryLanguage := ⟨PrimaryLanguage.eq, PrimaryLanguage.cmp, PrimaryLanguage.partialCmp, PrimaryLanguage.hash⟩

/-- `PartialEq::eq`, src/normal/language/extlang.rs:35-39 -/
def LanguageExtension.eq (a b : LanguageExtension) : Rust Bool := caseInsensitiveEq a.str b.str
/-- `Ord::cmp`, src/normal/language/extlang.rs:49-53 -/
def LanguageExtension.cmp (a b : LanguageExtension) : Rust Ordering := caseInsensitiveCmp a.str b.str
/-- `PartialOrd::partial_cmp`, src/normal/language/extlang.rs:43-47 -/
def LanguageExtension.partialCmp (a b : LanguageExtension) : Rust (Option Ordering) := do return some (← LanguageExtension.cmp a b)
/-- `Hash::hash`, src/normal/language/extlang.rs:55-59 -/
def LanguageExtension.hash (H : Hasher) (a : LanguageExtension) (state : H.State) : Rust H.State := caseInsensitiveHash H a.str state
/-- The four implementations above, src/normal/language/extlang.rs:35-59. -/
instance : Compare LanguageExtension := ⟨LanguageExtension.eq, LanguageExtension.cmp, LanguageExtension.partialCmp, LanguageExtension.hash⟩

/-- `PartialEq::eq`, src/normal/language/extlang.rs:114-118 -/
def ExtendedLangTag.eq (a b : ExtendedLangTag) : Rust Bool := caseInsensitiveEq a.str b.str
/-- `Ord::cmp`, src/normal/language/extlang.rs:128-132 -/
def ExtendedLangTag.cmp (a b : ExtendedLangTag) : Rust Ordering := caseInsensitiveCmp a.str b.str
/-- `PartialOrd::partial_cmp`, src/normal/language/extlang.rs:122-126 -/
def ExtendedLangTag.partialCmp (a b : ExtendedLangTag) : Rust (Option Ordering) := do return some (← ExtendedLangTag.cmp a b)
/-- `Hash::hash`, src/normal/language/extlang.rs:134-138 -/
def ExtendedLangTag.hash (H : Hasher) (a : ExtendedLangTag) (state : H.State) : Rust H.State := caseInsensitiveHash H a.str state
/-- The four implementations above, src/normal/language/extlang.rs:114-138. -/
instance : Compare ExtendedLangTag := ⟨ExtendedLangTag.eq, ExtendedLangTag.cmp, ExtendedLangTag.partialCmp, ExtendedLangTag.hash⟩

/-- `PartialEq::eq`, src/normal/script.rs:23-27 -/
def Script.eq (a b : Script) : Rust Bool := caseInsensitiveEq a.str b.str
/-- `Ord::cmp`, src/normal/script.rs:37-41 -/
def Script.cmp (a b : Script) : Rust Ordering := caseInsensitiveCmp a.str b.str
/-- `PartialOrd::partial_cmp`, src/normal/script.rs:31-35 -/
def Script.partialCmp (a b : Script) : Rust (Option Ordering) := do return some (← Script.cmp a b)
/-- `Hash::hash`, src/normal/script.rs:43-47 -/
def Script.hash (H : Hasher) (a : Script) (state : H.State) : Rust H.State := caseInsensitiveHash H a.str state
/-- The four implementations above, src/normal/script.rs:23-47. -/
instance : Compare Script := ⟨Script.eq, Script.cmp, Script.partialCmp, Script.hash⟩

/-- `PartialEq::eq`, src/normal/region.rs:27-31 -/
def Region.eq (a b : Region) : Rust Bool := caseInsensitiveEq a.str b.str
/-- `Ord::cmp`, src/normal/region.rs:41-45 -/
def Region.cmp (a b : Region) : Rust Ordering := caseInsensitiveCmp a.str b.str
/-- `PartialOrd::partial_cmp`, src/normal/region.rs:35-39 -/
def Region.partialCmp (a b : Region) : Rust (Option Ordering) := do return some (← Region.cmp a b)
/-- `Hash::hash`, src/normal/region.rs:47-51 -/
def Region.hash (H : Hasher) (a : Region) (state : H.State) : Rust H.State := caseInsensitiveHash H a.str state
/-- The four implementations above, src/normal/region.rs:27-51. -/
instance : Compare Region := ⟨Region.eq, Region.cmp, Region.partialCmp, Region.hash⟩

/-- `PartialEq::eq`, src/normal/variant.rs:23-27 -/
def Variant.eq (a b : Variant) : Rust Bool := caseInsensitiveEq a.str b.str
/-- `Ord::cmp`, src/normal/variant.rs:37-41 -/
def Variant.cmp (a b : Variant) : Rust Ordering := caseInsensitiveCmp a.str b.str
/-- `PartialOrd::partial_cmp`, src/normal/variant.rs:31-35 -/
def Variant.partialCmp (a b : Variant) : Rust (Option Ordering) := do return some (← Variant.cmp a b)
/-- `Hash::hash`, src/normal/variant.rs:43-47 -/
def Variant.hash (H : Hasher) (a : Variant) (state : H.State) : Rust H.State := caseInsensitiveHash H a.str state
/-- The four implementations above, src/normal/variant.rs:23-47. -/
instance : Compare Variant := ⟨Variant.eq, Variant.cmp, Variant.partialCmp, Variant.hash⟩

/-- `PartialEq::eq`, src/normal/variant.rs:82-86 -/
def Variants.eq (a b : Variants) : Rust Bool := caseInsensitiveEq a.str b.str
/-- `Ord::cmp`, src/normal/variant.rs:96-100 -/
def Variants.cmp (a b : Variants) : Rust Ordering := caseInsensitiveCmp a.str b.str
/-- `PartialOrd::partial_cmp`, src/normal/variant.rs:90-94 -/
def Variants.partialCmp (a b : Variants) : Rust (Option Ordering) := do return some (← Variants.cmp a b)
/-- `Hash::hash`, src/normal/variant.rs:102-106 -/
def Variants.hash (H : Hasher) (a : Variants) (state : H.State) : Rust H.State := caseInsensitiveHash H a.str state
/-- The four implementations above, src/normal/variant.rs:82-106. -/
instance : Compare Variants := ⟨Variants.eq, Variants.cmp, Variants.partialCmp, Variants.hash⟩

/-- `PartialEq::eq`, src/normal/extension.rs:132-136 -/
def Extension.eq (a b : Extension) : Rust Bool := caseInsensitiveEq a.str b.str
/-- `Ord::cmp`, src/normal/extension.rs:146-150 -/
def Extension.cmp (a b : Extension) : Rust Ordering := caseInsensitiveCmp a.str b.str
/-- `PartialOrd::partial_cmp`, src/normal/extension.rs:140-144 -/
def Extension.partialCmp (a b : Extension) : Rust (Option Ordering) := do return some (← Extension.cmp a b)
/-- `Hash::hash`, src/normal/extension.rs:152-156 -/
def Extension.hash (H : Hasher) (a : Extension) (state : H.State) : Rust H.State := caseInsensitiveHash H a.str state
/-- The four implementations above, src/normal/extension.rs:132-156. -/
instance : Compare Extension := ⟨Extension.eq, Extension.cmp, Extension.partialCmp, Extension.hash⟩

/-- `PartialEq::eq`, src/normal/extension.rs:246-250 -/
def Extensions.eq (a b : Extensions) : Rust Bool := caseInsensitiveEq a.str b.str
/-- `Ord::cmp`, src/normal/extension.rs:260-264 -/
def Extensions.cmp (a b : Extensions) : Rust Ordering := caseInsensitiveCmp a.str b.str
/-- `PartialOrd::partial_cmp`, src/normal/extension.rs:254-258 -/
def Extensions.partialCmp (a b : Extensions) : Rust (Option Ordering) := do return some (← Extensions.cmp a b)
/-- `Hash::hash`, src/normal/extension.rs:266-270 -/
def Extensions.hash (H : Hasher) (a : Extensions) (state : H.State) : Rust H.State := caseInsensitiveHash H a.str state
/-- The four implementations above, src/normal/extension.rs:246-270. -/
instance : Compare Extensions := ⟨Extensions.eq, Extensions.cmp, Extensions.partialCmp, Extensions.hash⟩

/-- `PartialEq::eq`, src/normal/extension.rs:319-323 -/
def ExtensionSubtag.eq (a b : ExtensionSubtag) : Rust Bool := caseInsensitiveEq a.str b.str
/-- `Ord::cmp`, src/normal/extension.rs:333-337 -/
def ExtensionSubtag.cmp (a b : ExtensionSubtag) : Rust Ordering := caseInsensitiveCmp a.str b.str
/-- `PartialOrd::partial_cmp`, src/normal/extension.rs:327-331 -/
def ExtensionSubtag.partialCmp (a b : ExtensionSubtag) : Rust (Option Ordering) := do return some (← ExtensionSubtag.cmp a b)
/-- `Hash::hash`, src/normal/extension.rs:339-343 -/
def ExtensionSubtag.hash (H : Hasher) (a : ExtensionSubtag) (state : H.State) : Rust H.State := caseInsensitiveHash H a.str state
/-- The four implementations above, src/normal/extension.rs:319-343. -/
instance : Compare ExtensionSubtag := ⟨ExtensionSubtag.eq, ExtensionSubtag.cmp, ExtensionSubtag.partialCmp, ExtensionSubtag.hash⟩

/-- `PartialEq::eq`, src/normal/private_use.rs:25-29 -/
def PrivateUse.eq (a b : PrivateUse) : Rust Bool := caseInsensitiveEq a.str b.str
/-- `Ord::cmp`, src/normal/private_use.rs:39-43 -/
def PrivateUse.cmp (a b : PrivateUse) : Rust Ordering := caseInsensitiveCmp a.str b.str
/-- `PartialOrd::partial_cmp`, src/normal/private_use.rs:33-37 -/
def PrivateUse.partialCmp (a b : PrivateUse) : Rust (Option Ordering) := do return some (← PrivateUse.cmp a b)
/-- `Hash::hash`, src/normal/private_use.rs:45-49 -/
def PrivateUse.hash (H : Hasher) (a : PrivateUse) (state : H.State) : Rust H.State := caseInsensitiveHash H a.str state
/-- The four implementations above, src/normal/private_use.rs:25-49. -/
instance : Compare PrivateUse := ⟨PrivateUse.eq, PrivateUse.cmp, PrivateUse.partialCmp, PrivateUse.hash⟩

/-- `PartialEq::eq`, src/normal/private_use.rs:99-103 -/
def PrivateUseSubtag.eq (a b : PrivateUseSubtag) : Rust Bool := caseInsensitiveEq a.str b.str
/-- `Ord::cmp`, src/normal/private_use.rs:113-117 -/
def PrivateUseSubtag.cmp (a b : PrivateUseSubtag) : Rust Ordering := caseInsensitiveCmp a.str b.str
/-- `PartialOrd::partial_cmp`, src/normal/private_use.rs:107-111 -/
def PrivateUseSubtag.partialCmp (a b : PrivateUseSubtag) : Rust (Option Ordering) := do return some (← PrivateUseSubtag.cmp a b)
/-- `Hash::hash`, src/normal/private_use.rs:119-123 -/
def PrivateUseSubtag.hash (H : Hasher) (a : PrivateUseSubtag) (state : H.State) : Rust H.State := caseInsensitiveHash H a.str state
/-- The four implementations above, src/normal/private_use.rs:99-123. -/
instance : Compare PrivateUseSubtag := ⟨PrivateUseSubtag.eq, PrivateUseSubtag.cmp, PrivateUseSubtag.partialCmp, PrivateUseSubtag.hash⟩

end Langtag.Model
