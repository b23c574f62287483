import Verif.Model.Types
import Verif.Model.Segments

/-! # `/repo/src/normal/language/mod.rs` and `/repo/src/normal/language/extlang.rs` -/

set_option autoImplicit false

namespace Langtag.Model

/-- `LanguageExtensionIter`, src/normal/language/extlang.rs:61-65. -/
structure LanguageExtensionIter where
  data : Str
  offset : Nat
  deriving DecidableEq

namespace LanguageExtensionIter

/-- src/normal/language/extlang.rs:68-70 -/
def new (data : Str) : LanguageExtensionIter := { data, offset := 0 }

/-- `#[derive(Default)]` (extlang.rs:61) and `empty`, src/normal/language/extlang.rs:72-74 -/
def empty : LanguageExtensionIter := { data := [], offset := 0 }

/-- `Iterator::next`, src/normal/language/extlang.rs:80-89 -/
def next (it : LanguageExtensionIter) : Rust (Option ExtendedLangTag × LanguageExtensionIter) :=
  if it.offset < it.data.length then do
    let end_ ← findSegmentEnd it.data it.offset
    let item : ExtendedLangTag := ⟨← sliceRange it.data it.offset end_⟩
    return (some item, { it with offset := end_ + 1 })
  else return (none, it)

end LanguageExtensionIter

/-- `LanguageExtension::iter`, src/normal/language/extlang.rs:30-32 -/
def LanguageExtension.iter (e : LanguageExtension) : LanguageExtensionIter := .new e.str

/-- `Language::primary`, src/normal/language/mod.rs:33-40 -/
def Language.primary (l : Language) : PrimaryLanguage :=
  let primary := match splitOnceDash l.str with
    | some (primary, _) => primary
    | none => l.str
  ⟨primary⟩

/-- `Language::extension`, src/normal/language/mod.rs:52-56 -/
def Language.extension (l : Language) : Option LanguageExtension :=
  (splitOnceDash l.str).map fun (_, ext) => ⟨ext⟩

/-- `Language::extension_subtags`, src/normal/language/mod.rs:60-64 -/
def Language.extensionSubtags (l : Language) : LanguageExtensionIter :=
  (l.extension.map LanguageExtension.iter).getD .empty

end Langtag.Model
