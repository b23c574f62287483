import Verif.Model.Utils
import Verif.Model.Automata

/-!
# The string types of the crate

Each `struct T(str)` with `#[derive(static_automata::Validate, str_newtype::StrNewType)]` and
`#[automaton(crate::grammar::A)]`.  The derive macros are external (see DESIGN.md): `T::new(s)` is modelled as
"`Ok` of the same text if `A::validate_str(s)`, otherwise `Err`", `T::new_unchecked(s)` as the constructor.
-/

set_option autoImplicit false

namespace Langtag.Model
open Automata

/-- A `str` newtype validated by an automaton, as src/lib.rs:69-80. -/
class StrNewtype (T : Type) where
  automaton : Dfa
  newUnchecked : Str → T
  str : T → Str

/-- `T::new`, derived at e.g. src/lib.rs:69-70.  The error holds the rejected input. -/
def StrNewtype.new (T : Type) [StrNewtype T] (s : Str) : Except Str T :=
  if (automaton T).validateStr s then .ok (newUnchecked s) else .error s

/-- `T::new(s).is_ok()`, e.g. src/normal/mod.rs:36. -/
def StrNewtype.isOk (T : Type) [StrNewtype T] (s : Str) : Bool :=
  match StrNewtype.new T s with
  | .ok _ => true
  | .error _ => false

/-- src/lib.rs:68-80 -/
structure LangTag where str : Str deriving DecidableEq
/-- src/normal/mod.rs:19-31 -/
structure NormalLangTag where str : Str deriving DecidableEq
/-- src/normal/language/mod.rs:11-26 -/
structure Language where str : Str deriving DecidableEq
/-- src/normal/language/primary.rs:5-19 -/
structure PrimaryLanguage where str : Str deriving DecidableEq
/-- src/normal/language/extlang.rs:5-27 -/
structure LanguageExtension where str : Str deriving DecidableEq
/-- src/normal/language/extlang.rs:92-112 -/
structure ExtendedLangTag where str : Str deriving DecidableEq
/-- src/normal/script.rs:5-21 -/
structure Script where str : Str deriving DecidableEq
/-- src/normal/region.rs:5-25 -/
structure Region where str : Str deriving DecidableEq
/-- src/normal/variant.rs:5-21 -/
structure Variant where str : Str deriving DecidableEq
/-- src/normal/variant.rs:49-64 -/
structure Variants where str : Str deriving DecidableEq
/-- src/normal/extension.rs:98-120 -/
structure Extension where str : Str deriving DecidableEq
/-- src/normal/extension.rs:192-209 -/
structure Extensions where str : Str deriving DecidableEq
/-- src/normal/extension.rs:303-317 -/
structure ExtensionSubtag where str : Str deriving DecidableEq
/-- src/normal/private_use.rs:5-17 -/
structure PrivateUse where str : Str deriving DecidableEq
/-- src/normal/private_use.rs:85-97 -/
structure PrivateUseSubtag where str : Str deriving DecidableEq

/-- src/private_use.rs:2 -/
abbrev PrivateUseLangTag := PrivateUse

/-- `#[automaton(crate::grammar::LanguageTag)]`, src/lib.rs:70 -/
instance : StrNewtype LangTag := ⟨languageTag, .mk, (·.str)⟩
/-- src/normal/mod.rs:21 -/
instance : StrNewtype NormalLangTag := ⟨langtag, .mk, (·.str)⟩
/-- src/normal/language/mod.rs:16 -/
instance : StrNewtype Language := ⟨language, .mk, (·.str)⟩
/-- src/normal/language/primary.rs:9 -/
instance : StrNewtype PrimaryLanguage := ⟨primary, .mk, (·.str)⟩
/-- src/normal/language/extlang.rs:17 -/
instance : StrNewtype LanguageExtension := ⟨extlang, .mk, (·.str)⟩
/-- src/normal/language/extlang.rs:102 -/
instance : StrNewtype ExtendedLangTag := ⟨extlangTag, .mk, (·.str)⟩
/-- src/normal/script.rs:11 -/
instance : StrNewtype Script := ⟨script, .mk, (·.str)⟩
/-- src/normal/region.rs:15 -/
instance : StrNewtype Region := ⟨region, .mk, (·.str)⟩
/-- src/normal/variant.rs:11 -/
instance : StrNewtype Variant := ⟨variant, .mk, (·.str)⟩
/-- src/normal/variant.rs:54 -/
instance : StrNewtype Variants := ⟨variants, .mk, (·.str)⟩
/-- src/normal/extension.rs:110 -/
instance : StrNewtype Extension := ⟨extension, .mk, (·.str)⟩
/-- src/normal/extension.rs:199 -/
instance : StrNewtype Extensions := ⟨extensions, .mk, (·.str)⟩
/-- src/normal/extension.rs:307 -/
instance : StrNewtype ExtensionSubtag := ⟨extensionSubtag, .mk, (·.str)⟩
/-- src/normal/private_use.rs:7 -/
instance : StrNewtype PrivateUse := ⟨privateuse, .mk, (·.str)⟩
/-- src/normal/private_use.rs:87 -/
instance : StrNewtype PrivateUseSubtag := ⟨privateuseSubtag, .mk, (·.str)⟩

end Langtag.Model
