import Verif.Source.Codes

/-! The text of `/repo/src/normal/language/mod.rs`, line by line and verbatim (written and compared by `tools/gen_source.py`). -/

set_option autoImplicit false
set_option maxRecDepth 10000

namespace Langtag.Source.Text

/-- Lines 1 to 91. -/
def languageRs0 : List (List Nat) := [
  codes% "use core::hash::Hash;",
  codes% "",
  codes% "use crate::utils;",
  codes% "",
  codes% "mod extlang;",
  codes% "mod primary;",
  codes% "",
  codes% "pub use extlang::*;",
  codes% "pub use primary::*;",
  codes% "",
  codes% "/// Primary and extended language subtags.",
  codes% "///",
  codes% "/// This type represents the primary language subtag (first subtag in a",
  codes% "/// language tag) and the extended language subtags associated with it.",
  codes% "#[derive(static_automata::Validate, str_newtype::StrNewType)]",
  codes% "#[automaton(crate::grammar::Language)]",
  codes% "#[newtype(",
  codes% "\tno_deref,",
  codes% "\tord([u8], &[u8], str, &str)",
  codes% ")]",
  codes% "#[cfg_attr(",
  codes% "\tfeature = \"std\",",
  codes% "\tnewtype(ord(Vec<u8>, String), owned(LanguageBuf, derive(PartialEq, Eq, PartialOrd, Ord, Hash)))",
  codes% ")]",
  codes% "#[cfg_attr(feature = \"serde\", newtype(serde))]",
  codes% "pub struct Language(str);",
  codes% "",
  codes% "impl Language {",
  codes% "\t/// Return the primary language subtag.",
  codes% "\t///",
  codes% "\t/// The primary language subtag is the first subtag in a language tag.",
  codes% "\t#[inline]",
  codes% "\tpub fn primary(&self) -> &PrimaryLanguage {",
  codes% "\t\tlet primary = match self.0.split_once('-') {",
  codes% "\t\t\tSome((primary, _)) => primary,",
  codes% "\t\t\tNone => &self.0,",
  codes% "\t\t};",
  codes% "",
  codes% "\t\tunsafe { PrimaryLanguage::new_unchecked(primary) }",
  codes% "\t}",
  codes% "",
  codes% "\t/// Return the extended language subtags.",
  codes% "\t///",
  codes% "\t/// Extended language subtags are used to identify certain specially",
  codes% "\t/// selected languages that, for various historical and compatibility",
  codes% "\t/// reasons, are closely identified with or tagged using an existing",
  codes% "\t/// primary language subtag.",
  codes% "\t///",
  codes% "\t/// Extended language subtags are only present when the primary",
  codes% "\t/// language subtag length is 2 or 3.",
  codes% "\t#[inline]",
  codes% "\tpub fn extension(&self) -> Option<&LanguageExtension> {",
  codes% "\t\tself.0",
  codes% "\t\t\t.split_once('-')",
  codes% "\t\t\t.map(|(_, ext)| unsafe { LanguageExtension::new_unchecked(ext) })",
  codes% "\t}",
  codes% "",
  codes% "\t/// Return an iterator to the extended language subtags.",
  codes% "\t#[inline]",
  codes% "\tpub fn extension_subtags(&self) -> LanguageExtensionIter<'_> {",
  codes% "\t\tself.extension()",
  codes% "\t\t\t.map(LanguageExtension::iter)",
  codes% "\t\t\t.unwrap_or_default()",
  codes% "\t}",
  codes% "}",
  codes% "",
  codes% "impl PartialEq for Language {",
  codes% "\tfn eq(&self, other: &Self) -> bool {",
  codes% "\t\tutils::case_insensitive_eq(self.as_bytes(), other.as_bytes())",
  codes% "\t}",
  codes% "}",
  codes% "",
  codes% "impl Eq for Language {}",
  codes% "",
  codes% "impl PartialOrd for Language {",
  codes% "\tfn partial_cmp(&self, other: &Self) -> Option<core::cmp::Ordering> {",
  codes% "\t\tSome(self.cmp(other))",
  codes% "\t}",
  codes% "}",
  codes% "",
  codes% "impl Ord for Language {",
  codes% "\tfn cmp(&self, other: &Self) -> core::cmp::Ordering {",
  codes% "\t\tutils::case_insensitive_cmp(self.as_bytes(), other.as_bytes())",
  codes% "\t}",
  codes% "}",
  codes% "",
  codes% "impl Hash for Language {",
  codes% "\tfn hash<H: core::hash::Hasher>(&self, state: &mut H) {",
  codes% "\t\tutils::case_insensitive_hash(self.as_bytes(), state)",
  codes% "\t}",
  codes% "}"]

/-- The lines of `/repo/src/normal/language/mod.rs`. -/
def languageRs : List (List Nat) :=
  languageRs0

end Langtag.Source.Text
