import Verif.Source.Codes

/-! The text of `/repo/src/normal/language/extlang.rs`, line by line and verbatim (written and compared by `tools/gen_source.py`). -/

set_option autoImplicit false
set_option maxRecDepth 10000

namespace Langtag.Source.Text

/-- Lines 1 to 100. -/
def extlangRs0 : List (List Nat) := [
  codes% "use core::hash::Hash;",
  codes% "",
  codes% "use crate::utils;",
  codes% "",
  codes% "/// List of extended language subtags.",
  codes% "///",
  codes% "/// This type represents a list of extended language subtags,",
  codes% "/// separated by a `-` character.",
  codes% "///",
  codes% "/// Extended language subtags are used to identify certain specially",
  codes% "/// selected languages that, for various historical and compatibility",
  codes% "/// reasons, are closely identified with or tagged using an existing",
  codes% "/// primary language subtag.",
  codes% "/// The type [`ExtendedLangTag`] represents a single extended",
  codes% "/// language subtag.",
  codes% "#[derive(static_automata::Validate, str_newtype::StrNewType)]",
  codes% "#[automaton(crate::grammar::Extlang)]",
  codes% "#[newtype(",
  codes% "\tno_deref,",
  codes% "\tord([u8], &[u8], str, &str)",
  codes% ")]",
  codes% "#[cfg_attr(",
  codes% "\tfeature = \"std\",",
  codes% "\tnewtype(ord(Vec<u8>, String), owned(LanguageExtensionBuf, derive(PartialEq, Eq, PartialOrd, Ord, Hash)))",
  codes% ")]",
  codes% "#[cfg_attr(feature = \"serde\", newtype(serde))]",
  codes% "pub struct LanguageExtension(str);",
  codes% "",
  codes% "impl LanguageExtension {",
  codes% "\tpub fn iter(&self) -> LanguageExtensionIter<'_> {",
  codes% "\t\tLanguageExtensionIter::new(&self.0)",
  codes% "\t}",
  codes% "}",
  codes% "",
  codes% "impl PartialEq for LanguageExtension {",
  codes% "\tfn eq(&self, other: &Self) -> bool {",
  codes% "\t\tutils::case_insensitive_eq(self.as_bytes(), other.as_bytes())",
  codes% "\t}",
  codes% "}",
  codes% "",
  codes% "impl Eq for LanguageExtension {}",
  codes% "",
  codes% "impl PartialOrd for LanguageExtension {",
  codes% "\tfn partial_cmp(&self, other: &Self) -> Option<core::cmp::Ordering> {",
  codes% "\t\tSome(self.cmp(other))",
  codes% "\t}",
  codes% "}",
  codes% "",
  codes% "impl Ord for LanguageExtension {",
  codes% "\tfn cmp(&self, other: &Self) -> core::cmp::Ordering {",
  codes% "\t\tutils::case_insensitive_cmp(self.as_bytes(), other.as_bytes())",
  codes% "\t}",
  codes% "}",
  codes% "",
  codes% "impl Hash for LanguageExtension {",
  codes% "\tfn hash<H: core::hash::Hasher>(&self, state: &mut H) {",
  codes% "\t\tutils::case_insensitive_hash(self.as_bytes(), state)",
  codes% "\t}",
  codes% "}",
  codes% "",
  codes% "#[derive(Default)]",
  codes% "pub struct LanguageExtensionIter<'a> {",
  codes% "\tdata: &'a str,",
  codes% "\toffset: usize,",
  codes% "}",
  codes% "",
  codes% "impl<'a> LanguageExtensionIter<'a> {",
  codes% "\tfn new(data: &'a str) -> Self {",
  codes% "\t\tSelf { data, offset: 0 }",
  codes% "\t}",
  codes% "",
  codes% "\tpub fn empty() -> Self {",
  codes% "\t\tSelf::default()",
  codes% "\t}",
  codes% "}",
  codes% "",
  codes% "impl<'a> Iterator for LanguageExtensionIter<'a> {",
  codes% "\ttype Item = &'a ExtendedLangTag;",
  codes% "",
  codes% "\tfn next(&mut self) -> Option<Self::Item> {",
  codes% "\t\tif self.offset < self.data.len() {",
  codes% "\t\t\tlet end = super::super::find_segment_end(self.data, self.offset);",
  codes% "\t\t\tlet item = unsafe { ExtendedLangTag::new_unchecked(&self.data[self.offset..end]) };",
  codes% "\t\t\tself.offset = end + 1;",
  codes% "\t\t\tSome(item)",
  codes% "\t\t} else {",
  codes% "\t\t\tNone",
  codes% "\t\t}",
  codes% "\t}",
  codes% "}",
  codes% "",
  codes% "/// Single extended language subtag.",
  codes% "///",
  codes% "/// Extended language subtags are used to identify certain specially",
  codes% "/// selected languages that, for various historical and compatibility",
  codes% "/// reasons, are closely identified with or tagged using an existing",
  codes% "/// primary language subtag.",
  codes% "///",
  codes% "/// The type [`LanguageExtension`] represents a list of",
  codes% "/// extended language."]

/-- Lines 101 to 138. -/
def extlangRs1 : List (List Nat) := [
  codes% "#[derive(static_automata::Validate, str_newtype::StrNewType)]",
  codes% "#[automaton(crate::grammar::ExtlangTag)]",
  codes% "#[newtype(",
  codes% "\tno_deref,",
  codes% "\tord([u8], &[u8], str, &str)",
  codes% ")]",
  codes% "#[cfg_attr(",
  codes% "\tfeature = \"std\",",
  codes% "\tnewtype(ord(Vec<u8>, String), owned(ExtendedLangTagBuf, derive(PartialEq, Eq, PartialOrd, Ord, Hash)))",
  codes% ")]",
  codes% "#[cfg_attr(feature = \"serde\", newtype(serde))]",
  codes% "pub struct ExtendedLangTag(str);",
  codes% "",
  codes% "impl PartialEq for ExtendedLangTag {",
  codes% "\tfn eq(&self, other: &Self) -> bool {",
  codes% "\t\tutils::case_insensitive_eq(self.as_bytes(), other.as_bytes())",
  codes% "\t}",
  codes% "}",
  codes% "",
  codes% "impl Eq for ExtendedLangTag {}",
  codes% "",
  codes% "impl PartialOrd for ExtendedLangTag {",
  codes% "\tfn partial_cmp(&self, other: &Self) -> Option<core::cmp::Ordering> {",
  codes% "\t\tSome(self.cmp(other))",
  codes% "\t}",
  codes% "}",
  codes% "",
  codes% "impl Ord for ExtendedLangTag {",
  codes% "\tfn cmp(&self, other: &Self) -> core::cmp::Ordering {",
  codes% "\t\tutils::case_insensitive_cmp(self.as_bytes(), other.as_bytes())",
  codes% "\t}",
  codes% "}",
  codes% "",
  codes% "impl Hash for ExtendedLangTag {",
  codes% "\tfn hash<H: core::hash::Hasher>(&self, state: &mut H) {",
  codes% "\t\tutils::case_insensitive_hash(self.as_bytes(), state)",
  codes% "\t}",
  codes% "}"]

/-- The lines of `/repo/src/normal/language/extlang.rs`. -/
def extlangRs : List (List Nat) :=
  extlangRs0 ++
  extlangRs1

end Langtag.Source.Text
