import Verif.Source.Codes

/-! The text of `/repo/src/normal/mod.rs`, line by line and verbatim (written and compared by `tools/gen_source.py`). -/

set_option autoImplicit false
set_option maxRecDepth 10000

namespace Langtag.Source.Text

/-- Lines 1 to 100. -/
def normalRs0 : List (List Nat) := [
  codes% "use core::{hash::Hash, ops::Range};",
  codes% "",
  codes% "use crate::utils;",
  codes% "",
  codes% "mod extension;",
  codes% "mod language;",
  codes% "mod private_use;",
  codes% "mod region;",
  codes% "mod script;",
  codes% "mod variant;",
  codes% "",
  codes% "pub use extension::*;",
  codes% "pub use language::*;",
  codes% "pub use private_use::*;",
  codes% "pub use region::*;",
  codes% "pub use script::*;",
  codes% "pub use variant::*;",
  codes% "",
  codes% "/// Normal language tag.",
  codes% "#[derive(static_automata::Validate, str_newtype::StrNewType)]",
  codes% "#[automaton(crate::grammar::Langtag)]",
  codes% "#[newtype(",
  codes% "\tno_deref,",
  codes% "\tord([u8], &[u8], str, &str)",
  codes% ")]",
  codes% "#[cfg_attr(",
  codes% "\tfeature = \"std\",",
  codes% "\tnewtype(ord(Vec<u8>, String), owned(NormalLangTagBuf, derive(PartialEq, Eq, PartialOrd, Ord, Hash)))",
  codes% ")]",
  codes% "#[cfg_attr(feature = \"serde\", newtype(serde))]",
  codes% "pub struct NormalLangTag(str);",
  codes% "",
  codes% "impl NormalLangTag {",
  codes% "\tfn language_end(&self) -> usize {",
  codes% "\t\tfind_list_end(&self.0, 0, |i, segment| {",
  codes% "\t\t\ti == 0 || ExtendedLangTag::new(segment).is_ok()",
  codes% "\t\t})",
  codes% "\t}",
  codes% "",
  codes% "\t/// Returns the language subtags.",
  codes% "\tpub fn language(&self) -> &Language {",
  codes% "\t\tunsafe { Language::new_unchecked(&self.0[..self.language_end()]) }",
  codes% "\t}",
  codes% "",
  codes% "\tfn script_range(&self) -> Result<Range<usize>, usize> {",
  codes% "\t\tlet language_end = self.language_end();",
  codes% "\t\tlet offset = language_end + 1;",
  codes% "\t\tlet end = find_list_end(&self.0, offset, |i, segment| {",
  codes% "\t\t\ti == offset && Script::new(segment).is_ok()",
  codes% "\t\t});",
  codes% "\t\tif end != offset {",
  codes% "\t\t\tOk(offset..end)",
  codes% "\t\t} else {",
  codes% "\t\t\tErr(language_end)",
  codes% "\t\t}",
  codes% "\t}",
  codes% "",
  codes% "\t/// Returns the script subtag, if any.",
  codes% "\tpub fn script(&self) -> Option<&Script> {",
  codes% "\t\tself.script_range()",
  codes% "\t\t\t.ok()",
  codes% "\t\t\t.map(|range| unsafe { Script::new_unchecked(&self.0[range]) })",
  codes% "\t}",
  codes% "",
  codes% "\tfn region_range(&self) -> Result<Range<usize>, usize> {",
  codes% "\t\tlet script_end = match self.script_range() {",
  codes% "\t\t\tOk(range) => range.end,",
  codes% "\t\t\tErr(i) => i,",
  codes% "\t\t};",
  codes% "",
  codes% "\t\tlet offset = script_end + 1;",
  codes% "\t\tlet end = find_list_end(&self.0, offset, |i, segment| {",
  codes% "\t\t\ti == offset && Region::new(segment).is_ok()",
  codes% "\t\t});",
  codes% "\t\tif end != offset {",
  codes% "\t\t\tOk(offset..end)",
  codes% "\t\t} else {",
  codes% "\t\t\tErr(script_end)",
  codes% "\t\t}",
  codes% "\t}",
  codes% "",
  codes% "\t/// Returns the region subtag, if any.",
  codes% "\tpub fn region(&self) -> Option<&Region> {",
  codes% "\t\tself.region_range()",
  codes% "\t\t\t.ok()",
  codes% "\t\t\t.map(|range| unsafe { Region::new_unchecked(&self.0[range]) })",
  codes% "\t}",
  codes% "",
  codes% "\tfn variants_range(&self) -> Range<usize> {",
  codes% "\t\tlet region_end = match self.region_range() {",
  codes% "\t\t\tOk(range) => range.end,",
  codes% "\t\t\tErr(i) => i,",
  codes% "\t\t};",
  codes% "",
  codes% "\t\tlet offset = region_end + 1;",
  codes% "\t\tlet end = find_list_end(&self.0, offset, |_, segment| Variant::new(segment).is_ok());",
  codes% "\t\tif end == offset {",
  codes% "\t\t\tregion_end..region_end",
  codes% "\t\t} else {",
  codes% "\t\t\toffset..end"]

/-- Lines 101 to 200. -/
def normalRs1 : List (List Nat) := [
  codes% "\t\t}",
  codes% "\t}",
  codes% "",
  codes% "\t/// Returns the variant subtags.",
  codes% "\tpub fn variants(&self) -> &Variants {",
  codes% "\t\tunsafe { Variants::new_unchecked(&self.0[self.variants_range()]) }",
  codes% "\t}",
  codes% "",
  codes% "\tfn extensions_range(&self) -> Range<usize> {",
  codes% "\t\tlet variants_end = self.variants_range().end;",
  codes% "",
  codes% "\t\tlet offset = variants_end + 1;",
  codes% "\t\tlet end = find_list_end(&self.0, offset, |_, segment| {",
  codes% "\t\t\tSingleton::from_string(segment).is_ok() || ExtensionSubtag::new(segment).is_ok()",
  codes% "\t\t});",
  codes% "",
  codes% "\t\tif end == offset {",
  codes% "\t\t\tvariants_end..variants_end",
  codes% "\t\t} else {",
  codes% "\t\t\toffset..end",
  codes% "\t\t}",
  codes% "\t}",
  codes% "",
  codes% "\t/// Returns the extension subtags.",
  codes% "\tpub fn extensions(&self) -> &Extensions {",
  codes% "\t\tunsafe { Extensions::new_unchecked(&self.0[self.extensions_range()]) }",
  codes% "\t}",
  codes% "",
  codes% "\tfn private_use_offset(&self) -> Option<usize> {",
  codes% "\t\tlet variants_end = self.variants_range().end;",
  codes% "",
  codes% "\t\tif variants_end < self.0.len() {",
  codes% "\t\t\tSome(variants_end + 1)",
  codes% "\t\t} else {",
  codes% "\t\t\tNone",
  codes% "\t\t}",
  codes% "\t}",
  codes% "",
  codes% "\t/// Returns the private use subtags.",
  codes% "\tpub fn private_use(&self) -> Option<&PrivateUse> {",
  codes% "\t\tself.private_use_offset()",
  codes% "\t\t\t.map(|i| unsafe { PrivateUse::new_unchecked(&self.0[i..]) })",
  codes% "\t}",
  codes% "",
  codes% "\tpub fn private_use_subtags(&self) -> PrivateUseIter<'_> {",
  codes% "\t\tmatch self.private_use() {",
  codes% "\t\t\tSome(p) => p.iter(),",
  codes% "\t\t\tNone => PrivateUseIter::empty(),",
  codes% "\t\t}",
  codes% "\t}",
  codes% "}",
  codes% "",
  codes% "impl PartialEq for NormalLangTag {",
  codes% "\tfn eq(&self, other: &Self) -> bool {",
  codes% "\t\tutils::case_insensitive_eq(self.as_bytes(), other.as_bytes())",
  codes% "\t}",
  codes% "}",
  codes% "",
  codes% "impl Eq for NormalLangTag {}",
  codes% "",
  codes% "impl PartialOrd for NormalLangTag {",
  codes% "\tfn partial_cmp(&self, other: &Self) -> Option<core::cmp::Ordering> {",
  codes% "\t\tSome(self.cmp(other))",
  codes% "\t}",
  codes% "}",
  codes% "",
  codes% "impl Ord for NormalLangTag {",
  codes% "\tfn cmp(&self, other: &Self) -> core::cmp::Ordering {",
  codes% "\t\tutils::case_insensitive_cmp(self.as_bytes(), other.as_bytes())",
  codes% "\t}",
  codes% "}",
  codes% "",
  codes% "impl Hash for NormalLangTag {",
  codes% "\tfn hash<H: core::hash::Hasher>(&self, state: &mut H) {",
  codes% "\t\tutils::case_insensitive_hash(self.as_bytes(), state)",
  codes% "\t}",
  codes% "}",
  codes% "",
  codes% "/// Find the end of a subtag list using the `f` function to determine which",
  codes% "/// subtag is part of the list.",
  codes% "fn find_list_end(string: &str, mut offset: usize, mut f: impl FnMut(usize, &str) -> bool) -> usize {",
  codes% "\tlet bytes = string.as_bytes();",
  codes% "\tlet mut i = offset;",
  codes% "\tlet mut end = i;",
  codes% "\twhile i < bytes.len() {",
  codes% "\t\tif bytes[i] == b'-' {",
  codes% "\t\t\tlet subtag = &string[offset..i];",
  codes% "\t\t\tif f(offset, subtag) {",
  codes% "\t\t\t\tend = i;",
  codes% "\t\t\t\toffset = i + 1;",
  codes% "\t\t\t} else {",
  codes% "\t\t\t\treturn end;",
  codes% "\t\t\t}",
  codes% "\t\t}",
  codes% "",
  codes% "\t\ti += 1",
  codes% "\t}",
  codes% "",
  codes% "\tlet subtag = &string[offset..];",
  codes% "\tif f(offset, subtag) { string.len() } else { end }"]

/-- Lines 201 to 235. -/
def normalRs2 : List (List Nat) := [
  codes% "}",
  codes% "",
  codes% "fn find_segment_end(string: &str, offset: usize) -> usize {",
  codes% "\tlet bytes = string.as_bytes();",
  codes% "\tlet mut i = offset;",
  codes% "\twhile i < bytes.len() {",
  codes% "\t\tif bytes[i] == b'-' {",
  codes% "\t\t\treturn i;",
  codes% "\t\t}",
  codes% "",
  codes% "\t\ti += 1",
  codes% "\t}",
  codes% "",
  codes% "\ti",
  codes% "}",
  codes% "",
  codes% "fn find_segment_start(string: &str, end: usize) -> usize {",
  codes% "\tif end > 0 {",
  codes% "\t\tlet bytes = string.as_bytes();",
  codes% "\t\tlet mut i = end - 1;",
  codes% "\t\tloop {",
  codes% "\t\t\tif bytes[i] == b'-' {",
  codes% "\t\t\t\tbreak i + 1;",
  codes% "\t\t\t}",
  codes% "",
  codes% "\t\t\tif i > 0 {",
  codes% "\t\t\t\ti -= 1",
  codes% "\t\t\t} else {",
  codes% "\t\t\t\tbreak 0;",
  codes% "\t\t\t}",
  codes% "\t\t}",
  codes% "\t} else {",
  codes% "\t\t0",
  codes% "\t}",
  codes% "}"]

/-- The lines of `/repo/src/normal/mod.rs`. -/
def normalRs : List (List Nat) :=
  normalRs0 ++
  normalRs1 ++
  normalRs2

end Langtag.Source.Text
