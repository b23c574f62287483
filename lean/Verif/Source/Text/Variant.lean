import Verif.Source.Codes

/-! The text of `/repo/src/normal/variant.rs`, line by line and verbatim (written and compared by `tools/gen_source.py`). -/

set_option autoImplicit false
set_option maxRecDepth 10000

namespace Langtag.Source.Text

/-- Lines 1 to 100. -/
def variantRs0 : List (List Nat) := [
  codes% "use core::hash::Hash;",
  codes% "",
  codes% "use crate::utils;",
  codes% "",
  codes% "/// Single variant subtag.",
  codes% "///",
  codes% "/// Variant subtags are used to indicate additional, well-recognized",
  codes% "/// variations that define a language or its dialects that are not",
  codes% "/// covered by other available subtags.",
  codes% "#[derive(static_automata::Validate, str_newtype::StrNewType)]",
  codes% "#[automaton(crate::grammar::Variant)]",
  codes% "#[newtype(",
  codes% "\tno_deref,",
  codes% "\tord([u8], &[u8], str, &str)",
  codes% ")]",
  codes% "#[cfg_attr(",
  codes% "\tfeature = \"std\",",
  codes% "\tnewtype(ord(Vec<u8>, String), owned(VariantBuf, derive(PartialEq, Eq, PartialOrd, Ord, Hash)))",
  codes% ")]",
  codes% "#[cfg_attr(feature = \"serde\", newtype(serde))]",
  codes% "pub struct Variant(str);",
  codes% "",
  codes% "impl PartialEq for Variant {",
  codes% "\tfn eq(&self, other: &Self) -> bool {",
  codes% "\t\tutils::case_insensitive_eq(self.as_bytes(), other.as_bytes())",
  codes% "\t}",
  codes% "}",
  codes% "",
  codes% "impl Eq for Variant {}",
  codes% "",
  codes% "impl PartialOrd for Variant {",
  codes% "\tfn partial_cmp(&self, other: &Self) -> Option<core::cmp::Ordering> {",
  codes% "\t\tSome(self.cmp(other))",
  codes% "\t}",
  codes% "}",
  codes% "",
  codes% "impl Ord for Variant {",
  codes% "\tfn cmp(&self, other: &Self) -> core::cmp::Ordering {",
  codes% "\t\tutils::case_insensitive_cmp(self.as_bytes(), other.as_bytes())",
  codes% "\t}",
  codes% "}",
  codes% "",
  codes% "impl Hash for Variant {",
  codes% "\tfn hash<H: core::hash::Hasher>(&self, state: &mut H) {",
  codes% "\t\tutils::case_insensitive_hash(self.as_bytes(), state)",
  codes% "\t}",
  codes% "}",
  codes% "",
  codes% "/// List of variant subtags.",
  codes% "///",
  codes% "/// Represents a list of variant subtags separated by a `-` character",
  codes% "/// as found in a language tag.",
  codes% "#[derive(static_automata::Validate, str_newtype::StrNewType)]",
  codes% "#[automaton(crate::grammar::Variants)]",
  codes% "#[newtype(",
  codes% "\tno_deref,",
  codes% "\tord([u8], &[u8], str, &str)",
  codes% ")]",
  codes% "#[cfg_attr(",
  codes% "\tfeature = \"std\",",
  codes% "\tnewtype(ord(Vec<u8>, String), owned(VariantsBuf, derive(PartialEq, Eq, PartialOrd, Ord, Hash)))",
  codes% ")]",
  codes% "#[cfg_attr(feature = \"serde\", newtype(serde))]",
  codes% "pub struct Variants(str);",
  codes% "",
  codes% "impl Variants {",
  codes% "\tpub const EMPTY: &Self = unsafe { Self::new_unchecked(\"\") };",
  codes% "",
  codes% "\tpub fn iter(&self) -> VariantsIter<'_> {",
  codes% "\t\tVariantsIter::new(&self.0)",
  codes% "\t}",
  codes% "",
  codes% "\tpub fn first(&self) -> Option<&Variant> {",
  codes% "\t\tself.iter().next()",
  codes% "\t}",
  codes% "",
  codes% "\tpub fn last(&self) -> Option<&Variant> {",
  codes% "\t\tself.iter().next_back()",
  codes% "\t}",
  codes% "}",
  codes% "",
  codes% "impl PartialEq for Variants {",
  codes% "\tfn eq(&self, other: &Self) -> bool {",
  codes% "\t\tutils::case_insensitive_eq(self.as_bytes(), other.as_bytes())",
  codes% "\t}",
  codes% "}",
  codes% "",
  codes% "impl Eq for Variants {}",
  codes% "",
  codes% "impl PartialOrd for Variants {",
  codes% "\tfn partial_cmp(&self, other: &Self) -> Option<core::cmp::Ordering> {",
  codes% "\t\tSome(self.cmp(other))",
  codes% "\t}",
  codes% "}",
  codes% "",
  codes% "impl Ord for Variants {",
  codes% "\tfn cmp(&self, other: &Self) -> core::cmp::Ordering {",
  codes% "\t\tutils::case_insensitive_cmp(self.as_bytes(), other.as_bytes())",
  codes% "\t}",
  codes% "}"]

/-- Lines 101 to 157. -/
def variantRs1 : List (List Nat) := [
  codes% "",
  codes% "impl Hash for Variants {",
  codes% "\tfn hash<H: core::hash::Hasher>(&self, state: &mut H) {",
  codes% "\t\tutils::case_insensitive_hash(self.as_bytes(), state)",
  codes% "\t}",
  codes% "}",
  codes% "",
  codes% "#[derive(Default)]",
  codes% "pub struct VariantsIter<'a> {",
  codes% "\tdata: &'a str,",
  codes% "\toffset: usize,",
  codes% "\tend: usize,",
  codes% "}",
  codes% "",
  codes% "impl<'a> VariantsIter<'a> {",
  codes% "\tfn new(data: &'a str) -> Self {",
  codes% "\t\tSelf {",
  codes% "\t\t\tdata,",
  codes% "\t\t\toffset: 0,",
  codes% "\t\t\tend: data.len(),",
  codes% "\t\t}",
  codes% "\t}",
  codes% "",
  codes% "\tpub fn empty() -> Self {",
  codes% "\t\tSelf::default()",
  codes% "\t}",
  codes% "}",
  codes% "",
  codes% "impl<'a> Iterator for VariantsIter<'a> {",
  codes% "\ttype Item = &'a Variant;",
  codes% "",
  codes% "\tfn next(&mut self) -> Option<Self::Item> {",
  codes% "\t\tif self.offset < self.end {",
  codes% "\t\t\tlet end = super::find_segment_end(self.data, self.offset);",
  codes% "\t\t\tlet item = unsafe { Variant::new_unchecked(&self.data[self.offset..end]) };",
  codes% "\t\t\tself.offset = end + 1;",
  codes% "\t\t\tSome(item)",
  codes% "\t\t} else {",
  codes% "\t\t\tNone",
  codes% "\t\t}",
  codes% "\t}",
  codes% "}",
  codes% "",
  codes% "impl<'a> DoubleEndedIterator for VariantsIter<'a> {",
  codes% "\tfn next_back(&mut self) -> Option<Self::Item> {",
  codes% "\t\tif self.end > self.offset {",
  codes% "\t\t\tlet start = super::find_segment_start(self.data, self.end);",
  codes% "\t\t\tlet item = unsafe { Variant::new_unchecked(&self.data[start..self.end]) };",
  codes% "",
  codes% "\t\t\tself.end = if start > 0 { start - 1 } else { 0 };",
  codes% "",
  codes% "\t\t\tSome(item)",
  codes% "\t\t} else {",
  codes% "\t\t\tNone",
  codes% "\t\t}",
  codes% "\t}",
  codes% "}"]

/-- The lines of `/repo/src/normal/variant.rs`. -/
def variantRs : List (List Nat) :=
  variantRs0 ++
  variantRs1

end Langtag.Source.Text
