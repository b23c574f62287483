import Verif.Source.Codes

/-! The text of `/repo/src/normal/private_use.rs`, line by line and verbatim (written and compared by `tools/gen_source.py`). -/

set_option autoImplicit false
set_option maxRecDepth 10000

namespace Langtag.Source.Text

/-- Lines 1 to 100. -/
def privateUseRs0 : List (List Nat) := [
  codes% "use core::hash::Hash;",
  codes% "",
  codes% "use crate::utils;",
  codes% "",
  codes% "/// Private use.",
  codes% "#[derive(static_automata::Validate, str_newtype::StrNewType)]",
  codes% "#[automaton(crate::grammar::Privateuse)]",
  codes% "#[newtype(",
  codes% "\tno_deref,",
  codes% "\tord([u8], &[u8], str, &str)",
  codes% ")]",
  codes% "#[cfg_attr(",
  codes% "\tfeature = \"std\",",
  codes% "\tnewtype(ord(Vec<u8>, String), owned(PrivateUseBuf, derive(PartialEq, Eq, PartialOrd, Ord, Hash)))",
  codes% ")]",
  codes% "#[cfg_attr(feature = \"serde\", newtype(serde))]",
  codes% "pub struct PrivateUse(str);",
  codes% "",
  codes% "impl PrivateUse {",
  codes% "\tpub fn iter(&self) -> PrivateUseIter<'_> {",
  codes% "\t\tPrivateUseIter::new(&self.0)",
  codes% "\t}",
  codes% "}",
  codes% "",
  codes% "impl PartialEq for PrivateUse {",
  codes% "\tfn eq(&self, other: &Self) -> bool {",
  codes% "\t\tutils::case_insensitive_eq(self.as_bytes(), other.as_bytes())",
  codes% "\t}",
  codes% "}",
  codes% "",
  codes% "impl Eq for PrivateUse {}",
  codes% "",
  codes% "impl PartialOrd for PrivateUse {",
  codes% "\tfn partial_cmp(&self, other: &Self) -> Option<core::cmp::Ordering> {",
  codes% "\t\tSome(self.cmp(other))",
  codes% "\t}",
  codes% "}",
  codes% "",
  codes% "impl Ord for PrivateUse {",
  codes% "\tfn cmp(&self, other: &Self) -> core::cmp::Ordering {",
  codes% "\t\tutils::case_insensitive_cmp(self.as_bytes(), other.as_bytes())",
  codes% "\t}",
  codes% "}",
  codes% "",
  codes% "impl Hash for PrivateUse {",
  codes% "\tfn hash<H: core::hash::Hasher>(&self, state: &mut H) {",
  codes% "\t\tutils::case_insensitive_hash(self.as_bytes(), state)",
  codes% "\t}",
  codes% "}",
  codes% "",
  codes% "#[derive(Default)]",
  codes% "pub struct PrivateUseIter<'a> {",
  codes% "\tdata: &'a str,",
  codes% "\toffset: usize,",
  codes% "}",
  codes% "",
  codes% "impl<'a> PrivateUseIter<'a> {",
  codes% "\tfn new(data: &'a str) -> Self {",
  codes% "\t\tSelf {",
  codes% "\t\t\tdata,",
  codes% "\t\t\toffset: 2, // start after the singleton",
  codes% "\t\t}",
  codes% "\t}",
  codes% "",
  codes% "\tpub fn empty() -> Self {",
  codes% "\t\tSelf::default()",
  codes% "\t}",
  codes% "}",
  codes% "",
  codes% "impl<'a> Iterator for PrivateUseIter<'a> {",
  codes% "\ttype Item = &'a PrivateUseSubtag;",
  codes% "",
  codes% "\tfn next(&mut self) -> Option<Self::Item> {",
  codes% "\t\tif self.offset < self.data.len() {",
  codes% "\t\t\tlet end = super::find_segment_end(self.data, self.offset);",
  codes% "\t\t\tlet item = unsafe { &PrivateUseSubtag::new_unchecked(&self.data[self.offset..end]) };",
  codes% "\t\t\tself.offset = end + 1;",
  codes% "\t\t\tSome(item)",
  codes% "\t\t} else {",
  codes% "\t\t\tNone",
  codes% "\t\t}",
  codes% "\t}",
  codes% "}",
  codes% "",
  codes% "/// Private use subtag.",
  codes% "#[derive(static_automata::Validate, str_newtype::StrNewType)]",
  codes% "#[automaton(crate::grammar::PrivateuseSubtag)]",
  codes% "#[newtype(",
  codes% "\tno_deref,",
  codes% "\tord([u8], &[u8], str, &str)",
  codes% ")]",
  codes% "#[cfg_attr(",
  codes% "\tfeature = \"std\",",
  codes% "\tnewtype(ord(Vec<u8>, String), owned(PrivateUseSubtagBuf, derive(PartialEq, Eq, PartialOrd, Ord, Hash)))",
  codes% ")]",
  codes% "#[cfg_attr(feature = \"serde\", newtype(serde))]",
  codes% "pub struct PrivateUseSubtag(str);",
  codes% "",
  codes% "impl PartialEq for PrivateUseSubtag {",
  codes% "\tfn eq(&self, other: &Self) -> bool {"]

/-- Lines 101 to 123. -/
def privateUseRs1 : List (List Nat) := [
  codes% "\t\tutils::case_insensitive_eq(self.as_bytes(), other.as_bytes())",
  codes% "\t}",
  codes% "}",
  codes% "",
  codes% "impl Eq for PrivateUseSubtag {}",
  codes% "",
  codes% "impl PartialOrd for PrivateUseSubtag {",
  codes% "\tfn partial_cmp(&self, other: &Self) -> Option<core::cmp::Ordering> {",
  codes% "\t\tSome(self.cmp(other))",
  codes% "\t}",
  codes% "}",
  codes% "",
  codes% "impl Ord for PrivateUseSubtag {",
  codes% "\tfn cmp(&self, other: &Self) -> core::cmp::Ordering {",
  codes% "\t\tutils::case_insensitive_cmp(self.as_bytes(), other.as_bytes())",
  codes% "\t}",
  codes% "}",
  codes% "",
  codes% "impl Hash for PrivateUseSubtag {",
  codes% "\tfn hash<H: core::hash::Hasher>(&self, state: &mut H) {",
  codes% "\t\tutils::case_insensitive_hash(self.as_bytes(), state)",
  codes% "\t}",
  codes% "}"]

/-- The lines of `/repo/src/normal/private_use.rs`. -/
def privateUseRs : List (List Nat) :=
  privateUseRs0 ++
  privateUseRs1

end Langtag.Source.Text
