import Verif.Source.Codes

/-! The text of `/repo/src/normal/region.rs`, line by line and verbatim (written and compared by `tools/gen_source.py`). -/

set_option autoImplicit false
set_option maxRecDepth 10000

namespace Langtag.Source.Text

/-- Lines 1 to 51. -/
def regionRs0 : List (List Nat) := [
  codes% "use core::hash::Hash;",
  codes% "",
  codes% "use crate::utils;",
  codes% "",
  codes% "/// Region subtag.",
  codes% "///",
  codes% "/// Region subtags are used to indicate linguistic variations associated",
  codes% "/// with or appropriate to a specific country, territory, or region.",
  codes% "/// Typically, a region subtag is used to indicate variations such as",
  codes% "/// regional dialects or usage, or region-specific spelling conventions.",
  codes% "/// It can also be used to indicate that content is expressed in a way",
  codes% "/// that is appropriate for use throughout a region, for instance,",
  codes% "/// Spanish content tailored to be useful throughout Latin America.",
  codes% "#[derive(static_automata::Validate, str_newtype::StrNewType)]",
  codes% "#[automaton(crate::grammar::Region)]",
  codes% "#[newtype(",
  codes% "\tno_deref,",
  codes% "\tord([u8], &[u8], str, &str)",
  codes% ")]",
  codes% "#[cfg_attr(",
  codes% "\tfeature = \"std\",",
  codes% "\tnewtype(ord(Vec<u8>, String), owned(RegionBuf, derive(PartialEq, Eq, PartialOrd, Ord, Hash)))",
  codes% ")]",
  codes% "#[cfg_attr(feature = \"serde\", newtype(serde))]",
  codes% "pub struct Region(str);",
  codes% "",
  codes% "impl PartialEq for Region {",
  codes% "\tfn eq(&self, other: &Self) -> bool {",
  codes% "\t\tutils::case_insensitive_eq(self.as_bytes(), other.as_bytes())",
  codes% "\t}",
  codes% "}",
  codes% "",
  codes% "impl Eq for Region {}",
  codes% "",
  codes% "impl PartialOrd for Region {",
  codes% "\tfn partial_cmp(&self, other: &Self) -> Option<core::cmp::Ordering> {",
  codes% "\t\tSome(self.cmp(other))",
  codes% "\t}",
  codes% "}",
  codes% "",
  codes% "impl Ord for Region {",
  codes% "\tfn cmp(&self, other: &Self) -> core::cmp::Ordering {",
  codes% "\t\tutils::case_insensitive_cmp(self.as_bytes(), other.as_bytes())",
  codes% "\t}",
  codes% "}",
  codes% "",
  codes% "impl Hash for Region {",
  codes% "\tfn hash<H: core::hash::Hasher>(&self, state: &mut H) {",
  codes% "\t\tutils::case_insensitive_hash(self.as_bytes(), state)",
  codes% "\t}",
  codes% "}"]

/-- The lines of `/repo/src/normal/region.rs`. -/
def regionRs : List (List Nat) :=
  regionRs0

end Langtag.Source.Text
