import Verif.Source.Codes

/-! The text of `/repo/src/normal/language/primary.rs`, line by line and verbatim (written and compared by `tools/gen_source.py`). -/

set_option autoImplicit false
set_option maxRecDepth 10000

namespace Langtag.Source.Text

/-- Lines 1 to 45. -/
def primaryRs0 : List (List Nat) := [
  codes% "use core::hash::Hash;",
  codes% "",
  codes% "use crate::utils;",
  codes% "",
  codes% "/// Primary language subtag.",
  codes% "///",
  codes% "/// The primary language subtag is the first subtag in a language tag.",
  codes% "#[derive(static_automata::Validate, str_newtype::StrNewType)]",
  codes% "#[automaton(crate::grammar::Primary)]",
  codes% "#[newtype(",
  codes% "\tno_deref,",
  codes% "\tord([u8], &[u8], str, &str)",
  codes% ")]",
  codes% "#[cfg_attr(",
  codes% "\tfeature = \"std\",",
  codes% "\tnewtype(ord(Vec<u8>, String), owned(PrimaryLanguageBuf, derive(PartialEq, Eq, PartialOrd, Ord, Hash)))",
  codes% ")]",
  codes% "#[cfg_attr(feature = \"serde\", newtype(serde))]",
  codes% "pub struct PrimaryLanguage(str);",
  codes% "",
  codes% "impl PartialEq for PrimaryLanguage {",
  codes% "\tfn eq(&self, other: &Self) -> bool {",
  codes% "\t\tutils::case_insensitive_eq(self.as_bytes(), other.as_bytes())",
  codes% "\t}",
  codes% "}",
  codes% "",
  codes% "impl Eq for PrimaryLanguage {}",
  codes% "",
  codes% "impl PartialOrd for PrimaryLanguage {",
  codes% "\tfn partial_cmp(&self, other: &Self) -> Option<core::cmp::Ordering> {",
  codes% "\t\tSome(self.cmp(other))",
  codes% "\t}",
  codes% "}",
  codes% "",
  codes% "impl Ord for PrimaryLanguage {",
  codes% "\tfn cmp(&self, other: &Self) -> core::cmp::Ordering {",
  codes% "\t\tutils::case_insensitive_cmp(self.as_bytes(), other.as_bytes())",
  codes% "\t}",
  codes% "}",
  codes% "",
  codes% "impl Hash for PrimaryLanguage {",
  codes% "\tfn hash<H: core::hash::Hasher>(&self, state: &mut H) {",
  codes% "\t\tutils::case_insensitive_hash(self.as_bytes(), state)",
  codes% "\t}",
  codes% "}"]

/-- The lines of `/repo/src/normal/language/primary.rs`. -/
def primaryRs : List (List Nat) :=
  primaryRs0

end Langtag.Source.Text
