import Verif.Source.Codes

/-! The text of `/repo/src/lib.rs`, line by line and verbatim (written and compared by `tools/gen_source.py`). -/

set_option autoImplicit false
set_option maxRecDepth 10000

namespace Langtag.Source.Text

/-- Lines 1 to 100. -/
def libRs0 : List (List Nat) := [
  codes% "//! This crate provides an implementation of *language tags* defined by",
  codes% "//! [RFC5646] ([BCP47]).",
  codes% "//!",
  codes% "//! [RFC5646]: <https://tools.ietf.org/html/rfc5646>",
  codes% "//! [BCP47]: <https://tools.ietf.org/html/bcp47>",
  codes% "//!",
  codes% "//! ## Usage",
  codes% "//!",
  codes% "//! You can easily parse new language from any string:",
  codes% "//! ```rust",
  codes% "//! use langtag::LangTag;",
  codes% "//!",
  codes% "//! fn main() -> Result<(), langtag::InvalidLangTag<&'static str>> {",
  codes% "//!   let tag = LangTag::new(\"fr-FR\")?;",
  codes% "//!   assert_eq!(tag.language().unwrap().primary(), \"fr\");",
  codes% "//!   assert!(tag == \"Fr-fr\"); // comparison is case-insensitive.",
  codes% "//!   Ok(())",
  codes% "//! }",
  codes% "//! ```",
  codes% "//!",
  codes% "//! Note that [`LangTag::new`] does *not* copy the data it is given,",
  codes% "//! but only borrows it. The [`LangTagBuf`] type allows you to own the language",
  codes% "//! tag. Once parsed, you can explore every component of the language tag using",
  codes% "//! the provided functions.",
  codes% "//!",
  codes% "//! You can use this library with `no_std` by disabling the `std` feature,",
  codes% "//! though it will also disable all the `*Buf` types.",
  codes% "//!",
  codes% "//! [`LangTag::new`]: crate::LangTag::new",
  codes% "//! [`LangTagBuf`]: crate::LangTagBuf",
  codes% "#![cfg_attr(not(feature = \"std\"), no_std)]",
  codes% "",
  codes% "use core::hash::Hash;",
  codes% "use static_automata::grammar;",
  codes% "",
  codes% "mod grandfathered;",
  codes% "mod normal;",
  codes% "mod private_use;",
  codes% "mod utils;",
  codes% "",
  codes% "pub use grandfathered::*;",
  codes% "pub use normal::*;",
  codes% "pub use private_use::*;",
  codes% "",
  codes% "#[allow(clippy::manual_range_patterns)]",
  codes% "#[grammar(",
  codes% "\tfile = \"grammar.abnf\",",
  codes% "\texport(",
  codes% "\t\t\"Language-Tag\",",
  codes% "\t\t\"privateuse\",",
  codes% "\t\t\"privateuse-subtag\",",
  codes% "\t\t\"langtag\",",
  codes% "\t\t\"language\",",
  codes% "\t\t\"primary\",",
  codes% "\t\t\"extlang\",",
  codes% "\t\t\"extlang-tag\",",
  codes% "\t\t\"script\",",
  codes% "\t\t\"region\",",
  codes% "\t\t\"variant\",",
  codes% "\t\t\"variants\",",
  codes% "\t\t\"extension\",",
  codes% "\t\t\"extension-subtag\",",
  codes% "\t\t\"extensions\"",
  codes% "\t)",
  codes% ")]",
  codes% "pub(crate) mod grammar {}",
  codes% "",
  codes% "/// Any language tag (normal, private use or grandfathered).",
  codes% "#[derive(static_automata::Validate, str_newtype::StrNewType)]",
  codes% "#[automaton(crate::grammar::LanguageTag)]",
  codes% "#[newtype(",
  codes% "\tno_deref,",
  codes% "\tord([u8], &[u8], str, &str)",
  codes% ")]",
  codes% "#[cfg_attr(",
  codes% "\tfeature = \"std\",",
  codes% "\tnewtype(ord(Vec<u8>, String), owned(LangTagBuf, derive(PartialEq, Eq, PartialOrd, Ord, Hash)))",
  codes% ")]",
  codes% "#[cfg_attr(feature = \"serde\", newtype(serde))]",
  codes% "pub struct LangTag(str);",
  codes% "",
  codes% "impl LangTag {",
  codes% "\t/// Returns the language subtags, if any.",
  codes% "\t///",
  codes% "\t/// Only normal language tags and regular grandfathered tags have language",
  codes% "\t/// subtags.",
  codes% "\tpub fn language(&self) -> Option<&Language> {",
  codes% "\t\tmatch NormalLangTag::new(&self.0) {",
  codes% "\t\t\tOk(t) => Some(t.language()),",
  codes% "\t\t\tErr(_) => match GrandfatheredLangTag::new(&self.0) {",
  codes% "\t\t\t\tOk(t) => t.language(),",
  codes% "\t\t\t\tErr(_) => None,",
  codes% "\t\t\t},",
  codes% "\t\t}",
  codes% "\t}",
  codes% "",
  codes% "\t/// Returns the script subtag, if any.",
  codes% "\tpub fn script(&self) -> Option<&Script> {",
  codes% "\t\tself.as_normal().and_then(NormalLangTag::script)",
  codes% "\t}"]

/-- Lines 101 to 200. -/
def libRs1 : List (List Nat) := [
  codes% "",
  codes% "\t/// Returns the region subtag, if any.",
  codes% "\tpub fn region(&self) -> Option<&Region> {",
  codes% "\t\tself.as_normal().and_then(NormalLangTag::region)",
  codes% "\t}",
  codes% "",
  codes% "\t/// Returns the variant subtags, if any.",
  codes% "\tpub fn variants(&self) -> &Variants {",
  codes% "\t\tself.as_normal()",
  codes% "\t\t\t.map(NormalLangTag::variants)",
  codes% "\t\t\t.unwrap_or(Variants::EMPTY)",
  codes% "\t}",
  codes% "",
  codes% "\t/// Returns the extension subtags, if any.",
  codes% "\tpub fn extensions(&self) -> &Extensions {",
  codes% "\t\tself.as_normal()",
  codes% "\t\t\t.map(NormalLangTag::extensions)",
  codes% "\t\t\t.unwrap_or(Extensions::EMPTY)",
  codes% "\t}",
  codes% "",
  codes% "\t/// Returns the private use subtag, if any.",
  codes% "\tpub fn private_use(&self) -> Option<&PrivateUse> {",
  codes% "\t\tself.as_normal().and_then(NormalLangTag::private_use)",
  codes% "\t}",
  codes% "",
  codes% "\t/// Returns an iterator over the private use subtag subtags.",
  codes% "\tpub fn private_use_subtags(&self) -> PrivateUseIter<'_> {",
  codes% "\t\tself.private_use()",
  codes% "\t\t\t.map(PrivateUse::iter)",
  codes% "\t\t\t.unwrap_or(PrivateUseIter::empty())",
  codes% "\t}",
  codes% "",
  codes% "\t/// Returns wether or not this language tag is a normal language tag.",
  codes% "\tpub fn is_normal(&self) -> bool {",
  codes% "\t\tself.as_normal().is_some()",
  codes% "\t}",
  codes% "",
  codes% "\t/// Returns wether or not this language tag is a private use tag.",
  codes% "\tpub fn is_private_use(&self) -> bool {",
  codes% "\t\tself.as_private_use().is_some()",
  codes% "\t}",
  codes% "",
  codes% "\t/// Returns wether or not this language tag is a grandfathered tag.",
  codes% "\tpub fn is_grandfathered(&self) -> bool {",
  codes% "\t\tself.as_grandfathered().is_some()",
  codes% "\t}",
  codes% "",
  codes% "\t/// Returns this language tag as a normal tag, if it is one.",
  codes% "\tpub fn as_normal(&self) -> Option<&NormalLangTag> {",
  codes% "\t\tNormalLangTag::new(&self.0).ok()",
  codes% "\t}",
  codes% "",
  codes% "\t/// Returns this language tag as a private use tag, if it is one.",
  codes% "\tpub fn as_private_use(&self) -> Option<&PrivateUseLangTag> {",
  codes% "\t\tPrivateUseLangTag::new(&self.0).ok()",
  codes% "\t}",
  codes% "",
  codes% "\t/// Returns this language tag as a grandfathered tag, if it is one.",
  codes% "\tpub fn as_grandfathered(&self) -> Option<GrandfatheredLangTag> {",
  codes% "\t\tGrandfatheredLangTag::new(&self.0).ok()",
  codes% "\t}",
  codes% "",
  codes% "\t/// Returns the kind of the tag (normal, private use or grandfathered).",
  codes% "\tpub fn kind(&self) -> Kind {",
  codes% "\t\tself.as_typed().kind()",
  codes% "\t}",
  codes% "",
  codes% "\t/// Find out what kind of language tag `self` is.",
  codes% "\tpub fn as_typed(&self) -> TypedLangTag<'_> {",
  codes% "\t\tmatch NormalLangTag::new(&self.0) {",
  codes% "\t\t\tOk(t) => TypedLangTag::Normal(t),",
  codes% "\t\t\tErr(_) => match PrivateUseLangTag::new(&self.0) {",
  codes% "\t\t\t\tOk(t) => TypedLangTag::PrivateUse(t),",
  codes% "\t\t\t\tErr(_) => TypedLangTag::Grandfathered(GrandfatheredLangTag::new(&self.0).unwrap()),",
  codes% "\t\t\t},",
  codes% "\t\t}",
  codes% "\t}",
  codes% "}",
  codes% "",
  codes% "impl PartialEq for LangTag {",
  codes% "\tfn eq(&self, other: &Self) -> bool {",
  codes% "\t\tutils::case_insensitive_eq(self.as_bytes(), other.as_bytes())",
  codes% "\t}",
  codes% "}",
  codes% "",
  codes% "impl Eq for LangTag {}",
  codes% "",
  codes% "impl PartialOrd for LangTag {",
  codes% "\tfn partial_cmp(&self, other: &Self) -> Option<core::cmp::Ordering> {",
  codes% "\t\tSome(self.cmp(other))",
  codes% "\t}",
  codes% "}",
  codes% "",
  codes% "impl Ord for LangTag {",
  codes% "\tfn cmp(&self, other: &Self) -> core::cmp::Ordering {",
  codes% "\t\tutils::case_insensitive_cmp(self.as_bytes(), other.as_bytes())",
  codes% "\t}",
  codes% "}",
  codes% "",
  codes% "impl Hash for LangTag {"]

/-- Lines 201 to 300. -/
def libRs2 : List (List Nat) := [
  codes% "\tfn hash<H: core::hash::Hasher>(&self, state: &mut H) {",
  codes% "\t\tutils::case_insensitive_hash(self.as_bytes(), state)",
  codes% "\t}",
  codes% "}",
  codes% "",
  codes% "/// Parses an [`LangTag`] at compile time.",
  codes% "#[macro_export]",
  codes% "macro_rules! langtag {",
  codes% "\t($value:literal) => {",
  codes% "\t\tmatch $crate::LangTag::from_str($value) {",
  codes% "\t\t\tOk(value) => value,",
  codes% "\t\t\tErr(_) => panic!(\"invalid language tag\"),",
  codes% "\t\t}",
  codes% "\t};",
  codes% "}",
  codes% "",
  codes% "/// Language tag with type information (normal, private use or grandfathered).",
  codes% "pub enum TypedLangTag<'a> {",
  codes% "\tNormal(&'a NormalLangTag),",
  codes% "\tPrivateUse(&'a PrivateUseLangTag),",
  codes% "\tGrandfathered(GrandfatheredLangTag),",
  codes% "}",
  codes% "",
  codes% "impl<'a> TypedLangTag<'a> {",
  codes% "\t/// Returns the language subtags, if any.",
  codes% "\t///",
  codes% "\t/// Only normal language tags and regular grandfathered tags have language",
  codes% "\t/// subtags.",
  codes% "\tpub fn language(&self) -> Option<&Language> {",
  codes% "\t\tmatch self {",
  codes% "\t\t\tSelf::Normal(n) => Some(n.language()),",
  codes% "\t\t\tSelf::PrivateUse(_) => None,",
  codes% "\t\t\tSelf::Grandfathered(g) => g.language(),",
  codes% "\t\t}",
  codes% "\t}",
  codes% "",
  codes% "\t/// Returns this tag's kind (normal, private use or grandfathered).",
  codes% "\tpub fn kind(&self) -> Kind {",
  codes% "\t\tmatch self {",
  codes% "\t\t\tSelf::Normal(_) => Kind::Normal,",
  codes% "\t\t\tSelf::PrivateUse(_) => Kind::PrivateUse,",
  codes% "\t\t\tSelf::Grandfathered(_) => Kind::Grandfathered,",
  codes% "\t\t}",
  codes% "\t}",
  codes% "",
  codes% "\t/// Returns wether or not this language tag is a normal language tag.",
  codes% "\tpub fn is_normal(&self) -> bool {",
  codes% "\t\tmatches!(self, Self::Normal(_))",
  codes% "\t}",
  codes% "",
  codes% "\t/// Returns wether or not this language tag is a private use tag.",
  codes% "\tpub fn is_private_use(&self) -> bool {",
  codes% "\t\tmatches!(self, Self::PrivateUse(_))",
  codes% "\t}",
  codes% "",
  codes% "\t/// Returns wether or not this language tag is a grandfathered tag.",
  codes% "\tpub fn is_grandfathered(&self) -> bool {",
  codes% "\t\tmatches!(self, Self::Grandfathered(_))",
  codes% "\t}",
  codes% "",
  codes% "\t/// Returns this language tag as a normal tag, if it is one.",
  codes% "\tpub fn as_normal(&self) -> Option<&'a NormalLangTag> {",
  codes% "\t\tmatch self {",
  codes% "\t\t\tSelf::Normal(n) => Some(*n),",
  codes% "\t\t\t_ => None,",
  codes% "\t\t}",
  codes% "\t}",
  codes% "",
  codes% "\t/// Returns this language tag as a private use tag, if it is one.",
  codes% "\tpub fn as_private_use(&self) -> Option<&'a PrivateUseLangTag> {",
  codes% "\t\tmatch self {",
  codes% "\t\t\tSelf::PrivateUse(p) => Some(*p),",
  codes% "\t\t\t_ => None,",
  codes% "\t\t}",
  codes% "\t}",
  codes% "",
  codes% "\t/// Returns this language tag as a grandfathered tag, if it is one.",
  codes% "\tpub fn as_grandfathered(&self) -> Option<GrandfatheredLangTag> {",
  codes% "\t\tmatch self {",
  codes% "\t\t\tSelf::Grandfathered(g) => Some(*g),",
  codes% "\t\t\t_ => None,",
  codes% "\t\t}",
  codes% "\t}",
  codes% "}",
  codes% "",
  codes% "/// Language tag kind (normal, private use or grandfathered).",
  codes% "#[derive(Debug, Clone, Copy, PartialEq, Eq, PartialOrd, Ord, Hash)]",
  codes% "pub enum Kind {",
  codes% "\tNormal,",
  codes% "\tPrivateUse,",
  codes% "\tGrandfathered,",
  codes% "}",
  codes% "",
  codes% "impl Kind {",
  codes% "\t/// Returns wether or not this is the normal language tag kind.",
  codes% "\tpub fn is_normal(&self) -> bool {",
  codes% "\t\tmatches!(self, Self::Normal)",
  codes% "\t}",
  codes% "",
  codes% "\t/// Returns wether or not this is the private use tag kind."]

/-- Lines 301 to 309. -/
def libRs3 : List (List Nat) := [
  codes% "\tpub fn is_private_use(&self) -> bool {",
  codes% "\t\tmatches!(self, Self::PrivateUse)",
  codes% "\t}",
  codes% "",
  codes% "\t/// Returns wether or not this is the grandfathered tag kind.",
  codes% "\tpub fn is_grandfathered(&self) -> bool {",
  codes% "\t\tmatches!(self, Self::Grandfathered)",
  codes% "\t}",
  codes% "}"]

/-- The lines of `/repo/src/lib.rs`. -/
def libRs : List (List Nat) :=
  libRs0 ++
  libRs1 ++
  libRs2 ++
  libRs3

end Langtag.Source.Text
