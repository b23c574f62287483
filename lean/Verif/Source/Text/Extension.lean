import Verif.Source.Codes

/-! The text of `/repo/src/normal/extension.rs`, line by line and verbatim (written and compared by `tools/gen_source.py`). -/

set_option autoImplicit false
set_option maxRecDepth 10000

namespace Langtag.Source.Text

/-- Lines 1 to 100. -/
def extensionRs0 : List (List Nat) := [
  codes% "use core::{fmt, hash::Hash};",
  codes% "",
  codes% "use crate::utils;",
  codes% "",
  codes% "#[derive(Debug, thiserror::Error)]",
  codes% "#[error(\"invalid extension identifier\")]",
  codes% "pub struct InvalidSingleton<T>(pub T);",
  codes% "",
  codes% "/// Extension identifier.",
  codes% "#[derive(Copy, Clone, PartialEq, Eq, Hash, PartialOrd, Ord)]",
  codes% "pub struct Singleton(u8);",
  codes% "",
  codes% "impl Singleton {",
  codes% "\tpub fn new(c: u8) -> Result<Self, InvalidSingleton<u8>> {",
  codes% "\t\tif c != b'x' && c != b'X' && c.is_ascii_alphanumeric() {",
  codes% "\t\t\tOk(Self(c))",
  codes% "\t\t} else {",
  codes% "\t\t\tErr(InvalidSingleton(c))",
  codes% "\t\t}",
  codes% "\t}",
  codes% "",
  codes% "\tpub fn from_string(str: &str) -> Result<Self, InvalidSingleton<&str>> {",
  codes% "\t\tif str.len() == 1 {",
  codes% "\t\t\tstr.chars()",
  codes% "\t\t\t\t.next()",
  codes% "\t\t\t\t.unwrap()",
  codes% "\t\t\t\t.try_into()",
  codes% "\t\t\t\t.map_err(|_| InvalidSingleton(str))",
  codes% "\t\t} else {",
  codes% "\t\t\tErr(InvalidSingleton(str))",
  codes% "\t\t}",
  codes% "\t}",
  codes% "",
  codes% "\t/// Convert into the underlying byte.",
  codes% "\t#[inline]",
  codes% "\tpub fn unwrap(self) -> u8 {",
  codes% "\t\tself.0",
  codes% "\t}",
  codes% "}",
  codes% "",
  codes% "#[cfg(feature = \"std\")]",
  codes% "impl core::str::FromStr for Singleton {",
  codes% "\ttype Err = InvalidSingleton<String>;",
  codes% "",
  codes% "\tfn from_str(str: &str) -> Result<Self, InvalidSingleton<String>> {",
  codes% "\t\tSelf::from_string(str).map_err(|_| InvalidSingleton(str.to_owned()))",
  codes% "\t}",
  codes% "}",
  codes% "",
  codes% "impl TryFrom<u8> for Singleton {",
  codes% "\ttype Error = InvalidSingleton<u8>;",
  codes% "",
  codes% "\t#[inline]",
  codes% "\tfn try_from(b: u8) -> Result<Singleton, InvalidSingleton<u8>> {",
  codes% "\t\tSelf::new(b)",
  codes% "\t}",
  codes% "}",
  codes% "",
  codes% "impl TryFrom<char> for Singleton {",
  codes% "\ttype Error = InvalidSingleton<char>;",
  codes% "",
  codes% "\t#[inline]",
  codes% "\tfn try_from(c: char) -> Result<Singleton, InvalidSingleton<char>> {",
  codes% "\t\tlet codepoint = c as u32;",
  codes% "",
  codes% "\t\tif codepoint < u8::MAX as u32 {",
  codes% "\t\t\tSelf::new(codepoint as u8).map_err(|_| InvalidSingleton(c))",
  codes% "\t\t} else {",
  codes% "\t\t\tErr(InvalidSingleton(c))",
  codes% "\t\t}",
  codes% "\t}",
  codes% "}",
  codes% "",
  codes% "impl PartialEq<u8> for Singleton {",
  codes% "\tfn eq(&self, b: &u8) -> bool {",
  codes% "\t\tself.0 == *b",
  codes% "\t}",
  codes% "}",
  codes% "",
  codes% "impl PartialEq<char> for Singleton {",
  codes% "\tfn eq(&self, b: &char) -> bool {",
  codes% "\t\tself.0 as u32 == *b as u32",
  codes% "\t}",
  codes% "}",
  codes% "",
  codes% "impl fmt::Display for Singleton {",
  codes% "\tfn fmt(&self, f: &mut fmt::Formatter) -> fmt::Result {",
  codes% "\t\t(self.0 as char).fmt(f)",
  codes% "\t}",
  codes% "}",
  codes% "",
  codes% "impl fmt::Debug for Singleton {",
  codes% "\tfn fmt(&self, f: &mut fmt::Formatter) -> fmt::Result {",
  codes% "\t\t(self.0 as char).fmt(f)",
  codes% "\t}",
  codes% "}",
  codes% "",
  codes% "/// Single extension and its subtags.",
  codes% "///",
  codes% "/// Extensions provide a mechanism for extending language tags for use in"]

/-- Lines 101 to 200. -/
def extensionRs1 : List (List Nat) := [
  codes% "/// various applications. They are intended to identify information that",
  codes% "/// is commonly used in association with languages or language tags but",
  codes% "/// that is not part of language identification.",
  codes% "///",
  codes% "/// An extension is composed of a singleton (a single character)",
  codes% "/// followed by associated subtags.",
  codes% "/// For instance `a-subtag1-subtag2`.",
  codes% "/// Each subtag of the extension is represented by the [`ExtensionSubtag`] type.",
  codes% "#[derive(static_automata::Validate, str_newtype::StrNewType)]",
  codes% "#[automaton(crate::grammar::Extension)]",
  codes% "#[newtype(",
  codes% "\tno_deref,",
  codes% "\tord([u8], &[u8], str, &str)",
  codes% ")]",
  codes% "#[cfg_attr(",
  codes% "\tfeature = \"std\",",
  codes% "\tnewtype(ord(Vec<u8>, String), owned(ExtensionBuf, derive(PartialEq, Eq, PartialOrd, Ord, Hash)))",
  codes% ")]",
  codes% "#[cfg_attr(feature = \"serde\", newtype(serde))]",
  codes% "pub struct Extension(str);",
  codes% "",
  codes% "impl Extension {",
  codes% "\tpub fn singleton(&self) -> Singleton {",
  codes% "\t\tSingleton(self.0.as_bytes()[0])",
  codes% "\t}",
  codes% "",
  codes% "\tpub fn iter(&self) -> ExtensionIter<'_> {",
  codes% "\t\tExtensionIter::new(&self.0)",
  codes% "\t}",
  codes% "}",
  codes% "",
  codes% "impl PartialEq for Extension {",
  codes% "\tfn eq(&self, other: &Self) -> bool {",
  codes% "\t\tutils::case_insensitive_eq(self.as_bytes(), other.as_bytes())",
  codes% "\t}",
  codes% "}",
  codes% "",
  codes% "impl Eq for Extension {}",
  codes% "",
  codes% "impl PartialOrd for Extension {",
  codes% "\tfn partial_cmp(&self, other: &Self) -> Option<core::cmp::Ordering> {",
  codes% "\t\tSome(self.cmp(other))",
  codes% "\t}",
  codes% "}",
  codes% "",
  codes% "impl Ord for Extension {",
  codes% "\tfn cmp(&self, other: &Self) -> core::cmp::Ordering {",
  codes% "\t\tutils::case_insensitive_cmp(self.as_bytes(), other.as_bytes())",
  codes% "\t}",
  codes% "}",
  codes% "",
  codes% "impl Hash for Extension {",
  codes% "\tfn hash<H: core::hash::Hasher>(&self, state: &mut H) {",
  codes% "\t\tutils::case_insensitive_hash(self.as_bytes(), state)",
  codes% "\t}",
  codes% "}",
  codes% "",
  codes% "#[derive(Default)]",
  codes% "pub struct ExtensionIter<'a> {",
  codes% "\tdata: &'a str,",
  codes% "\toffset: usize,",
  codes% "}",
  codes% "",
  codes% "impl<'a> ExtensionIter<'a> {",
  codes% "\tfn new(data: &'a str) -> Self {",
  codes% "\t\tSelf {",
  codes% "\t\t\tdata,",
  codes% "\t\t\toffset: 2, // start after the singleton",
  codes% "\t\t}",
  codes% "\t}",
  codes% "",
  codes% "\tpub fn empty() -> Self {",
  codes% "\t\tSelf::default()",
  codes% "\t}",
  codes% "}",
  codes% "",
  codes% "impl<'a> Iterator for ExtensionIter<'a> {",
  codes% "\ttype Item = &'a ExtensionSubtag;",
  codes% "",
  codes% "\tfn next(&mut self) -> Option<Self::Item> {",
  codes% "\t\tif self.offset < self.data.len() {",
  codes% "\t\t\tlet end = super::find_segment_end(self.data, self.offset);",
  codes% "\t\t\tlet item = unsafe { ExtensionSubtag::new_unchecked(&self.data[self.offset..end]) };",
  codes% "\t\t\tself.offset = end + 1;",
  codes% "\t\t\tSome(item)",
  codes% "\t\t} else {",
  codes% "\t\t\tNone",
  codes% "\t\t}",
  codes% "\t}",
  codes% "}",
  codes% "",
  codes% "/// List of extensions.",
  codes% "///",
  codes% "/// A list of language tag extension, separated by a `-` character.",
  codes% "/// Individual extensions are represented by the [`Extension`] type,",
  codes% "/// while extension subtags are represented by the [`ExtensionSubtag`]",
  codes% "/// type.",
  codes% "#[derive(static_automata::Validate, str_newtype::StrNewType)]",
  codes% "#[automaton(crate::grammar::Extensions)]",
  codes% "#[newtype("]

/-- Lines 201 to 300. -/
def extensionRs2 : List (List Nat) := [
  codes% "\tno_deref,",
  codes% "\tord([u8], &[u8], str, &str)",
  codes% ")]",
  codes% "#[cfg_attr(",
  codes% "\tfeature = \"std\",",
  codes% "\tnewtype(ord(Vec<u8>, String), owned(ExtensionsBuf, derive(PartialEq, Eq, PartialOrd, Ord, Hash)))",
  codes% ")]",
  codes% "#[cfg_attr(feature = \"serde\", newtype(serde))]",
  codes% "pub struct Extensions(str);",
  codes% "",
  codes% "impl Extensions {",
  codes% "\tpub const EMPTY: &Self = unsafe { Self::new_unchecked(\"\") };",
  codes% "",
  codes% "\tpub fn get(&self, singleton: Singleton) -> Option<&Extension> {",
  codes% "\t\tlet bytes = self.0.as_bytes();",
  codes% "\t\tlet mut i = 0;",
  codes% "\t\tlet mut starting = true;",
  codes% "\t\twhile i + 1 < self.0.len() {",
  codes% "\t\t\tif starting {",
  codes% "\t\t\t\tif bytes[i] == singleton.0 && bytes[i + 1] == b'-' {",
  codes% "\t\t\t\t\tlet end = super::find_list_end(&self.0, i + 2, |_, segment| segment.len() > 1);",
  codes% "",
  codes% "\t\t\t\t\treturn Some(unsafe { Extension::new_unchecked(&self.0[i..end]) });",
  codes% "\t\t\t\t}",
  codes% "",
  codes% "\t\t\t\tstarting = false",
  codes% "\t\t\t} else if bytes[i] == b'-' {",
  codes% "\t\t\t\tstarting = true",
  codes% "\t\t\t}",
  codes% "",
  codes% "\t\t\ti += 1",
  codes% "\t\t}",
  codes% "",
  codes% "\t\tNone",
  codes% "\t}",
  codes% "",
  codes% "\tpub fn iter(&self) -> ExtensionsIter<'_> {",
  codes% "\t\tExtensionsIter::new(&self.0)",
  codes% "\t}",
  codes% "",
  codes% "\tpub fn iter_extension(&self, singleton: Singleton) -> ExtensionIter<'_> {",
  codes% "\t\tself.get(singleton).map(Extension::iter).unwrap_or_default()",
  codes% "\t}",
  codes% "}",
  codes% "",
  codes% "impl PartialEq for Extensions {",
  codes% "\tfn eq(&self, other: &Self) -> bool {",
  codes% "\t\tutils::case_insensitive_eq(self.as_bytes(), other.as_bytes())",
  codes% "\t}",
  codes% "}",
  codes% "",
  codes% "impl Eq for Extensions {}",
  codes% "",
  codes% "impl PartialOrd for Extensions {",
  codes% "\tfn partial_cmp(&self, other: &Self) -> Option<core::cmp::Ordering> {",
  codes% "\t\tSome(self.cmp(other))",
  codes% "\t}",
  codes% "}",
  codes% "",
  codes% "impl Ord for Extensions {",
  codes% "\tfn cmp(&self, other: &Self) -> core::cmp::Ordering {",
  codes% "\t\tutils::case_insensitive_cmp(self.as_bytes(), other.as_bytes())",
  codes% "\t}",
  codes% "}",
  codes% "",
  codes% "impl Hash for Extensions {",
  codes% "\tfn hash<H: core::hash::Hasher>(&self, state: &mut H) {",
  codes% "\t\tutils::case_insensitive_hash(self.as_bytes(), state)",
  codes% "\t}",
  codes% "}",
  codes% "",
  codes% "pub struct ExtensionsIter<'a> {",
  codes% "\tdata: &'a str,",
  codes% "\toffset: usize,",
  codes% "}",
  codes% "",
  codes% "impl<'a> ExtensionsIter<'a> {",
  codes% "\tfn new(data: &'a str) -> Self {",
  codes% "\t\tSelf { data, offset: 0 }",
  codes% "\t}",
  codes% "}",
  codes% "",
  codes% "impl<'a> Iterator for ExtensionsIter<'a> {",
  codes% "\ttype Item = &'a Extension;",
  codes% "",
  codes% "\tfn next(&mut self) -> Option<Self::Item> {",
  codes% "\t\tif self.offset < self.data.len() {",
  codes% "\t\t\tlet offset = self.offset + 2; // skip singleton;",
  codes% "\t\t\tlet end = super::find_list_end(self.data, offset, |_, segment| {",
  codes% "\t\t\t\tExtensionSubtag::new(segment).is_ok()",
  codes% "\t\t\t});",
  codes% "",
  codes% "\t\t\tlet item = unsafe { Extension::new_unchecked(&self.data[self.offset..end]) };",
  codes% "",
  codes% "\t\t\tself.offset = end + 1;",
  codes% "\t\t\tSome(item)",
  codes% "\t\t} else {",
  codes% "\t\t\tNone",
  codes% "\t\t}",
  codes% "\t}"]

/-- Lines 301 to 343. -/
def extensionRs3 : List (List Nat) := [
  codes% "}",
  codes% "",
  codes% "/// Single extension subtag.",
  codes% "///",
  codes% "/// Extension subtag found in a language tag extension.",
  codes% "#[derive(static_automata::Validate, str_newtype::StrNewType)]",
  codes% "#[automaton(crate::grammar::ExtensionSubtag)]",
  codes% "#[newtype(",
  codes% "\tno_deref,",
  codes% "\tord([u8], &[u8], str, &str)",
  codes% ")]",
  codes% "#[cfg_attr(",
  codes% "\tfeature = \"std\",",
  codes% "\tnewtype(ord(Vec<u8>, String), owned(ExtensionSubtagBuf, derive(PartialEq, Eq, PartialOrd, Ord, Hash)))",
  codes% ")]",
  codes% "#[cfg_attr(feature = \"serde\", newtype(serde))]",
  codes% "pub struct ExtensionSubtag(str);",
  codes% "",
  codes% "impl PartialEq for ExtensionSubtag {",
  codes% "\tfn eq(&self, other: &Self) -> bool {",
  codes% "\t\tutils::case_insensitive_eq(self.as_bytes(), other.as_bytes())",
  codes% "\t}",
  codes% "}",
  codes% "",
  codes% "impl Eq for ExtensionSubtag {}",
  codes% "",
  codes% "impl PartialOrd for ExtensionSubtag {",
  codes% "\tfn partial_cmp(&self, other: &Self) -> Option<core::cmp::Ordering> {",
  codes% "\t\tSome(self.cmp(other))",
  codes% "\t}",
  codes% "}",
  codes% "",
  codes% "impl Ord for ExtensionSubtag {",
  codes% "\tfn cmp(&self, other: &Self) -> core::cmp::Ordering {",
  codes% "\t\tutils::case_insensitive_cmp(self.as_bytes(), other.as_bytes())",
  codes% "\t}",
  codes% "}",
  codes% "",
  codes% "impl Hash for ExtensionSubtag {",
  codes% "\tfn hash<H: core::hash::Hasher>(&self, state: &mut H) {",
  codes% "\t\tutils::case_insensitive_hash(self.as_bytes(), state)",
  codes% "\t}",
  codes% "}"]

/-- The lines of `/repo/src/normal/extension.rs`. -/
def extensionRs : List (List Nat) :=
  extensionRs0 ++
  extensionRs1 ++
  extensionRs2 ++
  extensionRs3

end Langtag.Source.Text
