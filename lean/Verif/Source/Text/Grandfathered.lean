import Verif.Source.Codes

/-! The text of `/repo/src/grandfathered.rs`, line by line and verbatim (written and compared by `tools/gen_source.py`). -/

set_option autoImplicit false
set_option maxRecDepth 10000

namespace Langtag.Source.Text

/-- Lines 1 to 100. -/
def grandfatheredRs0 : List (List Nat) := [
  codes% "use core::fmt;",
  codes% "",
  codes% "use crate::{Language, utils};",
  codes% "",
  codes% "#[derive(Debug, thiserror::Error)]",
  codes% "#[error(\"invalid grandfathered tag\")]",
  codes% "pub struct InvalidGrandfatheredTag<T>(pub T);",
  codes% "",
  codes% "/// Grandfathered tags.",
  codes% "///",
  codes% "/// Prior to [RFC 4646](https://tools.ietf.org/html/rfc4646),",
  codes% "/// whole language tags were registered according to",
  codes% "/// the rules in [RFC 1766](https://tools.ietf.org/html/rfc1766)",
  codes% "/// and/or [RFC 3066](https://tools.ietf.org/html/rfc3066).",
  codes% "/// All of these registered tags remain valid as language tags.",
  codes% "/// Many of these registered tags were made redundant by the advent of",
  codes% "/// either [RFC 4646](https://tools.ietf.org/html/rfc4646) or",
  codes% "/// [RFC 5646](https://tools.ietf.org/html/rfc5646).",
  codes% "/// The remainder of the previously registered tags are \"grandfathered\",",
  codes% "/// and are all veriants of this enum type.",
  codes% "#[derive(Clone, Copy, PartialEq, Eq, PartialOrd, Ord, Hash)]",
  codes% "pub enum GrandfatheredLangTag {",
  codes% "\t// irregular",
  codes% "\tEnGbOed,",
  codes% "\tIAmi,",
  codes% "\tIBnn,",
  codes% "\tIDefault,",
  codes% "\tIEnochian,",
  codes% "\tIHak,",
  codes% "\tIKlingon,",
  codes% "\tILux,",
  codes% "\tIMingo,",
  codes% "\tINavajo,",
  codes% "\tIPwn,",
  codes% "\tITao,",
  codes% "\tITay,",
  codes% "\tITsu,",
  codes% "\tSgnBeFr,",
  codes% "\tSgnBeNl,",
  codes% "\tSgnChDe,",
  codes% "\t// regular",
  codes% "\tArtLojban,",
  codes% "\tCelGaulish,",
  codes% "\tNoBok,",
  codes% "\tNoNyn,",
  codes% "\tZhGuoyu,",
  codes% "\tZhHakka,",
  codes% "\tZhMin,",
  codes% "\tZhMinNan,",
  codes% "\tZhXiang,",
  codes% "}",
  codes% "",
  codes% "use GrandfatheredLangTag::*;",
  codes% "",
  codes% "/// List of all grandfathered tags.",
  codes% "pub static GRANDFATHERED: [GrandfatheredLangTag; 26] = [",
  codes% "\tEnGbOed, IAmi, IBnn, IDefault, IEnochian, IHak, IKlingon, ILux, IMingo, INavajo, IPwn, ITao,",
  codes% "\tITay, ITsu, SgnBeFr, SgnBeNl, SgnChDe, ArtLojban, CelGaulish, NoBok, NoNyn, ZhGuoyu, ZhHakka,",
  codes% "\tZhMin, ZhMinNan, ZhXiang,",
  codes% "];",
  codes% "",
  codes% "impl GrandfatheredLangTag {",
  codes% "\t/// Try to parse a grandfathered tag.",
  codes% "\t#[inline]",
  codes% "\tpub fn new<T: AsRef<[u8]>>(t: T) -> Result<GrandfatheredLangTag, T> {",
  codes% "\t\tmatch Self::try_from(t.as_ref()) {",
  codes% "\t\t\tOk(tag) => Ok(tag),",
  codes% "\t\t\tErr(_) => Err(t),",
  codes% "\t\t}",
  codes% "\t}",
  codes% "",
  codes% "\t/// Get the language of the grandfathered tag if it is regular.",
  codes% "\t#[inline]",
  codes% "\tpub fn language(&self) -> Option<&'static Language> {",
  codes% "\t\tunsafe {",
  codes% "\t\t\tmatch self {",
  codes% "\t\t\t\tArtLojban => Some(Language::new_unchecked(\"art\")),",
  codes% "\t\t\t\tCelGaulish => Some(Language::new_unchecked(\"cel\")),",
  codes% "\t\t\t\tNoBok => Some(Language::new_unchecked(\"no\")),",
  codes% "\t\t\t\tNoNyn => Some(Language::new_unchecked(\"no\")),",
  codes% "\t\t\t\tZhGuoyu => Some(Language::new_unchecked(\"zh\")),",
  codes% "\t\t\t\tZhHakka => Some(Language::new_unchecked(\"zh\")),",
  codes% "\t\t\t\tZhMin => Some(Language::new_unchecked(\"zh\")),",
  codes% "\t\t\t\tZhMinNan => Some(Language::new_unchecked(\"zh\")),",
  codes% "\t\t\t\tZhXiang => Some(Language::new_unchecked(\"zh\")),",
  codes% "\t\t\t\t_ => None,",
  codes% "\t\t\t}",
  codes% "\t\t}",
  codes% "\t}",
  codes% "",
  codes% "\t/// Returns the bytes representation of the tag.",
  codes% "\t#[inline]",
  codes% "\tpub fn as_bytes(&self) -> &[u8] {",
  codes% "\t\tuse GrandfatheredLangTag::*;",
  codes% "\t\tmatch self {",
  codes% "\t\t\tEnGbOed => b\"en-GB-oed\",",
  codes% "\t\t\tIAmi => b\"i-ami\",",
  codes% "\t\t\tIBnn => b\"i-bnn\",",
  codes% "\t\t\tIDefault => b\"i-default\",",
  codes% "\t\t\tIEnochian => b\"i-enochian\","]

/-- Lines 101 to 152. -/
def grandfatheredRs1 : List (List Nat) := [
  codes% "\t\t\tIHak => b\"i-hak\",",
  codes% "\t\t\tIKlingon => b\"i-klingon\",",
  codes% "\t\t\tILux => b\"i-lux\",",
  codes% "\t\t\tIMingo => b\"i-mingo\",",
  codes% "\t\t\tINavajo => b\"i-navajo\",",
  codes% "\t\t\tIPwn => b\"i-pwn\",",
  codes% "\t\t\tITao => b\"i-tao\",",
  codes% "\t\t\tITay => b\"i-tay\",",
  codes% "\t\t\tITsu => b\"i-tsu\",",
  codes% "\t\t\tSgnBeFr => b\"sgn-BE-FR\",",
  codes% "\t\t\tSgnBeNl => b\"sgn-BE-NL\",",
  codes% "\t\t\tSgnChDe => b\"sgn-CH-DE\",",
  codes% "",
  codes% "\t\t\tArtLojban => b\"art-lojban\",",
  codes% "\t\t\tCelGaulish => b\"cel-gaulish\",",
  codes% "\t\t\tNoBok => b\"no-bok\",",
  codes% "\t\t\tNoNyn => b\"no-nyn\",",
  codes% "\t\t\tZhGuoyu => b\"zh-guoyu\",",
  codes% "\t\t\tZhHakka => b\"zh-hakka\",",
  codes% "\t\t\tZhMin => b\"zh-min\",",
  codes% "\t\t\tZhMinNan => b\"zh-min-nan\",",
  codes% "\t\t\tZhXiang => b\"zh-xiang\",",
  codes% "\t\t}",
  codes% "\t}",
  codes% "",
  codes% "\t/// Returns the string representation of the tag.",
  codes% "\t#[inline]",
  codes% "\tpub fn as_str(&self) -> &str {",
  codes% "\t\tunsafe { core::str::from_utf8_unchecked(self.as_bytes()) }",
  codes% "\t}",
  codes% "}",
  codes% "",
  codes% "impl<'a> TryFrom<&'a [u8]> for GrandfatheredLangTag {",
  codes% "\ttype Error = InvalidGrandfatheredTag<&'a [u8]>;",
  codes% "",
  codes% "\t#[inline]",
  codes% "\tfn try_from(bytes: &'a [u8]) -> Result<GrandfatheredLangTag, Self::Error> {",
  codes% "\t\tfor tag in &GRANDFATHERED {",
  codes% "\t\t\tif utils::case_insensitive_eq(tag.as_bytes(), bytes) {",
  codes% "\t\t\t\treturn Ok(*tag);",
  codes% "\t\t\t}",
  codes% "\t\t}",
  codes% "",
  codes% "\t\tErr(InvalidGrandfatheredTag(bytes))",
  codes% "\t}",
  codes% "}",
  codes% "",
  codes% "impl fmt::Display for GrandfatheredLangTag {",
  codes% "\tfn fmt(&self, f: &mut fmt::Formatter<'_>) -> fmt::Result {",
  codes% "\t\tself.as_str().fmt(f)",
  codes% "\t}",
  codes% "}"]

/-- The lines of `/repo/src/grandfathered.rs`. -/
def grandfatheredRs : List (List Nat) :=
  grandfatheredRs0 ++
  grandfatheredRs1

end Langtag.Source.Text
