import Verif.Model.Types

/-! # `/repo/src/grandfathered.rs` -/

set_option autoImplicit false

namespace Langtag.Model

/-- `GrandfatheredLangTag`, src/grandfathered.rs:21-51. -/
inductive GrandfatheredLangTag
  | EnGbOed | IAmi | IBnn | IDefault | IEnochian | IHak | IKlingon | ILux | IMingo | INavajo | IPwn | ITao
  | ITay | ITsu | SgnBeFr | SgnBeNl | SgnChDe
  | ArtLojban | CelGaulish | NoBok | NoNyn | ZhGuoyu | ZhHakka | ZhMin | ZhMinNan | ZhXiang
  deriving DecidableEq, Repr

open GrandfatheredLangTag

/-- `GRANDFATHERED`, src/grandfathered.rs:55-60. -/
def GRANDFATHERED : List GrandfatheredLangTag := [
  EnGbOed, IAmi, IBnn, IDefault, IEnochian, IHak, IKlingon, ILux, IMingo, INavajo, IPwn, ITao,
  ITay, ITsu, SgnBeFr, SgnBeNl, SgnChDe, ArtLojban, CelGaulish, NoBok, NoNyn, ZhGuoyu, ZhHakka,
  ZhMin, ZhMinNan, ZhXiang]

namespace GrandfatheredLangTag

/-- `as_bytes`, src/grandfathered.rs:91-124. -/
def asBytes : GrandfatheredLangTag → Str
  | EnGbOed => lit "en-GB-oed"
  | IAmi => lit "i-ami"
  | IBnn => lit "i-bnn"
  | IDefault => lit "i-default"
  | IEnochian => lit "i-enochian"
  | IHak => lit "i-hak"
  | IKlingon => lit "i-klingon"
  | ILux => lit "i-lux"
  | IMingo => lit "i-mingo"
  | INavajo => lit "i-navajo"
  | IPwn => lit "i-pwn"
  | ITao => lit "i-tao"
  | ITay => lit "i-tay"
  | ITsu => lit "i-tsu"
  | SgnBeFr => lit "sgn-BE-FR"
  | SgnBeNl => lit "sgn-BE-NL"
  | SgnChDe => lit "sgn-CH-DE"
  | ArtLojban => lit "art-lojban"
  | CelGaulish => lit "cel-gaulish"
  | NoBok => lit "no-bok"
  | NoNyn => lit "no-nyn"
  | ZhGuoyu => lit "zh-guoyu"
  | ZhHakka => lit "zh-hakka"
  | ZhMin => lit "zh-min"
  | ZhMinNan => lit "zh-min-nan"
  | ZhXiang => lit "zh-xiang"

/-- `as_str`, src/grandfathered.rs:126-130. -/
def asStr (g : GrandfatheredLangTag) : Str := g.asBytes

/-- The `for` loop of `TryFrom<&[u8]>`, src/grandfathered.rs:138-144. -/
def tryFromLoop (bytes : Str) : List GrandfatheredLangTag → Rust (Except Str GrandfatheredLangTag)
  | [] => .ok (.error bytes)
  | tag :: tags => do
    if ← caseInsensitiveEq tag.asBytes bytes then return .ok tag
    tryFromLoop bytes tags

/-- `TryFrom<&[u8]>`, src/grandfathered.rs:133-146. -/
def tryFrom (bytes : Str) : Rust (Except Str GrandfatheredLangTag) := tryFromLoop bytes GRANDFATHERED

/-- `GrandfatheredLangTag::new`, src/grandfathered.rs:62-70. -/
def new (t : Str) : Rust (Except Str GrandfatheredLangTag) := do
  match ← tryFrom t with
  | .ok tag => return .ok tag
  | .error _ => return .error t

/-- `GrandfatheredLangTag::language`, src/grandfathered.rs:72-89. -/
def language : GrandfatheredLangTag → Option Language
  | ArtLojban => some ⟨lit "art"⟩
  | CelGaulish => some ⟨lit "cel"⟩
  | NoBok => some ⟨lit "no"⟩
  | NoNyn => some ⟨lit "no"⟩
  | ZhGuoyu => some ⟨lit "zh"⟩
  | ZhHakka => some ⟨lit "zh"⟩
  | ZhMin => some ⟨lit "zh"⟩
  | ZhMinNan => some ⟨lit "zh"⟩
  | ZhXiang => some ⟨lit "zh"⟩
  | _ => none

/-- The discriminant: the position in the declaration, src/grandfathered.rs:22-51. -/
def discriminant : GrandfatheredLangTag → Nat
  | EnGbOed => 0 | IAmi => 1 | IBnn => 2 | IDefault => 3 | IEnochian => 4 | IHak => 5 | IKlingon => 6 | ILux => 7
  | IMingo => 8 | INavajo => 9 | IPwn => 10 | ITao => 11 | ITay => 12 | ITsu => 13 | SgnBeFr => 14 | SgnBeNl => 15
  | SgnChDe => 16 | ArtLojban => 17 | CelGaulish => 18 | NoBok => 19 | NoNyn => 20 | ZhGuoyu => 21 | ZhHakka => 22
  | ZhMin => 23 | ZhMinNan => 24 | ZhXiang => 25

/-- `#[derive(PartialEq)]`, src/grandfathered.rs:21: same variant. -/
def eq (a b : GrandfatheredLangTag) : Bool := a.discriminant == b.discriminant

/-- `#[derive(Ord)]`, src/grandfathered.rs:21: the order of the declaration. -/
def cmp (a b : GrandfatheredLangTag) : Ordering := compare a.discriminant b.discriminant

end GrandfatheredLangTag

end Langtag.Model
