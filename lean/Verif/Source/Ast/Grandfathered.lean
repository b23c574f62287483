import Verif.Source.Syntax

/-! The abstract syntax of `/repo/src/grandfathered.rs` (written by `tools/gen_ast.py`; `Verif/Source/Parsed/Grandfathered.lean` proves that it is that). -/

set_option autoImplicit false
set_option maxRecDepth 10000

namespace Langtag.Source.Ast

/-- `GrandfatheredLangTag::new` -/
def GrandfatheredLangTag_new : FnDef := ⟨"new", [("t", (.path ["T"] []))], (.path ["Result"] [(.path ["GrandfatheredLangTag"] []), (.path ["T"] [])]),
  (.block []
    (.match (.call (.path ["Self", "try_from"]) [(.method (.path ["t"]) "as_ref" [])]) [
      .mk (.ctor ["Ok"] [(.path ["tag"])]) (.call (.path ["Ok"]) [(.path ["tag"])]),
      .mk (.ctor ["Err"] [.wild]) (.call (.path ["Err"]) [(.path ["t"])])]))⟩

/-- `GrandfatheredLangTag::language` -/
def GrandfatheredLangTag_language : FnDef := ⟨"language", [("self", (.ref false (.path ["Self"] [])))], (.path ["Option"] [(.ref false (.path ["Language"] []))]),
  (.block []
    (.block []
      (.match (.path ["self"]) [
        .mk (.path ["ArtLojban"]) (.call (.path ["Some"]) [(.call (.path ["Language", "new_unchecked"]) [(.lit (.str [97, 114, 116]))])]),
        .mk (.path ["CelGaulish"]) (.call (.path ["Some"]) [(.call (.path ["Language", "new_unchecked"]) [(.lit (.str [99, 101, 108]))])]),
        .mk (.path ["NoBok"]) (.call (.path ["Some"]) [(.call (.path ["Language", "new_unchecked"]) [(.lit (.str [110, 111]))])]),
        .mk (.path ["NoNyn"]) (.call (.path ["Some"]) [(.call (.path ["Language", "new_unchecked"]) [(.lit (.str [110, 111]))])]),
        .mk (.path ["ZhGuoyu"]) (.call (.path ["Some"]) [(.call (.path ["Language", "new_unchecked"]) [(.lit (.str [122, 104]))])]),
        .mk (.path ["ZhHakka"]) (.call (.path ["Some"]) [(.call (.path ["Language", "new_unchecked"]) [(.lit (.str [122, 104]))])]),
        .mk (.path ["ZhMin"]) (.call (.path ["Some"]) [(.call (.path ["Language", "new_unchecked"]) [(.lit (.str [122, 104]))])]),
        .mk (.path ["ZhMinNan"]) (.call (.path ["Some"]) [(.call (.path ["Language", "new_unchecked"]) [(.lit (.str [122, 104]))])]),
        .mk (.path ["ZhXiang"]) (.call (.path ["Some"]) [(.call (.path ["Language", "new_unchecked"]) [(.lit (.str [122, 104]))])]),
        .mk .wild (.path ["None"])])))⟩

/-- `GrandfatheredLangTag::as_bytes` -/
def GrandfatheredLangTag_as_bytes : FnDef := ⟨"as_bytes", [("self", (.ref false (.path ["Self"] [])))], (.ref false (.slice (.path ["u8"] []))),
  (.block []
    (.match (.path ["self"]) [
      .mk (.path ["EnGbOed"]) (.lit (.bstr [101, 110, 45, 71, 66, 45, 111, 101, 100])),
      .mk (.path ["IAmi"]) (.lit (.bstr [105, 45, 97, 109, 105])),
      .mk (.path ["IBnn"]) (.lit (.bstr [105, 45, 98, 110, 110])),
      .mk (.path ["IDefault"]) (.lit (.bstr [105, 45, 100, 101, 102, 97, 117, 108, 116])),
      .mk (.path ["IEnochian"]) (.lit (.bstr [105, 45, 101, 110, 111, 99, 104, 105, 97, 110])),
      .mk (.path ["IHak"]) (.lit (.bstr [105, 45, 104, 97, 107])),
      .mk (.path ["IKlingon"]) (.lit (.bstr [105, 45, 107, 108, 105, 110, 103, 111, 110])),
      .mk (.path ["ILux"]) (.lit (.bstr [105, 45, 108, 117, 120])),
      .mk (.path ["IMingo"]) (.lit (.bstr [105, 45, 109, 105, 110, 103, 111])),
      .mk (.path ["INavajo"]) (.lit (.bstr [105, 45, 110, 97, 118, 97, 106, 111])),
      .mk (.path ["IPwn"]) (.lit (.bstr [105, 45, 112, 119, 110])),
      .mk (.path ["ITao"]) (.lit (.bstr [105, 45, 116, 97, 111])),
      .mk (.path ["ITay"]) (.lit (.bstr [105, 45, 116, 97, 121])),
      .mk (.path ["ITsu"]) (.lit (.bstr [105, 45, 116, 115, 117])),
      .mk (.path ["SgnBeFr"]) (.lit (.bstr [115, 103, 110, 45, 66, 69, 45, 70, 82])),
      .mk (.path ["SgnBeNl"]) (.lit (.bstr [115, 103, 110, 45, 66, 69, 45, 78, 76])),
      .mk (.path ["SgnChDe"]) (.lit (.bstr [115, 103, 110, 45, 67, 72, 45, 68, 69])),
      .mk (.path ["ArtLojban"]) (.lit (.bstr [97, 114, 116, 45, 108, 111, 106, 98, 97, 110])),
      .mk (.path ["CelGaulish"]) (.lit (.bstr [99, 101, 108, 45, 103, 97, 117, 108, 105, 115, 104])),
      .mk (.path ["NoBok"]) (.lit (.bstr [110, 111, 45, 98, 111, 107])),
      .mk (.path ["NoNyn"]) (.lit (.bstr [110, 111, 45, 110, 121, 110])),
      .mk (.path ["ZhGuoyu"]) (.lit (.bstr [122, 104, 45, 103, 117, 111, 121, 117])),
      .mk (.path ["ZhHakka"]) (.lit (.bstr [122, 104, 45, 104, 97, 107, 107, 97])),
      .mk (.path ["ZhMin"]) (.lit (.bstr [122, 104, 45, 109, 105, 110])),
      .mk (.path ["ZhMinNan"]) (.lit (.bstr [122, 104, 45, 109, 105, 110, 45, 110, 97, 110])),
      .mk (.path ["ZhXiang"]) (.lit (.bstr [122, 104, 45, 120, 105, 97, 110, 103]))]))⟩

/-- `GrandfatheredLangTag::as_str` -/
def GrandfatheredLangTag_as_str : FnDef := ⟨"as_str", [("self", (.ref false (.path ["Self"] [])))], (.ref false (.path ["str"] [])),
  (.block []
    (.block []
      (.call (.path ["core", "str", "from_utf8_unchecked"]) [(.method (.path ["self"]) "as_bytes" [])])))⟩

/-- `<GrandfatheredLangTag as TryFrom>::try_from` -/
def GrandfatheredLangTag_TryFrom_try_from : FnDef := ⟨"try_from", [("bytes", (.ref false (.slice (.path ["u8"] []))))], (.path ["Result"] [(.path ["GrandfatheredLangTag"] []), (.path ["Self", "Error"] [])]),
  (.block [
    .expr (.for "tag" (.ref false (.path ["GRANDFATHERED"]))
      (.block []
        (.ite (.call (.path ["utils", "case_insensitive_eq"]) [(.method (.path ["tag"]) "as_bytes" []), (.path ["bytes"])])
          (.block [
            .expr (.return (.call (.path ["Ok"]) [(.deref (.path ["tag"]))]))]
            (.tuple []))
          (.tuple []))))]
    (.call (.path ["Err"]) [(.call (.path ["InvalidGrandfatheredTag"]) [(.path ["bytes"])])]))⟩

/-- `<GrandfatheredLangTag as Display>::fmt` -/
def GrandfatheredLangTag_Display_fmt : FnDef := ⟨"fmt", [("self", (.ref false (.path ["Self"] []))), ("f", (.ref true (.path ["fmt", "Formatter"] [])))], (.path ["fmt", "Result"] []),
  (.block []
    (.method (.method (.path ["self"]) "as_str" []) "fmt" [(.path ["f"])]))⟩

/-- The items of `/repo/src/grandfathered.rs`. -/
def grandfatheredRs : List Item := [
  .struct "InvalidGrandfatheredTag" ["Debug", "Error"] [] (.tuple [(.path ["T"] [])]),
  .enum "GrandfatheredLangTag" ["Clone", "Copy", "PartialEq", "Eq", "PartialOrd", "Ord", "Hash"] [("EnGbOed", (.tuple [])), ("IAmi", (.tuple [])), ("IBnn", (.tuple [])), ("IDefault", (.tuple [])), ("IEnochian", (.tuple [])), ("IHak", (.tuple [])), ("IKlingon", (.tuple [])), ("ILux", (.tuple [])), ("IMingo", (.tuple [])), ("INavajo", (.tuple [])), ("IPwn", (.tuple [])), ("ITao", (.tuple [])), ("ITay", (.tuple [])), ("ITsu", (.tuple [])), ("SgnBeFr", (.tuple [])), ("SgnBeNl", (.tuple [])), ("SgnChDe", (.tuple [])), ("ArtLojban", (.tuple [])), ("CelGaulish", (.tuple [])), ("NoBok", (.tuple [])), ("NoNyn", (.tuple [])), ("ZhGuoyu", (.tuple [])), ("ZhHakka", (.tuple [])), ("ZhMin", (.tuple [])), ("ZhMinNan", (.tuple [])), ("ZhXiang", (.tuple []))],
  .glob "GrandfatheredLangTag",
  .const "GRANDFATHERED" (.array [(.path ["EnGbOed"]), (.path ["IAmi"]), (.path ["IBnn"]), (.path ["IDefault"]), (.path ["IEnochian"]), (.path ["IHak"]), (.path ["IKlingon"]), (.path ["ILux"]), (.path ["IMingo"]), (.path ["INavajo"]), (.path ["IPwn"]), (.path ["ITao"]), (.path ["ITay"]), (.path ["ITsu"]), (.path ["SgnBeFr"]), (.path ["SgnBeNl"]), (.path ["SgnChDe"]), (.path ["ArtLojban"]), (.path ["CelGaulish"]), (.path ["NoBok"]), (.path ["NoNyn"]), (.path ["ZhGuoyu"]), (.path ["ZhHakka"]), (.path ["ZhMin"]), (.path ["ZhMinNan"]), (.path ["ZhXiang"])]),
  .impl none (.path ["GrandfatheredLangTag"] []) []
    [GrandfatheredLangTag_new, GrandfatheredLangTag_language, GrandfatheredLangTag_as_bytes, GrandfatheredLangTag_as_str],
  .impl (some (.path ["TryFrom"] [(.ref false (.slice (.path ["u8"] [])))])) (.path ["GrandfatheredLangTag"] []) []
    [GrandfatheredLangTag_TryFrom_try_from],
  .impl (some (.path ["fmt", "Display"] [])) (.path ["GrandfatheredLangTag"] []) []
    [GrandfatheredLangTag_Display_fmt]]

end Langtag.Source.Ast
