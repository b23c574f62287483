import Verif.Model.Grandfathered

/-!
# The registered grandfathered tags

RFC 5646 §2.1, rules `irregular` and `regular`: which text each variant of the enumeration of
src/grandfathered.rs:21-51 stands for (the name of the variant is the text in camel case).
-/

set_option autoImplicit false

namespace Langtag.Spec
open Langtag.Model

/-- The tag as registered. -/
def registered : GrandfatheredLangTag → String
  | .EnGbOed => "en-GB-oed" | .IAmi => "i-ami" | .IBnn => "i-bnn" | .IDefault => "i-default"
  | .IEnochian => "i-enochian" | .IHak => "i-hak" | .IKlingon => "i-klingon" | .ILux => "i-lux"
  | .IMingo => "i-mingo" | .INavajo => "i-navajo" | .IPwn => "i-pwn" | .ITao => "i-tao" | .ITay => "i-tay"
  | .ITsu => "i-tsu" | .SgnBeFr => "sgn-BE-FR" | .SgnBeNl => "sgn-BE-NL" | .SgnChDe => "sgn-CH-DE"
  | .ArtLojban => "art-lojban" | .CelGaulish => "cel-gaulish" | .NoBok => "no-bok" | .NoNyn => "no-nyn"
  | .ZhGuoyu => "zh-guoyu" | .ZhHakka => "zh-hakka" | .ZhMin => "zh-min" | .ZhMinNan => "zh-min-nan"
  | .ZhXiang => "zh-xiang"

end Langtag.Spec
