import Verif.Spec.Abnf

/-!
# The grammar of language tags

`/repo/src/grammar.abnf`, rule by rule (it is the grammar of RFC 5646 §2.1 with a few auxiliary rules).
`ALPHA` and `DIGIT` are the core rules of RFC 5234 appendix B.1.
-/

set_option autoImplicit false

namespace Langtag.Spec.Grammar
open Abnf

/-- RFC 5234 B.1: `ALPHA = %x41-5A / %x61-7A`. -/
def ALPHA : Abnf := range 0x41 0x5A ⧸ range 0x61 0x7A
/-- RFC 5234 B.1: `DIGIT = %x30-39`. -/
def DIGIT : Abnf := range 0x30 0x39
/-- grammar.abnf:84 -/
def alphanum : Abnf := ALPHA ⧸ DIGIT

/-- grammar.abnf:18 -/
def primary : Abnf := between 2 3 ALPHA
/-- grammar.abnf:23 -/
def extlangTag : Abnf := exactly 3 ALPHA
/-- grammar.abnf:20-21, `extlang-tag *2("-" extlang-tag)` -/
def extlang : Abnf := extlangTag ⬝ between 0 2 (str "-" ⬝ extlangTag)
/-- grammar.abnf:12-16 -/
def language : Abnf := primary ⬝ opt (str "-" ⬝ extlang) ⧸ exactly 4 ALPHA ⧸ between 5 8 ALPHA
/-- grammar.abnf:25 -/
def script : Abnf := exactly 4 ALPHA
/-- grammar.abnf:27-28 -/
def region : Abnf := exactly 2 ALPHA ⧸ exactly 3 DIGIT
/-- grammar.abnf:30-31 -/
def variant : Abnf := between 5 8 alphanum ⧸ (DIGIT ⬝ exactly 3 alphanum)
/-- grammar.abnf:33 -/
def variants : Abnf := opt (variant ⬝ many (str "-" ⬝ variant))
/-- grammar.abnf:43-47 -/
def singleton : Abnf :=
  DIGIT ⧸ range 0x41 0x57 ⧸ range 0x59 0x5A ⧸ range 0x61 0x77 ⧸ range 0x79 0x7A
/-- grammar.abnf:37 -/
def extensionSubtag : Abnf := between 2 8 alphanum
/-- grammar.abnf:35 -/
def extension : Abnf := singleton ⬝ many1 (str "-" ⬝ extensionSubtag)
/-- grammar.abnf:39 -/
def extensions : Abnf := opt (extension ⬝ many (str "-" ⬝ extension))
/-- grammar.abnf:51 -/
def privateuseSubtag : Abnf := between 1 8 alphanum
/-- grammar.abnf:49 -/
def privateuse : Abnf := str "x" ⬝ many1 (str "-" ⬝ privateuseSubtag)

/-- grammar.abnf:5-10 -/
def langtag : Abnf :=
  language ⬝ opt (str "-" ⬝ script) ⬝ opt (str "-" ⬝ region) ⬝ many (str "-" ⬝ variant) ⬝
    many (str "-" ⬝ extension) ⬝ opt (str "-" ⬝ privateuse)

/-- grammar.abnf:56-72 -/
def irregular : Abnf :=
  str "en-GB-oed" ⧸ str "i-ami" ⧸ str "i-bnn" ⧸ str "i-default" ⧸ str "i-enochian" ⧸ str "i-hak" ⧸
  str "i-klingon" ⧸ str "i-lux" ⧸ str "i-mingo" ⧸ str "i-navajo" ⧸ str "i-pwn" ⧸ str "i-tao" ⧸
  str "i-tay" ⧸ str "i-tsu" ⧸ str "sgn-BE-FR" ⧸ str "sgn-BE-NL" ⧸ str "sgn-CH-DE"

/-- grammar.abnf:74-82 -/
def regular : Abnf :=
  str "art-lojban" ⧸ str "cel-gaulish" ⧸ str "no-bok" ⧸ str "no-nyn" ⧸ str "zh-guoyu" ⧸
  str "zh-hakka" ⧸ str "zh-min" ⧸ str "zh-min-nan" ⧸ str "zh-xiang"

/-- grammar.abnf:53-54 -/
def grandfathered : Abnf := irregular ⧸ regular

/-- grammar.abnf:1-3 -/
def languageTag : Abnf := langtag ⧸ privateuse ⧸ grandfathered

end Langtag.Spec.Grammar
