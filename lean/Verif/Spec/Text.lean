import Verif.Spec.Abnf

/-!
# Text: letter case, subtags

Independent of the model of the code.
-/

set_option autoImplicit false

namespace Langtag.Spec

/-- ASCII lower-casing of a byte: `A`–`Z` become `a`–`z`, every other byte is unchanged. -/
def lower (b : UInt8) : UInt8 := if 65 ≤ b ∧ b ≤ 90 then b + 32 else b

/-- ASCII lower-casing of a text. -/
def lowerText (w : Text) : Text := w.map lower

/-- The two texts are the same, ignoring ASCII case. -/
def CaseEq (u v : Text) : Prop := lowerText u = lowerText v

/-- An ASCII letter. -/
def IsAlpha (b : UInt8) : Prop := (65 ≤ b ∧ b ≤ 90) ∨ (97 ≤ b ∧ b ≤ 122)

/-- An ASCII digit. -/
def IsDigit (b : UInt8) : Prop := 48 ≤ b ∧ b ≤ 57

/-- An ASCII letter or digit. -/
def IsAlphanum (b : UInt8) : Prop := IsAlpha b ∨ IsDigit b

/-- The byte of `-`. -/
def dash : UInt8 := 45

/-- Texts joined by single `-`. -/
def joinDash : List Text → Text
  | [] => []
  | [u] => u
  | u :: v :: ws => u ++ dash :: joinDash (v :: ws)

/-- The `-`-separated pieces of a text (always at least one). -/
def subtags : Text → List Text
  | [] => [[]]
  | b :: w =>
    if b = dash then [] :: subtags w
    else match subtags w with
      | [] => [[b]]
      | u :: us => (b :: u) :: us

/-- The bytes of an ASCII string literal. -/
def ascii (s : String) : Text := s.toList.map fun c => UInt8.ofNat c.toNat

instance (u v : Text) : Decidable (CaseEq u v) := inferInstanceAs (Decidable (_ = _))

-- what the definitions give on examples
example : subtags (ascii "en-Latn-US") = [ascii "en", ascii "Latn", ascii "US"] := by decide +kernel
example : joinDash [ascii "en", ascii "Latn", ascii "US"] = ascii "en-Latn-US" := by decide +kernel
example : CaseEq (ascii "en-LATN") (ascii "EN-latn") := by decide +kernel

end Langtag.Spec
