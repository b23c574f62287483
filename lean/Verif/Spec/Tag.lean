import Verif.Spec.Grammar
import Verif.Spec.Text

/-!
# The parts of a normal language tag

RFC 5646 §2.1: `langtag = language ["-" script] ["-" region] *("-" variant) *("-" extension) ["-" privateuse]`.
Independent of the model of the code.
-/

set_option autoImplicit false

namespace Langtag.Spec

/-- The parts of a normal tag. -/
structure Parts where
  language : Text
  script : Option Text := none
  region : Option Text := none
  variants : List Text := []
  extensions : List Text := []
  privateUse : Option Text := none
  deriving DecidableEq

namespace Parts

/-- Each part matches its rule. -/
structure WF (p : Parts) : Prop where
  language : Grammar.language.Matches p.language
  script : ∀ s, p.script = some s → Grammar.script.Matches s
  region : ∀ s, p.region = some s → Grammar.region.Matches s
  variants : ∀ v ∈ p.variants, Grammar.variant.Matches v
  extensions : ∀ e ∈ p.extensions, Grammar.extension.Matches e
  privateUse : ∀ s, p.privateUse = some s → Grammar.privateuse.Matches s

/-- The parts that follow the variants. -/
def afterVariants (p : Parts) : List Text := p.extensions ++ p.privateUse.toList
/-- The parts that follow the region. -/
def afterRegion (p : Parts) : List Text := p.variants ++ p.afterVariants
/-- The parts that follow the script. -/
def afterScript (p : Parts) : List Text := p.region.toList ++ p.afterRegion
/-- The parts that follow the language. -/
def afterLanguage (p : Parts) : List Text := p.script.toList ++ p.afterScript

/-- The text of the tag: the parts joined by `-`. -/
def render (p : Parts) : Text := joinDash (p.language :: p.afterLanguage)

end Parts

/-- `p` is a decomposition of the text `w` as a normal tag. -/
def Decomposes (w : Text) (p : Parts) : Prop := p.WF ∧ p.render = w

/-- The next, shorter range of the lookup algorithm of RFC 4647 §3.4: the last subtag is removed, and then every
subtag of one character that has become the last. -/
def truncate (us : List Text) : List Text := (us.dropLast.reverse.dropWhile (·.length == 1)).reverse

/-- The range after `n` steps of lookup, as a list of subtags. -/
def truncations (n : Nat) (us : List Text) : List Text :=
  match n with
  | 0 => us
  | n + 1 => truncations n (truncate us)

-- the example of RFC 4647 §3.4
example : (List.range 7).map (fun n => joinDash (truncations n (subtags (ascii "zh-Hant-CN-x-private1-private2")))) =
    ["zh-Hant-CN-x-private1-private2", "zh-Hant-CN-x-private1", "zh-Hant-CN", "zh-Hant", "zh", "", ""].map ascii := by
  decide +kernel

/-- Basic filtering, RFC 4647 §3.3.1: "a language range matches a particular language tag if, in a case-insensitive comparison, it exactly
equals the tag, or if it exactly equals a prefix of the tag such that the first character following the prefix is `-`". -/
def BasicMatches (range tag : Text) : Prop := CaseEq range tag ∨ ∃ rest, CaseEq (range ++ dash :: rest) tag

-- the example of RFC 4647 §3.3.1
example : BasicMatches (ascii "de-de") (ascii "de-DE-1996") := Or.inr ⟨ascii "1996", by unfold CaseEq; decide +kernel⟩

/-- An example: all six parts. -/
def exampleParts : Parts where
  language := ascii "zh-yue"
  script := some (ascii "Hant")
  region := some (ascii "HK")
  variants := [ascii "1abc", ascii "abcde"]
  extensions := [ascii "a-bbb-cc", ascii "b-dd"]
  privateUse := some (ascii "x-y-zzz")

example : exampleParts.render = ascii "zh-yue-Hant-HK-1abc-abcde-a-bbb-cc-b-dd-x-y-zzz" := by decide +kernel

end Langtag.Spec
