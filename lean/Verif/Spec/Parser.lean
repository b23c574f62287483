import Verif.Spec.Tag

/-!
# A reference parser for normal tags

RFC 5646 §2.1.1: "the length of a subtag, its position and whether it contains digits determine its type".  The parser reads the subtags
from left to right, looks at one subtag at a time (two for an extension) and never goes back.  Independent of the model of the code.
-/

set_option autoImplicit false

namespace Langtag.Spec.Parser

/-- An ASCII letter. -/
def letter (b : UInt8) : Bool := (65 ≤ b && b ≤ 90) || (97 ≤ b && b ≤ 122)
/-- An ASCII digit. -/
def digit (b : UInt8) : Bool := 48 ≤ b && b ≤ 57
/-- A letter or a digit. -/
def alphanum (b : UInt8) : Bool := letter b || digit b

/-- From `m` to `n` bytes, all satisfying `f`. -/
def sized (m n : Nat) (f : UInt8 → Bool) (u : Text) : Bool := m ≤ u.length && u.length ≤ n && u.all f

/-- Three letters. -/
def isExtlang (u : Text) : Bool := sized 3 3 letter u
/-- Four letters. -/
def isScript (u : Text) : Bool := sized 4 4 letter u
/-- Two letters or three digits. -/
def isRegion (u : Text) : Bool := sized 2 2 letter u || sized 3 3 digit u
/-- Five to eight letters or digits, or four starting with a digit. -/
def isVariant (u : Text) : Bool := sized 5 8 alphanum u || (sized 4 4 alphanum u && u.head?.any digit)
/-- `x` or `X`. -/
def isX (u : Text) : Bool := u == [120] || u == [88]
/-- One letter or digit, not `x`. -/
def isSingleton (u : Text) : Bool := sized 1 1 alphanum u && !isX u
/-- Two to eight letters or digits. -/
def isExtensionSubtag (u : Text) : Bool := sized 2 8 alphanum u
/-- One to eight letters or digits. -/
def isPrivateUseSubtag (u : Text) : Bool := sized 1 8 alphanum u

/-- The longest prefix of at most `n` subtags satisfying `f`, and the rest. -/
def takeAtMost (f : Text → Bool) : Nat → List Text → List Text × List Text
  | n + 1, u :: us => if f u then let (vs, rest) := takeAtMost f n us; (u :: vs, rest) else ([], u :: us)
  | _, us => ([], us)

/-- The first subtag if it satisfies `f`, and the rest. -/
def takeOne (f : Text → Bool) : List Text → Option Text × List Text
  | u :: us => if f u then (some u, us) else (none, u :: us)
  | [] => (none, [])

/-- Two or three letters and at most three extended language subtags, or four to eight letters. -/
def parseLanguage : List Text → Option (Text × List Text)
  | [] => none
  | u :: us =>
    if sized 2 3 letter u then
      let (es, rest) := takeAtMost isExtlang 3 us
      some (joinDash (u :: es), rest)
    else if sized 4 8 letter u then some (u, us) else none

/-- The extensions at the start of the subtags, and the rest. -/
def parseExtensions : List Text → List Text × List Text
  | s :: v :: us =>
    if isSingleton s && isExtensionSubtag v then
      let (es, rest) := parseExtensions (us.dropWhile isExtensionSubtag)
      (joinDash (s :: v :: us.takeWhile isExtensionSubtag) :: es, rest)
    else ([], s :: v :: us)
  | us => ([], us)
termination_by us => us.length
decreasing_by
  have := (List.dropWhile_suffix (l := us) isExtensionSubtag).length_le
  simp; omega

/-- Nothing, or a private use part. -/
def parsePrivateUse : List Text → Option (Option Text)
  | [] => some none
  | u :: us => if isX u && us ≠ [] && us.all isPrivateUseSubtag then some (some (joinDash (u :: us))) else none

/-- The parts of a text, if it is a normal tag. -/
def parse (w : Text) : Option Parts := do
  let (language, us) ← parseLanguage (subtags w)
  let (script, us) := takeOne isScript us
  let (region, us) := takeOne isRegion us
  let (variants, us) := (us.takeWhile isVariant, us.dropWhile isVariant)
  let (extensions, us) := parseExtensions us
  let privateUse ← parsePrivateUse us
  return { language, script, region, variants, extensions, privateUse }

example : parse (ascii "zh-yue-Hant-HK-1abc-abcde-a-bbb-cc-b-dd-x-y-zzz") = some {
    language := ascii "zh-yue", script := some (ascii "Hant"), region := some (ascii "HK"),
    variants := [ascii "1abc", ascii "abcde"], extensions := [ascii "a-bbb-cc", ascii "b-dd"],
    privateUse := some (ascii "x-y-zzz") } := by decide +kernel
example : parse (ascii "en-a-b") = none := by decide +kernel

end Langtag.Spec.Parser
