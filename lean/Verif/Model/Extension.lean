import Verif.Model.Types
import Verif.Model.Segments

/-! # `/repo/src/normal/extension.rs` -/

set_option autoImplicit false

namespace Langtag.Model

/-- `Singleton`, src/normal/extension.rs:9-11. -/
structure Singleton where
  byte : UInt8
  deriving DecidableEq

namespace Singleton

/-- `Singleton::new`, src/normal/extension.rs:14-20.  The error holds the input. -/
def new (c : UInt8) : Except UInt8 Singleton :=
  -- b'x' = 120, b'X' = 88
  if c ≠ 120 ∧ c ≠ 88 ∧ isAsciiAlphanumeric c then .ok ⟨c⟩ else .error c

/-- `TryFrom<u8>`, src/normal/extension.rs:50-57. -/
def tryFromU8 (b : UInt8) : Except UInt8 Singleton := new b

/-- `TryFrom<char>`, src/normal/extension.rs:59-72. -/
def tryFromChar (c : Char) : Except Char Singleton :=
  let codepoint := c.toNat
  if codepoint < 255 then
    match new (UInt8.ofNat codepoint) with
    | .ok s => .ok s
    | .error _ => .error c
  else .error c

/-- `str.chars().next()` (core), by the reference decoder; src/normal/extension.rs:24. -/
def charsNext (s : Str) : Option Char := (decodeUtf8Char s 0).map (·.1)

/-- `Singleton::from_string`, src/normal/extension.rs:22-32. -/
def fromString (s : Str) : Rust (Except Str Singleton) :=
  if s.length = 1 then
    match charsNext s with
    | none => .error .unwrap
    | some c => match tryFromChar c with
      | .ok x => .ok (.ok x)
      | .error _ => .ok (.error s)
  else .ok (.error s)

/-- `FromStr::from_str`, src/normal/extension.rs:41-48. -/
def fromStr (s : Str) : Rust (Except Str Singleton) := do
  match ← fromString s with
  | .ok x => return .ok x
  | .error _ => return .error s

/-- `Singleton::from_string(s).is_ok()`, src/normal/mod.rs:114. -/
def fromStringIsOk (s : Str) : Rust Bool := do
  match ← fromString s with
  | .ok _ => return true
  | .error _ => return false

/-- `Singleton::unwrap`, src/normal/extension.rs:36-38. -/
def unwrap (s : Singleton) : UInt8 := s.byte

/-- `PartialEq<u8>`, src/normal/extension.rs:74-78. -/
def eqU8 (s : Singleton) (b : UInt8) : Bool := s.byte == b

/-- `PartialEq<char>`, src/normal/extension.rs:80-84. -/
def eqChar (s : Singleton) (c : Char) : Bool := s.byte.toNat == c.toNat

/-- `#[derive(PartialEq)]`, src/normal/extension.rs:10. -/
def eq (a b : Singleton) : Bool := a.byte == b.byte

/-- `#[derive(Ord)]`, src/normal/extension.rs:10. -/
def cmp (a b : Singleton) : Ordering := compare a.byte b.byte

/-- The character printed by `Display` and `Debug`: `self.0 as char`, src/normal/extension.rs:88 and 94. -/
def display (s : Singleton) : Char := Char.ofNat s.byte.toNat

end Singleton

/-- `ExtensionIter`, src/normal/extension.rs:158-162. -/
structure ExtensionIter where
  data : Str
  offset : Nat
  deriving DecidableEq

namespace ExtensionIter

/-- src/normal/extension.rs:165-170 -/
def new (data : Str) : ExtensionIter := { data, offset := 2 }

/-- `#[derive(Default)]` (extension.rs:158) and `empty`, src/normal/extension.rs:172-174 -/
def empty : ExtensionIter := { data := [], offset := 0 }

/-- `Iterator::next`, src/normal/extension.rs:180-189 -/
def next (it : ExtensionIter) : Rust (Option ExtensionSubtag × ExtensionIter) :=
  if it.offset < it.data.length then do
    let end_ ← findSegmentEnd it.data it.offset
    let item : ExtensionSubtag := ⟨← sliceRange it.data it.offset end_⟩
    return (some item, { it with offset := end_ + 1 })
  else return (none, it)

end ExtensionIter

namespace Extension

/-- `Extension::singleton`, src/normal/extension.rs:123-125 -/
def singleton (e : Extension) : Rust Singleton := do return ⟨← index e.str 0⟩

/-- `Extension::iter`, src/normal/extension.rs:127-129 -/
def iter (e : Extension) : ExtensionIter := .new e.str

end Extension

/-- `ExtensionsIter`, src/normal/extension.rs:272-275. -/
structure ExtensionsIter where
  data : Str
  offset : Nat
  deriving DecidableEq

namespace ExtensionsIter

/-- src/normal/extension.rs:278-280 -/
def new (data : Str) : ExtensionsIter := { data, offset := 0 }

/-- `Iterator::next`, src/normal/extension.rs:286-300 -/
def next (it : ExtensionsIter) : Rust (Option Extension × ExtensionsIter) :=
  if it.offset < it.data.length then do
    let offset := it.offset + 2
    let end_ ← findListEnd it.data offset fun _ segment =>
      .ok (StrNewtype.isOk ExtensionSubtag segment)
    let item : Extension := ⟨← sliceRange it.data it.offset end_⟩
    return (some item, { it with offset := end_ + 1 })
  else return (none, it)

end ExtensionsIter

namespace Extensions

/-- `Extensions::EMPTY`, src/normal/extension.rs:212 -/
def EMPTY : Extensions := ⟨[]⟩

/-- `bytes[i] == singleton.0 && bytes[i + 1] == b'-'`, src/normal/extension.rs:220 (`&&` evaluates its
right operand only if the left one holds). -/
def startsHere (s : Str) (singleton : Singleton) (i : Nat) : Rust Bool := do
  if (← index s i) = singleton.byte then return decide ((← index s (i + 1)) = 45) else return false

/-- The `while` loop of `Extensions::get`, src/normal/extension.rs:218-234. -/
def getLoop (s : Str) (singleton : Singleton) (i : Nat) (starting : Bool) : Rust (Option Extension) :=
  if i + 1 < s.length then do
    if starting then
      if ← startsHere s singleton i then
        let end_ ← findListEnd s (i + 2) fun _ segment => .ok (decide (segment.length > 1))
        return some ⟨← sliceRange s i end_⟩
      else getLoop s singleton (i + 1) false
    else if (← index s i) = 45 then getLoop s singleton (i + 1) true
    else getLoop s singleton (i + 1) false
  else return none
termination_by s.length - i

/-- `Extensions::get`, src/normal/extension.rs:214-235 -/
def get (e : Extensions) (singleton : Singleton) : Rust (Option Extension) :=
  getLoop e.str singleton 0 true

/-- `Extensions::iter`, src/normal/extension.rs:237-239 -/
def iter (e : Extensions) : ExtensionsIter := .new e.str

/-- `Extensions::iter_extension`, src/normal/extension.rs:241-243 -/
def iterExtension (e : Extensions) (singleton : Singleton) : Rust ExtensionIter := do
  return ((← e.get singleton).map Extension.iter).getD .empty

end Extensions

end Langtag.Model
