import Verif.Model.LangTag

/-!
# The same code with machine arithmetic

The other files of the model compute offsets in `Nat`.  Here every addition and subtraction of `usize` is checked, as in a debug build:
it panics if the result does not fit, `max` being `usize::MAX`.  Each definition is otherwise the one of the same name without
`Checked`, and models the same lines.
-/

set_option autoImplicit false

namespace Langtag.Model.Checked
open Langtag.Model

variable (max : Nat)

/-- `a + b` on `usize` (core), e.g. src/normal/mod.rs:190: the panic, if any. -/
def add (a b : Nat) : Rust Unit := if a + b ≤ max then .ok () else .error .overflow

/-- `a - b` on `usize` (core), e.g. src/normal/mod.rs:220: the panic, if any. -/
def sub (a b : Nat) : Rust Unit := if b ≤ a then .ok () else .error .overflow

/-- The loop of `find_list_end`, src/normal/mod.rs:185-200.  The additions are `offset = i + 1` (line 190) and `i += 1` (line 196). -/
def findListEndLoop (string : Str) (f : Nat → Str → Rust Bool) (offset i end_ : Nat) : Rust Nat :=
  if i < string.length then do
    if (← index string i) = 45 then
      let subtag ← sliceRange string offset i
      if ← f offset subtag then
        add max i 1
        add max i 1
        findListEndLoop string f (i + 1) (i + 1) i
      else return end_
    else
      add max i 1
      findListEndLoop string f offset (i + 1) end_
  else do
    let subtag ← sliceFrom string offset
    if ← f offset subtag then return string.length else return end_
termination_by string.length - i

/-- `find_list_end`, src/normal/mod.rs:179-201. -/
def findListEnd (string : Str) (offset : Nat) (f : Nat → Str → Rust Bool) : Rust Nat :=
  findListEndLoop max string f offset offset offset

/-- The loop of `find_segment_end`, src/normal/mod.rs:206-214.  The addition is `i += 1` (line 211). -/
def findSegmentEndLoop (string : Str) (i : Nat) : Rust Nat :=
  if i < string.length then do
    if (← index string i) = 45 then return i
    add max i 1
    findSegmentEndLoop string (i + 1)
  else return i
termination_by string.length - i

/-- `find_segment_end`, src/normal/mod.rs:203-215. -/
def findSegmentEnd (string : Str) (offset : Nat) : Rust Nat := findSegmentEndLoop max string offset

/-- The `loop` of `find_segment_start`, src/normal/mod.rs:221-231.  The operations are `i + 1` (line 223) and `i -= 1` (line 227). -/
def findSegmentStartLoop (string : Str) (i : Nat) : Rust Nat := do
  if (← index string i) = 45 then
    add max i 1
    return i + 1
  if h : i > 0 then
    sub i 1
    findSegmentStartLoop string (i - 1)
  else return 0
termination_by i

/-- `find_segment_start`, src/normal/mod.rs:217-235.  The subtraction is `end - 1` (line 220). -/
def findSegmentStart (string : Str) (end_ : Nat) : Rust Nat :=
  if end_ > 0 then do
    sub end_ 1
    findSegmentStartLoop max string (end_ - 1)
  else .ok 0

/-! ## Iterators -/

/-- src/normal/variant.rs:132-141 -/
def variantsNext (it : VariantsIter) : Rust (Option Variant × VariantsIter) :=
  if it.offset < it.end_ then do
    let end_ ← findSegmentEnd max it.data it.offset
    let item : Variant := ⟨← sliceRange it.data it.offset end_⟩
    add max end_ 1
    return (some item, { it with offset := end_ + 1 })
  else return (none, it)

/-- src/normal/variant.rs:145-156 -/
def variantsNextBack (it : VariantsIter) : Rust (Option Variant × VariantsIter) :=
  if it.end_ > it.offset then do
    let start ← findSegmentStart max it.data it.end_
    let item : Variant := ⟨← sliceRange it.data start it.end_⟩
    if start > 0 then
      sub start 1
      return (some item, { it with end_ := start - 1 })
    else return (some item, { it with end_ := 0 })
  else return (none, it)

/-- src/normal/extension.rs:180-189 -/
def extensionNext (it : ExtensionIter) : Rust (Option ExtensionSubtag × ExtensionIter) :=
  if it.offset < it.data.length then do
    let end_ ← findSegmentEnd max it.data it.offset
    let item : ExtensionSubtag := ⟨← sliceRange it.data it.offset end_⟩
    add max end_ 1
    return (some item, { it with offset := end_ + 1 })
  else return (none, it)

/-- src/normal/private_use.rs:73-82 -/
def privateUseNext (it : PrivateUseIter) : Rust (Option PrivateUseSubtag × PrivateUseIter) :=
  if it.offset < it.data.length then do
    let end_ ← findSegmentEnd max it.data it.offset
    let item : PrivateUseSubtag := ⟨← sliceRange it.data it.offset end_⟩
    add max end_ 1
    return (some item, { it with offset := end_ + 1 })
  else return (none, it)

/-- src/normal/language/extlang.rs:80-89 -/
def languageExtensionNext (it : LanguageExtensionIter) : Rust (Option ExtendedLangTag × LanguageExtensionIter) :=
  if it.offset < it.data.length then do
    let end_ ← findSegmentEnd max it.data it.offset
    let item : ExtendedLangTag := ⟨← sliceRange it.data it.offset end_⟩
    add max end_ 1
    return (some item, { it with offset := end_ + 1 })
  else return (none, it)

/-- src/normal/extension.rs:286-300.  The additions are `self.offset + 2` (line 288) and `end + 1` (line 295). -/
def extensionsNext (it : ExtensionsIter) : Rust (Option Extension × ExtensionsIter) :=
  if it.offset < it.data.length then do
    add max it.offset 2
    let offset := it.offset + 2
    let end_ ← findListEnd max it.data offset fun _ segment =>
      .ok (StrNewtype.isOk ExtensionSubtag segment)
    let item : Extension := ⟨← sliceRange it.data it.offset end_⟩
    add max end_ 1
    return (some item, { it with offset := end_ + 1 })
  else return (none, it)

/-! ## `Extensions::get` -/

/-- src/normal/extension.rs:220.  The addition is `i + 1`. -/
def startsHere (s : Str) (singleton : Singleton) (i : Nat) : Rust Bool := do
  if (← index s i) = singleton.byte then
    add max i 1
    return decide ((← index s (i + 1)) = 45)
  else return false

/-- src/normal/extension.rs:218-234.  The additions are `i + 1` (line 218), `i + 2` (line 221) and `i += 1` (line 231). -/
def getLoop (s : Str) (singleton : Singleton) (i : Nat) (starting : Bool) : Rust (Option Extension) := do
  add max i 1
  if i + 1 < s.length then
    if starting then
      if ← startsHere max s singleton i then
        add max i 2
        let end_ ← findListEnd max s (i + 2) fun _ segment => .ok (decide (segment.length > 1))
        return some ⟨← sliceRange s i end_⟩
      else
        add max i 1
        getLoop s singleton (i + 1) false
    else if (← index s i) = 45 then
      add max i 1
      getLoop s singleton (i + 1) true
    else
      add max i 1
      getLoop s singleton (i + 1) false
  else return none
termination_by s.length - i

/-- src/normal/extension.rs:214-235 -/
def get (e : Extensions) (singleton : Singleton) : Rust (Option Extension) := getLoop max e.str singleton 0 true

/-! ## The accessors of a normal tag -/

/-- src/normal/mod.rs:34-38 -/
def languageEnd (t : NormalLangTag) : Rust Nat :=
  findListEnd max t.str 0 fun i segment => .ok (i == 0 || StrNewtype.isOk ExtendedLangTag segment)

/-- src/normal/mod.rs:41-43 -/
def language (t : NormalLangTag) : Rust Language := do
  return ⟨← sliceRange t.str 0 (← languageEnd max t)⟩

/-- src/normal/mod.rs:45-56 -/
def scriptRange (t : NormalLangTag) : Rust (Except Nat (Nat × Nat)) := do
  let languageEnd ← languageEnd max t
  add max languageEnd 1
  let offset := languageEnd + 1
  let end_ ← findListEnd max t.str offset fun i segment => .ok (i == offset && StrNewtype.isOk Script segment)
  if end_ ≠ offset then return .ok (offset, end_) else return .error languageEnd

/-- src/normal/mod.rs:59-63 -/
def script (t : NormalLangTag) : Rust (Option Script) := do
  match ← scriptRange max t with
  | .ok (a, b) => return some ⟨← sliceRange t.str a b⟩
  | .error _ => return none

/-- src/normal/mod.rs:65-80 -/
def regionRange (t : NormalLangTag) : Rust (Except Nat (Nat × Nat)) := do
  let scriptEnd := match ← scriptRange max t with
    | .ok (_, b) => b
    | .error i => i
  add max scriptEnd 1
  let offset := scriptEnd + 1
  let end_ ← findListEnd max t.str offset fun i segment => .ok (i == offset && StrNewtype.isOk Region segment)
  if end_ ≠ offset then return .ok (offset, end_) else return .error scriptEnd

/-- src/normal/mod.rs:83-87 -/
def region (t : NormalLangTag) : Rust (Option Region) := do
  match ← regionRange max t with
  | .ok (a, b) => return some ⟨← sliceRange t.str a b⟩
  | .error _ => return none

/-- src/normal/mod.rs:89-102 -/
def variantsRange (t : NormalLangTag) : Rust (Nat × Nat) := do
  let regionEnd := match ← regionRange max t with
    | .ok (_, b) => b
    | .error i => i
  add max regionEnd 1
  let offset := regionEnd + 1
  let end_ ← findListEnd max t.str offset fun _ segment => .ok (StrNewtype.isOk Variant segment)
  if end_ = offset then return (regionEnd, regionEnd) else return (offset, end_)

/-- src/normal/mod.rs:105-107 -/
def variants (t : NormalLangTag) : Rust Variants := do
  let (a, b) ← variantsRange max t
  return ⟨← sliceRange t.str a b⟩

/-- src/normal/mod.rs:109-122 -/
def extensionsRange (t : NormalLangTag) : Rust (Nat × Nat) := do
  let variantsEnd := (← variantsRange max t).2
  add max variantsEnd 1
  let offset := variantsEnd + 1
  let end_ ← findListEnd max t.str offset fun _ segment => do
    return (← Singleton.fromStringIsOk segment) || StrNewtype.isOk ExtensionSubtag segment
  if end_ = offset then return (variantsEnd, variantsEnd) else return (offset, end_)

/-- src/normal/mod.rs:125-127 -/
def extensions (t : NormalLangTag) : Rust Extensions := do
  let (a, b) ← extensionsRange max t
  return ⟨← sliceRange t.str a b⟩

/-- src/normal/mod.rs:129-137 -/
def privateUseOffset (t : NormalLangTag) : Rust (Option Nat) := do
  let variantsEnd := (← variantsRange max t).2
  if variantsEnd < t.str.length then
    add max variantsEnd 1
    return some (variantsEnd + 1)
  else return none

/-- src/normal/mod.rs:140-143 -/
def privateUse (t : NormalLangTag) : Rust (Option PrivateUse) := do
  match ← privateUseOffset max t with
  | some i => return some ⟨← sliceFrom t.str i⟩
  | none => return none

/-! ## Comparison -/

/-- src/utils.rs:33-48.  The addition is `i += 1` (line 44). -/
def caseInsensitiveCmpLoop (a b : Str) (i : Nat) : Rust Ordering :=
  if a.length ≤ i then
    if b.length ≤ i then .ok .eq else .ok .gt
  else if b.length ≤ i then .ok .lt
  else do
    let x ← intoSmallcase (← index a i)
    let y ← intoSmallcase (← index b i)
    match compare x y with
    | .eq =>
      add max i 1
      caseInsensitiveCmpLoop a b (i + 1)
    | ord => return ord
termination_by a.length - i

/-- src/utils.rs:30-49 -/
def caseInsensitiveCmp (a b : Str) : Rust Ordering := caseInsensitiveCmpLoop max a b 0

/-! ## The automata -/

/-- The loop of `validate_bytes`, src/grammar.rs:1085-1095.  The addition is `i += len` (line 1091). -/
def validateLoop (dec : Decoder) (d : Dfa) (bytes : Str) : (fuel : Nat) → (i state : Nat) → Rust Bool
  | 0, _, _ => .ok false
  | fuel + 1, i, state =>
    if i < bytes.length then
      match dec bytes i with
      | some (c, len) =>
        match d.push state c with
        | none => .ok false
        | some state' => do
          add max i len
          validateLoop dec d bytes fuel (i + len) state'
      | none => .ok false
    else .ok (d.isAccepting state)

/-- `validate_bytes`, src/grammar.rs:1082-1097 -/
def validateBytesWith (dec : Decoder) (d : Dfa) (bytes : Str) : Rust Bool :=
  validateLoop max dec d bytes (bytes.length + 1) 0 d.init

end Langtag.Model.Checked
