import Verif.Model.LangTag

/-!
# The same code, counting loop iterations

Each definition is the one of the same name without `Timed`, and models the same lines; it also counts the iterations of the loops
that run: those of its own loop and those of the functions it calls.  What is between two iterations takes constant time: comparing
numbers and bytes, indexing, slicing (which copies nothing), and `push`, a `match` on the state and on one character.
-/

set_option autoImplicit false

namespace Langtag.Model

/-- A computation with the number of loop iterations it made, e.g. those of src/normal/mod.rs:185-197. -/
structure Timed (α : Type) where
  result : Rust α
  steps : Nat

namespace Timed

/-- Running one computation after another, e.g. src/normal/mod.rs:66-75: the iterations add up, and a panic ends the run. -/
instance : Monad Timed where
  pure a := ⟨.ok a, 0⟩
  bind x f := match x.result with
    | .ok a => ⟨(f a).result, x.steps + (f a).steps⟩
    | .error e => ⟨.error e, x.steps⟩

/-- What takes constant time, e.g. the slice of src/normal/mod.rs:187. -/
instance : MonadLift (Except Panic) Timed := ⟨fun x => ⟨x, 0⟩⟩

/-- One iteration of a loop, e.g. src/normal/mod.rs:185. -/
def tick : Timed Unit := ⟨.ok (), 1⟩

/-! ## Validation -/

/-- src/grammar.rs:1085-1095 -/
def validateLoop (dec : Decoder) (d : Dfa) (bytes : Str) : (fuel : Nat) → (i state : Nat) → Timed Bool
  | 0, _, _ => return false
  | fuel + 1, i, state =>
    if i < bytes.length then do
      tick
      match dec bytes i with
      | some (c, len) =>
        match d.push state c with
        | none => return false
        | some state' => validateLoop dec d bytes fuel (i + len) state'
      | none => return false
    else return d.isAccepting state

/-- src/grammar.rs:1079-1097 -/
def validateStr (d : Dfa) (s : Str) : Timed Bool := validateLoop decodeUtf8Char d s (s.length + 1) 0 d.init

/-- `T::new`, derived at e.g. src/lib.rs:69-70. -/
def new (T : Type) [StrNewtype T] (s : Str) : Timed (Except Str T) := do
  if ← validateStr (StrNewtype.automaton T) s then return .ok (StrNewtype.newUnchecked s) else return .error s

/-- `T::new(s).is_ok()`, e.g. src/normal/mod.rs:36. -/
def isOk (T : Type) [StrNewtype T] (s : Str) : Timed Bool := do
  match ← new T s with
  | .ok _ => return true
  | .error _ => return false

/-! ## Comparison -/

/-- src/utils.rs:12-18 -/
def caseInsensitiveEqLoop (a b : Str) (i : Nat) : Timed Bool :=
  if i < a.length then do
    tick
    let x ← intoSmallcase (← index a i)
    let y ← intoSmallcase (← index b i)
    if x ≠ y then return false
    caseInsensitiveEqLoop a b (i + 1)
  else return true
termination_by a.length - i

/-- src/utils.rs:10-22 -/
def caseInsensitiveEq (a b : Str) : Timed Bool :=
  if a.length = b.length then caseInsensitiveEqLoop a b 0 else return false

/-- src/utils.rs:24-28 -/
def caseInsensitiveHash (H : Hasher) : Str → H.State → Timed H.State
  | [], st => return st
  | b :: s, st => do
    tick
    let c ← intoSmallcase b
    caseInsensitiveHash H s (H.writeU8 st c)

/-- src/utils.rs:33-48 -/
def caseInsensitiveCmpLoop (a b : Str) (i : Nat) : Timed Ordering := do
  tick
  if a.length ≤ i then
    if b.length ≤ i then return .eq else return .gt
  else if b.length ≤ i then return .lt
  else
    let x ← intoSmallcase (← index a i)
    let y ← intoSmallcase (← index b i)
    match compare x y with
    | .eq => caseInsensitiveCmpLoop a b (i + 1)
    | ord => return ord
termination_by a.length - i

/-- src/utils.rs:30-49 -/
def caseInsensitiveCmp (a b : Str) : Timed Ordering := caseInsensitiveCmpLoop a b 0

/-! ## The scanning helpers -/

/-- src/normal/mod.rs:185-200 -/
def findListEndLoop (string : Str) (f : Nat → Str → Timed Bool) (offset i end_ : Nat) : Timed Nat :=
  if i < string.length then do
    tick
    if (← index string i) = 45 then
      let subtag ← sliceRange string offset i
      if ← f offset subtag then
        findListEndLoop string f (i + 1) (i + 1) i
      else return end_
    else findListEndLoop string f offset (i + 1) end_
  else do
    let subtag ← sliceFrom string offset
    if ← f offset subtag then return string.length else return end_
termination_by string.length - i

/-- src/normal/mod.rs:179-201 -/
def findListEnd (string : Str) (offset : Nat) (f : Nat → Str → Timed Bool) : Timed Nat :=
  findListEndLoop string f offset offset offset

/-- src/normal/mod.rs:206-214 -/
def findSegmentEndLoop (string : Str) (i : Nat) : Timed Nat :=
  if i < string.length then do
    tick
    if (← index string i) = 45 then return i
    findSegmentEndLoop string (i + 1)
  else return i
termination_by string.length - i

/-- src/normal/mod.rs:203-215 -/
def findSegmentEnd (string : Str) (offset : Nat) : Timed Nat := findSegmentEndLoop string offset

/-- src/normal/mod.rs:221-231 -/
def findSegmentStartLoop (string : Str) (i : Nat) : Timed Nat := do
  tick
  if (← index string i) = 45 then return i + 1
  match i with
  | 0 => return 0
  | i + 1 => findSegmentStartLoop string i

/-- src/normal/mod.rs:217-235 -/
def findSegmentStart (string : Str) (end_ : Nat) : Timed Nat :=
  if end_ > 0 then findSegmentStartLoop string (end_ - 1) else return 0

/-! ## Iterators -/

/-- src/normal/variant.rs:132-141 -/
def variantsNext (it : VariantsIter) : Timed (Option Variant × VariantsIter) :=
  if it.offset < it.end_ then do
    let end_ ← findSegmentEnd it.data it.offset
    let item : Variant := ⟨← sliceRange it.data it.offset end_⟩
    return (some item, { it with offset := end_ + 1 })
  else return (none, it)

/-- src/normal/variant.rs:145-156 -/
def variantsNextBack (it : VariantsIter) : Timed (Option Variant × VariantsIter) :=
  if it.end_ > it.offset then do
    let start ← findSegmentStart it.data it.end_
    let item : Variant := ⟨← sliceRange it.data start it.end_⟩
    return (some item, { it with end_ := if start > 0 then start - 1 else 0 })
  else return (none, it)

/-- src/normal/variant.rs:73-75 -/
def first (v : Variants) : Timed (Option Variant) := do return (← variantsNext v.iter).1

/-- src/normal/variant.rs:77-79 -/
def last (v : Variants) : Timed (Option Variant) := do return (← variantsNextBack v.iter).1

/-- src/normal/extension.rs:180-189 -/
def extensionNext (it : ExtensionIter) : Timed (Option ExtensionSubtag × ExtensionIter) :=
  if it.offset < it.data.length then do
    let end_ ← findSegmentEnd it.data it.offset
    let item : ExtensionSubtag := ⟨← sliceRange it.data it.offset end_⟩
    return (some item, { it with offset := end_ + 1 })
  else return (none, it)

/-- src/normal/private_use.rs:73-82 -/
def privateUseNext (it : PrivateUseIter) : Timed (Option PrivateUseSubtag × PrivateUseIter) :=
  if it.offset < it.data.length then do
    let end_ ← findSegmentEnd it.data it.offset
    let item : PrivateUseSubtag := ⟨← sliceRange it.data it.offset end_⟩
    return (some item, { it with offset := end_ + 1 })
  else return (none, it)

/-- src/normal/language/extlang.rs:80-89 -/
def languageExtensionNext (it : LanguageExtensionIter) : Timed (Option ExtendedLangTag × LanguageExtensionIter) :=
  if it.offset < it.data.length then do
    let end_ ← findSegmentEnd it.data it.offset
    let item : ExtendedLangTag := ⟨← sliceRange it.data it.offset end_⟩
    return (some item, { it with offset := end_ + 1 })
  else return (none, it)

/-- src/normal/extension.rs:286-300 -/
def extensionsNext (it : ExtensionsIter) : Timed (Option Extension × ExtensionsIter) :=
  if it.offset < it.data.length then do
    let offset := it.offset + 2
    let end_ ← findListEnd it.data offset fun _ segment => isOk ExtensionSubtag segment
    let item : Extension := ⟨← sliceRange it.data it.offset end_⟩
    return (some item, { it with offset := end_ + 1 })
  else return (none, it)

/-! ## Parts of values -/

/-- `str::split_once('-')` (core), src/normal/language/mod.rs:34 and 54: one iteration for each byte it looks at. -/
def splitOnceDash : Str → Timed (Option (Str × Str))
  | [] => return none
  | b :: s => do
    tick
    if b = 45 then return some ([], s)
    return (← splitOnceDash s).map fun (u, v) => (b :: u, v)

/-- src/normal/language/mod.rs:33-40 -/
def primary (l : Language) : Timed PrimaryLanguage := do
  match ← splitOnceDash l.str with
  | some (primary, _) => return ⟨primary⟩
  | none => return ⟨l.str⟩

/-- src/normal/language/mod.rs:52-56 -/
def extension (l : Language) : Timed (Option LanguageExtension) := do
  return (← splitOnceDash l.str).map fun (_, ext) => ⟨ext⟩

/-- src/normal/language/mod.rs:60-64 -/
def extensionSubtags (l : Language) : Timed LanguageExtensionIter := do
  return ((← extension l).map LanguageExtension.iter).getD .empty

/-- src/normal/extension.rs:218-234 -/
def getLoop (s : Str) (singleton : Singleton) (i : Nat) (starting : Bool) : Timed (Option Extension) :=
  if i + 1 < s.length then do
    tick
    if starting then
      if ← Extensions.startsHere s singleton i then
        let end_ ← findListEnd s (i + 2) fun _ segment => return decide (segment.length > 1)
        return some ⟨← sliceRange s i end_⟩
      else getLoop s singleton (i + 1) false
    else if (← index s i) = 45 then getLoop s singleton (i + 1) true
    else getLoop s singleton (i + 1) false
  else return none
termination_by s.length - i

/-- src/normal/extension.rs:214-235 -/
def get (e : Extensions) (singleton : Singleton) : Timed (Option Extension) := getLoop e.str singleton 0 true

/-- src/normal/extension.rs:241-243 -/
def iterExtension (e : Extensions) (singleton : Singleton) : Timed ExtensionIter := do
  return ((← get e singleton).map Extension.iter).getD .empty

/-! ## The accessors of a normal tag -/

/-- src/normal/mod.rs:34-38.  `||` evaluates its right operand only when the left one is false. -/
def languageEnd (t : NormalLangTag) : Timed Nat :=
  findListEnd t.str 0 fun i segment => if i == 0 then return true else isOk ExtendedLangTag segment

/-- src/normal/mod.rs:41-43 -/
def language (t : NormalLangTag) : Timed Language := do
  return ⟨← sliceRange t.str 0 (← languageEnd t)⟩

/-- src/normal/mod.rs:45-56.  `&&` evaluates its right operand only when the left one holds. -/
def scriptRange (t : NormalLangTag) : Timed (Except Nat (Nat × Nat)) := do
  let languageEnd ← languageEnd t
  let offset := languageEnd + 1
  let end_ ← findListEnd t.str offset fun i segment => if i == offset then isOk Script segment else return false
  if end_ ≠ offset then return .ok (offset, end_) else return .error languageEnd

/-- src/normal/mod.rs:59-63 -/
def script (t : NormalLangTag) : Timed (Option Script) := do
  match ← scriptRange t with
  | .ok (a, b) => return some ⟨← sliceRange t.str a b⟩
  | .error _ => return none

/-- src/normal/mod.rs:65-80 -/
def regionRange (t : NormalLangTag) : Timed (Except Nat (Nat × Nat)) := do
  let scriptEnd := match ← scriptRange t with
    | .ok (_, b) => b
    | .error i => i
  let offset := scriptEnd + 1
  let end_ ← findListEnd t.str offset fun i segment => if i == offset then isOk Region segment else return false
  if end_ ≠ offset then return .ok (offset, end_) else return .error scriptEnd

/-- src/normal/mod.rs:83-87 -/
def region (t : NormalLangTag) : Timed (Option Region) := do
  match ← regionRange t with
  | .ok (a, b) => return some ⟨← sliceRange t.str a b⟩
  | .error _ => return none

/-- src/normal/mod.rs:89-102 -/
def variantsRange (t : NormalLangTag) : Timed (Nat × Nat) := do
  let regionEnd := match ← regionRange t with
    | .ok (_, b) => b
    | .error i => i
  let offset := regionEnd + 1
  let end_ ← findListEnd t.str offset fun _ segment => isOk Variant segment
  if end_ = offset then return (regionEnd, regionEnd) else return (offset, end_)

/-- src/normal/mod.rs:105-107 -/
def variants (t : NormalLangTag) : Timed Variants := do
  let (a, b) ← variantsRange t
  return ⟨← sliceRange t.str a b⟩

/-- src/normal/mod.rs:109-122.  `Singleton::from_string` looks at one character. -/
def extensionsRange (t : NormalLangTag) : Timed (Nat × Nat) := do
  let variantsEnd := (← variantsRange t).2
  let offset := variantsEnd + 1
  let end_ ← findListEnd t.str offset fun _ segment => do
    if ← Singleton.fromStringIsOk segment then return true else isOk ExtensionSubtag segment
  if end_ = offset then return (variantsEnd, variantsEnd) else return (offset, end_)

/-- src/normal/mod.rs:125-127 -/
def extensions (t : NormalLangTag) : Timed Extensions := do
  let (a, b) ← extensionsRange t
  return ⟨← sliceRange t.str a b⟩

/-- src/normal/mod.rs:129-137 -/
def privateUseOffset (t : NormalLangTag) : Timed (Option Nat) := do
  let variantsEnd := (← variantsRange t).2
  if variantsEnd < t.str.length then return some (variantsEnd + 1) else return none

/-- src/normal/mod.rs:140-143 -/
def privateUse (t : NormalLangTag) : Timed (Option PrivateUse) := do
  match ← privateUseOffset t with
  | some i => return some ⟨← sliceFrom t.str i⟩
  | none => return none

/-- src/normal/mod.rs:145-150 -/
def privateUseSubtags (t : NormalLangTag) : Timed PrivateUseIter := do
  match ← privateUse t with
  | some p => return p.iter
  | none => return .empty

/-! ## Grandfathered tags -/

/-- src/grandfathered.rs:138-144 -/
def tryFromLoop (bytes : Str) : List GrandfatheredLangTag → Timed (Except Str GrandfatheredLangTag)
  | [] => return .error bytes
  | tag :: tags => do
    tick
    if ← caseInsensitiveEq tag.asBytes bytes then return .ok tag
    tryFromLoop bytes tags

/-- src/grandfathered.rs:133-146 -/
def tryFrom (bytes : Str) : Timed (Except Str GrandfatheredLangTag) := tryFromLoop bytes GRANDFATHERED

/-- src/grandfathered.rs:62-70 -/
def newGrandfathered (t : Str) : Timed (Except Str GrandfatheredLangTag) := do
  match ← tryFrom t with
  | .ok tag => return .ok tag
  | .error _ => return .error t

/-! ## Any tag -/

namespace LangTag
open Langtag.Model

/-- src/lib.rs:87-95 -/
def language (t : LangTag) : Timed (Option Language) := do
  match ← Timed.new NormalLangTag t.str with
  | .ok n => return some (← Timed.language n)
  | .error _ =>
    match ← newGrandfathered t.str with
    | .ok g => return g.language
    | .error _ => return none

/-- src/lib.rs:149-151 -/
def asNormal (t : LangTag) : Timed (Option NormalLangTag) := do return okOf (← Timed.new NormalLangTag t.str)

/-- src/lib.rs:154-156 -/
def asPrivateUse (t : LangTag) : Timed (Option PrivateUseLangTag) := do return okOf (← Timed.new PrivateUse t.str)

/-- src/lib.rs:159-161 -/
def asGrandfathered (t : LangTag) : Timed (Option GrandfatheredLangTag) := do return okOf (← newGrandfathered t.str)

/-- src/lib.rs:98-100 -/
def script (t : LangTag) : Timed (Option Script) := do
  match ← asNormal t with
  | some n => Timed.script n
  | none => return none

/-- src/lib.rs:103-105 -/
def region (t : LangTag) : Timed (Option Region) := do
  match ← asNormal t with
  | some n => Timed.region n
  | none => return none

/-- src/lib.rs:108-112 -/
def variants (t : LangTag) : Timed Variants := do
  match ← asNormal t with
  | some n => Timed.variants n
  | none => return Variants.EMPTY

/-- src/lib.rs:115-119 -/
def extensions (t : LangTag) : Timed Extensions := do
  match ← asNormal t with
  | some n => Timed.extensions n
  | none => return Extensions.EMPTY

/-- src/lib.rs:122-124 -/
def privateUse (t : LangTag) : Timed (Option PrivateUse) := do
  match ← asNormal t with
  | some n => Timed.privateUse n
  | none => return none

/-- src/lib.rs:127-131 -/
def privateUseSubtags (t : LangTag) : Timed PrivateUseIter := do
  return ((← privateUse t).map PrivateUse.iter).getD .empty

/-- src/lib.rs:134-136 -/
def isNormal (t : LangTag) : Timed Bool := do return (← asNormal t).isSome

/-- src/lib.rs:139-141 -/
def isPrivateUse (t : LangTag) : Timed Bool := do return (← asPrivateUse t).isSome

/-- src/lib.rs:144-146 -/
def isGrandfathered (t : LangTag) : Timed Bool := do return (← asGrandfathered t).isSome

/-- src/lib.rs:169-177 -/
def asTyped (t : LangTag) : Timed TypedLangTag := do
  match ← Timed.new NormalLangTag t.str with
  | .ok n => return .Normal n
  | .error _ =>
    match ← Timed.new PrivateUse t.str with
    | .ok p => return .PrivateUse p
    | .error _ =>
      match ← newGrandfathered t.str with
      | .ok g => return .Grandfathered g
      | .error _ => (Except.error Panic.unwrap : Rust TypedLangTag)

/-- src/lib.rs:164-166 -/
def kind (t : LangTag) : Timed Kind := do return (← asTyped t).kind

end LangTag

end Timed

end Langtag.Model
