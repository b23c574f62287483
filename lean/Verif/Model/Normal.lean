import Verif.Model.Language
import Verif.Model.Variant
import Verif.Model.Extension
import Verif.Model.PrivateUse

/-! # `/repo/src/normal/mod.rs`: `NormalLangTag` -/

set_option autoImplicit false

namespace Langtag.Model.NormalLangTag

/-- src/normal/mod.rs:34-38 -/
def languageEnd (t : NormalLangTag) : Rust Nat :=
  findListEnd t.str 0 fun i segment => .ok (i == 0 || StrNewtype.isOk ExtendedLangTag segment)

/-- src/normal/mod.rs:41-43 -/
def language (t : NormalLangTag) : Rust Language := do
  return ⟨← sliceRange t.str 0 (← t.languageEnd)⟩

/-- src/normal/mod.rs:45-56.  `Ok(offset..end)` is `.ok (offset, end)`. -/
def scriptRange (t : NormalLangTag) : Rust (Except Nat (Nat × Nat)) := do
  let languageEnd ← t.languageEnd
  let offset := languageEnd + 1
  let end_ ← findListEnd t.str offset fun i segment => .ok (i == offset && StrNewtype.isOk Script segment)
  if end_ ≠ offset then return .ok (offset, end_) else return .error languageEnd

/-- src/normal/mod.rs:59-63 -/
def script (t : NormalLangTag) : Rust (Option Script) := do
  match ← t.scriptRange with
  | .ok (a, b) => return some ⟨← sliceRange t.str a b⟩
  | .error _ => return none

/-- src/normal/mod.rs:65-80 -/
def regionRange (t : NormalLangTag) : Rust (Except Nat (Nat × Nat)) := do
  let scriptEnd := match ← t.scriptRange with
    | .ok (_, b) => b
    | .error i => i
  let offset := scriptEnd + 1
  let end_ ← findListEnd t.str offset fun i segment => .ok (i == offset && StrNewtype.isOk Region segment)
  if end_ ≠ offset then return .ok (offset, end_) else return .error scriptEnd

/-- src/normal/mod.rs:83-87 -/
def region (t : NormalLangTag) : Rust (Option Region) := do
  match ← t.regionRange with
  | .ok (a, b) => return some ⟨← sliceRange t.str a b⟩
  | .error _ => return none

/-- src/normal/mod.rs:89-102 -/
def variantsRange (t : NormalLangTag) : Rust (Nat × Nat) := do
  let regionEnd := match ← t.regionRange with
    | .ok (_, b) => b
    | .error i => i
  let offset := regionEnd + 1
  let end_ ← findListEnd t.str offset fun _ segment => .ok (StrNewtype.isOk Variant segment)
  if end_ = offset then return (regionEnd, regionEnd) else return (offset, end_)

/-- src/normal/mod.rs:105-107 -/
def variants (t : NormalLangTag) : Rust Variants := do
  let (a, b) ← t.variantsRange
  return ⟨← sliceRange t.str a b⟩

/-- src/normal/mod.rs:109-122.  `||` evaluates its right operand only when the left one is false. -/
def extensionsRange (t : NormalLangTag) : Rust (Nat × Nat) := do
  let variantsEnd := (← t.variantsRange).2
  let offset := variantsEnd + 1
  let end_ ← findListEnd t.str offset fun _ segment => do
    return (← Singleton.fromStringIsOk segment) || StrNewtype.isOk ExtensionSubtag segment
  if end_ = offset then return (variantsEnd, variantsEnd) else return (offset, end_)

/-- src/normal/mod.rs:125-127 -/
def extensions (t : NormalLangTag) : Rust Extensions := do
  let (a, b) ← t.extensionsRange
  return ⟨← sliceRange t.str a b⟩

/-- src/normal/mod.rs:129-137 -/
def privateUseOffset (t : NormalLangTag) : Rust (Option Nat) := do
  let variantsEnd := (← t.variantsRange).2
  if variantsEnd < t.str.length then return some (variantsEnd + 1) else return none

/-- src/normal/mod.rs:140-143 -/
def privateUse (t : NormalLangTag) : Rust (Option PrivateUse) := do
  match ← t.privateUseOffset with
  | some i => return some ⟨← sliceFrom t.str i⟩
  | none => return none

/-- src/normal/mod.rs:145-150 -/
def privateUseSubtags (t : NormalLangTag) : Rust PrivateUseIter := do
  match ← t.privateUse with
  | some p => return p.iter
  | none => return .empty

end Langtag.Model.NormalLangTag
