import Verif.Model.Normal

/-!
# A repaired `normal/mod.rs` (not the code of the repository)

C17–C23 are false of the code (`Verif/Props/Components.lean`).  This is the code with two edits, after which they hold
(`Verif/Repair/Components.lean`):

* `find_list_end` returns `offset` when `offset` is past the end of the string, instead of slicing there;
* `private_use_offset` starts after the extensions, not after the variants.

No claim of the manifest is about these definitions.
-/

set_option autoImplicit false

namespace Langtag.Repair
open Langtag.Model

/-- `find_list_end`, src/normal/mod.rs:179-201, with a first line `if offset > string.len() { return offset }`. -/
def findListEnd (string : Str) (offset : Nat) (f : Nat → Str → Rust Bool) : Rust Nat :=
  if string.length < offset then .ok offset else Model.findListEnd string offset f

/-- src/normal/mod.rs:45-56, unchanged -/
def scriptRange (t : NormalLangTag) : Rust (Except Nat (Nat × Nat)) := do
  let languageEnd ← t.languageEnd
  let offset := languageEnd + 1
  let end_ ← findListEnd t.str offset fun i segment => .ok (i == offset && StrNewtype.isOk Script segment)
  if end_ ≠ offset then return .ok (offset, end_) else return .error languageEnd

/-- src/normal/mod.rs:59-63, unchanged -/
def script (t : NormalLangTag) : Rust (Option Script) := do
  match ← scriptRange t with
  | .ok (a, b) => return some ⟨← sliceRange t.str a b⟩
  | .error _ => return none

/-- src/normal/mod.rs:65-80, unchanged -/
def regionRange (t : NormalLangTag) : Rust (Except Nat (Nat × Nat)) := do
  let scriptEnd := match ← scriptRange t with
    | .ok (_, b) => b
    | .error i => i
  let offset := scriptEnd + 1
  let end_ ← findListEnd t.str offset fun i segment => .ok (i == offset && StrNewtype.isOk Region segment)
  if end_ ≠ offset then return .ok (offset, end_) else return .error scriptEnd

/-- src/normal/mod.rs:83-87, unchanged -/
def region (t : NormalLangTag) : Rust (Option Region) := do
  match ← regionRange t with
  | .ok (a, b) => return some ⟨← sliceRange t.str a b⟩
  | .error _ => return none

/-- src/normal/mod.rs:89-102, unchanged -/
def variantsRange (t : NormalLangTag) : Rust (Nat × Nat) := do
  let regionEnd := match ← regionRange t with
    | .ok (_, b) => b
    | .error i => i
  let offset := regionEnd + 1
  let end_ ← findListEnd t.str offset fun _ segment => .ok (StrNewtype.isOk Variant segment)
  if end_ = offset then return (regionEnd, regionEnd) else return (offset, end_)

/-- src/normal/mod.rs:105-107, unchanged -/
def variants (t : NormalLangTag) : Rust Variants := do
  let (a, b) ← variantsRange t
  return ⟨← sliceRange t.str a b⟩

/-- src/normal/mod.rs:109-122, unchanged -/
def extensionsRange (t : NormalLangTag) : Rust (Nat × Nat) := do
  let variantsEnd := (← variantsRange t).2
  let offset := variantsEnd + 1
  let end_ ← findListEnd t.str offset fun _ segment => do
    return (← Singleton.fromStringIsOk segment) || StrNewtype.isOk ExtensionSubtag segment
  if end_ = offset then return (variantsEnd, variantsEnd) else return (offset, end_)

/-- src/normal/mod.rs:125-127, unchanged -/
def extensions (t : NormalLangTag) : Rust Extensions := do
  let (a, b) ← extensionsRange t
  return ⟨← sliceRange t.str a b⟩

/-- src/normal/mod.rs:129-137, with `extensions_range` for `variants_range` -/
def privateUseOffset (t : NormalLangTag) : Rust (Option Nat) := do
  let extensionsEnd := (← extensionsRange t).2
  if extensionsEnd < t.str.length then return some (extensionsEnd + 1) else return none

/-- src/normal/mod.rs:140-143, unchanged -/
def privateUse (t : NormalLangTag) : Rust (Option PrivateUse) := do
  match ← privateUseOffset t with
  | some i => return some ⟨← sliceFrom t.str i⟩
  | none => return none

/-- src/normal/mod.rs:145-150, unchanged -/
def privateUseSubtags (t : NormalLangTag) : Rust PrivateUseIter := do
  match ← privateUse t with
  | some p => return p.iter
  | none => return .empty

end Langtag.Repair
