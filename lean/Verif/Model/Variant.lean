import Verif.Model.Types
import Verif.Model.Segments

/-! # `/repo/src/normal/variant.rs` -/

set_option autoImplicit false

namespace Langtag.Model

/-- `VariantsIter`, src/normal/variant.rs:108-113. -/
structure VariantsIter where
  data : Str
  offset : Nat
  end_ : Nat
  deriving DecidableEq

namespace VariantsIter

/-- src/normal/variant.rs:116-122 -/
def new (data : Str) : VariantsIter := { data, offset := 0, end_ := data.length }

/-- `#[derive(Default)]` (variant.rs:108) and `empty`, src/normal/variant.rs:124-126 -/
def empty : VariantsIter := { data := [], offset := 0, end_ := 0 }

/-- `Iterator::next`, src/normal/variant.rs:132-141 -/
def next (it : VariantsIter) : Rust (Option Variant × VariantsIter) :=
  if it.offset < it.end_ then do
    let end_ ← findSegmentEnd it.data it.offset
    let item : Variant := ⟨← sliceRange it.data it.offset end_⟩
    return (some item, { it with offset := end_ + 1 })
  else return (none, it)

/-- `DoubleEndedIterator::next_back`, src/normal/variant.rs:145-156 -/
def nextBack (it : VariantsIter) : Rust (Option Variant × VariantsIter) :=
  if it.end_ > it.offset then do
    let start ← findSegmentStart it.data it.end_
    let item : Variant := ⟨← sliceRange it.data start it.end_⟩
    return (some item, { it with end_ := if start > 0 then start - 1 else 0 })
  else return (none, it)

end VariantsIter

namespace Variants

/-- `Variants::EMPTY`, src/normal/variant.rs:67 -/
def EMPTY : Variants := ⟨[]⟩

/-- src/normal/variant.rs:69-71 -/
def iter (v : Variants) : VariantsIter := .new v.str

/-- src/normal/variant.rs:73-75 -/
def first (v : Variants) : Rust (Option Variant) := do return (← v.iter.next).1

/-- src/normal/variant.rs:77-79 -/
def last (v : Variants) : Rust (Option Variant) := do return (← v.iter.nextBack).1

end Variants

end Langtag.Model
