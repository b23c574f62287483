import Verif.Model.Types
import Verif.Model.Segments

/-! # `/repo/src/normal/private_use.rs` -/

set_option autoImplicit false

namespace Langtag.Model

/-- `PrivateUseIter`, src/normal/private_use.rs:51-55. -/
structure PrivateUseIter where
  data : Str
  offset : Nat
  deriving DecidableEq

namespace PrivateUseIter

/-- src/normal/private_use.rs:58-63 -/
def new (data : Str) : PrivateUseIter := { data, offset := 2 }

/-- `#[derive(Default)]` (private_use.rs:51) and `empty`, src/normal/private_use.rs:65-67 -/
def empty : PrivateUseIter := { data := [], offset := 0 }

/-- `Iterator::next`, src/normal/private_use.rs:73-82 -/
def next (it : PrivateUseIter) : Rust (Option PrivateUseSubtag × PrivateUseIter) :=
  if it.offset < it.data.length then do
    let end_ ← findSegmentEnd it.data it.offset
    let item : PrivateUseSubtag := ⟨← sliceRange it.data it.offset end_⟩
    return (some item, { it with offset := end_ + 1 })
  else return (none, it)

end PrivateUseIter

/-- `PrivateUse::iter`, src/normal/private_use.rs:20-22 -/
def PrivateUse.iter (p : PrivateUse) : PrivateUseIter := .new p.str

end Langtag.Model
