import Verif.Model.Rust

/-! # The scanning helpers at the end of `/repo/src/normal/mod.rs` -/

set_option autoImplicit false

namespace Langtag.Model

/-- The `while` loop and the tail of `find_list_end`, src/normal/mod.rs:185-200. -/
def findListEndLoop (string : Str) (f : Nat → Str → Rust Bool) (offset i end_ : Nat) : Rust Nat :=
  if i < string.length then do
    if (← index string i) = 45 then
      let subtag ← sliceRange string offset i
      if ← f offset subtag then
        findListEndLoop string f (i + 1) (i + 1) i
      else return end_
    else findListEndLoop string f offset (i + 1) end_
  else do
    let subtag ← sliceFrom string offset
    if ← f offset subtag then return string.length else return end_
termination_by string.length - i

/-- `find_list_end`, src/normal/mod.rs:179-201.  The closures passed by the callers keep no state, so
`f` is a function. -/
def findListEnd (string : Str) (offset : Nat) (f : Nat → Str → Rust Bool) : Rust Nat :=
  findListEndLoop string f offset offset offset

/-- The loop of `find_segment_end`, src/normal/mod.rs:206-214. -/
def findSegmentEndLoop (string : Str) (i : Nat) : Rust Nat :=
  if i < string.length then do
    if (← index string i) = 45 then return i
    findSegmentEndLoop string (i + 1)
  else return i
termination_by string.length - i

/-- `find_segment_end`, src/normal/mod.rs:203-215. -/
def findSegmentEnd (string : Str) (offset : Nat) : Rust Nat := findSegmentEndLoop string offset

/-- The `loop` of `find_segment_start`, src/normal/mod.rs:221-231. -/
def findSegmentStartLoop (string : Str) (i : Nat) : Rust Nat := do
  if (← index string i) = 45 then return i + 1
  match i with
  | 0 => return 0
  | i + 1 => findSegmentStartLoop string i

/-- `find_segment_start`, src/normal/mod.rs:217-235. -/
def findSegmentStart (string : Str) (end_ : Nat) : Rust Nat :=
  if end_ > 0 then findSegmentStartLoop string (end_ - 1) else .ok 0

end Langtag.Model
