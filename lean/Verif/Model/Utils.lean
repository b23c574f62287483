import Verif.Model.Rust

/-! # `/repo/src/utils.rs` -/

set_option autoImplicit false

namespace Langtag.Model

/-- `into_smallcase`, src/utils.rs:6-8.  The addition is checked (panic on overflow), as in debug builds. -/
def intoSmallcase (c : UInt8) : Rust UInt8 :=
  if isAsciiUppercase c then
    if c.toNat + 0x20 < 256 then .ok (c + 0x20) else .error .overflow
  else .ok c

/-- The `for i in 0..a.len()` loop of `case_insensitive_eq`, src/utils.rs:12-18. -/
def caseInsensitiveEqLoop (a b : Str) (i : Nat) : Rust Bool :=
  if i < a.length then do
    let x ← intoSmallcase (← index a i)
    let y ← intoSmallcase (← index b i)
    if x ≠ y then return false
    caseInsensitiveEqLoop a b (i + 1)
  else return true
termination_by a.length - i

/-- `case_insensitive_eq`, src/utils.rs:10-22. -/
def caseInsensitiveEq (a b : Str) : Rust Bool :=
  if a.length = b.length then caseInsensitiveEqLoop a b 0 else .ok false

/-- A `core::hash::Hasher`, the `H` of src/utils.rs:24: its state type and what `write_u8` does to a state. -/
structure Hasher where
  State : Type
  writeU8 : State → UInt8 → State

/-- `case_insensitive_hash`, src/utils.rs:24-28.  `u8::hash` is one `write_u8` (core). -/
def caseInsensitiveHash (H : Hasher) : Str → H.State → Rust H.State
  | [], st => .ok st
  | b :: s, st => do
    let c ← intoSmallcase b
    caseInsensitiveHash H s (H.writeU8 st c)

/-- The `loop` of `case_insensitive_cmp`, src/utils.rs:33-48. -/
def caseInsensitiveCmpLoop (a b : Str) (i : Nat) : Rust Ordering :=
  if a.length ≤ i then
    if b.length ≤ i then .ok .eq else .ok .gt
  else if b.length ≤ i then .ok .lt
  else do
    let x ← intoSmallcase (← index a i)
    let y ← intoSmallcase (← index b i)
    match compare x y with
    | .eq => caseInsensitiveCmpLoop a b (i + 1)
    | ord => return ord
termination_by a.length - i

/-- `case_insensitive_cmp`, src/utils.rs:30-49. -/
def caseInsensitiveCmp (a b : Str) : Rust Ordering := caseInsensitiveCmpLoop a b 0

end Langtag.Model
