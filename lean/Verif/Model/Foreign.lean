import Verif.Model.Compare

/-!
# Comparison with plain strings, as it could be generated

`#[newtype(ord([u8], &[u8], str, &str))]` and `newtype(ord(Vec<u8>, String))` (for instance src/lib.rs:71-79) make the external
macro `str_newtype` generate `PartialEq` and `PartialOrd` between each type and plain strings.  The source of the macro is not
in the repository, so these definitions do not transcribe code: they are the two ways to delegate to the comparison written in
the repository.  The documentation example src/lib.rs:16 excludes a comparison that does not delegate.
-/

set_option autoImplicit false

namespace Langtag.Model.Foreign

variable {T : Type} [StrNewtype T] [Compare T]

/-- Not in the repository (see above).  The string is wrapped with `new_unchecked` and compared, src/lib.rs:71-79. -/
def eqUnchecked (t : T) (s : Str) : Rust Bool := Compare.eq t (StrNewtype.newUnchecked s)

/-- Not in the repository (see above).  The string is parsed with `new`; one that is rejected is different, src/lib.rs:71-79. -/
def eqParsed (t : T) (s : Str) : Rust Bool :=
  match StrNewtype.new T s with
  | .ok u => Compare.eq t u
  | .error _ => .ok false

/-- Not in the repository (see above).  `partial_cmp` on the wrapped string, src/lib.rs:71-79. -/
def partialCmpUnchecked (t : T) (s : Str) : Rust (Option Ordering) := Compare.partialCmp t (StrNewtype.newUnchecked s)

/-- Not in the repository (see above).  `partial_cmp` on the parsed string; `None` for one that is rejected, src/lib.rs:71-79. -/
def partialCmpParsed (t : T) (s : Str) : Rust (Option Ordering) :=
  match StrNewtype.new T s with
  | .ok u => Compare.partialCmp t u
  | .error _ => .ok none

end Langtag.Model.Foreign
