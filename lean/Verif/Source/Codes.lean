/-!
# Text as code points

`codes% "abc"` is the list `[97, 98, 99]`, written as a string for the reader and stored as numbers for the kernel, which would be slow at
taking strings apart.
-/

set_option autoImplicit false

namespace Langtag.Source

/-- The code points of a string literal, as a list of numbers. -/
syntax "codes%" str : term

open Lean in
macro_rules
  | `(codes% $s:str) => do
    let mut t ← `(([] : List Nat))
    for c in s.getString.toList.reverse do
      t ← `(List.cons (nat_lit $(Syntax.mkNumLit (toString c.toNat))) $t)
    return t

example : codes% "abc" = [97, 98, 99] := rfl
example : (codes% "\"fr\\FR\"\t").map Char.ofNat = "\"fr\\FR\"\t".toList := by decide +kernel

end Langtag.Source
