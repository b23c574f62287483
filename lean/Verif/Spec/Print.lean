import Verif.Spec.Utf8

/-! # What printing with options gives -/

set_option autoImplicit false

namespace Langtag.Spec

/-- The bytes of a sequence of characters. -/
def utf8 (cs : List Char) : Text := cs.flatMap encodeChar

/-- `str::trim_matches(c)`: without the characters `c` at both ends. -/
def trimMatches (c : Char) (cs : List Char) : List Char :=
  ((cs.dropWhile (· == c)).reverse.dropWhile (· == c)).reverse

/-- `out` is `text` with characters `fill` around it, `before` of them before and `after` after. -/
def PaddedBy (fill : Char) (before after : Nat) (text out : List Char) : Prop :=
  out = List.replicate before fill ++ text ++ List.replicate after fill

example : PaddedBy '*' 1 2 ['a', 'b'] ['*', 'a', 'b', '*', '*'] := rfl
example : trimMatches '*' ['*', 'a', '*', 'b', '*', '*'] = ['a', '*', 'b'] := by decide

end Langtag.Spec
