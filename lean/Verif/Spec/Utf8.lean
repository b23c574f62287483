import Verif.Spec.Abnf

/-!
# UTF-8

A Rust `&str` holds the UTF-8 encoding of a sequence of characters.  The encoder is the one of Lean's core library.
-/

set_option autoImplicit false

namespace Langtag.Spec

/-- The UTF-8 encoding of a character. -/
def encodeChar (c : Char) : Text := String.utf8EncodeChar c

/-- The bytes are the UTF-8 encoding of some sequence of characters, as those of every Rust `&str` are. -/
def IsUtf8 (s : Text) : Prop := ∃ cs : List Char, s = cs.flatMap encodeChar

-- U+00E9 takes two bytes
example : encodeChar 'é' = [0xC3, 0xA9] := by decide +kernel
example : IsUtf8 [0x61, 0xC3, 0xA9] := ⟨['a', 'é'], by decide +kernel⟩

end Langtag.Spec
