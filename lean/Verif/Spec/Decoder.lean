import Verif.Model.Dfa

/-!
# What is assumed of a UTF-8 decoder

The little that the verdict of the automata depends on.
-/

set_option autoImplicit false

namespace Langtag.Spec
open Langtag.Model

/-- A decoder that reads a byte below 0x80 as that character, of length 1, and reads a byte from 0x80 up as an
error or as a character that is not ASCII (of any length). -/
structure AsciiCompatible (dec : Decoder) : Prop where
  ascii : ∀ (s : Str) (i : Nat) (b : UInt8), s[i]? = some b → b.toNat < 0x80 →
    ∃ c : Char, c.toNat = b.toNat ∧ dec s i = some (c, 1)
  nonAscii : ∀ (s : Str) (i : Nat) (b : UInt8) (c : Char) (len : Nat), s[i]? = some b → 0x80 ≤ b.toNat →
    dec s i = some (c, len) → 0x80 ≤ c.toNat

end Langtag.Spec
