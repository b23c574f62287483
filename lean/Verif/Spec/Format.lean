import Verif.Spec.Print
import Verif.Model.Print

/-! # What the options of a formatter ask for -/

set_option autoImplicit false

namespace Langtag.Spec
open Langtag.Model

/-- The first `precision` characters of `text`; all of it without a precision. -/
def cut (precision : Option Nat) (text : List Char) : List Char := text.take (precision.getD text.length)

/-- `out` is what printing `text` with the options of `f` asks for: the text, cut to the precision, and around it as many fill characters as the cut text
is shorter than the width: all of them after it, unless another alignment is asked for; before it for `>`; for `^` half of them before it and half after, the
odd one after. -/
def Shows (f : Formatter) (text out : List Char) : Prop :=
  ∃ before after, PaddedBy f.fill before after (cut f.precision text) out ∧
    before + after = f.width.getD 0 - (cut f.precision text).length ∧
    (f.align = none ∨ f.align = some .Left → before = 0) ∧ (f.align = some .Right → after = 0) ∧
    (f.align = some .Center → before ≤ after ∧ after ≤ before + 1)

-- `{:*^6.3}`, `{:>4.9}`
example : Shows ⟨'*', some .Center, some 6, some 3⟩ ['a', 'b', 'c', 'd'] ['*', 'a', 'b', 'c', '*', '*'] :=
  ⟨1, 2, rfl, rfl, by decide, by decide, by decide⟩
example : Shows ⟨' ', some .Right, some 4, some 9⟩ ['a', 'b'] [' ', ' ', 'a', 'b'] := ⟨2, 0, rfl, rfl, by decide, by decide, by decide⟩

/-- The options leave only one text to print. -/
theorem Shows.unique {f : Formatter} {text out out' : List Char} (h : Shows f text out) (h' : Shows f text out') : out = out' := by
  obtain ⟨a, b, h1, h2, h3, h4, h5⟩ := h
  obtain ⟨a', b', h1', h2', h3', h4', h5'⟩ := h'
  have : a = a' ∧ b = b' := by
    match ha : f.align with
    | none => have := h3 (.inl ha); have := h3' (.inl ha); omega
    | some .Left => have := h3 (.inr ha); have := h3' (.inr ha); omega
    | some .Right => have := h4 ha; have := h4' ha; omega
    | some .Center => have := h5 ha; have := h5' ha; omega
  rw [h1, h1', this.1, this.2]

end Langtag.Spec
