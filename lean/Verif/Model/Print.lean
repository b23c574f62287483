import Verif.Model.LangTag

/-! # Printing, and the derived hashing, of the types that are not texts -/

set_option autoImplicit false

namespace Langtag.Model

/-- `core::fmt::Alignment` (core), as in the formatter of src/grandfathered.rs:149. -/
inductive Alignment
  | Left | Right | Center
  deriving DecidableEq

/-- What a `core::fmt::Formatter` holds besides its output (core), as in src/grandfathered.rs:149: the options written after the
colon in `{:…}`. -/
structure Formatter where
  fill : Char
  align : Option Alignment
  width : Option Nat
  precision : Option Nat

/-- `{}` (core): the formatter of src/grandfathered.rs:149 without options. -/
def Formatter.default : Formatter := { fill := ' ', align := none, width := none, precision := none }

/-- `Formatter::padding` (core), used through src/grandfathered.rs:150 and src/normal/extension.rs:88: how many fill characters are
written before and after.  The default alignment of a string is left. -/
def Formatter.padding (f : Formatter) (n : Nat) : Nat × Nat :=
  match f.align with
  | none | some .Left => (0, n)
  | some .Right => (n, 0)
  | some .Center => (n / 2, (n + 1) / 2)

/-- `Formatter::pad` (core), used through src/grandfathered.rs:150 and src/normal/extension.rs:88: a string is cut to the precision,
then filled up to the width. -/
def Formatter.pad (f : Formatter) (s : List Char) : List Char :=
  let s := match f.precision with
    | none => s
    | some p => s.take p
  match f.width with
  | none => s
  | some w =>
    if s.length < w then
      let (pre, post) := f.padding (w - s.length)
      List.replicate pre f.fill ++ s ++ List.replicate post f.fill
    else s

/-- The characters of an ASCII `str` (core), that of src/grandfathered.rs:150. -/
def asciiChars (s : Str) : List Char := s.map fun b => Char.ofNat b.toNat

/-- `Display for GrandfatheredLangTag`, src/grandfathered.rs:148-152.  `str::fmt` is `Formatter::pad` (core). -/
def GrandfatheredLangTag.fmt (g : GrandfatheredLangTag) (f : Formatter) : List Char := f.pad (asciiChars g.asStr)

/-- `Display for Singleton`, src/normal/extension.rs:86-90.  `Display for char` is `Formatter::pad` on the one character (core). -/
def Singleton.fmt (s : Singleton) (f : Formatter) : List Char := f.pad [s.display]

/-- `Debug for Singleton`, src/normal/extension.rs:92-96.  In this `impl` the method `fmt` is that of `Debug`: it writes the character
between single quotes, without regard to the options (core; alphanumeric characters are not escaped). -/
def Singleton.fmtDebug (s : Singleton) (_f : Formatter) : List Char := ['\'', s.display, '\'']

/-- `#[derive(Debug)]`, src/lib.rs:287: the name of the variant, written with `Formatter::write_str` (core), without regard to the options. -/
def Kind.fmtDebug (k : Kind) (_f : Formatter) : List Char :=
  match k with
  | .Normal => "Normal".toList
  | .PrivateUse => "PrivateUse".toList
  | .Grandfathered => "Grandfathered".toList

/-- `#[derive(Hash)]` of a type without data, src/grandfathered.rs:21: one `write_isize` of the discriminant. -/
def GrandfatheredLangTag.hash {State : Type} (writeIsize : State → Nat → State) (g : GrandfatheredLangTag) (st : State) : State :=
  writeIsize st g.discriminant

/-- `#[derive(Hash)]` of a type without data, src/lib.rs:287: one `write_isize` of the discriminant. -/
def Kind.hash {State : Type} (writeIsize : State → Nat → State) (k : Kind) (st : State) : State := writeIsize st k.discriminant

/-- `#[derive(Hash)]`, src/normal/extension.rs:10: one `write_u8`. -/
def Singleton.hash (H : Hasher) (s : Singleton) (st : H.State) : H.State := H.writeU8 st s.byte

/-- `#[derive(PartialOrd)]`, src/grandfathered.rs:21. -/
def GrandfatheredLangTag.partialCmp (a b : GrandfatheredLangTag) : Option Ordering := some (compare a.discriminant b.discriminant)

/-- `#[derive(PartialOrd)]`, src/lib.rs:287. -/
def Kind.partialCmp (a b : Kind) : Option Ordering := some (compare a.discriminant b.discriminant)

/-- `#[derive(PartialOrd)]`, src/normal/extension.rs:10. -/
def Singleton.partialCmp (a b : Singleton) : Option Ordering := some (compare a.byte b.byte)

end Langtag.Model
