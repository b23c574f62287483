/-!
# The fragment of Rust the model needs

Strings, slices and panics.  These stand for `core`, not for code in `/repo`.
-/

set_option autoImplicit false

namespace Langtag.Model

/-- The bytes of a `&str` or a `&[u8]` (core), as the `str` of src/lib.rs:80. -/
abbrev Str := List UInt8

/-- Why the code panicked: what a panic at, e.g., src/normal/mod.rs:199, src/utils.rs:7, src/lib.rs:174 or src/lib.rs:212 is about. -/
inductive Panic
  /-- `&s[a..b]` or `&s[a..]` out of range or off a character boundary. -/
  | slice
  /-- `bytes[i]` out of bounds. -/
  | index
  /-- `unwrap` on `None` or `Err`. -/
  | unwrap
  /-- `u8` addition overflow (debug builds). -/
  | overflow
  /-- `panic!(…)`. -/
  | explicit
  deriving DecidableEq, Repr

/-- A computation that returns a value or panics (core), as src/normal/mod.rs:181-201 does. -/
abbrev Rust (α : Type) := Except Panic α

instance {ε α : Type} [DecidableEq ε] [DecidableEq α] : DecidableEq (Except ε α)
  | .ok a, .ok b => if h : a = b then isTrue (h ▸ rfl) else isFalse (fun e => h (Except.ok.inj e))
  | .error a, .error b => if h : a = b then isTrue (h ▸ rfl) else isFalse (fun e => h (Except.error.inj e))
  | .ok _, .error _ => isFalse nofun
  | .error _, .ok _ => isFalse nofun

/-- `str::is_char_boundary`: the ends of the string, or an index whose byte is not a UTF-8
continuation byte (0x80–0xBF).  Core; the condition on both ends of a slice, e.g. src/normal/mod.rs:187. -/
def isCharBoundary (s : Str) (i : Nat) : Bool :=
  if i = 0 then true
  else match s[i]? with
    | none => i = s.length
    | some b => b < 0x80 || 0xC0 ≤ b

/-- `&s[a..b]` on a `str` (core), e.g. src/normal/mod.rs:62 and 187. -/
def sliceRange (s : Str) (a b : Nat) : Rust Str :=
  if a ≤ b ∧ b ≤ s.length ∧ isCharBoundary s a ∧ isCharBoundary s b then
    .ok ((s.drop a).take (b - a))
  else .error .slice

/-- `&s[a..]` on a `str` (core), e.g. src/normal/mod.rs:142 and 199. -/
def sliceFrom (s : Str) (a : Nat) : Rust Str := sliceRange s a s.length

/-- `bytes[i]` (core), e.g. src/normal/mod.rs:186. -/
def index (s : Str) (i : Nat) : Rust UInt8 :=
  match s[i]? with
  | some b => .ok b
  | none => .error .index

/-- `str::split_once('-')`: the text before and after the first `-`.  Core; src/normal/language/mod.rs:34 and 54. -/
def splitOnceDash : Str → Option (Str × Str)
  | [] => none
  | b :: s => if b = 45 then some ([], s) else (splitOnceDash s).map fun (u, v) => (b :: u, v)

/-- The bytes of an ASCII string literal of the source, e.g. src/grandfathered.rs:96. -/
def lit (s : String) : Str := s.toList.map fun c => UInt8.ofNat c.toNat

/-- `u8::is_ascii_uppercase` (core), src/utils.rs:7. -/
def isAsciiUppercase (c : UInt8) : Bool := 65 ≤ c && c ≤ 90

/-- `u8::is_ascii_alphanumeric` (core), src/normal/extension.rs:15. -/
def isAsciiAlphanumeric (c : UInt8) : Bool :=
  (48 ≤ c && c ≤ 57) || (65 ≤ c && c ≤ 90) || (97 ≤ c && c ≤ 122)

end Langtag.Model
