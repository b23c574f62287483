import Verif.Model.Rust

/-!
# The automata of `/repo/src/grammar.rs`: representation and validation loop

The fifteen automata of `grammar.rs` have the same shape (a `state: u32`, `new`, `push`, `is_accepting`,
`validate_str`, `validate_bytes`); the tables are in `Verif/Model/Automata.lean`.
-/

set_option autoImplicit false

namespace Langtag.Model

/-- One arm `'a'..='z' | 'X' => 12u32` of an inner `match token`, e.g. src/grammar.rs:12. -/
structure Arm where
  ranges : List (Char × Char)
  target : Nat

/-- One arm `Nu32 => match token { .. }` of the outer `match self.state`, e.g. src/grammar.rs:11-35. -/
structure Row where
  state : Nat
  arms : List Arm

/-- An automaton of `grammar.rs`, e.g. src/grammar.rs:1-1098. -/
structure Dfa where
  /-- the state `new()` starts in -/
  init : Nat
  rows : List Row
  /-- the states listed in `is_accepting` -/
  accepting : List Nat

/-- Does the character match one of the `|`-separated patterns of the arm, e.g. src/grammar.rs:12? -/
def Arm.accepts (a : Arm) (c : Char) : Bool :=
  a.ranges.any fun (lo, hi) => lo.toNat ≤ c.toNat && c.toNat ≤ hi.toNat

/-- `push` (e.g. src/grammar.rs:9-1035): the new state, `none` for `return false`. -/
def Dfa.push (d : Dfa) (state : Nat) (token : Char) : Option Nat :=
  match d.rows.find? (fun r => r.state == state) with
  | none => none
  | some r => (r.arms.find? (fun a => a.accepts token)).map (·.target)

/-- `is_accepting` (e.g. src/grammar.rs:1036-1078). -/
def Dfa.isAccepting (d : Dfa) (state : Nat) : Bool := d.accepting.contains state

/-- A function like `static_automata::decode_utf8_char(bytes, i)`: the character at `i` and its
length in bytes, `none` for `Err`.  Called at src/grammar.rs:1086. -/
abbrev Decoder := Str → Nat → Option (Char × Nat)

/-- The `while i < bytes.len()` loop of `validate_bytes`, src/grammar.rs:1085-1095.  `fuel` bounds
the number of iterations (each one consumes at least one byte). -/
def Dfa.validateLoop (dec : Decoder) (d : Dfa) (bytes : Str) : (fuel : Nat) → (i state : Nat) → Bool
  | 0, _, _ => false
  | fuel + 1, i, state =>
    if i < bytes.length then
      match dec bytes i with
      | some (c, len) =>
        match d.push state c with
        | none => false
        | some state' => Dfa.validateLoop dec d bytes fuel (i + len) state'
      | none => false
    else d.isAccepting state

/-- `validate_bytes` (src/grammar.rs:1082-1097 and the fourteen identical copies), with the UTF-8
decoder as a parameter. -/
def Dfa.validateBytesWith (dec : Decoder) (d : Dfa) (bytes : Str) : Bool :=
  d.validateLoop dec bytes (bytes.length + 1) 0 d.init

/-- A UTF-8 continuation byte: its six payload bits.  Part of the external decoder called at src/grammar.rs:1086. -/
def contByte (b : Option UInt8) : Option Nat :=
  match b with
  | some b => if 0x80 ≤ b && b ≤ 0xBF then some (b.toNat - 0x80) else none
  | none => none

/-- A scalar value as a `char`, `none` for surrogates and values above 0x10FFFF.  Part of the external decoder called at
src/grammar.rs:1086. -/
def charOfNat? (n : Nat) : Option Char :=
  if h : n.isValidChar then some (Char.ofNatAux n h) else none

/-- Reference UTF-8 decoder (RFC 3629), standing for the external `static_automata::decode_utf8_char`
(src/grammar.rs:1086).  Theorem `validateBytes_any_decoder` shows that the verdict depends only on its
treatment of ASCII. -/
def decodeUtf8Char : Decoder := fun bytes i =>
  match bytes[i]? with
  | none => none
  | some b0 =>
    if b0 < 0x80 then (charOfNat? b0.toNat).map (·, 1)
    else if b0 < 0xC2 then none
    else if b0 < 0xE0 then do
      let c1 ← contByte bytes[i + 1]?
      (charOfNat? ((b0.toNat - 0xC0) * 64 + c1)).map (·, 2)
    else if b0 < 0xF0 then do
      let c1 ← contByte bytes[i + 1]?
      let c2 ← contByte bytes[i + 2]?
      let n := ((b0.toNat - 0xE0) * 64 + c1) * 64 + c2
      if n < 0x800 then none
      (charOfNat? n).map (·, 3)
    else if b0 < 0xF5 then do
      let c1 ← contByte bytes[i + 1]?
      let c2 ← contByte bytes[i + 2]?
      let c3 ← contByte bytes[i + 3]?
      let n := (((b0.toNat - 0xF0) * 64 + c1) * 64 + c2) * 64 + c3
      if n < 0x10000 then none
      (charOfNat? n).map (·, 4)
    else none

/-- `validate_bytes` (src/grammar.rs:1082-1097). -/
def Dfa.validateBytes (d : Dfa) (bytes : Str) : Bool := d.validateBytesWith decodeUtf8Char bytes

/-- `validate_str` (src/grammar.rs:1079-1081). -/
def Dfa.validateStr (d : Dfa) (s : Str) : Bool := d.validateBytes s

end Langtag.Model
