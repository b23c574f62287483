/-!
# ABNF (RFC 5234) and its meaning

A small specification, independent of the model of the code: the syntax of the ABNF constructs used by
`src/grammar.abnf` and, for each, the set of byte strings it describes.
-/

set_option autoImplicit false

namespace Langtag.Spec

/-- A string of bytes (the text of a tag). -/
abbrev Text := List UInt8

/-- ASCII lower-casing of a code: `A`–`Z` (0x41–0x5A) become `a`–`z`, everything else is unchanged. -/
def lowerCode (n : Nat) : Nat := if 0x41 ≤ n ∧ n ≤ 0x5A then n + 0x20 else n

/-- ABNF elements (RFC 5234 §2–3). -/
inductive Abnf
  /-- `%xLO-HI`: one character in the range (RFC 5234 §3.4). -/
  | range (lo hi : Nat)
  /-- `"..."`: a literal string, matched ignoring ASCII case (RFC 5234 §2.3). -/
  | str (s : String)
  /-- `a / b` (RFC 5234 §3.2). -/
  | alt (a b : Abnf)
  /-- `a b` (RFC 5234 §3.1). -/
  | seq (a b : Abnf)
  /-- `<min>*<max>a` (RFC 5234 §3.6), `max = none` when there is no upper bound. -/
  | rep (min : Nat) (max : Option Nat) (a : Abnf)
  deriving DecidableEq

namespace Abnf

/-- `Matches a w`: the byte string `w` belongs to the language of `a`. -/
def Matches : Abnf → Text → Prop
  | range lo hi, w => ∃ b, w = [b] ∧ lo ≤ b.toNat ∧ b.toNat ≤ hi
  | str s, w => w.map (fun b => lowerCode b.toNat) = s.toList.map (fun c => lowerCode c.toNat)
  | alt a b, w => Matches a w ∨ Matches b w
  | seq a b, w => ∃ u v, w = u ++ v ∧ Matches a u ∧ Matches b v
  | rep min max a, w =>
      ∃ ws : List Text, w = ws.flatten ∧ min ≤ ws.length ∧ (∀ m, max = some m → ws.length ≤ m) ∧
        ∀ u ∈ ws, Matches a u

/-- `n a`: exactly `n` repetitions (RFC 5234 §3.7). -/
def exactly (n : Nat) (a : Abnf) : Abnf := rep n (some n) a
/-- `n*m a` (RFC 5234 §3.6). -/
def between (n m : Nat) (a : Abnf) : Abnf := rep n (some m) a
/-- `*a` (RFC 5234 §3.6). -/
def many (a : Abnf) : Abnf := rep 0 none a
/-- `1*a` (RFC 5234 §3.6). -/
def many1 (a : Abnf) : Abnf := rep 1 none a
/-- `[a]` (RFC 5234 §3.8). -/
def opt (a : Abnf) : Abnf := rep 0 (some 1) a

scoped infixl:65 " ⬝ " => Abnf.seq
scoped infixl:60 " ⧸ " => Abnf.alt

end Abnf

end Langtag.Spec
