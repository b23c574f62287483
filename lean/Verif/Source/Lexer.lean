import Verif.Source.Syntax

/-!
# Reading Rust: lexer

From the lines of a file to tokens.  Characters are given by their code points, which the kernel compares quickly.  In the files of
the crate no token spans two lines, comments are `//` comments, and no character or string has an escape (a backslash makes the lexer
fail).
-/

set_option autoImplicit false

namespace Langtag.Source

/-- The code points of a string. -/
def codes (s : String) : List Nat := s.toList.map Char.toNat

/-- The string with these code points. -/
def name (cs : List Nat) : String := String.ofList (cs.map Char.ofNat)

/-- `0`–`9` -/
def isDigit (c : Nat) : Bool := 48 ≤ c && c ≤ 57

/-- May the character begin an identifier: a letter or `_`? -/
def identStart (c : Nat) : Bool := (97 ≤ c && c ≤ 122) || (65 ≤ c && c ≤ 90) || c == 95

/-- May the character continue an identifier? -/
def identCont (c : Nat) : Bool := identStart c || isDigit c

/-- Is it a hexadecimal digit? -/
def isHexDigit (c : Nat) : Bool := isDigit c || (97 ≤ c && c ≤ 102) || (65 ≤ c && c ≤ 70)

/-- The value of a digit, decimal or hexadecimal. -/
def digitValue (c : Nat) : Nat := if c ≤ 57 then c - 48 else if 97 ≤ c then c - 87 else c - 55

/-- The number written by the digits. -/
def numberValue (base : Nat) (cs : List Nat) : Nat := cs.foldl (fun n c => n * base + digitValue c) 0

/-- The longest prefix of characters of a class, and the rest. -/
def spanOf (p : Nat → Bool) : List Nat → List Nat × List Nat
  | [] => ([], [])
  | c :: cs =>
    match p c with
    | true => let (a, b) := spanOf p cs; (c :: a, b)
    | false => ([], c :: cs)

/-- The characters up to a closing `"`, and the rest. -/
def quoted : List Nat → Option (List Nat × List Nat)
  | [] => none
  | c :: rest =>
    if c = 34 then some ([], rest)
    else if c = 92 then none
    else (quoted rest).map fun (s, r) => (c :: s, r)

/-- The keywords and their spelling. -/
def keywords : List (List Nat × Kw) := [
  -- use
  ([117, 115, 101], .«use»),
  -- mod
  ([109, 111, 100], .«mod»),
  -- fn
  ([102, 110], .«fn»),
  -- static
  ([115, 116, 97, 116, 105, 99], .«static»),
  -- const
  ([99, 111, 110, 115, 116], .«const»),
  -- type
  ([116, 121, 112, 101], .«type»),
  -- struct
  ([115, 116, 114, 117, 99, 116], .«struct»),
  -- enum
  ([101, 110, 117, 109], .«enum»),
  -- impl
  ([105, 109, 112, 108], .«impl»),
  -- for
  ([102, 111, 114], .«for»),
  -- if
  ([105, 102], .«if»),
  -- else
  ([101, 108, 115, 101], .«else»),
  -- match
  ([109, 97, 116, 99, 104], .«match»),
  -- loop
  ([108, 111, 111, 112], .«loop»),
  -- while
  ([119, 104, 105, 108, 101], .«while»),
  -- in
  ([105, 110], .«in»),
  -- return
  ([114, 101, 116, 117, 114, 110], .«return»),
  -- break
  ([98, 114, 101, 97, 107], .«break»),
  -- let
  ([108, 101, 116], .«let»),
  -- mut
  ([109, 117, 116], .«mut»),
  -- unsafe
  ([117, 110, 115, 97, 102, 101], .«unsafe»),
  -- pub
  ([112, 117, 98], .«pub»),
  -- as
  ([97, 115], .«as»),
  -- true
  ([116, 114, 117, 101], .«true»),
  -- false
  ([102, 97, 108, 115, 101], .«false»),
  -- _
  ([95], .«underscore»),
  -- matches
  ([109, 97, 116, 99, 104, 101, 115], .«matches»),
  -- panic
  ([112, 97, 110, 105, 99], .«panic»),
  -- macro_rules
  ([109, 97, 99, 114, 111, 95, 114, 117, 108, 101, 115], .«macro_rules»),
  -- derive
  ([100, 101, 114, 105, 118, 101], .«derive»),
  -- literal
  ([108, 105, 116, 101, 114, 97, 108], .«literal»),
  -- FnMut
  ([70, 110, 77, 117, 116], .«FnMut»)]

/-- The token of a word. -/
def word (cs : List Nat) : Tok :=
  match keywords.lookup cs with
  | some k => .kw k
  | none => .ident (name cs)

/-- Operators of one character. -/
def punct1 : List (Nat × Punct) := [
  -- +
  (43, .plus),
  -- -
  (45, .minus),
  -- *
  (42, .star),
  -- =
  (61, .eq),
  -- <
  (60, .lt),
  -- >
  (62, .gt),
  -- !
  (33, .not),
  -- &
  (38, .and),
  -- |
  (124, .or),
  -- .
  (46, .dot),
  -- ,
  (44, .comma),
  -- ;
  (59, .semi),
  -- :
  (58, .colon),
  -- #
  (35, .hash),
  -- $
  (36, .dollar),
  -- (
  (40, .lparen),
  -- )
  (41, .rparen),
  -- [
  (91, .lbrack),
  -- ]
  (93, .rbrack),
  -- {
  (123, .lbrace),
  -- }
  (125, .rbrace)]

/-- Operators of two characters. -/
def punct2 : List ((Nat × Nat) × Punct) := [
  -- ::
  ((58, 58), .colonColon),
  -- ->
  ((45, 62), .arrow),
  -- =>
  ((61, 62), .fatArrow),
  -- ==
  ((61, 61), .eqEq),
  -- !=
  ((33, 61), .ne),
  -- <=
  ((60, 61), .le),
  -- &&
  ((38, 38), .andAnd),
  -- ||
  ((124, 124), .orOr),
  -- ..
  ((46, 46), .dotDot),
  -- +=
  ((43, 61), .plusEq),
  -- -=
  ((45, 61), .minusEq)]

/-- The operator or delimiter at the beginning, the longest one. -/
def punctuation (cs : List Nat) : Option (Punct × List Nat) :=
  match cs with
  | [] => none
  | [a] => (punct1.lookup a).map (·, [])
  | a :: b :: rest =>
    match punct2.lookup (a, b) with
    | some .dotDot =>
      -- `..=`
      match rest with
      | 61 :: rest => some (.dotDotEq, rest)
      | rest => some (.dotDot, rest)
    | some p => some (p, rest)
    | none => (punct1.lookup a).map (·, b :: rest)

/-- A string `"…"` after its opening quote. -/
def lexString (lexRest : List Nat → Option (List Tok)) (mk : List Nat → Tok) (cs : List Nat) : Option (List Tok) :=
  match quoted cs with
  | some (s, rest) => (lexRest rest).map (mk s :: ·)
  | none => none

/-- The suffixes of numbers. -/
def suffixes : List (List Nat) := [
  [],
  -- u8
  [117, 56],
  -- u32
  [117, 51, 50],
  -- usize
  [117, 115, 105, 122, 101]]

/-- Does the fractional part of a number begin here? -/
def startsFraction : List Nat → Bool
  | 46 :: c :: _ => isDigit c
  | _ => false

/-- A number, after its prefix. -/
def lexNumber (lexRest : List Nat → Option (List Tok)) (base : Nat) (digit : Nat → Bool) (cs : List Nat) : Option (List Tok) :=
  let (digits, cs) := spanOf digit cs
  let (suffix, cs) := spanOf identCont cs
  if digits.isEmpty || !suffixes.contains suffix || startsFraction cs then none
  else (lexRest cs).map (.int (numberValue base digits) (name suffix) :: ·)

/-- Does the text begin with a quotation mark? -/
def startsQuote : List Nat → Bool
  | c :: _ => c == 34 || c == 39
  | [] => false

/-- A name or a keyword. -/
def lexWord (lexRest : List Nat → Option (List Tok)) (cs : List Nat) : Option (List Tok) :=
  let (w, cs) := spanOf identCont cs
  if startsQuote cs then none else (lexRest cs).map (word w :: ·)

/-- An operator or a delimiter. -/
def lexPunct (lexRest : List Nat → Option (List Tok)) (cs : List Nat) : Option (List Tok) :=
  match punctuation cs with
  | some (p, rest) => (lexRest rest).map (.punct p :: ·)
  | none => none

/-- What follows a `'`: a character and another `'`, or a lifetime. -/
def lexQuote (lexRest : List Nat → Option (List Tok)) (cs : List Nat) : Option (List Tok) :=
  match cs with
  | c :: 39 :: rest => if c = 92 ∨ c = 39 then none else (lexRest rest).map (.char c :: ·)
  | c :: cs =>
    match identStart c with
    | true =>
      let (_, rest) := spanOf identCont cs
      if startsQuote rest then none else (lexRest rest).map (.lifetime :: ·)
    | false => none
  | [] => none

/-- The tokens of a line.  `fuel` is at least the number of characters. -/
def lexLine : (fuel : Nat) → List Nat → Option (List Tok)
  | 0, _ => none
  | fuel + 1, cs =>
    match cs with
    | [] => some []
    | c :: rest =>
      if c = 32 ∨ c = 9 then lexLine fuel rest
      else if identStart c then
        match c, rest with
        -- `b'x'`
        | 98, 39 :: x :: 39 :: rest => if x = 92 ∨ x = 39 then none else (lexLine fuel rest).map (.byte x :: ·)
        -- `b"…"`
        | 98, 34 :: rest => lexString (lexLine fuel) .bstr rest
        | c, rest => lexWord (lexLine fuel) (c :: rest)
      else if isDigit c then
        match c, rest with
        -- `0x`
        | 48, 120 :: rest => lexNumber (lexLine fuel) 16 isHexDigit rest
        | c, rest => lexNumber (lexLine fuel) 10 isDigit (c :: rest)
      else if c = 34 then lexString (lexLine fuel) .str rest
      else if c = 39 then lexQuote (lexLine fuel) rest
      else
        match c, rest with
        -- `//`
        | 47, 47 :: _ => some []
        | c, rest => lexPunct (lexLine fuel) (c :: rest)

/-- The tokens of a file, given line by line, each by its code points. -/
def lex : List (List Nat) → Option (List Tok)
  | [] => some []
  | line :: lines =>
    match lexLine (line.length + 1) line with
    | none => none
    | some ts => (lex lines).map (ts ++ ·)

end Langtag.Source
