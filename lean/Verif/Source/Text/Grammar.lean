import Verif.Source.Codes

/-! The text of `/repo/src/grammar.rs`, line by line and verbatim (written and compared by `tools/gen_source.py`). -/

set_option autoImplicit false
set_option maxRecDepth 10000

namespace Langtag.Source.Text

/-- Lines 1 to 100. -/
def grammarRs0 : List (List Nat) := [
  codes% "/// This file is auto-generated by `static-automata`. Do not edit.",
  codes% "pub struct LanguageTag {",
  codes% "\tstate: u32,",
  codes% "}",
  codes% "impl LanguageTag {",
  codes% "\tpub const fn new() -> Self {",
  codes% "\t\tSelf { state: 0u32 }",
  codes% "\t}",
  codes% "\tpub const fn push(&mut self, token: char) -> bool {",
  codes% "\t\tself.state = match self.state {",
  codes% "\t\t\t0u32 => match token {",
  codes% "\t\t\t\t'A' | 'a' => 1u32,",
  codes% "\t\t\t\t'B'",
  codes% "\t\t\t\t| 'D'",
  codes% "\t\t\t\t| 'F'..='H'",
  codes% "\t\t\t\t| 'J'..='M'",
  codes% "\t\t\t\t| 'O'..='R'",
  codes% "\t\t\t\t| 'T'..='W'",
  codes% "\t\t\t\t| 'Y'",
  codes% "\t\t\t\t| 'b'",
  codes% "\t\t\t\t| 'd'",
  codes% "\t\t\t\t| 'f'..='h'",
  codes% "\t\t\t\t| 'j'..='m'",
  codes% "\t\t\t\t| 'o'..='r'",
  codes% "\t\t\t\t| 't'..='w'",
  codes% "\t\t\t\t| 'y' => 2u32,",
  codes% "\t\t\t\t'C' | 'c' => 3u32,",
  codes% "\t\t\t\t'E' | 'e' => 4u32,",
  codes% "\t\t\t\t'I' | 'i' => 5u32,",
  codes% "\t\t\t\t'N' | 'n' => 6u32,",
  codes% "\t\t\t\t'S' | 's' => 7u32,",
  codes% "\t\t\t\t'X' | 'x' => 8u32,",
  codes% "\t\t\t\t'Z' | 'z' => 9u32,",
  codes% "\t\t\t\t_ => return false,",
  codes% "\t\t\t},",
  codes% "\t\t\t1u32 => match token {",
  codes% "\t\t\t\t'A'..='Q' | 'S'..='Z' | 'a'..='q' | 's'..='z' => 10u32,",
  codes% "\t\t\t\t'R' | 'r' => 11u32,",
  codes% "\t\t\t\t_ => return false,",
  codes% "\t\t\t},",
  codes% "\t\t\t2u32 => match token {",
  codes% "\t\t\t\t'A'..='Z' | 'a'..='z' => 10u32,",
  codes% "\t\t\t\t_ => return false,",
  codes% "\t\t\t},",
  codes% "\t\t\t3u32 => match token {",
  codes% "\t\t\t\t'A'..='D' | 'F'..='Z' | 'a'..='d' | 'f'..='z' => 10u32,",
  codes% "\t\t\t\t'E' | 'e' => 12u32,",
  codes% "\t\t\t\t_ => return false,",
  codes% "\t\t\t},",
  codes% "\t\t\t4u32 => match token {",
  codes% "\t\t\t\t'A'..='M' | 'O'..='Z' | 'a'..='m' | 'o'..='z' => 10u32,",
  codes% "\t\t\t\t'N' | 'n' => 13u32,",
  codes% "\t\t\t\t_ => return false,",
  codes% "\t\t\t},",
  codes% "\t\t\t5u32 => match token {",
  codes% "\t\t\t\t'-' => 14u32,",
  codes% "\t\t\t\t'A'..='Z' | 'a'..='z' => 10u32,",
  codes% "\t\t\t\t_ => return false,",
  codes% "\t\t\t},",
  codes% "\t\t\t6u32 => match token {",
  codes% "\t\t\t\t'A'..='N' | 'P'..='Z' | 'a'..='n' | 'p'..='z' => 10u32,",
  codes% "\t\t\t\t'O' | 'o' => 15u32,",
  codes% "\t\t\t\t_ => return false,",
  codes% "\t\t\t},",
  codes% "\t\t\t7u32 => match token {",
  codes% "\t\t\t\t'A'..='F' | 'H'..='Z' | 'a'..='f' | 'h'..='z' => 10u32,",
  codes% "\t\t\t\t'G' | 'g' => 16u32,",
  codes% "\t\t\t\t_ => return false,",
  codes% "\t\t\t},",
  codes% "\t\t\t8u32 => match token {",
  codes% "\t\t\t\t'-' => 17u32,",
  codes% "\t\t\t\t'A'..='Z' | 'a'..='z' => 10u32,",
  codes% "\t\t\t\t_ => return false,",
  codes% "\t\t\t},",
  codes% "\t\t\t9u32 => match token {",
  codes% "\t\t\t\t'A'..='G' | 'I'..='Z' | 'a'..='g' | 'i'..='z' => 10u32,",
  codes% "\t\t\t\t'H' | 'h' => 18u32,",
  codes% "\t\t\t\t_ => return false,",
  codes% "\t\t\t},",
  codes% "\t\t\t10u32 => match token {",
  codes% "\t\t\t\t'-' => 19u32,",
  codes% "\t\t\t\t'A'..='Z' | 'a'..='z' => 20u32,",
  codes% "\t\t\t\t_ => return false,",
  codes% "\t\t\t},",
  codes% "\t\t\t11u32 => match token {",
  codes% "\t\t\t\t'-' => 19u32,",
  codes% "\t\t\t\t'A'..='S' | 'U'..='Z' | 'a'..='s' | 'u'..='z' => 20u32,",
  codes% "\t\t\t\t'T' | 't' => 176u32,",
  codes% "\t\t\t\t_ => return false,",
  codes% "\t\t\t},",
  codes% "\t\t\t12u32 => match token {",
  codes% "\t\t\t\t'-' => 19u32,",
  codes% "\t\t\t\t'A'..='K' | 'M'..='Z' | 'a'..='k' | 'm'..='z' => 20u32,",
  codes% "\t\t\t\t'L' | 'l' => 168u32,",
  codes% "\t\t\t\t_ => return false,",
  codes% "\t\t\t},",
  codes% "\t\t\t13u32 => match token {",
  codes% "\t\t\t\t'-' => 161u32,",
  codes% "\t\t\t\t'A'..='Z' | 'a'..='z' => 20u32,",
  codes% "\t\t\t\t_ => return false,"]

/-- Lines 101 to 200. -/
def grammarRs1 : List (List Nat) := [
  codes% "\t\t\t},",
  codes% "\t\t\t14u32 => match token {",
  codes% "\t\t\t\t'A' | 'a' => 123u32,",
  codes% "\t\t\t\t'B' | 'b' => 124u32,",
  codes% "\t\t\t\t'D' | 'd' => 125u32,",
  codes% "\t\t\t\t'E' | 'e' => 126u32,",
  codes% "\t\t\t\t'H' | 'h' => 127u32,",
  codes% "\t\t\t\t'K' | 'k' => 128u32,",
  codes% "\t\t\t\t'L' | 'l' => 129u32,",
  codes% "\t\t\t\t'M' | 'm' => 130u32,",
  codes% "\t\t\t\t'N' | 'n' => 131u32,",
  codes% "\t\t\t\t'P' | 'p' => 132u32,",
  codes% "\t\t\t\t'T' | 't' => 133u32,",
  codes% "\t\t\t\t_ => return false,",
  codes% "\t\t\t},",
  codes% "\t\t\t15u32 => match token {",
  codes% "\t\t\t\t'-' => 118u32,",
  codes% "\t\t\t\t'A'..='Z' | 'a'..='z' => 20u32,",
  codes% "\t\t\t\t_ => return false,",
  codes% "\t\t\t},",
  codes% "\t\t\t16u32 => match token {",
  codes% "\t\t\t\t'-' => 19u32,",
  codes% "\t\t\t\t'A'..='M' | 'O'..='Z' | 'a'..='m' | 'o'..='z' => 20u32,",
  codes% "\t\t\t\t'N' | 'n' => 106u32,",
  codes% "\t\t\t\t_ => return false,",
  codes% "\t\t\t},",
  codes% "\t\t\t17u32 => match token {",
  codes% "\t\t\t\t'0'..='9' | 'A'..='Z' | 'a'..='z' => 64u32,",
  codes% "\t\t\t\t_ => return false,",
  codes% "\t\t\t},",
  codes% "\t\t\t18u32 => match token {",
  codes% "\t\t\t\t'-' => 21u32,",
  codes% "\t\t\t\t'A'..='Z' | 'a'..='z' => 20u32,",
  codes% "\t\t\t\t_ => return false,",
  codes% "\t\t\t},",
  codes% "\t\t\t19u32 => match token {",
  codes% "\t\t\t\t'0'..='9' => 22u32,",
  codes% "\t\t\t\t'A'..='W' | 'Y'..='Z' | 'a'..='w' | 'y'..='z' => 23u32,",
  codes% "\t\t\t\t'X' | 'x' => 24u32,",
  codes% "\t\t\t\t_ => return false,",
  codes% "\t\t\t},",
  codes% "\t\t\t20u32 => match token {",
  codes% "\t\t\t\t'-' => 19u32,",
  codes% "\t\t\t\t'A'..='Z' | 'a'..='z' => 25u32,",
  codes% "\t\t\t\t_ => return false,",
  codes% "\t\t\t},",
  codes% "\t\t\t21u32 => match token {",
  codes% "\t\t\t\t'0'..='9' => 22u32,",
  codes% "\t\t\t\t'A'..='F'",
  codes% "\t\t\t\t| 'I'..='L'",
  codes% "\t\t\t\t| 'N'..='W'",
  codes% "\t\t\t\t| 'Y'..='Z'",
  codes% "\t\t\t\t| 'a'..='f'",
  codes% "\t\t\t\t| 'i'..='l'",
  codes% "\t\t\t\t| 'n'..='w'",
  codes% "\t\t\t\t| 'y'..='z' => 23u32,",
  codes% "\t\t\t\t'G' | 'g' => 88u32,",
  codes% "\t\t\t\t'H' | 'h' => 89u32,",
  codes% "\t\t\t\t'M' | 'm' => 90u32,",
  codes% "\t\t\t\t'X' | 'x' => 91u32,",
  codes% "\t\t\t\t_ => return false,",
  codes% "\t\t\t},",
  codes% "\t\t\t22u32 => match token {",
  codes% "\t\t\t\t'-' => 33u32,",
  codes% "\t\t\t\t'0'..='9' => 34u32,",
  codes% "\t\t\t\t'A'..='Z' | 'a'..='z' => 35u32,",
  codes% "\t\t\t\t_ => return false,",
  codes% "\t\t\t},",
  codes% "\t\t\t23u32 => match token {",
  codes% "\t\t\t\t'-' => 33u32,",
  codes% "\t\t\t\t'0'..='9' => 36u32,",
  codes% "\t\t\t\t'A'..='Z' | 'a'..='z' => 76u32,",
  codes% "\t\t\t\t_ => return false,",
  codes% "\t\t\t},",
  codes% "\t\t\t24u32 => match token {",
  codes% "\t\t\t\t'-' => 17u32,",
  codes% "\t\t\t\t'0'..='9' => 36u32,",
  codes% "\t\t\t\t'A'..='Z' | 'a'..='z' => 76u32,",
  codes% "\t\t\t\t_ => return false,",
  codes% "\t\t\t},",
  codes% "\t\t\t25u32 => match token {",
  codes% "\t\t\t\t'-' => 26u32,",
  codes% "\t\t\t\t'A'..='Z' | 'a'..='z' => 27u32,",
  codes% "\t\t\t\t_ => return false,",
  codes% "\t\t\t},",
  codes% "\t\t\t26u32 => match token {",
  codes% "\t\t\t\t'0'..='9' => 22u32,",
  codes% "\t\t\t\t'A'..='W' | 'Y'..='Z' | 'a'..='w' | 'y'..='z' => 28u32,",
  codes% "\t\t\t\t'X' | 'x' => 29u32,",
  codes% "\t\t\t\t_ => return false,",
  codes% "\t\t\t},",
  codes% "\t\t\t27u32 => match token {",
  codes% "\t\t\t\t'-' => 26u32,",
  codes% "\t\t\t\t'A'..='Z' | 'a'..='z' => 30u32,",
  codes% "\t\t\t\t_ => return false,",
  codes% "\t\t\t},",
  codes% "\t\t\t28u32 => match token {",
  codes% "\t\t\t\t'-' => 33u32,",
  codes% "\t\t\t\t'0'..='9' => 36u32,",
  codes% "\t\t\t\t'A'..='Z' | 'a'..='z' => 37u32,"]

/-- Lines 201 to 300. -/
def grammarRs2 : List (List Nat) := [
  codes% "\t\t\t\t_ => return false,",
  codes% "\t\t\t},",
  codes% "\t\t\t29u32 => match token {",
  codes% "\t\t\t\t'-' => 17u32,",
  codes% "\t\t\t\t'0'..='9' => 36u32,",
  codes% "\t\t\t\t'A'..='Z' | 'a'..='z' => 37u32,",
  codes% "\t\t\t\t_ => return false,",
  codes% "\t\t\t},",
  codes% "\t\t\t30u32 => match token {",
  codes% "\t\t\t\t'-' => 26u32,",
  codes% "\t\t\t\t'A'..='Z' | 'a'..='z' => 31u32,",
  codes% "\t\t\t\t_ => return false,",
  codes% "\t\t\t},",
  codes% "\t\t\t31u32 => match token {",
  codes% "\t\t\t\t'-' => 26u32,",
  codes% "\t\t\t\t'A'..='Z' | 'a'..='z' => 32u32,",
  codes% "\t\t\t\t_ => return false,",
  codes% "\t\t\t},",
  codes% "\t\t\t32u32 => match token {",
  codes% "\t\t\t\t'-' => 26u32,",
  codes% "\t\t\t\t_ => return false,",
  codes% "\t\t\t},",
  codes% "\t\t\t33u32 => match token {",
  codes% "\t\t\t\t'0'..='9' | 'A'..='Z' | 'a'..='z' => 38u32,",
  codes% "\t\t\t\t_ => return false,",
  codes% "\t\t\t},",
  codes% "\t\t\t34u32 => match token {",
  codes% "\t\t\t\t'0'..='9' => 75u32,",
  codes% "\t\t\t\t'A'..='Z' | 'a'..='z' => 72u32,",
  codes% "\t\t\t\t_ => return false,",
  codes% "\t\t\t},",
  codes% "\t\t\t35u32 => match token {",
  codes% "\t\t\t\t'0'..='9' | 'A'..='Z' | 'a'..='z' => 72u32,",
  codes% "\t\t\t\t_ => return false,",
  codes% "\t\t\t},",
  codes% "\t\t\t36u32 => match token {",
  codes% "\t\t\t\t'0'..='9' | 'A'..='Z' | 'a'..='z' => 39u32,",
  codes% "\t\t\t\t_ => return false,",
  codes% "\t\t\t},",
  codes% "\t\t\t37u32 => match token {",
  codes% "\t\t\t\t'-' => 40u32,",
  codes% "\t\t\t\t'0'..='9' => 39u32,",
  codes% "\t\t\t\t'A'..='Z' | 'a'..='z' => 41u32,",
  codes% "\t\t\t\t_ => return false,",
  codes% "\t\t\t},",
  codes% "\t\t\t38u32 => match token {",
  codes% "\t\t\t\t'0'..='9' | 'A'..='Z' | 'a'..='z' => 54u32,",
  codes% "\t\t\t\t_ => return false,",
  codes% "\t\t\t},",
  codes% "\t\t\t39u32 => match token {",
  codes% "\t\t\t\t'0'..='9' | 'A'..='Z' | 'a'..='z' => 45u32,",
  codes% "\t\t\t\t_ => return false,",
  codes% "\t\t\t},",
  codes% "\t\t\t40u32 => match token {",
  codes% "\t\t\t\t'0'..='9' => 42u32,",
  codes% "\t\t\t\t'A'..='W' | 'Y'..='Z' | 'a'..='w' | 'y'..='z' => 43u32,",
  codes% "\t\t\t\t'X' | 'x' => 44u32,",
  codes% "\t\t\t\t_ => return false,",
  codes% "\t\t\t},",
  codes% "\t\t\t41u32 => match token {",
  codes% "\t\t\t\t'0'..='9' => 45u32,",
  codes% "\t\t\t\t'A'..='Z' | 'a'..='z' => 46u32,",
  codes% "\t\t\t\t_ => return false,",
  codes% "\t\t\t},",
  codes% "\t\t\t42u32 => match token {",
  codes% "\t\t\t\t'-' => 33u32,",
  codes% "\t\t\t\t'0'..='9' | 'A'..='Z' | 'a'..='z' => 35u32,",
  codes% "\t\t\t\t_ => return false,",
  codes% "\t\t\t},",
  codes% "\t\t\t43u32 => match token {",
  codes% "\t\t\t\t'-' => 33u32,",
  codes% "\t\t\t\t'0'..='9' | 'A'..='Z' | 'a'..='z' => 36u32,",
  codes% "\t\t\t\t_ => return false,",
  codes% "\t\t\t},",
  codes% "\t\t\t44u32 => match token {",
  codes% "\t\t\t\t'-' => 17u32,",
  codes% "\t\t\t\t'0'..='9' | 'A'..='Z' | 'a'..='z' => 36u32,",
  codes% "\t\t\t\t_ => return false,",
  codes% "\t\t\t},",
  codes% "\t\t\t45u32 => match token {",
  codes% "\t\t\t\t'0'..='9' | 'A'..='Z' | 'a'..='z' => 47u32,",
  codes% "\t\t\t\t_ => return false,",
  codes% "\t\t\t},",
  codes% "\t\t\t46u32 => match token {",
  codes% "\t\t\t\t'-' => 48u32,",
  codes% "\t\t\t\t'0'..='9' | 'A'..='Z' | 'a'..='z' => 47u32,",
  codes% "\t\t\t\t_ => return false,",
  codes% "\t\t\t},",
  codes% "\t\t\t47u32 => match token {",
  codes% "\t\t\t\t'-' => 40u32,",
  codes% "\t\t\t\t'0'..='9' | 'A'..='Z' | 'a'..='z' => 51u32,",
  codes% "\t\t\t\t_ => return false,",
  codes% "\t\t\t},",
  codes% "\t\t\t48u32 => match token {",
  codes% "\t\t\t\t'0'..='9' => 22u32,",
  codes% "\t\t\t\t'A'..='W' | 'Y'..='Z' | 'a'..='w' | 'y'..='z' => 49u32,",
  codes% "\t\t\t\t'X' | 'x' => 50u32,",
  codes% "\t\t\t\t_ => return false,",
  codes% "\t\t\t},",
  codes% "\t\t\t49u32 => match token {"]

/-- Lines 301 to 400. -/
def grammarRs3 : List (List Nat) := [
  codes% "\t\t\t\t'-' => 33u32,",
  codes% "\t\t\t\t'0'..='9' => 36u32,",
  codes% "\t\t\t\t'A'..='Z' | 'a'..='z' => 74u32,",
  codes% "\t\t\t\t_ => return false,",
  codes% "\t\t\t},",
  codes% "\t\t\t50u32 => match token {",
  codes% "\t\t\t\t'-' => 17u32,",
  codes% "\t\t\t\t'0'..='9' => 36u32,",
  codes% "\t\t\t\t'A'..='Z' | 'a'..='z' => 74u32,",
  codes% "\t\t\t\t_ => return false,",
  codes% "\t\t\t},",
  codes% "\t\t\t51u32 => match token {",
  codes% "\t\t\t\t'-' => 40u32,",
  codes% "\t\t\t\t'0'..='9' | 'A'..='Z' | 'a'..='z' => 52u32,",
  codes% "\t\t\t\t_ => return false,",
  codes% "\t\t\t},",
  codes% "\t\t\t52u32 => match token {",
  codes% "\t\t\t\t'-' => 40u32,",
  codes% "\t\t\t\t'0'..='9' | 'A'..='Z' | 'a'..='z' => 53u32,",
  codes% "\t\t\t\t_ => return false,",
  codes% "\t\t\t},",
  codes% "\t\t\t53u32 => match token {",
  codes% "\t\t\t\t'-' => 40u32,",
  codes% "\t\t\t\t_ => return false,",
  codes% "\t\t\t},",
  codes% "\t\t\t54u32 => match token {",
  codes% "\t\t\t\t'-' => 55u32,",
  codes% "\t\t\t\t'0'..='9' | 'A'..='Z' | 'a'..='z' => 56u32,",
  codes% "\t\t\t\t_ => return false,",
  codes% "\t\t\t},",
  codes% "\t\t\t55u32 => match token {",
  codes% "\t\t\t\t'0'..='9' | 'A'..='W' | 'Y'..='Z' | 'a'..='w' | 'y'..='z' => 57u32,",
  codes% "\t\t\t\t'X' | 'x' => 58u32,",
  codes% "\t\t\t\t_ => return false,",
  codes% "\t\t\t},",
  codes% "\t\t\t56u32 => match token {",
  codes% "\t\t\t\t'-' => 55u32,",
  codes% "\t\t\t\t'0'..='9' | 'A'..='Z' | 'a'..='z' => 59u32,",
  codes% "\t\t\t\t_ => return false,",
  codes% "\t\t\t},",
  codes% "\t\t\t57u32 => match token {",
  codes% "\t\t\t\t'-' => 33u32,",
  codes% "\t\t\t\t'0'..='9' | 'A'..='Z' | 'a'..='z' => 54u32,",
  codes% "\t\t\t\t_ => return false,",
  codes% "\t\t\t},",
  codes% "\t\t\t58u32 => match token {",
  codes% "\t\t\t\t'-' => 17u32,",
  codes% "\t\t\t\t'0'..='9' | 'A'..='Z' | 'a'..='z' => 54u32,",
  codes% "\t\t\t\t_ => return false,",
  codes% "\t\t\t},",
  codes% "\t\t\t59u32 => match token {",
  codes% "\t\t\t\t'-' => 55u32,",
  codes% "\t\t\t\t'0'..='9' | 'A'..='Z' | 'a'..='z' => 60u32,",
  codes% "\t\t\t\t_ => return false,",
  codes% "\t\t\t},",
  codes% "\t\t\t60u32 => match token {",
  codes% "\t\t\t\t'-' => 55u32,",
  codes% "\t\t\t\t'0'..='9' | 'A'..='Z' | 'a'..='z' => 61u32,",
  codes% "\t\t\t\t_ => return false,",
  codes% "\t\t\t},",
  codes% "\t\t\t61u32 => match token {",
  codes% "\t\t\t\t'-' => 55u32,",
  codes% "\t\t\t\t'0'..='9' | 'A'..='Z' | 'a'..='z' => 62u32,",
  codes% "\t\t\t\t_ => return false,",
  codes% "\t\t\t},",
  codes% "\t\t\t62u32 => match token {",
  codes% "\t\t\t\t'-' => 55u32,",
  codes% "\t\t\t\t'0'..='9' | 'A'..='Z' | 'a'..='z' => 63u32,",
  codes% "\t\t\t\t_ => return false,",
  codes% "\t\t\t},",
  codes% "\t\t\t63u32 => match token {",
  codes% "\t\t\t\t'-' => 55u32,",
  codes% "\t\t\t\t_ => return false,",
  codes% "\t\t\t},",
  codes% "\t\t\t64u32 => match token {",
  codes% "\t\t\t\t'-' => 17u32,",
  codes% "\t\t\t\t'0'..='9' | 'A'..='Z' | 'a'..='z' => 65u32,",
  codes% "\t\t\t\t_ => return false,",
  codes% "\t\t\t},",
  codes% "\t\t\t65u32 => match token {",
  codes% "\t\t\t\t'-' => 17u32,",
  codes% "\t\t\t\t'0'..='9' | 'A'..='Z' | 'a'..='z' => 66u32,",
  codes% "\t\t\t\t_ => return false,",
  codes% "\t\t\t},",
  codes% "\t\t\t66u32 => match token {",
  codes% "\t\t\t\t'-' => 17u32,",
  codes% "\t\t\t\t'0'..='9' | 'A'..='Z' | 'a'..='z' => 67u32,",
  codes% "\t\t\t\t_ => return false,",
  codes% "\t\t\t},",
  codes% "\t\t\t67u32 => match token {",
  codes% "\t\t\t\t'-' => 17u32,",
  codes% "\t\t\t\t'0'..='9' | 'A'..='Z' | 'a'..='z' => 68u32,",
  codes% "\t\t\t\t_ => return false,",
  codes% "\t\t\t},",
  codes% "\t\t\t68u32 => match token {",
  codes% "\t\t\t\t'-' => 17u32,",
  codes% "\t\t\t\t'0'..='9' | 'A'..='Z' | 'a'..='z' => 69u32,",
  codes% "\t\t\t\t_ => return false,",
  codes% "\t\t\t},",
  codes% "\t\t\t69u32 => match token {"]

/-- Lines 401 to 500. -/
def grammarRs4 : List (List Nat) := [
  codes% "\t\t\t\t'-' => 17u32,",
  codes% "\t\t\t\t'0'..='9' | 'A'..='Z' | 'a'..='z' => 70u32,",
  codes% "\t\t\t\t_ => return false,",
  codes% "\t\t\t},",
  codes% "\t\t\t70u32 => match token {",
  codes% "\t\t\t\t'-' => 17u32,",
  codes% "\t\t\t\t'0'..='9' | 'A'..='Z' | 'a'..='z' => 71u32,",
  codes% "\t\t\t\t_ => return false,",
  codes% "\t\t\t},",
  codes% "\t\t\t71u32 => match token {",
  codes% "\t\t\t\t'-' => 17u32,",
  codes% "\t\t\t\t_ => return false,",
  codes% "\t\t\t},",
  codes% "\t\t\t72u32 => match token {",
  codes% "\t\t\t\t'0'..='9' | 'A'..='Z' | 'a'..='z' => 73u32,",
  codes% "\t\t\t\t_ => return false,",
  codes% "\t\t\t},",
  codes% "\t\t\t73u32 => match token {",
  codes% "\t\t\t\t'-' => 40u32,",
  codes% "\t\t\t\t'0'..='9' | 'A'..='Z' | 'a'..='z' => 47u32,",
  codes% "\t\t\t\t_ => return false,",
  codes% "\t\t\t},",
  codes% "\t\t\t74u32 => match token {",
  codes% "\t\t\t\t'-' => 40u32,",
  codes% "\t\t\t\t'0'..='9' | 'A'..='Z' | 'a'..='z' => 39u32,",
  codes% "\t\t\t\t_ => return false,",
  codes% "\t\t\t},",
  codes% "\t\t\t75u32 => match token {",
  codes% "\t\t\t\t'-' => 40u32,",
  codes% "\t\t\t\t'0'..='9' | 'A'..='Z' | 'a'..='z' => 73u32,",
  codes% "\t\t\t\t_ => return false,",
  codes% "\t\t\t},",
  codes% "\t\t\t76u32 => match token {",
  codes% "\t\t\t\t'-' => 40u32,",
  codes% "\t\t\t\t'0'..='9' => 39u32,",
  codes% "\t\t\t\t'A'..='Z' | 'a'..='z' => 77u32,",
  codes% "\t\t\t\t_ => return false,",
  codes% "\t\t\t},",
  codes% "\t\t\t77u32 => match token {",
  codes% "\t\t\t\t'-' => 78u32,",
  codes% "\t\t\t\t'0'..='9' => 45u32,",
  codes% "\t\t\t\t'A'..='Z' | 'a'..='z' => 46u32,",
  codes% "\t\t\t\t_ => return false,",
  codes% "\t\t\t},",
  codes% "\t\t\t78u32 => match token {",
  codes% "\t\t\t\t'0'..='9' => 22u32,",
  codes% "\t\t\t\t'A'..='W' | 'Y'..='Z' | 'a'..='w' | 'y'..='z' => 79u32,",
  codes% "\t\t\t\t'X' | 'x' => 80u32,",
  codes% "\t\t\t\t_ => return false,",
  codes% "\t\t\t},",
  codes% "\t\t\t79u32 => match token {",
  codes% "\t\t\t\t'-' => 33u32,",
  codes% "\t\t\t\t'0'..='9' => 36u32,",
  codes% "\t\t\t\t'A'..='Z' | 'a'..='z' => 81u32,",
  codes% "\t\t\t\t_ => return false,",
  codes% "\t\t\t},",
  codes% "\t\t\t80u32 => match token {",
  codes% "\t\t\t\t'-' => 17u32,",
  codes% "\t\t\t\t'0'..='9' => 36u32,",
  codes% "\t\t\t\t'A'..='Z' | 'a'..='z' => 81u32,",
  codes% "\t\t\t\t_ => return false,",
  codes% "\t\t\t},",
  codes% "\t\t\t81u32 => match token {",
  codes% "\t\t\t\t'-' => 40u32,",
  codes% "\t\t\t\t'0'..='9' => 39u32,",
  codes% "\t\t\t\t'A'..='Z' | 'a'..='z' => 82u32,",
  codes% "\t\t\t\t_ => return false,",
  codes% "\t\t\t},",
  codes% "\t\t\t82u32 => match token {",
  codes% "\t\t\t\t'-' => 83u32,",
  codes% "\t\t\t\t'0'..='9' => 45u32,",
  codes% "\t\t\t\t'A'..='Z' | 'a'..='z' => 46u32,",
  codes% "\t\t\t\t_ => return false,",
  codes% "\t\t\t},",
  codes% "\t\t\t83u32 => match token {",
  codes% "\t\t\t\t'0'..='9' => 22u32,",
  codes% "\t\t\t\t'A'..='W' | 'Y'..='Z' | 'a'..='w' | 'y'..='z' => 84u32,",
  codes% "\t\t\t\t'X' | 'x' => 85u32,",
  codes% "\t\t\t\t_ => return false,",
  codes% "\t\t\t},",
  codes% "\t\t\t84u32 => match token {",
  codes% "\t\t\t\t'-' => 33u32,",
  codes% "\t\t\t\t'0'..='9' => 36u32,",
  codes% "\t\t\t\t'A'..='Z' | 'a'..='z' => 86u32,",
  codes% "\t\t\t\t_ => return false,",
  codes% "\t\t\t},",
  codes% "\t\t\t85u32 => match token {",
  codes% "\t\t\t\t'-' => 17u32,",
  codes% "\t\t\t\t'0'..='9' => 36u32,",
  codes% "\t\t\t\t'A'..='Z' | 'a'..='z' => 86u32,",
  codes% "\t\t\t\t_ => return false,",
  codes% "\t\t\t},",
  codes% "\t\t\t86u32 => match token {",
  codes% "\t\t\t\t'-' => 40u32,",
  codes% "\t\t\t\t'0'..='9' => 39u32,",
  codes% "\t\t\t\t'A'..='Z' | 'a'..='z' => 87u32,",
  codes% "\t\t\t\t_ => return false,",
  codes% "\t\t\t},",
  codes% "\t\t\t87u32 => match token {",
  codes% "\t\t\t\t'-' => 26u32,"]

/-- Lines 501 to 600. -/
def grammarRs5 : List (List Nat) := [
  codes% "\t\t\t\t'0'..='9' => 45u32,",
  codes% "\t\t\t\t'A'..='Z' | 'a'..='z' => 46u32,",
  codes% "\t\t\t\t_ => return false,",
  codes% "\t\t\t},",
  codes% "\t\t\t88u32 => match token {",
  codes% "\t\t\t\t'-' => 33u32,",
  codes% "\t\t\t\t'0'..='9' => 36u32,",
  codes% "\t\t\t\t'A'..='T' | 'V'..='Z' | 'a'..='t' | 'v'..='z' => 76u32,",
  codes% "\t\t\t\t'U' | 'u' => 92u32,",
  codes% "\t\t\t\t_ => return false,",
  codes% "\t\t\t},",
  codes% "\t\t\t89u32 => match token {",
  codes% "\t\t\t\t'-' => 33u32,",
  codes% "\t\t\t\t'0'..='9' => 36u32,",
  codes% "\t\t\t\t'A' | 'a' => 93u32,",
  codes% "\t\t\t\t'B'..='Z' | 'b'..='z' => 76u32,",
  codes% "\t\t\t\t_ => return false,",
  codes% "\t\t\t},",
  codes% "\t\t\t90u32 => match token {",
  codes% "\t\t\t\t'-' => 33u32,",
  codes% "\t\t\t\t'0'..='9' => 36u32,",
  codes% "\t\t\t\t'A'..='H' | 'J'..='Z' | 'a'..='h' | 'j'..='z' => 76u32,",
  codes% "\t\t\t\t'I' | 'i' => 94u32,",
  codes% "\t\t\t\t_ => return false,",
  codes% "\t\t\t},",
  codes% "\t\t\t91u32 => match token {",
  codes% "\t\t\t\t'-' => 17u32,",
  codes% "\t\t\t\t'0'..='9' => 36u32,",
  codes% "\t\t\t\t'A'..='H' | 'J'..='Z' | 'a'..='h' | 'j'..='z' => 76u32,",
  codes% "\t\t\t\t'I' | 'i' => 95u32,",
  codes% "\t\t\t\t_ => return false,",
  codes% "\t\t\t},",
  codes% "\t\t\t92u32 => match token {",
  codes% "\t\t\t\t'-' => 40u32,",
  codes% "\t\t\t\t'0'..='9' => 39u32,",
  codes% "\t\t\t\t'A'..='N' | 'P'..='Z' | 'a'..='n' | 'p'..='z' => 77u32,",
  codes% "\t\t\t\t'O' | 'o' => 104u32,",
  codes% "\t\t\t\t_ => return false,",
  codes% "\t\t\t},",
  codes% "\t\t\t93u32 => match token {",
  codes% "\t\t\t\t'-' => 40u32,",
  codes% "\t\t\t\t'0'..='9' => 39u32,",
  codes% "\t\t\t\t'A'..='J' | 'L'..='Z' | 'a'..='j' | 'l'..='z' => 77u32,",
  codes% "\t\t\t\t'K' | 'k' => 102u32,",
  codes% "\t\t\t\t_ => return false,",
  codes% "\t\t\t},",
  codes% "\t\t\t94u32 => match token {",
  codes% "\t\t\t\t'-' => 40u32,",
  codes% "\t\t\t\t'0'..='9' => 39u32,",
  codes% "\t\t\t\t'A'..='M' | 'O'..='Z' | 'a'..='m' | 'o'..='z' => 77u32,",
  codes% "\t\t\t\t'N' | 'n' => 98u32,",
  codes% "\t\t\t\t_ => return false,",
  codes% "\t\t\t},",
  codes% "\t\t\t95u32 => match token {",
  codes% "\t\t\t\t'-' => 40u32,",
  codes% "\t\t\t\t'0'..='9' => 39u32,",
  codes% "\t\t\t\t'A' | 'a' => 96u32,",
  codes% "\t\t\t\t'B'..='Z' | 'b'..='z' => 77u32,",
  codes% "\t\t\t\t_ => return false,",
  codes% "\t\t\t},",
  codes% "\t\t\t96u32 => match token {",
  codes% "\t\t\t\t'-' => 78u32,",
  codes% "\t\t\t\t'0'..='9' => 45u32,",
  codes% "\t\t\t\t'A'..='M' | 'O'..='Z' | 'a'..='m' | 'o'..='z' => 46u32,",
  codes% "\t\t\t\t'N' | 'n' => 97u32,",
  codes% "\t\t\t\t_ => return false,",
  codes% "\t\t\t},",
  codes% "\t\t\t97u32 => match token {",
  codes% "\t\t\t\t'-' => 48u32,",
  codes% "\t\t\t\t'0'..='9' | 'A'..='Z' | 'a'..='z' => 47u32,",
  codes% "\t\t\t\t_ => return false,",
  codes% "\t\t\t},",
  codes% "\t\t\t98u32 => match token {",
  codes% "\t\t\t\t'-' => 99u32,",
  codes% "\t\t\t\t'0'..='9' => 45u32,",
  codes% "\t\t\t\t'A'..='Z' | 'a'..='z' => 46u32,",
  codes% "\t\t\t\t_ => return false,",
  codes% "\t\t\t},",
  codes% "\t\t\t99u32 => match token {",
  codes% "\t\t\t\t'0'..='9' => 22u32,",
  codes% "\t\t\t\t'A'..='M' | 'O'..='W' | 'Y'..='Z' | 'a'..='m' | 'o'..='w' | 'y'..='z' => 79u32,",
  codes% "\t\t\t\t'N' | 'n' => 100u32,",
  codes% "\t\t\t\t'X' | 'x' => 80u32,",
  codes% "\t\t\t\t_ => return false,",
  codes% "\t\t\t},",
  codes% "\t\t\t100u32 => match token {",
  codes% "\t\t\t\t'-' => 33u32,",
  codes% "\t\t\t\t'0'..='9' => 36u32,",
  codes% "\t\t\t\t'A' | 'a' => 101u32,",
  codes% "\t\t\t\t'B'..='Z' | 'b'..='z' => 81u32,",
  codes% "\t\t\t\t_ => return false,",
  codes% "\t\t\t},",
  codes% "\t\t\t101u32 => match token {",
  codes% "\t\t\t\t'-' => 40u32,",
  codes% "\t\t\t\t'0'..='9' => 39u32,",
  codes% "\t\t\t\t'A'..='Z' | 'a'..='z' => 82u32,",
  codes% "\t\t\t\t_ => return false,",
  codes% "\t\t\t},",
  codes% "\t\t\t102u32 => match token {",
  codes% "\t\t\t\t'-' => 78u32,"]

/-- Lines 601 to 700. -/
def grammarRs6 : List (List Nat) := [
  codes% "\t\t\t\t'0'..='9' => 45u32,",
  codes% "\t\t\t\t'A'..='J' | 'L'..='Z' | 'a'..='j' | 'l'..='z' => 46u32,",
  codes% "\t\t\t\t'K' | 'k' => 103u32,",
  codes% "\t\t\t\t_ => return false,",
  codes% "\t\t\t},",
  codes% "\t\t\t103u32 => match token {",
  codes% "\t\t\t\t'-' => 48u32,",
  codes% "\t\t\t\t'0'..='9' | 'A'..='Z' | 'a'..='z' => 47u32,",
  codes% "\t\t\t\t_ => return false,",
  codes% "\t\t\t},",
  codes% "\t\t\t104u32 => match token {",
  codes% "\t\t\t\t'-' => 78u32,",
  codes% "\t\t\t\t'0'..='9' => 45u32,",
  codes% "\t\t\t\t'A'..='X' | 'Z' | 'a'..='x' | 'z' => 46u32,",
  codes% "\t\t\t\t'Y' | 'y' => 105u32,",
  codes% "\t\t\t\t_ => return false,",
  codes% "\t\t\t},",
  codes% "\t\t\t105u32 => match token {",
  codes% "\t\t\t\t'-' => 48u32,",
  codes% "\t\t\t\t'0'..='9' | 'A'..='Z' | 'a'..='z' => 47u32,",
  codes% "\t\t\t\t_ => return false,",
  codes% "\t\t\t},",
  codes% "\t\t\t106u32 => match token {",
  codes% "\t\t\t\t'-' => 107u32,",
  codes% "\t\t\t\t'A'..='Z' | 'a'..='z' => 25u32,",
  codes% "\t\t\t\t_ => return false,",
  codes% "\t\t\t},",
  codes% "\t\t\t107u32 => match token {",
  codes% "\t\t\t\t'0'..='9' => 22u32,",
  codes% "\t\t\t\t'A' | 'D'..='W' | 'Y'..='Z' | 'a' | 'd'..='w' | 'y'..='z' => 23u32,",
  codes% "\t\t\t\t'B' | 'b' => 108u32,",
  codes% "\t\t\t\t'C' | 'c' => 109u32,",
  codes% "\t\t\t\t'X' | 'x' => 24u32,",
  codes% "\t\t\t\t_ => return false,",
  codes% "\t\t\t},",
  codes% "\t\t\t108u32 => match token {",
  codes% "\t\t\t\t'-' => 33u32,",
  codes% "\t\t\t\t'0'..='9' => 36u32,",
  codes% "\t\t\t\t'A'..='D' | 'F'..='Z' | 'a'..='d' | 'f'..='z' => 76u32,",
  codes% "\t\t\t\t'E' | 'e' => 110u32,",
  codes% "\t\t\t\t_ => return false,",
  codes% "\t\t\t},",
  codes% "\t\t\t109u32 => match token {",
  codes% "\t\t\t\t'-' => 33u32,",
  codes% "\t\t\t\t'0'..='9' => 36u32,",
  codes% "\t\t\t\t'A'..='G' | 'I'..='Z' | 'a'..='g' | 'i'..='z' => 76u32,",
  codes% "\t\t\t\t'H' | 'h' => 111u32,",
  codes% "\t\t\t\t_ => return false,",
  codes% "\t\t\t},",
  codes% "\t\t\t110u32 => match token {",
  codes% "\t\t\t\t'-' => 115u32,",
  codes% "\t\t\t\t'0'..='9' => 39u32,",
  codes% "\t\t\t\t'A'..='Z' | 'a'..='z' => 77u32,",
  codes% "\t\t\t\t_ => return false,",
  codes% "\t\t\t},",
  codes% "\t\t\t111u32 => match token {",
  codes% "\t\t\t\t'-' => 112u32,",
  codes% "\t\t\t\t'0'..='9' => 39u32,",
  codes% "\t\t\t\t'A'..='Z' | 'a'..='z' => 77u32,",
  codes% "\t\t\t\t_ => return false,",
  codes% "\t\t\t},",
  codes% "\t\t\t112u32 => match token {",
  codes% "\t\t\t\t'0'..='9' => 42u32,",
  codes% "\t\t\t\t'A'..='C' | 'E'..='W' | 'Y'..='Z' | 'a'..='c' | 'e'..='w' | 'y'..='z' => 43u32,",
  codes% "\t\t\t\t'D' | 'd' => 113u32,",
  codes% "\t\t\t\t'X' | 'x' => 44u32,",
  codes% "\t\t\t\t_ => return false,",
  codes% "\t\t\t},",
  codes% "\t\t\t113u32 => match token {",
  codes% "\t\t\t\t'-' => 33u32,",
  codes% "\t\t\t\t'0'..='9' | 'A'..='D' | 'F'..='Z' | 'a'..='d' | 'f'..='z' => 36u32,",
  codes% "\t\t\t\t'E' | 'e' => 114u32,",
  codes% "\t\t\t\t_ => return false,",
  codes% "\t\t\t},",
  codes% "\t\t\t114u32 => match token {",
  codes% "\t\t\t\t'0'..='9' | 'A'..='Z' | 'a'..='z' => 39u32,",
  codes% "\t\t\t\t_ => return false,",
  codes% "\t\t\t},",
  codes% "\t\t\t115u32 => match token {",
  codes% "\t\t\t\t'0'..='9' => 42u32,",
  codes% "\t\t\t\t'A'..='E'",
  codes% "\t\t\t\t| 'G'..='M'",
  codes% "\t\t\t\t| 'O'..='W'",
  codes% "\t\t\t\t| 'Y'..='Z'",
  codes% "\t\t\t\t| 'a'..='e'",
  codes% "\t\t\t\t| 'g'..='m'",
  codes% "\t\t\t\t| 'o'..='w'",
  codes% "\t\t\t\t| 'y'..='z' => 43u32,",
  codes% "\t\t\t\t'F' | 'f' => 116u32,",
  codes% "\t\t\t\t'N' | 'n' => 117u32,",
  codes% "\t\t\t\t'X' | 'x' => 44u32,",
  codes% "\t\t\t\t_ => return false,",
  codes% "\t\t\t},",
  codes% "\t\t\t116u32 => match token {",
  codes% "\t\t\t\t'-' => 33u32,",
  codes% "\t\t\t\t'0'..='9' | 'A'..='Q' | 'S'..='Z' | 'a'..='q' | 's'..='z' => 36u32,",
  codes% "\t\t\t\t'R' | 'r' => 114u32,",
  codes% "\t\t\t\t_ => return false,",
  codes% "\t\t\t},",
  codes% "\t\t\t117u32 => match token {"]

/-- Lines 701 to 800. -/
def grammarRs7 : List (List Nat) := [
  codes% "\t\t\t\t'-' => 33u32,",
  codes% "\t\t\t\t'0'..='9' | 'A'..='K' | 'M'..='Z' | 'a'..='k' | 'm'..='z' => 36u32,",
  codes% "\t\t\t\t'L' | 'l' => 114u32,",
  codes% "\t\t\t\t_ => return false,",
  codes% "\t\t\t},",
  codes% "\t\t\t118u32 => match token {",
  codes% "\t\t\t\t'0'..='9' => 22u32,",
  codes% "\t\t\t\t'A'",
  codes% "\t\t\t\t| 'C'..='M'",
  codes% "\t\t\t\t| 'O'..='W'",
  codes% "\t\t\t\t| 'Y'..='Z'",
  codes% "\t\t\t\t| 'a'",
  codes% "\t\t\t\t| 'c'..='m'",
  codes% "\t\t\t\t| 'o'..='w'",
  codes% "\t\t\t\t| 'y'..='z' => 23u32,",
  codes% "\t\t\t\t'B' | 'b' => 119u32,",
  codes% "\t\t\t\t'N' | 'n' => 120u32,",
  codes% "\t\t\t\t'X' | 'x' => 24u32,",
  codes% "\t\t\t\t_ => return false,",
  codes% "\t\t\t},",
  codes% "\t\t\t119u32 => match token {",
  codes% "\t\t\t\t'-' => 33u32,",
  codes% "\t\t\t\t'0'..='9' => 36u32,",
  codes% "\t\t\t\t'A'..='N' | 'P'..='Z' | 'a'..='n' | 'p'..='z' => 76u32,",
  codes% "\t\t\t\t'O' | 'o' => 121u32,",
  codes% "\t\t\t\t_ => return false,",
  codes% "\t\t\t},",
  codes% "\t\t\t120u32 => match token {",
  codes% "\t\t\t\t'-' => 33u32,",
  codes% "\t\t\t\t'0'..='9' => 36u32,",
  codes% "\t\t\t\t'A'..='X' | 'Z' | 'a'..='x' | 'z' => 76u32,",
  codes% "\t\t\t\t'Y' | 'y' => 122u32,",
  codes% "\t\t\t\t_ => return false,",
  codes% "\t\t\t},",
  codes% "\t\t\t121u32 => match token {",
  codes% "\t\t\t\t'-' => 40u32,",
  codes% "\t\t\t\t'0'..='9' => 39u32,",
  codes% "\t\t\t\t'A'..='Z' | 'a'..='z' => 77u32,",
  codes% "\t\t\t\t_ => return false,",
  codes% "\t\t\t},",
  codes% "\t\t\t122u32 => match token {",
  codes% "\t\t\t\t'-' => 40u32,",
  codes% "\t\t\t\t'0'..='9' => 39u32,",
  codes% "\t\t\t\t'A'..='Z' | 'a'..='z' => 77u32,",
  codes% "\t\t\t\t_ => return false,",
  codes% "\t\t\t},",
  codes% "\t\t\t123u32 => match token {",
  codes% "\t\t\t\t'M' | 'm' => 134u32,",
  codes% "\t\t\t\t_ => return false,",
  codes% "\t\t\t},",
  codes% "\t\t\t124u32 => match token {",
  codes% "\t\t\t\t'N' | 'n' => 135u32,",
  codes% "\t\t\t\t_ => return false,",
  codes% "\t\t\t},",
  codes% "\t\t\t125u32 => match token {",
  codes% "\t\t\t\t'E' | 'e' => 136u32,",
  codes% "\t\t\t\t_ => return false,",
  codes% "\t\t\t},",
  codes% "\t\t\t126u32 => match token {",
  codes% "\t\t\t\t'N' | 'n' => 137u32,",
  codes% "\t\t\t\t_ => return false,",
  codes% "\t\t\t},",
  codes% "\t\t\t127u32 => match token {",
  codes% "\t\t\t\t'A' | 'a' => 138u32,",
  codes% "\t\t\t\t_ => return false,",
  codes% "\t\t\t},",
  codes% "\t\t\t128u32 => match token {",
  codes% "\t\t\t\t'L' | 'l' => 139u32,",
  codes% "\t\t\t\t_ => return false,",
  codes% "\t\t\t},",
  codes% "\t\t\t129u32 => match token {",
  codes% "\t\t\t\t'U' | 'u' => 140u32,",
  codes% "\t\t\t\t_ => return false,",
  codes% "\t\t\t},",
  codes% "\t\t\t130u32 => match token {",
  codes% "\t\t\t\t'I' | 'i' => 141u32,",
  codes% "\t\t\t\t_ => return false,",
  codes% "\t\t\t},",
  codes% "\t\t\t131u32 => match token {",
  codes% "\t\t\t\t'A' | 'a' => 142u32,",
  codes% "\t\t\t\t_ => return false,",
  codes% "\t\t\t},",
  codes% "\t\t\t132u32 => match token {",
  codes% "\t\t\t\t'W' | 'w' => 135u32,",
  codes% "\t\t\t\t_ => return false,",
  codes% "\t\t\t},",
  codes% "\t\t\t133u32 => match token {",
  codes% "\t\t\t\t'A' | 'a' => 143u32,",
  codes% "\t\t\t\t'S' | 's' => 144u32,",
  codes% "\t\t\t\t_ => return false,",
  codes% "\t\t\t},",
  codes% "\t\t\t134u32 => match token {",
  codes% "\t\t\t\t'I' | 'i' => 145u32,",
  codes% "\t\t\t\t_ => return false,",
  codes% "\t\t\t},",
  codes% "\t\t\t135u32 => match token {",
  codes% "\t\t\t\t'N' | 'n' => 145u32,",
  codes% "\t\t\t\t_ => return false,",
  codes% "\t\t\t},",
  codes% "\t\t\t136u32 => match token {"]

/-- Lines 801 to 900. -/
def grammarRs8 : List (List Nat) := [
  codes% "\t\t\t\t'F' | 'f' => 157u32,",
  codes% "\t\t\t\t_ => return false,",
  codes% "\t\t\t},",
  codes% "\t\t\t137u32 => match token {",
  codes% "\t\t\t\t'O' | 'o' => 153u32,",
  codes% "\t\t\t\t_ => return false,",
  codes% "\t\t\t},",
  codes% "\t\t\t138u32 => match token {",
  codes% "\t\t\t\t'K' | 'k' => 145u32,",
  codes% "\t\t\t\t_ => return false,",
  codes% "\t\t\t},",
  codes% "\t\t\t139u32 => match token {",
  codes% "\t\t\t\t'I' | 'i' => 150u32,",
  codes% "\t\t\t\t_ => return false,",
  codes% "\t\t\t},",
  codes% "\t\t\t140u32 => match token {",
  codes% "\t\t\t\t'X' | 'x' => 145u32,",
  codes% "\t\t\t\t_ => return false,",
  codes% "\t\t\t},",
  codes% "\t\t\t141u32 => match token {",
  codes% "\t\t\t\t'N' | 'n' => 149u32,",
  codes% "\t\t\t\t_ => return false,",
  codes% "\t\t\t},",
  codes% "\t\t\t142u32 => match token {",
  codes% "\t\t\t\t'V' | 'v' => 146u32,",
  codes% "\t\t\t\t_ => return false,",
  codes% "\t\t\t},",
  codes% "\t\t\t143u32 => match token {",
  codes% "\t\t\t\t'O' | 'Y' | 'o' | 'y' => 145u32,",
  codes% "\t\t\t\t_ => return false,",
  codes% "\t\t\t},",
  codes% "\t\t\t144u32 => match token {",
  codes% "\t\t\t\t'U' | 'u' => 145u32,",
  codes% "\t\t\t\t_ => return false,",
  codes% "\t\t\t},",
  codes% "\t\t\t146u32 => match token {",
  codes% "\t\t\t\t'A' | 'a' => 147u32,",
  codes% "\t\t\t\t_ => return false,",
  codes% "\t\t\t},",
  codes% "\t\t\t147u32 => match token {",
  codes% "\t\t\t\t'J' | 'j' => 148u32,",
  codes% "\t\t\t\t_ => return false,",
  codes% "\t\t\t},",
  codes% "\t\t\t148u32 => match token {",
  codes% "\t\t\t\t'O' | 'o' => 145u32,",
  codes% "\t\t\t\t_ => return false,",
  codes% "\t\t\t},",
  codes% "\t\t\t149u32 => match token {",
  codes% "\t\t\t\t'G' | 'g' => 148u32,",
  codes% "\t\t\t\t_ => return false,",
  codes% "\t\t\t},",
  codes% "\t\t\t150u32 => match token {",
  codes% "\t\t\t\t'N' | 'n' => 151u32,",
  codes% "\t\t\t\t_ => return false,",
  codes% "\t\t\t},",
  codes% "\t\t\t151u32 => match token {",
  codes% "\t\t\t\t'G' | 'g' => 152u32,",
  codes% "\t\t\t\t_ => return false,",
  codes% "\t\t\t},",
  codes% "\t\t\t152u32 => match token {",
  codes% "\t\t\t\t'O' | 'o' => 135u32,",
  codes% "\t\t\t\t_ => return false,",
  codes% "\t\t\t},",
  codes% "\t\t\t153u32 => match token {",
  codes% "\t\t\t\t'C' | 'c' => 154u32,",
  codes% "\t\t\t\t_ => return false,",
  codes% "\t\t\t},",
  codes% "\t\t\t154u32 => match token {",
  codes% "\t\t\t\t'H' | 'h' => 155u32,",
  codes% "\t\t\t\t_ => return false,",
  codes% "\t\t\t},",
  codes% "\t\t\t155u32 => match token {",
  codes% "\t\t\t\t'I' | 'i' => 156u32,",
  codes% "\t\t\t\t_ => return false,",
  codes% "\t\t\t},",
  codes% "\t\t\t156u32 => match token {",
  codes% "\t\t\t\t'A' | 'a' => 135u32,",
  codes% "\t\t\t\t_ => return false,",
  codes% "\t\t\t},",
  codes% "\t\t\t157u32 => match token {",
  codes% "\t\t\t\t'A' | 'a' => 158u32,",
  codes% "\t\t\t\t_ => return false,",
  codes% "\t\t\t},",
  codes% "\t\t\t158u32 => match token {",
  codes% "\t\t\t\t'U' | 'u' => 159u32,",
  codes% "\t\t\t\t_ => return false,",
  codes% "\t\t\t},",
  codes% "\t\t\t159u32 => match token {",
  codes% "\t\t\t\t'L' | 'l' => 160u32,",
  codes% "\t\t\t\t_ => return false,",
  codes% "\t\t\t},",
  codes% "\t\t\t160u32 => match token {",
  codes% "\t\t\t\t'T' | 't' => 145u32,",
  codes% "\t\t\t\t_ => return false,",
  codes% "\t\t\t},",
  codes% "\t\t\t161u32 => match token {",
  codes% "\t\t\t\t'0'..='9' => 22u32,",
  codes% "\t\t\t\t'A'..='F' | 'H'..='W' | 'Y'..='Z' | 'a'..='f' | 'h'..='w' | 'y'..='z' => 23u32,",
  codes% "\t\t\t\t'G' | 'g' => 162u32,",
  codes% "\t\t\t\t'X' | 'x' => 24u32,"]

/-- Lines 901 to 1000. -/
def grammarRs9 : List (List Nat) := [
  codes% "\t\t\t\t_ => return false,",
  codes% "\t\t\t},",
  codes% "\t\t\t162u32 => match token {",
  codes% "\t\t\t\t'-' => 33u32,",
  codes% "\t\t\t\t'0'..='9' => 36u32,",
  codes% "\t\t\t\t'A' | 'C'..='Z' | 'a' | 'c'..='z' => 76u32,",
  codes% "\t\t\t\t'B' | 'b' => 163u32,",
  codes% "\t\t\t\t_ => return false,",
  codes% "\t\t\t},",
  codes% "\t\t\t163u32 => match token {",
  codes% "\t\t\t\t'-' => 164u32,",
  codes% "\t\t\t\t'0'..='9' => 39u32,",
  codes% "\t\t\t\t'A'..='Z' | 'a'..='z' => 77u32,",
  codes% "\t\t\t\t_ => return false,",
  codes% "\t\t\t},",
  codes% "\t\t\t164u32 => match token {",
  codes% "\t\t\t\t'0'..='9' => 42u32,",
  codes% "\t\t\t\t'A'..='N' | 'P'..='W' | 'Y'..='Z' | 'a'..='n' | 'p'..='w' | 'y'..='z' => 43u32,",
  codes% "\t\t\t\t'O' | 'o' => 165u32,",
  codes% "\t\t\t\t'X' | 'x' => 44u32,",
  codes% "\t\t\t\t_ => return false,",
  codes% "\t\t\t},",
  codes% "\t\t\t165u32 => match token {",
  codes% "\t\t\t\t'-' => 33u32,",
  codes% "\t\t\t\t'0'..='9' | 'A'..='D' | 'F'..='Z' | 'a'..='d' | 'f'..='z' => 36u32,",
  codes% "\t\t\t\t'E' | 'e' => 166u32,",
  codes% "\t\t\t\t_ => return false,",
  codes% "\t\t\t},",
  codes% "\t\t\t166u32 => match token {",
  codes% "\t\t\t\t'0'..='9' | 'A'..='C' | 'E'..='Z' | 'a'..='c' | 'e'..='z' => 39u32,",
  codes% "\t\t\t\t'D' | 'd' => 167u32,",
  codes% "\t\t\t\t_ => return false,",
  codes% "\t\t\t},",
  codes% "\t\t\t167u32 => match token {",
  codes% "\t\t\t\t'0'..='9' | 'A'..='Z' | 'a'..='z' => 45u32,",
  codes% "\t\t\t\t_ => return false,",
  codes% "\t\t\t},",
  codes% "\t\t\t168u32 => match token {",
  codes% "\t\t\t\t'-' => 169u32,",
  codes% "\t\t\t\t'A'..='Z' | 'a'..='z' => 25u32,",
  codes% "\t\t\t\t_ => return false,",
  codes% "\t\t\t},",
  codes% "\t\t\t169u32 => match token {",
  codes% "\t\t\t\t'0'..='9' => 22u32,",
  codes% "\t\t\t\t'A'..='F' | 'H'..='W' | 'Y'..='Z' | 'a'..='f' | 'h'..='w' | 'y'..='z' => 23u32,",
  codes% "\t\t\t\t'G' | 'g' => 170u32,",
  codes% "\t\t\t\t'X' | 'x' => 24u32,",
  codes% "\t\t\t\t_ => return false,",
  codes% "\t\t\t},",
  codes% "\t\t\t170u32 => match token {",
  codes% "\t\t\t\t'-' => 33u32,",
  codes% "\t\t\t\t'0'..='9' => 36u32,",
  codes% "\t\t\t\t'A' | 'a' => 171u32,",
  codes% "\t\t\t\t'B'..='Z' | 'b'..='z' => 76u32,",
  codes% "\t\t\t\t_ => return false,",
  codes% "\t\t\t},",
  codes% "\t\t\t171u32 => match token {",
  codes% "\t\t\t\t'-' => 40u32,",
  codes% "\t\t\t\t'0'..='9' => 39u32,",
  codes% "\t\t\t\t'A'..='T' | 'V'..='Z' | 'a'..='t' | 'v'..='z' => 77u32,",
  codes% "\t\t\t\t'U' | 'u' => 172u32,",
  codes% "\t\t\t\t_ => return false,",
  codes% "\t\t\t},",
  codes% "\t\t\t172u32 => match token {",
  codes% "\t\t\t\t'-' => 78u32,",
  codes% "\t\t\t\t'0'..='9' => 45u32,",
  codes% "\t\t\t\t'A'..='K' | 'M'..='Z' | 'a'..='k' | 'm'..='z' => 46u32,",
  codes% "\t\t\t\t'L' | 'l' => 173u32,",
  codes% "\t\t\t\t_ => return false,",
  codes% "\t\t\t},",
  codes% "\t\t\t173u32 => match token {",
  codes% "\t\t\t\t'-' => 48u32,",
  codes% "\t\t\t\t'0'..='9' | 'A'..='H' | 'J'..='Z' | 'a'..='h' | 'j'..='z' => 47u32,",
  codes% "\t\t\t\t'I' | 'i' => 174u32,",
  codes% "\t\t\t\t_ => return false,",
  codes% "\t\t\t},",
  codes% "\t\t\t174u32 => match token {",
  codes% "\t\t\t\t'-' => 40u32,",
  codes% "\t\t\t\t'0'..='9' | 'A'..='R' | 'T'..='Z' | 'a'..='r' | 't'..='z' => 51u32,",
  codes% "\t\t\t\t'S' | 's' => 175u32,",
  codes% "\t\t\t\t_ => return false,",
  codes% "\t\t\t},",
  codes% "\t\t\t175u32 => match token {",
  codes% "\t\t\t\t'-' => 40u32,",
  codes% "\t\t\t\t'0'..='9' | 'A'..='Z' | 'a'..='z' => 52u32,",
  codes% "\t\t\t\t_ => return false,",
  codes% "\t\t\t},",
  codes% "\t\t\t176u32 => match token {",
  codes% "\t\t\t\t'-' => 177u32,",
  codes% "\t\t\t\t'A'..='Z' | 'a'..='z' => 25u32,",
  codes% "\t\t\t\t_ => return false,",
  codes% "\t\t\t},",
  codes% "\t\t\t177u32 => match token {",
  codes% "\t\t\t\t'0'..='9' => 22u32,",
  codes% "\t\t\t\t'A'..='K' | 'M'..='W' | 'Y'..='Z' | 'a'..='k' | 'm'..='w' | 'y'..='z' => 23u32,",
  codes% "\t\t\t\t'L' | 'l' => 178u32,",
  codes% "\t\t\t\t'X' | 'x' => 24u32,",
  codes% "\t\t\t\t_ => return false,",
  codes% "\t\t\t},",
  codes% "\t\t\t178u32 => match token {"]

/-- Lines 1001 to 1100. -/
def grammarRs10 : List (List Nat) := [
  codes% "\t\t\t\t'-' => 33u32,",
  codes% "\t\t\t\t'0'..='9' => 36u32,",
  codes% "\t\t\t\t'A'..='N' | 'P'..='Z' | 'a'..='n' | 'p'..='z' => 76u32,",
  codes% "\t\t\t\t'O' | 'o' => 179u32,",
  codes% "\t\t\t\t_ => return false,",
  codes% "\t\t\t},",
  codes% "\t\t\t179u32 => match token {",
  codes% "\t\t\t\t'-' => 40u32,",
  codes% "\t\t\t\t'0'..='9' => 39u32,",
  codes% "\t\t\t\t'A'..='I' | 'K'..='Z' | 'a'..='i' | 'k'..='z' => 77u32,",
  codes% "\t\t\t\t'J' | 'j' => 180u32,",
  codes% "\t\t\t\t_ => return false,",
  codes% "\t\t\t},",
  codes% "\t\t\t180u32 => match token {",
  codes% "\t\t\t\t'-' => 78u32,",
  codes% "\t\t\t\t'0'..='9' => 45u32,",
  codes% "\t\t\t\t'A' | 'C'..='Z' | 'a' | 'c'..='z' => 46u32,",
  codes% "\t\t\t\t'B' | 'b' => 181u32,",
  codes% "\t\t\t\t_ => return false,",
  codes% "\t\t\t},",
  codes% "\t\t\t181u32 => match token {",
  codes% "\t\t\t\t'-' => 48u32,",
  codes% "\t\t\t\t'0'..='9' | 'B'..='Z' | 'b'..='z' => 47u32,",
  codes% "\t\t\t\t'A' | 'a' => 182u32,",
  codes% "\t\t\t\t_ => return false,",
  codes% "\t\t\t},",
  codes% "\t\t\t182u32 => match token {",
  codes% "\t\t\t\t'-' => 40u32,",
  codes% "\t\t\t\t'0'..='9' | 'A'..='Z' | 'a'..='z' => 51u32,",
  codes% "\t\t\t\t_ => return false,",
  codes% "\t\t\t},",
  codes% "\t\t\t_ => return false,",
  codes% "\t\t};",
  codes% "\t\ttrue",
  codes% "\t}",
  codes% "\tpub const fn is_accepting(&self) -> bool {",
  codes% "\t\tmatches!(",
  codes% "\t\t\tself.state,",
  codes% "\t\t\t10u32",
  codes% "\t\t\t\t| 11u32 | 12u32",
  codes% "\t\t\t\t| 13u32 | 15u32",
  codes% "\t\t\t\t| 16u32 | 18u32",
  codes% "\t\t\t\t| 20u32 | 25u32",
  codes% "\t\t\t\t| 27u32 | 30u32",
  codes% "\t\t\t\t| 31u32 | 32u32",
  codes% "\t\t\t\t| 37u32 | 46u32",
  codes% "\t\t\t\t| 47u32 | 51u32",
  codes% "\t\t\t\t| 52u32 | 53u32",
  codes% "\t\t\t\t| 54u32 | 56u32",
  codes% "\t\t\t\t| 59u32 | 60u32",
  codes% "\t\t\t\t| 61u32 | 62u32",
  codes% "\t\t\t\t| 63u32 | 64u32",
  codes% "\t\t\t\t| 65u32 | 66u32",
  codes% "\t\t\t\t| 67u32 | 68u32",
  codes% "\t\t\t\t| 69u32 | 70u32",
  codes% "\t\t\t\t| 71u32 | 73u32",
  codes% "\t\t\t\t| 74u32 | 75u32",
  codes% "\t\t\t\t| 76u32 | 77u32",
  codes% "\t\t\t\t| 81u32 | 82u32",
  codes% "\t\t\t\t| 86u32 | 87u32",
  codes% "\t\t\t\t| 92u32 | 93u32",
  codes% "\t\t\t\t| 94u32 | 95u32",
  codes% "\t\t\t\t| 96u32 | 97u32",
  codes% "\t\t\t\t| 98u32 | 101u32",
  codes% "\t\t\t\t| 102u32 | 103u32",
  codes% "\t\t\t\t| 104u32 | 105u32",
  codes% "\t\t\t\t| 106u32 | 110u32",
  codes% "\t\t\t\t| 111u32 | 114u32",
  codes% "\t\t\t\t| 121u32 | 122u32",
  codes% "\t\t\t\t| 145u32 | 163u32",
  codes% "\t\t\t\t| 167u32 | 168u32",
  codes% "\t\t\t\t| 171u32 | 172u32",
  codes% "\t\t\t\t| 173u32 | 174u32",
  codes% "\t\t\t\t| 175u32 | 176u32",
  codes% "\t\t\t\t| 179u32 | 180u32",
  codes% "\t\t\t\t| 181u32 | 182u32",
  codes% "\t\t)",
  codes% "\t}",
  codes% "\tpub const fn validate_str(s: &str) -> bool {",
  codes% "\t\tSelf::validate_bytes(s.as_bytes())",
  codes% "\t}",
  codes% "\tpub const fn validate_bytes(bytes: &[u8]) -> bool {",
  codes% "\t\tlet mut i = 0;",
  codes% "\t\tlet mut automaton = Self::new();",
  codes% "\t\twhile i < bytes.len() {",
  codes% "\t\t\tmatch ::static_automata::decode_utf8_char(bytes, i) {",
  codes% "\t\t\t\tOk((c, len)) => {",
  codes% "\t\t\t\t\tif !automaton.push(c) {",
  codes% "\t\t\t\t\t\treturn false;",
  codes% "\t\t\t\t\t}",
  codes% "\t\t\t\t\ti += len;",
  codes% "\t\t\t\t}",
  codes% "\t\t\t\tErr(_) => return false,",
  codes% "\t\t\t}",
  codes% "\t\t}",
  codes% "\t\tautomaton.is_accepting()",
  codes% "\t}",
  codes% "}",
  codes% "pub struct Privateuse {",
  codes% "\tstate: u32,"]

/-- Lines 1101 to 1200. -/
def grammarRs11 : List (List Nat) := [
  codes% "}",
  codes% "impl Privateuse {",
  codes% "\tpub const fn new() -> Self {",
  codes% "\t\tSelf { state: 0u32 }",
  codes% "\t}",
  codes% "\tpub const fn push(&mut self, token: char) -> bool {",
  codes% "\t\tself.state = match self.state {",
  codes% "\t\t\t0u32 => match token {",
  codes% "\t\t\t\t'X' | 'x' => 1u32,",
  codes% "\t\t\t\t_ => return false,",
  codes% "\t\t\t},",
  codes% "\t\t\t1u32 => match token {",
  codes% "\t\t\t\t'-' => 2u32,",
  codes% "\t\t\t\t_ => return false,",
  codes% "\t\t\t},",
  codes% "\t\t\t2u32 => match token {",
  codes% "\t\t\t\t'0'..='9' | 'A'..='Z' | 'a'..='z' => 3u32,",
  codes% "\t\t\t\t_ => return false,",
  codes% "\t\t\t},",
  codes% "\t\t\t3u32 => match token {",
  codes% "\t\t\t\t'-' => 2u32,",
  codes% "\t\t\t\t'0'..='9' | 'A'..='Z' | 'a'..='z' => 4u32,",
  codes% "\t\t\t\t_ => return false,",
  codes% "\t\t\t},",
  codes% "\t\t\t4u32 => match token {",
  codes% "\t\t\t\t'-' => 2u32,",
  codes% "\t\t\t\t'0'..='9' | 'A'..='Z' | 'a'..='z' => 5u32,",
  codes% "\t\t\t\t_ => return false,",
  codes% "\t\t\t},",
  codes% "\t\t\t5u32 => match token {",
  codes% "\t\t\t\t'-' => 2u32,",
  codes% "\t\t\t\t'0'..='9' | 'A'..='Z' | 'a'..='z' => 6u32,",
  codes% "\t\t\t\t_ => return false,",
  codes% "\t\t\t},",
  codes% "\t\t\t6u32 => match token {",
  codes% "\t\t\t\t'-' => 2u32,",
  codes% "\t\t\t\t'0'..='9' | 'A'..='Z' | 'a'..='z' => 7u32,",
  codes% "\t\t\t\t_ => return false,",
  codes% "\t\t\t},",
  codes% "\t\t\t7u32 => match token {",
  codes% "\t\t\t\t'-' => 2u32,",
  codes% "\t\t\t\t'0'..='9' | 'A'..='Z' | 'a'..='z' => 8u32,",
  codes% "\t\t\t\t_ => return false,",
  codes% "\t\t\t},",
  codes% "\t\t\t8u32 => match token {",
  codes% "\t\t\t\t'-' => 2u32,",
  codes% "\t\t\t\t'0'..='9' | 'A'..='Z' | 'a'..='z' => 9u32,",
  codes% "\t\t\t\t_ => return false,",
  codes% "\t\t\t},",
  codes% "\t\t\t9u32 => match token {",
  codes% "\t\t\t\t'-' => 2u32,",
  codes% "\t\t\t\t'0'..='9' | 'A'..='Z' | 'a'..='z' => 10u32,",
  codes% "\t\t\t\t_ => return false,",
  codes% "\t\t\t},",
  codes% "\t\t\t10u32 => match token {",
  codes% "\t\t\t\t'-' => 2u32,",
  codes% "\t\t\t\t_ => return false,",
  codes% "\t\t\t},",
  codes% "\t\t\t_ => return false,",
  codes% "\t\t};",
  codes% "\t\ttrue",
  codes% "\t}",
  codes% "\tpub const fn is_accepting(&self) -> bool {",
  codes% "\t\tmatches!(",
  codes% "\t\t\tself.state,",
  codes% "\t\t\t3u32 | 4u32 | 5u32 | 6u32 | 7u32 | 8u32 | 9u32 | 10u32",
  codes% "\t\t)",
  codes% "\t}",
  codes% "\tpub const fn validate_str(s: &str) -> bool {",
  codes% "\t\tSelf::validate_bytes(s.as_bytes())",
  codes% "\t}",
  codes% "\tpub const fn validate_bytes(bytes: &[u8]) -> bool {",
  codes% "\t\tlet mut i = 0;",
  codes% "\t\tlet mut automaton = Self::new();",
  codes% "\t\twhile i < bytes.len() {",
  codes% "\t\t\tmatch ::static_automata::decode_utf8_char(bytes, i) {",
  codes% "\t\t\t\tOk((c, len)) => {",
  codes% "\t\t\t\t\tif !automaton.push(c) {",
  codes% "\t\t\t\t\t\treturn false;",
  codes% "\t\t\t\t\t}",
  codes% "\t\t\t\t\ti += len;",
  codes% "\t\t\t\t}",
  codes% "\t\t\t\tErr(_) => return false,",
  codes% "\t\t\t}",
  codes% "\t\t}",
  codes% "\t\tautomaton.is_accepting()",
  codes% "\t}",
  codes% "}",
  codes% "pub struct PrivateuseSubtag {",
  codes% "\tstate: u32,",
  codes% "}",
  codes% "impl PrivateuseSubtag {",
  codes% "\tpub const fn new() -> Self {",
  codes% "\t\tSelf { state: 0u32 }",
  codes% "\t}",
  codes% "\tpub const fn push(&mut self, token: char) -> bool {",
  codes% "\t\tself.state = match self.state {",
  codes% "\t\t\t0u32 => match token {",
  codes% "\t\t\t\t'0'..='9' | 'A'..='Z' | 'a'..='z' => 1u32,",
  codes% "\t\t\t\t_ => return false,"]

/-- Lines 1201 to 1300. -/
def grammarRs12 : List (List Nat) := [
  codes% "\t\t\t},",
  codes% "\t\t\t1u32 => match token {",
  codes% "\t\t\t\t'0'..='9' | 'A'..='Z' | 'a'..='z' => 2u32,",
  codes% "\t\t\t\t_ => return false,",
  codes% "\t\t\t},",
  codes% "\t\t\t2u32 => match token {",
  codes% "\t\t\t\t'0'..='9' | 'A'..='Z' | 'a'..='z' => 3u32,",
  codes% "\t\t\t\t_ => return false,",
  codes% "\t\t\t},",
  codes% "\t\t\t3u32 => match token {",
  codes% "\t\t\t\t'0'..='9' | 'A'..='Z' | 'a'..='z' => 4u32,",
  codes% "\t\t\t\t_ => return false,",
  codes% "\t\t\t},",
  codes% "\t\t\t4u32 => match token {",
  codes% "\t\t\t\t'0'..='9' | 'A'..='Z' | 'a'..='z' => 5u32,",
  codes% "\t\t\t\t_ => return false,",
  codes% "\t\t\t},",
  codes% "\t\t\t5u32 => match token {",
  codes% "\t\t\t\t'0'..='9' | 'A'..='Z' | 'a'..='z' => 6u32,",
  codes% "\t\t\t\t_ => return false,",
  codes% "\t\t\t},",
  codes% "\t\t\t6u32 => match token {",
  codes% "\t\t\t\t'0'..='9' | 'A'..='Z' | 'a'..='z' => 7u32,",
  codes% "\t\t\t\t_ => return false,",
  codes% "\t\t\t},",
  codes% "\t\t\t7u32 => match token {",
  codes% "\t\t\t\t'0'..='9' | 'A'..='Z' | 'a'..='z' => 8u32,",
  codes% "\t\t\t\t_ => return false,",
  codes% "\t\t\t},",
  codes% "\t\t\t_ => return false,",
  codes% "\t\t};",
  codes% "\t\ttrue",
  codes% "\t}",
  codes% "\tpub const fn is_accepting(&self) -> bool {",
  codes% "\t\tmatches!(",
  codes% "\t\t\tself.state,",
  codes% "\t\t\t1u32 | 2u32 | 3u32 | 4u32 | 5u32 | 6u32 | 7u32 | 8u32",
  codes% "\t\t)",
  codes% "\t}",
  codes% "\tpub const fn validate_str(s: &str) -> bool {",
  codes% "\t\tSelf::validate_bytes(s.as_bytes())",
  codes% "\t}",
  codes% "\tpub const fn validate_bytes(bytes: &[u8]) -> bool {",
  codes% "\t\tlet mut i = 0;",
  codes% "\t\tlet mut automaton = Self::new();",
  codes% "\t\twhile i < bytes.len() {",
  codes% "\t\t\tmatch ::static_automata::decode_utf8_char(bytes, i) {",
  codes% "\t\t\t\tOk((c, len)) => {",
  codes% "\t\t\t\t\tif !automaton.push(c) {",
  codes% "\t\t\t\t\t\treturn false;",
  codes% "\t\t\t\t\t}",
  codes% "\t\t\t\t\ti += len;",
  codes% "\t\t\t\t}",
  codes% "\t\t\t\tErr(_) => return false,",
  codes% "\t\t\t}",
  codes% "\t\t}",
  codes% "\t\tautomaton.is_accepting()",
  codes% "\t}",
  codes% "}",
  codes% "pub struct Langtag {",
  codes% "\tstate: u32,",
  codes% "}",
  codes% "impl Langtag {",
  codes% "\tpub const fn new() -> Self {",
  codes% "\t\tSelf { state: 0u32 }",
  codes% "\t}",
  codes% "\tpub const fn push(&mut self, token: char) -> bool {",
  codes% "\t\tself.state = match self.state {",
  codes% "\t\t\t0u32 => match token {",
  codes% "\t\t\t\t'A'..='Z' | 'a'..='z' => 1u32,",
  codes% "\t\t\t\t_ => return false,",
  codes% "\t\t\t},",
  codes% "\t\t\t1u32 => match token {",
  codes% "\t\t\t\t'A'..='Z' | 'a'..='z' => 2u32,",
  codes% "\t\t\t\t_ => return false,",
  codes% "\t\t\t},",
  codes% "\t\t\t2u32 => match token {",
  codes% "\t\t\t\t'-' => 3u32,",
  codes% "\t\t\t\t'A'..='Z' | 'a'..='z' => 4u32,",
  codes% "\t\t\t\t_ => return false,",
  codes% "\t\t\t},",
  codes% "\t\t\t3u32 => match token {",
  codes% "\t\t\t\t'0'..='9' => 5u32,",
  codes% "\t\t\t\t'A'..='W' | 'Y'..='Z' | 'a'..='w' | 'y'..='z' => 6u32,",
  codes% "\t\t\t\t'X' | 'x' => 7u32,",
  codes% "\t\t\t\t_ => return false,",
  codes% "\t\t\t},",
  codes% "\t\t\t4u32 => match token {",
  codes% "\t\t\t\t'-' => 3u32,",
  codes% "\t\t\t\t'A'..='Z' | 'a'..='z' => 8u32,",
  codes% "\t\t\t\t_ => return false,",
  codes% "\t\t\t},",
  codes% "\t\t\t5u32 => match token {",
  codes% "\t\t\t\t'-' => 16u32,",
  codes% "\t\t\t\t'0'..='9' => 17u32,",
  codes% "\t\t\t\t'A'..='Z' | 'a'..='z' => 18u32,",
  codes% "\t\t\t\t_ => return false,",
  codes% "\t\t\t},",
  codes% "\t\t\t6u32 => match token {",
  codes% "\t\t\t\t'-' => 16u32,"]

/-- Lines 1301 to 1400. -/
def grammarRs13 : List (List Nat) := [
  codes% "\t\t\t\t'0'..='9' => 19u32,",
  codes% "\t\t\t\t'A'..='Z' | 'a'..='z' => 60u32,",
  codes% "\t\t\t\t_ => return false,",
  codes% "\t\t\t},",
  codes% "\t\t\t7u32 => match token {",
  codes% "\t\t\t\t'-' => 21u32,",
  codes% "\t\t\t\t'0'..='9' => 19u32,",
  codes% "\t\t\t\t'A'..='Z' | 'a'..='z' => 60u32,",
  codes% "\t\t\t\t_ => return false,",
  codes% "\t\t\t},",
  codes% "\t\t\t8u32 => match token {",
  codes% "\t\t\t\t'-' => 9u32,",
  codes% "\t\t\t\t'A'..='Z' | 'a'..='z' => 10u32,",
  codes% "\t\t\t\t_ => return false,",
  codes% "\t\t\t},",
  codes% "\t\t\t9u32 => match token {",
  codes% "\t\t\t\t'0'..='9' => 5u32,",
  codes% "\t\t\t\t'A'..='W' | 'Y'..='Z' | 'a'..='w' | 'y'..='z' => 11u32,",
  codes% "\t\t\t\t'X' | 'x' => 12u32,",
  codes% "\t\t\t\t_ => return false,",
  codes% "\t\t\t},",
  codes% "\t\t\t10u32 => match token {",
  codes% "\t\t\t\t'-' => 9u32,",
  codes% "\t\t\t\t'A'..='Z' | 'a'..='z' => 13u32,",
  codes% "\t\t\t\t_ => return false,",
  codes% "\t\t\t},",
  codes% "\t\t\t11u32 => match token {",
  codes% "\t\t\t\t'-' => 16u32,",
  codes% "\t\t\t\t'0'..='9' => 19u32,",
  codes% "\t\t\t\t'A'..='Z' | 'a'..='z' => 20u32,",
  codes% "\t\t\t\t_ => return false,",
  codes% "\t\t\t},",
  codes% "\t\t\t12u32 => match token {",
  codes% "\t\t\t\t'-' => 21u32,",
  codes% "\t\t\t\t'0'..='9' => 19u32,",
  codes% "\t\t\t\t'A'..='Z' | 'a'..='z' => 20u32,",
  codes% "\t\t\t\t_ => return false,",
  codes% "\t\t\t},",
  codes% "\t\t\t13u32 => match token {",
  codes% "\t\t\t\t'-' => 9u32,",
  codes% "\t\t\t\t'A'..='Z' | 'a'..='z' => 14u32,",
  codes% "\t\t\t\t_ => return false,",
  codes% "\t\t\t},",
  codes% "\t\t\t14u32 => match token {",
  codes% "\t\t\t\t'-' => 9u32,",
  codes% "\t\t\t\t'A'..='Z' | 'a'..='z' => 15u32,",
  codes% "\t\t\t\t_ => return false,",
  codes% "\t\t\t},",
  codes% "\t\t\t15u32 => match token {",
  codes% "\t\t\t\t'-' => 9u32,",
  codes% "\t\t\t\t_ => return false,",
  codes% "\t\t\t},",
  codes% "\t\t\t16u32 => match token {",
  codes% "\t\t\t\t'0'..='9' | 'A'..='Z' | 'a'..='z' => 22u32,",
  codes% "\t\t\t\t_ => return false,",
  codes% "\t\t\t},",
  codes% "\t\t\t17u32 => match token {",
  codes% "\t\t\t\t'0'..='9' => 59u32,",
  codes% "\t\t\t\t'A'..='Z' | 'a'..='z' => 56u32,",
  codes% "\t\t\t\t_ => return false,",
  codes% "\t\t\t},",
  codes% "\t\t\t18u32 => match token {",
  codes% "\t\t\t\t'0'..='9' | 'A'..='Z' | 'a'..='z' => 56u32,",
  codes% "\t\t\t\t_ => return false,",
  codes% "\t\t\t},",
  codes% "\t\t\t19u32 => match token {",
  codes% "\t\t\t\t'0'..='9' | 'A'..='Z' | 'a'..='z' => 23u32,",
  codes% "\t\t\t\t_ => return false,",
  codes% "\t\t\t},",
  codes% "\t\t\t20u32 => match token {",
  codes% "\t\t\t\t'-' => 24u32,",
  codes% "\t\t\t\t'0'..='9' => 23u32,",
  codes% "\t\t\t\t'A'..='Z' | 'a'..='z' => 25u32,",
  codes% "\t\t\t\t_ => return false,",
  codes% "\t\t\t},",
  codes% "\t\t\t21u32 => match token {",
  codes% "\t\t\t\t'0'..='9' | 'A'..='Z' | 'a'..='z' => 48u32,",
  codes% "\t\t\t\t_ => return false,",
  codes% "\t\t\t},",
  codes% "\t\t\t22u32 => match token {",
  codes% "\t\t\t\t'0'..='9' | 'A'..='Z' | 'a'..='z' => 38u32,",
  codes% "\t\t\t\t_ => return false,",
  codes% "\t\t\t},",
  codes% "\t\t\t23u32 => match token {",
  codes% "\t\t\t\t'0'..='9' | 'A'..='Z' | 'a'..='z' => 29u32,",
  codes% "\t\t\t\t_ => return false,",
  codes% "\t\t\t},",
  codes% "\t\t\t24u32 => match token {",
  codes% "\t\t\t\t'0'..='9' => 26u32,",
  codes% "\t\t\t\t'A'..='W' | 'Y'..='Z' | 'a'..='w' | 'y'..='z' => 27u32,",
  codes% "\t\t\t\t'X' | 'x' => 28u32,",
  codes% "\t\t\t\t_ => return false,",
  codes% "\t\t\t},",
  codes% "\t\t\t25u32 => match token {",
  codes% "\t\t\t\t'0'..='9' => 29u32,",
  codes% "\t\t\t\t'A'..='Z' | 'a'..='z' => 30u32,",
  codes% "\t\t\t\t_ => return false,",
  codes% "\t\t\t},",
  codes% "\t\t\t26u32 => match token {",
  codes% "\t\t\t\t'-' => 16u32,"]

/-- Lines 1401 to 1500. -/
def grammarRs14 : List (List Nat) := [
  codes% "\t\t\t\t'0'..='9' | 'A'..='Z' | 'a'..='z' => 18u32,",
  codes% "\t\t\t\t_ => return false,",
  codes% "\t\t\t},",
  codes% "\t\t\t27u32 => match token {",
  codes% "\t\t\t\t'-' => 16u32,",
  codes% "\t\t\t\t'0'..='9' | 'A'..='Z' | 'a'..='z' => 19u32,",
  codes% "\t\t\t\t_ => return false,",
  codes% "\t\t\t},",
  codes% "\t\t\t28u32 => match token {",
  codes% "\t\t\t\t'-' => 21u32,",
  codes% "\t\t\t\t'0'..='9' | 'A'..='Z' | 'a'..='z' => 19u32,",
  codes% "\t\t\t\t_ => return false,",
  codes% "\t\t\t},",
  codes% "\t\t\t29u32 => match token {",
  codes% "\t\t\t\t'0'..='9' | 'A'..='Z' | 'a'..='z' => 31u32,",
  codes% "\t\t\t\t_ => return false,",
  codes% "\t\t\t},",
  codes% "\t\t\t30u32 => match token {",
  codes% "\t\t\t\t'-' => 32u32,",
  codes% "\t\t\t\t'0'..='9' | 'A'..='Z' | 'a'..='z' => 31u32,",
  codes% "\t\t\t\t_ => return false,",
  codes% "\t\t\t},",
  codes% "\t\t\t31u32 => match token {",
  codes% "\t\t\t\t'-' => 24u32,",
  codes% "\t\t\t\t'0'..='9' | 'A'..='Z' | 'a'..='z' => 35u32,",
  codes% "\t\t\t\t_ => return false,",
  codes% "\t\t\t},",
  codes% "\t\t\t32u32 => match token {",
  codes% "\t\t\t\t'0'..='9' => 5u32,",
  codes% "\t\t\t\t'A'..='W' | 'Y'..='Z' | 'a'..='w' | 'y'..='z' => 33u32,",
  codes% "\t\t\t\t'X' | 'x' => 34u32,",
  codes% "\t\t\t\t_ => return false,",
  codes% "\t\t\t},",
  codes% "\t\t\t33u32 => match token {",
  codes% "\t\t\t\t'-' => 16u32,",
  codes% "\t\t\t\t'0'..='9' => 19u32,",
  codes% "\t\t\t\t'A'..='Z' | 'a'..='z' => 58u32,",
  codes% "\t\t\t\t_ => return false,",
  codes% "\t\t\t},",
  codes% "\t\t\t34u32 => match token {",
  codes% "\t\t\t\t'-' => 21u32,",
  codes% "\t\t\t\t'0'..='9' => 19u32,",
  codes% "\t\t\t\t'A'..='Z' | 'a'..='z' => 58u32,",
  codes% "\t\t\t\t_ => return false,",
  codes% "\t\t\t},",
  codes% "\t\t\t35u32 => match token {",
  codes% "\t\t\t\t'-' => 24u32,",
  codes% "\t\t\t\t'0'..='9' | 'A'..='Z' | 'a'..='z' => 36u32,",
  codes% "\t\t\t\t_ => return false,",
  codes% "\t\t\t},",
  codes% "\t\t\t36u32 => match token {",
  codes% "\t\t\t\t'-' => 24u32,",
  codes% "\t\t\t\t'0'..='9' | 'A'..='Z' | 'a'..='z' => 37u32,",
  codes% "\t\t\t\t_ => return false,",
  codes% "\t\t\t},",
  codes% "\t\t\t37u32 => match token {",
  codes% "\t\t\t\t'-' => 24u32,",
  codes% "\t\t\t\t_ => return false,",
  codes% "\t\t\t},",
  codes% "\t\t\t38u32 => match token {",
  codes% "\t\t\t\t'-' => 39u32,",
  codes% "\t\t\t\t'0'..='9' | 'A'..='Z' | 'a'..='z' => 40u32,",
  codes% "\t\t\t\t_ => return false,",
  codes% "\t\t\t},",
  codes% "\t\t\t39u32 => match token {",
  codes% "\t\t\t\t'0'..='9' | 'A'..='W' | 'Y'..='Z' | 'a'..='w' | 'y'..='z' => 41u32,",
  codes% "\t\t\t\t'X' | 'x' => 42u32,",
  codes% "\t\t\t\t_ => return false,",
  codes% "\t\t\t},",
  codes% "\t\t\t40u32 => match token {",
  codes% "\t\t\t\t'-' => 39u32,",
  codes% "\t\t\t\t'0'..='9' | 'A'..='Z' | 'a'..='z' => 43u32,",
  codes% "\t\t\t\t_ => return false,",
  codes% "\t\t\t},",
  codes% "\t\t\t41u32 => match token {",
  codes% "\t\t\t\t'-' => 16u32,",
  codes% "\t\t\t\t'0'..='9' | 'A'..='Z' | 'a'..='z' => 38u32,",
  codes% "\t\t\t\t_ => return false,",
  codes% "\t\t\t},",
  codes% "\t\t\t42u32 => match token {",
  codes% "\t\t\t\t'-' => 21u32,",
  codes% "\t\t\t\t'0'..='9' | 'A'..='Z' | 'a'..='z' => 38u32,",
  codes% "\t\t\t\t_ => return false,",
  codes% "\t\t\t},",
  codes% "\t\t\t43u32 => match token {",
  codes% "\t\t\t\t'-' => 39u32,",
  codes% "\t\t\t\t'0'..='9' | 'A'..='Z' | 'a'..='z' => 44u32,",
  codes% "\t\t\t\t_ => return false,",
  codes% "\t\t\t},",
  codes% "\t\t\t44u32 => match token {",
  codes% "\t\t\t\t'-' => 39u32,",
  codes% "\t\t\t\t'0'..='9' | 'A'..='Z' | 'a'..='z' => 45u32,",
  codes% "\t\t\t\t_ => return false,",
  codes% "\t\t\t},",
  codes% "\t\t\t45u32 => match token {",
  codes% "\t\t\t\t'-' => 39u32,",
  codes% "\t\t\t\t'0'..='9' | 'A'..='Z' | 'a'..='z' => 46u32,",
  codes% "\t\t\t\t_ => return false,",
  codes% "\t\t\t},",
  codes% "\t\t\t46u32 => match token {"]

/-- Lines 1501 to 1600. -/
def grammarRs15 : List (List Nat) := [
  codes% "\t\t\t\t'-' => 39u32,",
  codes% "\t\t\t\t'0'..='9' | 'A'..='Z' | 'a'..='z' => 47u32,",
  codes% "\t\t\t\t_ => return false,",
  codes% "\t\t\t},",
  codes% "\t\t\t47u32 => match token {",
  codes% "\t\t\t\t'-' => 39u32,",
  codes% "\t\t\t\t_ => return false,",
  codes% "\t\t\t},",
  codes% "\t\t\t48u32 => match token {",
  codes% "\t\t\t\t'-' => 21u32,",
  codes% "\t\t\t\t'0'..='9' | 'A'..='Z' | 'a'..='z' => 49u32,",
  codes% "\t\t\t\t_ => return false,",
  codes% "\t\t\t},",
  codes% "\t\t\t49u32 => match token {",
  codes% "\t\t\t\t'-' => 21u32,",
  codes% "\t\t\t\t'0'..='9' | 'A'..='Z' | 'a'..='z' => 50u32,",
  codes% "\t\t\t\t_ => return false,",
  codes% "\t\t\t},",
  codes% "\t\t\t50u32 => match token {",
  codes% "\t\t\t\t'-' => 21u32,",
  codes% "\t\t\t\t'0'..='9' | 'A'..='Z' | 'a'..='z' => 51u32,",
  codes% "\t\t\t\t_ => return false,",
  codes% "\t\t\t},",
  codes% "\t\t\t51u32 => match token {",
  codes% "\t\t\t\t'-' => 21u32,",
  codes% "\t\t\t\t'0'..='9' | 'A'..='Z' | 'a'..='z' => 52u32,",
  codes% "\t\t\t\t_ => return false,",
  codes% "\t\t\t},",
  codes% "\t\t\t52u32 => match token {",
  codes% "\t\t\t\t'-' => 21u32,",
  codes% "\t\t\t\t'0'..='9' | 'A'..='Z' | 'a'..='z' => 53u32,",
  codes% "\t\t\t\t_ => return false,",
  codes% "\t\t\t},",
  codes% "\t\t\t53u32 => match token {",
  codes% "\t\t\t\t'-' => 21u32,",
  codes% "\t\t\t\t'0'..='9' | 'A'..='Z' | 'a'..='z' => 54u32,",
  codes% "\t\t\t\t_ => return false,",
  codes% "\t\t\t},",
  codes% "\t\t\t54u32 => match token {",
  codes% "\t\t\t\t'-' => 21u32,",
  codes% "\t\t\t\t'0'..='9' | 'A'..='Z' | 'a'..='z' => 55u32,",
  codes% "\t\t\t\t_ => return false,",
  codes% "\t\t\t},",
  codes% "\t\t\t55u32 => match token {",
  codes% "\t\t\t\t'-' => 21u32,",
  codes% "\t\t\t\t_ => return false,",
  codes% "\t\t\t},",
  codes% "\t\t\t56u32 => match token {",
  codes% "\t\t\t\t'0'..='9' | 'A'..='Z' | 'a'..='z' => 57u32,",
  codes% "\t\t\t\t_ => return false,",
  codes% "\t\t\t},",
  codes% "\t\t\t57u32 => match token {",
  codes% "\t\t\t\t'-' => 24u32,",
  codes% "\t\t\t\t'0'..='9' | 'A'..='Z' | 'a'..='z' => 31u32,",
  codes% "\t\t\t\t_ => return false,",
  codes% "\t\t\t},",
  codes% "\t\t\t58u32 => match token {",
  codes% "\t\t\t\t'-' => 24u32,",
  codes% "\t\t\t\t'0'..='9' | 'A'..='Z' | 'a'..='z' => 23u32,",
  codes% "\t\t\t\t_ => return false,",
  codes% "\t\t\t},",
  codes% "\t\t\t59u32 => match token {",
  codes% "\t\t\t\t'-' => 24u32,",
  codes% "\t\t\t\t'0'..='9' | 'A'..='Z' | 'a'..='z' => 57u32,",
  codes% "\t\t\t\t_ => return false,",
  codes% "\t\t\t},",
  codes% "\t\t\t60u32 => match token {",
  codes% "\t\t\t\t'-' => 24u32,",
  codes% "\t\t\t\t'0'..='9' => 23u32,",
  codes% "\t\t\t\t'A'..='Z' | 'a'..='z' => 61u32,",
  codes% "\t\t\t\t_ => return false,",
  codes% "\t\t\t},",
  codes% "\t\t\t61u32 => match token {",
  codes% "\t\t\t\t'-' => 62u32,",
  codes% "\t\t\t\t'0'..='9' => 29u32,",
  codes% "\t\t\t\t'A'..='Z' | 'a'..='z' => 30u32,",
  codes% "\t\t\t\t_ => return false,",
  codes% "\t\t\t},",
  codes% "\t\t\t62u32 => match token {",
  codes% "\t\t\t\t'0'..='9' => 5u32,",
  codes% "\t\t\t\t'A'..='W' | 'Y'..='Z' | 'a'..='w' | 'y'..='z' => 63u32,",
  codes% "\t\t\t\t'X' | 'x' => 64u32,",
  codes% "\t\t\t\t_ => return false,",
  codes% "\t\t\t},",
  codes% "\t\t\t63u32 => match token {",
  codes% "\t\t\t\t'-' => 16u32,",
  codes% "\t\t\t\t'0'..='9' => 19u32,",
  codes% "\t\t\t\t'A'..='Z' | 'a'..='z' => 65u32,",
  codes% "\t\t\t\t_ => return false,",
  codes% "\t\t\t},",
  codes% "\t\t\t64u32 => match token {",
  codes% "\t\t\t\t'-' => 21u32,",
  codes% "\t\t\t\t'0'..='9' => 19u32,",
  codes% "\t\t\t\t'A'..='Z' | 'a'..='z' => 65u32,",
  codes% "\t\t\t\t_ => return false,",
  codes% "\t\t\t},",
  codes% "\t\t\t65u32 => match token {",
  codes% "\t\t\t\t'-' => 24u32,",
  codes% "\t\t\t\t'0'..='9' => 23u32,",
  codes% "\t\t\t\t'A'..='Z' | 'a'..='z' => 66u32,"]

/-- Lines 1601 to 1700. -/
def grammarRs16 : List (List Nat) := [
  codes% "\t\t\t\t_ => return false,",
  codes% "\t\t\t},",
  codes% "\t\t\t66u32 => match token {",
  codes% "\t\t\t\t'-' => 67u32,",
  codes% "\t\t\t\t'0'..='9' => 29u32,",
  codes% "\t\t\t\t'A'..='Z' | 'a'..='z' => 30u32,",
  codes% "\t\t\t\t_ => return false,",
  codes% "\t\t\t},",
  codes% "\t\t\t67u32 => match token {",
  codes% "\t\t\t\t'0'..='9' => 5u32,",
  codes% "\t\t\t\t'A'..='W' | 'Y'..='Z' | 'a'..='w' | 'y'..='z' => 68u32,",
  codes% "\t\t\t\t'X' | 'x' => 69u32,",
  codes% "\t\t\t\t_ => return false,",
  codes% "\t\t\t},",
  codes% "\t\t\t68u32 => match token {",
  codes% "\t\t\t\t'-' => 16u32,",
  codes% "\t\t\t\t'0'..='9' => 19u32,",
  codes% "\t\t\t\t'A'..='Z' | 'a'..='z' => 70u32,",
  codes% "\t\t\t\t_ => return false,",
  codes% "\t\t\t},",
  codes% "\t\t\t69u32 => match token {",
  codes% "\t\t\t\t'-' => 21u32,",
  codes% "\t\t\t\t'0'..='9' => 19u32,",
  codes% "\t\t\t\t'A'..='Z' | 'a'..='z' => 70u32,",
  codes% "\t\t\t\t_ => return false,",
  codes% "\t\t\t},",
  codes% "\t\t\t70u32 => match token {",
  codes% "\t\t\t\t'-' => 24u32,",
  codes% "\t\t\t\t'0'..='9' => 23u32,",
  codes% "\t\t\t\t'A'..='Z' | 'a'..='z' => 71u32,",
  codes% "\t\t\t\t_ => return false,",
  codes% "\t\t\t},",
  codes% "\t\t\t71u32 => match token {",
  codes% "\t\t\t\t'-' => 9u32,",
  codes% "\t\t\t\t'0'..='9' => 29u32,",
  codes% "\t\t\t\t'A'..='Z' | 'a'..='z' => 30u32,",
  codes% "\t\t\t\t_ => return false,",
  codes% "\t\t\t},",
  codes% "\t\t\t_ => return false,",
  codes% "\t\t};",
  codes% "\t\ttrue",
  codes% "\t}",
  codes% "\tpub const fn is_accepting(&self) -> bool {",
  codes% "\t\tmatches!(",
  codes% "\t\t\tself.state,",
  codes% "\t\t\t2u32 | 4u32",
  codes% "\t\t\t\t| 8u32 | 10u32",
  codes% "\t\t\t\t| 13u32 | 14u32",
  codes% "\t\t\t\t| 15u32 | 20u32",
  codes% "\t\t\t\t| 30u32 | 31u32",
  codes% "\t\t\t\t| 35u32 | 36u32",
  codes% "\t\t\t\t| 37u32 | 38u32",
  codes% "\t\t\t\t| 40u32 | 43u32",
  codes% "\t\t\t\t| 44u32 | 45u32",
  codes% "\t\t\t\t| 46u32 | 47u32",
  codes% "\t\t\t\t| 48u32 | 49u32",
  codes% "\t\t\t\t| 50u32 | 51u32",
  codes% "\t\t\t\t| 52u32 | 53u32",
  codes% "\t\t\t\t| 54u32 | 55u32",
  codes% "\t\t\t\t| 57u32 | 58u32",
  codes% "\t\t\t\t| 59u32 | 60u32",
  codes% "\t\t\t\t| 61u32 | 65u32",
  codes% "\t\t\t\t| 66u32 | 70u32",
  codes% "\t\t\t\t| 71u32",
  codes% "\t\t)",
  codes% "\t}",
  codes% "\tpub const fn validate_str(s: &str) -> bool {",
  codes% "\t\tSelf::validate_bytes(s.as_bytes())",
  codes% "\t}",
  codes% "\tpub const fn validate_bytes(bytes: &[u8]) -> bool {",
  codes% "\t\tlet mut i = 0;",
  codes% "\t\tlet mut automaton = Self::new();",
  codes% "\t\twhile i < bytes.len() {",
  codes% "\t\t\tmatch ::static_automata::decode_utf8_char(bytes, i) {",
  codes% "\t\t\t\tOk((c, len)) => {",
  codes% "\t\t\t\t\tif !automaton.push(c) {",
  codes% "\t\t\t\t\t\treturn false;",
  codes% "\t\t\t\t\t}",
  codes% "\t\t\t\t\ti += len;",
  codes% "\t\t\t\t}",
  codes% "\t\t\t\tErr(_) => return false,",
  codes% "\t\t\t}",
  codes% "\t\t}",
  codes% "\t\tautomaton.is_accepting()",
  codes% "\t}",
  codes% "}",
  codes% "pub struct Language {",
  codes% "\tstate: u32,",
  codes% "}",
  codes% "impl Language {",
  codes% "\tpub const fn new() -> Self {",
  codes% "\t\tSelf { state: 0u32 }",
  codes% "\t}",
  codes% "\tpub const fn push(&mut self, token: char) -> bool {",
  codes% "\t\tself.state = match self.state {",
  codes% "\t\t\t0u32 => match token {",
  codes% "\t\t\t\t'A'..='Z' | 'a'..='z' => 1u32,",
  codes% "\t\t\t\t_ => return false,",
  codes% "\t\t\t},",
  codes% "\t\t\t1u32 => match token {"]

/-- Lines 1701 to 1800. -/
def grammarRs17 : List (List Nat) := [
  codes% "\t\t\t\t'A'..='Z' | 'a'..='z' => 2u32,",
  codes% "\t\t\t\t_ => return false,",
  codes% "\t\t\t},",
  codes% "\t\t\t2u32 => match token {",
  codes% "\t\t\t\t'-' => 3u32,",
  codes% "\t\t\t\t'A'..='Z' | 'a'..='z' => 4u32,",
  codes% "\t\t\t\t_ => return false,",
  codes% "\t\t\t},",
  codes% "\t\t\t3u32 => match token {",
  codes% "\t\t\t\t'A'..='Z' | 'a'..='z' => 5u32,",
  codes% "\t\t\t\t_ => return false,",
  codes% "\t\t\t},",
  codes% "\t\t\t4u32 => match token {",
  codes% "\t\t\t\t'-' => 3u32,",
  codes% "\t\t\t\t'A'..='Z' | 'a'..='z' => 6u32,",
  codes% "\t\t\t\t_ => return false,",
  codes% "\t\t\t},",
  codes% "\t\t\t5u32 => match token {",
  codes% "\t\t\t\t'A'..='Z' | 'a'..='z' => 11u32,",
  codes% "\t\t\t\t_ => return false,",
  codes% "\t\t\t},",
  codes% "\t\t\t6u32 => match token {",
  codes% "\t\t\t\t'A'..='Z' | 'a'..='z' => 7u32,",
  codes% "\t\t\t\t_ => return false,",
  codes% "\t\t\t},",
  codes% "\t\t\t7u32 => match token {",
  codes% "\t\t\t\t'A'..='Z' | 'a'..='z' => 8u32,",
  codes% "\t\t\t\t_ => return false,",
  codes% "\t\t\t},",
  codes% "\t\t\t8u32 => match token {",
  codes% "\t\t\t\t'A'..='Z' | 'a'..='z' => 9u32,",
  codes% "\t\t\t\t_ => return false,",
  codes% "\t\t\t},",
  codes% "\t\t\t9u32 => match token {",
  codes% "\t\t\t\t'A'..='Z' | 'a'..='z' => 10u32,",
  codes% "\t\t\t\t_ => return false,",
  codes% "\t\t\t},",
  codes% "\t\t\t11u32 => match token {",
  codes% "\t\t\t\t'A'..='Z' | 'a'..='z' => 12u32,",
  codes% "\t\t\t\t_ => return false,",
  codes% "\t\t\t},",
  codes% "\t\t\t12u32 => match token {",
  codes% "\t\t\t\t'-' => 13u32,",
  codes% "\t\t\t\t_ => return false,",
  codes% "\t\t\t},",
  codes% "\t\t\t13u32 => match token {",
  codes% "\t\t\t\t'A'..='Z' | 'a'..='z' => 14u32,",
  codes% "\t\t\t\t_ => return false,",
  codes% "\t\t\t},",
  codes% "\t\t\t14u32 => match token {",
  codes% "\t\t\t\t'A'..='Z' | 'a'..='z' => 15u32,",
  codes% "\t\t\t\t_ => return false,",
  codes% "\t\t\t},",
  codes% "\t\t\t15u32 => match token {",
  codes% "\t\t\t\t'A'..='Z' | 'a'..='z' => 16u32,",
  codes% "\t\t\t\t_ => return false,",
  codes% "\t\t\t},",
  codes% "\t\t\t16u32 => match token {",
  codes% "\t\t\t\t'-' => 17u32,",
  codes% "\t\t\t\t_ => return false,",
  codes% "\t\t\t},",
  codes% "\t\t\t17u32 => match token {",
  codes% "\t\t\t\t'A'..='Z' | 'a'..='z' => 18u32,",
  codes% "\t\t\t\t_ => return false,",
  codes% "\t\t\t},",
  codes% "\t\t\t18u32 => match token {",
  codes% "\t\t\t\t'A'..='Z' | 'a'..='z' => 19u32,",
  codes% "\t\t\t\t_ => return false,",
  codes% "\t\t\t},",
  codes% "\t\t\t19u32 => match token {",
  codes% "\t\t\t\t'A'..='Z' | 'a'..='z' => 10u32,",
  codes% "\t\t\t\t_ => return false,",
  codes% "\t\t\t},",
  codes% "\t\t\t_ => return false,",
  codes% "\t\t};",
  codes% "\t\ttrue",
  codes% "\t}",
  codes% "\tpub const fn is_accepting(&self) -> bool {",
  codes% "\t\tmatches!(",
  codes% "\t\t\tself.state,",
  codes% "\t\t\t2u32 | 4u32 | 6u32 | 7u32 | 8u32 | 9u32 | 10u32 | 12u32 | 16u32",
  codes% "\t\t)",
  codes% "\t}",
  codes% "\tpub const fn validate_str(s: &str) -> bool {",
  codes% "\t\tSelf::validate_bytes(s.as_bytes())",
  codes% "\t}",
  codes% "\tpub const fn validate_bytes(bytes: &[u8]) -> bool {",
  codes% "\t\tlet mut i = 0;",
  codes% "\t\tlet mut automaton = Self::new();",
  codes% "\t\twhile i < bytes.len() {",
  codes% "\t\t\tmatch ::static_automata::decode_utf8_char(bytes, i) {",
  codes% "\t\t\t\tOk((c, len)) => {",
  codes% "\t\t\t\t\tif !automaton.push(c) {",
  codes% "\t\t\t\t\t\treturn false;",
  codes% "\t\t\t\t\t}",
  codes% "\t\t\t\t\ti += len;",
  codes% "\t\t\t\t}",
  codes% "\t\t\t\tErr(_) => return false,",
  codes% "\t\t\t}",
  codes% "\t\t}"]

/-- Lines 1801 to 1900. -/
def grammarRs18 : List (List Nat) := [
  codes% "\t\tautomaton.is_accepting()",
  codes% "\t}",
  codes% "}",
  codes% "pub struct Primary {",
  codes% "\tstate: u32,",
  codes% "}",
  codes% "impl Primary {",
  codes% "\tpub const fn new() -> Self {",
  codes% "\t\tSelf { state: 0u32 }",
  codes% "\t}",
  codes% "\tpub const fn push(&mut self, token: char) -> bool {",
  codes% "\t\tself.state = match self.state {",
  codes% "\t\t\t0u32 => match token {",
  codes% "\t\t\t\t'A'..='Z' | 'a'..='z' => 1u32,",
  codes% "\t\t\t\t_ => return false,",
  codes% "\t\t\t},",
  codes% "\t\t\t1u32 => match token {",
  codes% "\t\t\t\t'A'..='Z' | 'a'..='z' => 2u32,",
  codes% "\t\t\t\t_ => return false,",
  codes% "\t\t\t},",
  codes% "\t\t\t2u32 => match token {",
  codes% "\t\t\t\t'A'..='Z' | 'a'..='z' => 3u32,",
  codes% "\t\t\t\t_ => return false,",
  codes% "\t\t\t},",
  codes% "\t\t\t_ => return false,",
  codes% "\t\t};",
  codes% "\t\ttrue",
  codes% "\t}",
  codes% "\tpub const fn is_accepting(&self) -> bool {",
  codes% "\t\tmatches!(self.state, 2u32 | 3u32)",
  codes% "\t}",
  codes% "\tpub const fn validate_str(s: &str) -> bool {",
  codes% "\t\tSelf::validate_bytes(s.as_bytes())",
  codes% "\t}",
  codes% "\tpub const fn validate_bytes(bytes: &[u8]) -> bool {",
  codes% "\t\tlet mut i = 0;",
  codes% "\t\tlet mut automaton = Self::new();",
  codes% "\t\twhile i < bytes.len() {",
  codes% "\t\t\tmatch ::static_automata::decode_utf8_char(bytes, i) {",
  codes% "\t\t\t\tOk((c, len)) => {",
  codes% "\t\t\t\t\tif !automaton.push(c) {",
  codes% "\t\t\t\t\t\treturn false;",
  codes% "\t\t\t\t\t}",
  codes% "\t\t\t\t\ti += len;",
  codes% "\t\t\t\t}",
  codes% "\t\t\t\tErr(_) => return false,",
  codes% "\t\t\t}",
  codes% "\t\t}",
  codes% "\t\tautomaton.is_accepting()",
  codes% "\t}",
  codes% "}",
  codes% "pub struct Extlang {",
  codes% "\tstate: u32,",
  codes% "}",
  codes% "impl Extlang {",
  codes% "\tpub const fn new() -> Self {",
  codes% "\t\tSelf { state: 0u32 }",
  codes% "\t}",
  codes% "\tpub const fn push(&mut self, token: char) -> bool {",
  codes% "\t\tself.state = match self.state {",
  codes% "\t\t\t0u32 => match token {",
  codes% "\t\t\t\t'A'..='Z' | 'a'..='z' => 1u32,",
  codes% "\t\t\t\t_ => return false,",
  codes% "\t\t\t},",
  codes% "\t\t\t1u32 => match token {",
  codes% "\t\t\t\t'A'..='Z' | 'a'..='z' => 2u32,",
  codes% "\t\t\t\t_ => return false,",
  codes% "\t\t\t},",
  codes% "\t\t\t2u32 => match token {",
  codes% "\t\t\t\t'A'..='Z' | 'a'..='z' => 3u32,",
  codes% "\t\t\t\t_ => return false,",
  codes% "\t\t\t},",
  codes% "\t\t\t3u32 => match token {",
  codes% "\t\t\t\t'-' => 4u32,",
  codes% "\t\t\t\t_ => return false,",
  codes% "\t\t\t},",
  codes% "\t\t\t4u32 => match token {",
  codes% "\t\t\t\t'A'..='Z' | 'a'..='z' => 5u32,",
  codes% "\t\t\t\t_ => return false,",
  codes% "\t\t\t},",
  codes% "\t\t\t5u32 => match token {",
  codes% "\t\t\t\t'A'..='Z' | 'a'..='z' => 6u32,",
  codes% "\t\t\t\t_ => return false,",
  codes% "\t\t\t},",
  codes% "\t\t\t6u32 => match token {",
  codes% "\t\t\t\t'A'..='Z' | 'a'..='z' => 7u32,",
  codes% "\t\t\t\t_ => return false,",
  codes% "\t\t\t},",
  codes% "\t\t\t7u32 => match token {",
  codes% "\t\t\t\t'-' => 8u32,",
  codes% "\t\t\t\t_ => return false,",
  codes% "\t\t\t},",
  codes% "\t\t\t8u32 => match token {",
  codes% "\t\t\t\t'A'..='Z' | 'a'..='z' => 9u32,",
  codes% "\t\t\t\t_ => return false,",
  codes% "\t\t\t},",
  codes% "\t\t\t9u32 => match token {",
  codes% "\t\t\t\t'A'..='Z' | 'a'..='z' => 10u32,",
  codes% "\t\t\t\t_ => return false,",
  codes% "\t\t\t},"]

/-- Lines 1901 to 2000. -/
def grammarRs19 : List (List Nat) := [
  codes% "\t\t\t10u32 => match token {",
  codes% "\t\t\t\t'A'..='Z' | 'a'..='z' => 11u32,",
  codes% "\t\t\t\t_ => return false,",
  codes% "\t\t\t},",
  codes% "\t\t\t_ => return false,",
  codes% "\t\t};",
  codes% "\t\ttrue",
  codes% "\t}",
  codes% "\tpub const fn is_accepting(&self) -> bool {",
  codes% "\t\tmatches!(self.state, 3u32 | 7u32 | 11u32)",
  codes% "\t}",
  codes% "\tpub const fn validate_str(s: &str) -> bool {",
  codes% "\t\tSelf::validate_bytes(s.as_bytes())",
  codes% "\t}",
  codes% "\tpub const fn validate_bytes(bytes: &[u8]) -> bool {",
  codes% "\t\tlet mut i = 0;",
  codes% "\t\tlet mut automaton = Self::new();",
  codes% "\t\twhile i < bytes.len() {",
  codes% "\t\t\tmatch ::static_automata::decode_utf8_char(bytes, i) {",
  codes% "\t\t\t\tOk((c, len)) => {",
  codes% "\t\t\t\t\tif !automaton.push(c) {",
  codes% "\t\t\t\t\t\treturn false;",
  codes% "\t\t\t\t\t}",
  codes% "\t\t\t\t\ti += len;",
  codes% "\t\t\t\t}",
  codes% "\t\t\t\tErr(_) => return false,",
  codes% "\t\t\t}",
  codes% "\t\t}",
  codes% "\t\tautomaton.is_accepting()",
  codes% "\t}",
  codes% "}",
  codes% "pub struct ExtlangTag {",
  codes% "\tstate: u32,",
  codes% "}",
  codes% "impl ExtlangTag {",
  codes% "\tpub const fn new() -> Self {",
  codes% "\t\tSelf { state: 0u32 }",
  codes% "\t}",
  codes% "\tpub const fn push(&mut self, token: char) -> bool {",
  codes% "\t\tself.state = match self.state {",
  codes% "\t\t\t0u32 => match token {",
  codes% "\t\t\t\t'A'..='Z' | 'a'..='z' => 1u32,",
  codes% "\t\t\t\t_ => return false,",
  codes% "\t\t\t},",
  codes% "\t\t\t1u32 => match token {",
  codes% "\t\t\t\t'A'..='Z' | 'a'..='z' => 2u32,",
  codes% "\t\t\t\t_ => return false,",
  codes% "\t\t\t},",
  codes% "\t\t\t2u32 => match token {",
  codes% "\t\t\t\t'A'..='Z' | 'a'..='z' => 3u32,",
  codes% "\t\t\t\t_ => return false,",
  codes% "\t\t\t},",
  codes% "\t\t\t_ => return false,",
  codes% "\t\t};",
  codes% "\t\ttrue",
  codes% "\t}",
  codes% "\tpub const fn is_accepting(&self) -> bool {",
  codes% "\t\tmatches!(self.state, 3u32)",
  codes% "\t}",
  codes% "\tpub const fn validate_str(s: &str) -> bool {",
  codes% "\t\tSelf::validate_bytes(s.as_bytes())",
  codes% "\t}",
  codes% "\tpub const fn validate_bytes(bytes: &[u8]) -> bool {",
  codes% "\t\tlet mut i = 0;",
  codes% "\t\tlet mut automaton = Self::new();",
  codes% "\t\twhile i < bytes.len() {",
  codes% "\t\t\tmatch ::static_automata::decode_utf8_char(bytes, i) {",
  codes% "\t\t\t\tOk((c, len)) => {",
  codes% "\t\t\t\t\tif !automaton.push(c) {",
  codes% "\t\t\t\t\t\treturn false;",
  codes% "\t\t\t\t\t}",
  codes% "\t\t\t\t\ti += len;",
  codes% "\t\t\t\t}",
  codes% "\t\t\t\tErr(_) => return false,",
  codes% "\t\t\t}",
  codes% "\t\t}",
  codes% "\t\tautomaton.is_accepting()",
  codes% "\t}",
  codes% "}",
  codes% "pub struct Script {",
  codes% "\tstate: u32,",
  codes% "}",
  codes% "impl Script {",
  codes% "\tpub const fn new() -> Self {",
  codes% "\t\tSelf { state: 0u32 }",
  codes% "\t}",
  codes% "\tpub const fn push(&mut self, token: char) -> bool {",
  codes% "\t\tself.state = match self.state {",
  codes% "\t\t\t0u32 => match token {",
  codes% "\t\t\t\t'A'..='Z' | 'a'..='z' => 1u32,",
  codes% "\t\t\t\t_ => return false,",
  codes% "\t\t\t},",
  codes% "\t\t\t1u32 => match token {",
  codes% "\t\t\t\t'A'..='Z' | 'a'..='z' => 2u32,",
  codes% "\t\t\t\t_ => return false,",
  codes% "\t\t\t},",
  codes% "\t\t\t2u32 => match token {",
  codes% "\t\t\t\t'A'..='Z' | 'a'..='z' => 3u32,",
  codes% "\t\t\t\t_ => return false,",
  codes% "\t\t\t},"]

/-- Lines 2001 to 2100. -/
def grammarRs20 : List (List Nat) := [
  codes% "\t\t\t3u32 => match token {",
  codes% "\t\t\t\t'A'..='Z' | 'a'..='z' => 4u32,",
  codes% "\t\t\t\t_ => return false,",
  codes% "\t\t\t},",
  codes% "\t\t\t_ => return false,",
  codes% "\t\t};",
  codes% "\t\ttrue",
  codes% "\t}",
  codes% "\tpub const fn is_accepting(&self) -> bool {",
  codes% "\t\tmatches!(self.state, 4u32)",
  codes% "\t}",
  codes% "\tpub const fn validate_str(s: &str) -> bool {",
  codes% "\t\tSelf::validate_bytes(s.as_bytes())",
  codes% "\t}",
  codes% "\tpub const fn validate_bytes(bytes: &[u8]) -> bool {",
  codes% "\t\tlet mut i = 0;",
  codes% "\t\tlet mut automaton = Self::new();",
  codes% "\t\twhile i < bytes.len() {",
  codes% "\t\t\tmatch ::static_automata::decode_utf8_char(bytes, i) {",
  codes% "\t\t\t\tOk((c, len)) => {",
  codes% "\t\t\t\t\tif !automaton.push(c) {",
  codes% "\t\t\t\t\t\treturn false;",
  codes% "\t\t\t\t\t}",
  codes% "\t\t\t\t\ti += len;",
  codes% "\t\t\t\t}",
  codes% "\t\t\t\tErr(_) => return false,",
  codes% "\t\t\t}",
  codes% "\t\t}",
  codes% "\t\tautomaton.is_accepting()",
  codes% "\t}",
  codes% "}",
  codes% "pub struct Region {",
  codes% "\tstate: u32,",
  codes% "}",
  codes% "impl Region {",
  codes% "\tpub const fn new() -> Self {",
  codes% "\t\tSelf { state: 0u32 }",
  codes% "\t}",
  codes% "\tpub const fn push(&mut self, token: char) -> bool {",
  codes% "\t\tself.state = match self.state {",
  codes% "\t\t\t0u32 => match token {",
  codes% "\t\t\t\t'0'..='9' => 1u32,",
  codes% "\t\t\t\t'A'..='Z' | 'a'..='z' => 2u32,",
  codes% "\t\t\t\t_ => return false,",
  codes% "\t\t\t},",
  codes% "\t\t\t1u32 => match token {",
  codes% "\t\t\t\t'0'..='9' => 3u32,",
  codes% "\t\t\t\t_ => return false,",
  codes% "\t\t\t},",
  codes% "\t\t\t2u32 => match token {",
  codes% "\t\t\t\t'A'..='Z' | 'a'..='z' => 4u32,",
  codes% "\t\t\t\t_ => return false,",
  codes% "\t\t\t},",
  codes% "\t\t\t3u32 => match token {",
  codes% "\t\t\t\t'0'..='9' => 4u32,",
  codes% "\t\t\t\t_ => return false,",
  codes% "\t\t\t},",
  codes% "\t\t\t_ => return false,",
  codes% "\t\t};",
  codes% "\t\ttrue",
  codes% "\t}",
  codes% "\tpub const fn is_accepting(&self) -> bool {",
  codes% "\t\tmatches!(self.state, 4u32)",
  codes% "\t}",
  codes% "\tpub const fn validate_str(s: &str) -> bool {",
  codes% "\t\tSelf::validate_bytes(s.as_bytes())",
  codes% "\t}",
  codes% "\tpub const fn validate_bytes(bytes: &[u8]) -> bool {",
  codes% "\t\tlet mut i = 0;",
  codes% "\t\tlet mut automaton = Self::new();",
  codes% "\t\twhile i < bytes.len() {",
  codes% "\t\t\tmatch ::static_automata::decode_utf8_char(bytes, i) {",
  codes% "\t\t\t\tOk((c, len)) => {",
  codes% "\t\t\t\t\tif !automaton.push(c) {",
  codes% "\t\t\t\t\t\treturn false;",
  codes% "\t\t\t\t\t}",
  codes% "\t\t\t\t\ti += len;",
  codes% "\t\t\t\t}",
  codes% "\t\t\t\tErr(_) => return false,",
  codes% "\t\t\t}",
  codes% "\t\t}",
  codes% "\t\tautomaton.is_accepting()",
  codes% "\t}",
  codes% "}",
  codes% "pub struct Variant {",
  codes% "\tstate: u32,",
  codes% "}",
  codes% "impl Variant {",
  codes% "\tpub const fn new() -> Self {",
  codes% "\t\tSelf { state: 0u32 }",
  codes% "\t}",
  codes% "\tpub const fn push(&mut self, token: char) -> bool {",
  codes% "\t\tself.state = match self.state {",
  codes% "\t\t\t0u32 => match token {",
  codes% "\t\t\t\t'0'..='9' => 1u32,",
  codes% "\t\t\t\t'A'..='Z' | 'a'..='z' => 2u32,",
  codes% "\t\t\t\t_ => return false,",
  codes% "\t\t\t},",
  codes% "\t\t\t1u32 => match token {",
  codes% "\t\t\t\t'0'..='9' | 'A'..='Z' | 'a'..='z' => 3u32,"]

/-- Lines 2101 to 2200. -/
def grammarRs21 : List (List Nat) := [
  codes% "\t\t\t\t_ => return false,",
  codes% "\t\t\t},",
  codes% "\t\t\t2u32 => match token {",
  codes% "\t\t\t\t'0'..='9' | 'A'..='Z' | 'a'..='z' => 4u32,",
  codes% "\t\t\t\t_ => return false,",
  codes% "\t\t\t},",
  codes% "\t\t\t3u32 => match token {",
  codes% "\t\t\t\t'0'..='9' | 'A'..='Z' | 'a'..='z' => 11u32,",
  codes% "\t\t\t\t_ => return false,",
  codes% "\t\t\t},",
  codes% "\t\t\t4u32 => match token {",
  codes% "\t\t\t\t'0'..='9' | 'A'..='Z' | 'a'..='z' => 5u32,",
  codes% "\t\t\t\t_ => return false,",
  codes% "\t\t\t},",
  codes% "\t\t\t5u32 => match token {",
  codes% "\t\t\t\t'0'..='9' | 'A'..='Z' | 'a'..='z' => 6u32,",
  codes% "\t\t\t\t_ => return false,",
  codes% "\t\t\t},",
  codes% "\t\t\t6u32 => match token {",
  codes% "\t\t\t\t'0'..='9' | 'A'..='Z' | 'a'..='z' => 7u32,",
  codes% "\t\t\t\t_ => return false,",
  codes% "\t\t\t},",
  codes% "\t\t\t7u32 => match token {",
  codes% "\t\t\t\t'0'..='9' | 'A'..='Z' | 'a'..='z' => 8u32,",
  codes% "\t\t\t\t_ => return false,",
  codes% "\t\t\t},",
  codes% "\t\t\t8u32 => match token {",
  codes% "\t\t\t\t'0'..='9' | 'A'..='Z' | 'a'..='z' => 9u32,",
  codes% "\t\t\t\t_ => return false,",
  codes% "\t\t\t},",
  codes% "\t\t\t9u32 => match token {",
  codes% "\t\t\t\t'0'..='9' | 'A'..='Z' | 'a'..='z' => 10u32,",
  codes% "\t\t\t\t_ => return false,",
  codes% "\t\t\t},",
  codes% "\t\t\t11u32 => match token {",
  codes% "\t\t\t\t'0'..='9' | 'A'..='Z' | 'a'..='z' => 12u32,",
  codes% "\t\t\t\t_ => return false,",
  codes% "\t\t\t},",
  codes% "\t\t\t12u32 => match token {",
  codes% "\t\t\t\t'0'..='9' | 'A'..='Z' | 'a'..='z' => 7u32,",
  codes% "\t\t\t\t_ => return false,",
  codes% "\t\t\t},",
  codes% "\t\t\t_ => return false,",
  codes% "\t\t};",
  codes% "\t\ttrue",
  codes% "\t}",
  codes% "\tpub const fn is_accepting(&self) -> bool {",
  codes% "\t\tmatches!(self.state, 7u32 | 8u32 | 9u32 | 10u32 | 12u32)",
  codes% "\t}",
  codes% "\tpub const fn validate_str(s: &str) -> bool {",
  codes% "\t\tSelf::validate_bytes(s.as_bytes())",
  codes% "\t}",
  codes% "\tpub const fn validate_bytes(bytes: &[u8]) -> bool {",
  codes% "\t\tlet mut i = 0;",
  codes% "\t\tlet mut automaton = Self::new();",
  codes% "\t\twhile i < bytes.len() {",
  codes% "\t\t\tmatch ::static_automata::decode_utf8_char(bytes, i) {",
  codes% "\t\t\t\tOk((c, len)) => {",
  codes% "\t\t\t\t\tif !automaton.push(c) {",
  codes% "\t\t\t\t\t\treturn false;",
  codes% "\t\t\t\t\t}",
  codes% "\t\t\t\t\ti += len;",
  codes% "\t\t\t\t}",
  codes% "\t\t\t\tErr(_) => return false,",
  codes% "\t\t\t}",
  codes% "\t\t}",
  codes% "\t\tautomaton.is_accepting()",
  codes% "\t}",
  codes% "}",
  codes% "pub struct Variants {",
  codes% "\tstate: u32,",
  codes% "}",
  codes% "impl Variants {",
  codes% "\tpub const fn new() -> Self {",
  codes% "\t\tSelf { state: 0u32 }",
  codes% "\t}",
  codes% "\tpub const fn push(&mut self, token: char) -> bool {",
  codes% "\t\tself.state = match self.state {",
  codes% "\t\t\t0u32 => match token {",
  codes% "\t\t\t\t'0'..='9' => 1u32,",
  codes% "\t\t\t\t'A'..='Z' | 'a'..='z' => 2u32,",
  codes% "\t\t\t\t_ => return false,",
  codes% "\t\t\t},",
  codes% "\t\t\t1u32 => match token {",
  codes% "\t\t\t\t'0'..='9' | 'A'..='Z' | 'a'..='z' => 3u32,",
  codes% "\t\t\t\t_ => return false,",
  codes% "\t\t\t},",
  codes% "\t\t\t2u32 => match token {",
  codes% "\t\t\t\t'0'..='9' | 'A'..='Z' | 'a'..='z' => 4u32,",
  codes% "\t\t\t\t_ => return false,",
  codes% "\t\t\t},",
  codes% "\t\t\t3u32 => match token {",
  codes% "\t\t\t\t'0'..='9' | 'A'..='Z' | 'a'..='z' => 12u32,",
  codes% "\t\t\t\t_ => return false,",
  codes% "\t\t\t},",
  codes% "\t\t\t4u32 => match token {",
  codes% "\t\t\t\t'0'..='9' | 'A'..='Z' | 'a'..='z' => 5u32,",
  codes% "\t\t\t\t_ => return false,",
  codes% "\t\t\t},",
  codes% "\t\t\t5u32 => match token {"]

/-- Lines 2201 to 2300. -/
def grammarRs22 : List (List Nat) := [
  codes% "\t\t\t\t'0'..='9' | 'A'..='Z' | 'a'..='z' => 6u32,",
  codes% "\t\t\t\t_ => return false,",
  codes% "\t\t\t},",
  codes% "\t\t\t6u32 => match token {",
  codes% "\t\t\t\t'0'..='9' | 'A'..='Z' | 'a'..='z' => 7u32,",
  codes% "\t\t\t\t_ => return false,",
  codes% "\t\t\t},",
  codes% "\t\t\t7u32 => match token {",
  codes% "\t\t\t\t'-' => 8u32,",
  codes% "\t\t\t\t'0'..='9' | 'A'..='Z' | 'a'..='z' => 9u32,",
  codes% "\t\t\t\t_ => return false,",
  codes% "\t\t\t},",
  codes% "\t\t\t8u32 => match token {",
  codes% "\t\t\t\t'0'..='9' => 1u32,",
  codes% "\t\t\t\t'A'..='Z' | 'a'..='z' => 2u32,",
  codes% "\t\t\t\t_ => return false,",
  codes% "\t\t\t},",
  codes% "\t\t\t9u32 => match token {",
  codes% "\t\t\t\t'-' => 8u32,",
  codes% "\t\t\t\t'0'..='9' | 'A'..='Z' | 'a'..='z' => 10u32,",
  codes% "\t\t\t\t_ => return false,",
  codes% "\t\t\t},",
  codes% "\t\t\t10u32 => match token {",
  codes% "\t\t\t\t'-' => 8u32,",
  codes% "\t\t\t\t'0'..='9' | 'A'..='Z' | 'a'..='z' => 11u32,",
  codes% "\t\t\t\t_ => return false,",
  codes% "\t\t\t},",
  codes% "\t\t\t11u32 => match token {",
  codes% "\t\t\t\t'-' => 8u32,",
  codes% "\t\t\t\t_ => return false,",
  codes% "\t\t\t},",
  codes% "\t\t\t12u32 => match token {",
  codes% "\t\t\t\t'0'..='9' | 'A'..='Z' | 'a'..='z' => 13u32,",
  codes% "\t\t\t\t_ => return false,",
  codes% "\t\t\t},",
  codes% "\t\t\t13u32 => match token {",
  codes% "\t\t\t\t'-' => 8u32,",
  codes% "\t\t\t\t'0'..='9' | 'A'..='Z' | 'a'..='z' => 7u32,",
  codes% "\t\t\t\t_ => return false,",
  codes% "\t\t\t},",
  codes% "\t\t\t_ => return false,",
  codes% "\t\t};",
  codes% "\t\ttrue",
  codes% "\t}",
  codes% "\tpub const fn is_accepting(&self) -> bool {",
  codes% "\t\tmatches!(self.state, 0u32 | 7u32 | 9u32 | 10u32 | 11u32 | 13u32)",
  codes% "\t}",
  codes% "\tpub const fn validate_str(s: &str) -> bool {",
  codes% "\t\tSelf::validate_bytes(s.as_bytes())",
  codes% "\t}",
  codes% "\tpub const fn validate_bytes(bytes: &[u8]) -> bool {",
  codes% "\t\tlet mut i = 0;",
  codes% "\t\tlet mut automaton = Self::new();",
  codes% "\t\twhile i < bytes.len() {",
  codes% "\t\t\tmatch ::static_automata::decode_utf8_char(bytes, i) {",
  codes% "\t\t\t\tOk((c, len)) => {",
  codes% "\t\t\t\t\tif !automaton.push(c) {",
  codes% "\t\t\t\t\t\treturn false;",
  codes% "\t\t\t\t\t}",
  codes% "\t\t\t\t\ti += len;",
  codes% "\t\t\t\t}",
  codes% "\t\t\t\tErr(_) => return false,",
  codes% "\t\t\t}",
  codes% "\t\t}",
  codes% "\t\tautomaton.is_accepting()",
  codes% "\t}",
  codes% "}",
  codes% "pub struct Extension {",
  codes% "\tstate: u32,",
  codes% "}",
  codes% "impl Extension {",
  codes% "\tpub const fn new() -> Self {",
  codes% "\t\tSelf { state: 0u32 }",
  codes% "\t}",
  codes% "\tpub const fn push(&mut self, token: char) -> bool {",
  codes% "\t\tself.state = match self.state {",
  codes% "\t\t\t0u32 => match token {",
  codes% "\t\t\t\t'0'..='9' | 'A'..='W' | 'Y'..='Z' | 'a'..='w' | 'y'..='z' => 1u32,",
  codes% "\t\t\t\t_ => return false,",
  codes% "\t\t\t},",
  codes% "\t\t\t1u32 => match token {",
  codes% "\t\t\t\t'-' => 2u32,",
  codes% "\t\t\t\t_ => return false,",
  codes% "\t\t\t},",
  codes% "\t\t\t2u32 => match token {",
  codes% "\t\t\t\t'0'..='9' | 'A'..='Z' | 'a'..='z' => 3u32,",
  codes% "\t\t\t\t_ => return false,",
  codes% "\t\t\t},",
  codes% "\t\t\t3u32 => match token {",
  codes% "\t\t\t\t'0'..='9' | 'A'..='Z' | 'a'..='z' => 4u32,",
  codes% "\t\t\t\t_ => return false,",
  codes% "\t\t\t},",
  codes% "\t\t\t4u32 => match token {",
  codes% "\t\t\t\t'-' => 2u32,",
  codes% "\t\t\t\t'0'..='9' | 'A'..='Z' | 'a'..='z' => 5u32,",
  codes% "\t\t\t\t_ => return false,",
  codes% "\t\t\t},",
  codes% "\t\t\t5u32 => match token {",
  codes% "\t\t\t\t'-' => 2u32,",
  codes% "\t\t\t\t'0'..='9' | 'A'..='Z' | 'a'..='z' => 6u32,"]

/-- Lines 2301 to 2400. -/
def grammarRs23 : List (List Nat) := [
  codes% "\t\t\t\t_ => return false,",
  codes% "\t\t\t},",
  codes% "\t\t\t6u32 => match token {",
  codes% "\t\t\t\t'-' => 2u32,",
  codes% "\t\t\t\t'0'..='9' | 'A'..='Z' | 'a'..='z' => 7u32,",
  codes% "\t\t\t\t_ => return false,",
  codes% "\t\t\t},",
  codes% "\t\t\t7u32 => match token {",
  codes% "\t\t\t\t'-' => 2u32,",
  codes% "\t\t\t\t'0'..='9' | 'A'..='Z' | 'a'..='z' => 8u32,",
  codes% "\t\t\t\t_ => return false,",
  codes% "\t\t\t},",
  codes% "\t\t\t8u32 => match token {",
  codes% "\t\t\t\t'-' => 2u32,",
  codes% "\t\t\t\t'0'..='9' | 'A'..='Z' | 'a'..='z' => 9u32,",
  codes% "\t\t\t\t_ => return false,",
  codes% "\t\t\t},",
  codes% "\t\t\t9u32 => match token {",
  codes% "\t\t\t\t'-' => 2u32,",
  codes% "\t\t\t\t'0'..='9' | 'A'..='Z' | 'a'..='z' => 10u32,",
  codes% "\t\t\t\t_ => return false,",
  codes% "\t\t\t},",
  codes% "\t\t\t10u32 => match token {",
  codes% "\t\t\t\t'-' => 2u32,",
  codes% "\t\t\t\t_ => return false,",
  codes% "\t\t\t},",
  codes% "\t\t\t_ => return false,",
  codes% "\t\t};",
  codes% "\t\ttrue",
  codes% "\t}",
  codes% "\tpub const fn is_accepting(&self) -> bool {",
  codes% "\t\tmatches!(self.state, 4u32 | 5u32 | 6u32 | 7u32 | 8u32 | 9u32 | 10u32)",
  codes% "\t}",
  codes% "\tpub const fn validate_str(s: &str) -> bool {",
  codes% "\t\tSelf::validate_bytes(s.as_bytes())",
  codes% "\t}",
  codes% "\tpub const fn validate_bytes(bytes: &[u8]) -> bool {",
  codes% "\t\tlet mut i = 0;",
  codes% "\t\tlet mut automaton = Self::new();",
  codes% "\t\twhile i < bytes.len() {",
  codes% "\t\t\tmatch ::static_automata::decode_utf8_char(bytes, i) {",
  codes% "\t\t\t\tOk((c, len)) => {",
  codes% "\t\t\t\t\tif !automaton.push(c) {",
  codes% "\t\t\t\t\t\treturn false;",
  codes% "\t\t\t\t\t}",
  codes% "\t\t\t\t\ti += len;",
  codes% "\t\t\t\t}",
  codes% "\t\t\t\tErr(_) => return false,",
  codes% "\t\t\t}",
  codes% "\t\t}",
  codes% "\t\tautomaton.is_accepting()",
  codes% "\t}",
  codes% "}",
  codes% "pub struct ExtensionSubtag {",
  codes% "\tstate: u32,",
  codes% "}",
  codes% "impl ExtensionSubtag {",
  codes% "\tpub const fn new() -> Self {",
  codes% "\t\tSelf { state: 0u32 }",
  codes% "\t}",
  codes% "\tpub const fn push(&mut self, token: char) -> bool {",
  codes% "\t\tself.state = match self.state {",
  codes% "\t\t\t0u32 => match token {",
  codes% "\t\t\t\t'0'..='9' | 'A'..='Z' | 'a'..='z' => 1u32,",
  codes% "\t\t\t\t_ => return false,",
  codes% "\t\t\t},",
  codes% "\t\t\t1u32 => match token {",
  codes% "\t\t\t\t'0'..='9' | 'A'..='Z' | 'a'..='z' => 2u32,",
  codes% "\t\t\t\t_ => return false,",
  codes% "\t\t\t},",
  codes% "\t\t\t2u32 => match token {",
  codes% "\t\t\t\t'0'..='9' | 'A'..='Z' | 'a'..='z' => 3u32,",
  codes% "\t\t\t\t_ => return false,",
  codes% "\t\t\t},",
  codes% "\t\t\t3u32 => match token {",
  codes% "\t\t\t\t'0'..='9' | 'A'..='Z' | 'a'..='z' => 4u32,",
  codes% "\t\t\t\t_ => return false,",
  codes% "\t\t\t},",
  codes% "\t\t\t4u32 => match token {",
  codes% "\t\t\t\t'0'..='9' | 'A'..='Z' | 'a'..='z' => 5u32,",
  codes% "\t\t\t\t_ => return false,",
  codes% "\t\t\t},",
  codes% "\t\t\t5u32 => match token {",
  codes% "\t\t\t\t'0'..='9' | 'A'..='Z' | 'a'..='z' => 6u32,",
  codes% "\t\t\t\t_ => return false,",
  codes% "\t\t\t},",
  codes% "\t\t\t6u32 => match token {",
  codes% "\t\t\t\t'0'..='9' | 'A'..='Z' | 'a'..='z' => 7u32,",
  codes% "\t\t\t\t_ => return false,",
  codes% "\t\t\t},",
  codes% "\t\t\t7u32 => match token {",
  codes% "\t\t\t\t'0'..='9' | 'A'..='Z' | 'a'..='z' => 8u32,",
  codes% "\t\t\t\t_ => return false,",
  codes% "\t\t\t},",
  codes% "\t\t\t_ => return false,",
  codes% "\t\t};",
  codes% "\t\ttrue",
  codes% "\t}",
  codes% "\tpub const fn is_accepting(&self) -> bool {",
  codes% "\t\tmatches!(self.state, 2u32 | 3u32 | 4u32 | 5u32 | 6u32 | 7u32 | 8u32)"]

/-- Lines 2401 to 2500. -/
def grammarRs24 : List (List Nat) := [
  codes% "\t}",
  codes% "\tpub const fn validate_str(s: &str) -> bool {",
  codes% "\t\tSelf::validate_bytes(s.as_bytes())",
  codes% "\t}",
  codes% "\tpub const fn validate_bytes(bytes: &[u8]) -> bool {",
  codes% "\t\tlet mut i = 0;",
  codes% "\t\tlet mut automaton = Self::new();",
  codes% "\t\twhile i < bytes.len() {",
  codes% "\t\t\tmatch ::static_automata::decode_utf8_char(bytes, i) {",
  codes% "\t\t\t\tOk((c, len)) => {",
  codes% "\t\t\t\t\tif !automaton.push(c) {",
  codes% "\t\t\t\t\t\treturn false;",
  codes% "\t\t\t\t\t}",
  codes% "\t\t\t\t\ti += len;",
  codes% "\t\t\t\t}",
  codes% "\t\t\t\tErr(_) => return false,",
  codes% "\t\t\t}",
  codes% "\t\t}",
  codes% "\t\tautomaton.is_accepting()",
  codes% "\t}",
  codes% "}",
  codes% "pub struct Extensions {",
  codes% "\tstate: u32,",
  codes% "}",
  codes% "impl Extensions {",
  codes% "\tpub const fn new() -> Self {",
  codes% "\t\tSelf { state: 0u32 }",
  codes% "\t}",
  codes% "\tpub const fn push(&mut self, token: char) -> bool {",
  codes% "\t\tself.state = match self.state {",
  codes% "\t\t\t0u32 => match token {",
  codes% "\t\t\t\t'0'..='9' | 'A'..='W' | 'Y'..='Z' | 'a'..='w' | 'y'..='z' => 1u32,",
  codes% "\t\t\t\t_ => return false,",
  codes% "\t\t\t},",
  codes% "\t\t\t1u32 => match token {",
  codes% "\t\t\t\t'-' => 2u32,",
  codes% "\t\t\t\t_ => return false,",
  codes% "\t\t\t},",
  codes% "\t\t\t2u32 => match token {",
  codes% "\t\t\t\t'0'..='9' | 'A'..='Z' | 'a'..='z' => 3u32,",
  codes% "\t\t\t\t_ => return false,",
  codes% "\t\t\t},",
  codes% "\t\t\t3u32 => match token {",
  codes% "\t\t\t\t'0'..='9' | 'A'..='Z' | 'a'..='z' => 4u32,",
  codes% "\t\t\t\t_ => return false,",
  codes% "\t\t\t},",
  codes% "\t\t\t4u32 => match token {",
  codes% "\t\t\t\t'-' => 5u32,",
  codes% "\t\t\t\t'0'..='9' | 'A'..='Z' | 'a'..='z' => 6u32,",
  codes% "\t\t\t\t_ => return false,",
  codes% "\t\t\t},",
  codes% "\t\t\t5u32 => match token {",
  codes% "\t\t\t\t'0'..='9' | 'A'..='W' | 'Y'..='Z' | 'a'..='w' | 'y'..='z' => 7u32,",
  codes% "\t\t\t\t'X' | 'x' => 3u32,",
  codes% "\t\t\t\t_ => return false,",
  codes% "\t\t\t},",
  codes% "\t\t\t6u32 => match token {",
  codes% "\t\t\t\t'-' => 5u32,",
  codes% "\t\t\t\t'0'..='9' | 'A'..='Z' | 'a'..='z' => 8u32,",
  codes% "\t\t\t\t_ => return false,",
  codes% "\t\t\t},",
  codes% "\t\t\t7u32 => match token {",
  codes% "\t\t\t\t'-' => 2u32,",
  codes% "\t\t\t\t'0'..='9' | 'A'..='Z' | 'a'..='z' => 4u32,",
  codes% "\t\t\t\t_ => return false,",
  codes% "\t\t\t},",
  codes% "\t\t\t8u32 => match token {",
  codes% "\t\t\t\t'-' => 5u32,",
  codes% "\t\t\t\t'0'..='9' | 'A'..='Z' | 'a'..='z' => 9u32,",
  codes% "\t\t\t\t_ => return false,",
  codes% "\t\t\t},",
  codes% "\t\t\t9u32 => match token {",
  codes% "\t\t\t\t'-' => 5u32,",
  codes% "\t\t\t\t'0'..='9' | 'A'..='Z' | 'a'..='z' => 10u32,",
  codes% "\t\t\t\t_ => return false,",
  codes% "\t\t\t},",
  codes% "\t\t\t10u32 => match token {",
  codes% "\t\t\t\t'-' => 5u32,",
  codes% "\t\t\t\t'0'..='9' | 'A'..='Z' | 'a'..='z' => 11u32,",
  codes% "\t\t\t\t_ => return false,",
  codes% "\t\t\t},",
  codes% "\t\t\t11u32 => match token {",
  codes% "\t\t\t\t'-' => 5u32,",
  codes% "\t\t\t\t'0'..='9' | 'A'..='Z' | 'a'..='z' => 12u32,",
  codes% "\t\t\t\t_ => return false,",
  codes% "\t\t\t},",
  codes% "\t\t\t12u32 => match token {",
  codes% "\t\t\t\t'-' => 5u32,",
  codes% "\t\t\t\t_ => return false,",
  codes% "\t\t\t},",
  codes% "\t\t\t_ => return false,",
  codes% "\t\t};",
  codes% "\t\ttrue",
  codes% "\t}",
  codes% "\tpub const fn is_accepting(&self) -> bool {",
  codes% "\t\tmatches!(",
  codes% "\t\t\tself.state,",
  codes% "\t\t\t0u32 | 4u32 | 6u32 | 8u32 | 9u32 | 10u32 | 11u32 | 12u32",
  codes% "\t\t)",
  codes% "\t}"]

/-- Lines 2501 to 2520. -/
def grammarRs25 : List (List Nat) := [
  codes% "\tpub const fn validate_str(s: &str) -> bool {",
  codes% "\t\tSelf::validate_bytes(s.as_bytes())",
  codes% "\t}",
  codes% "\tpub const fn validate_bytes(bytes: &[u8]) -> bool {",
  codes% "\t\tlet mut i = 0;",
  codes% "\t\tlet mut automaton = Self::new();",
  codes% "\t\twhile i < bytes.len() {",
  codes% "\t\t\tmatch ::static_automata::decode_utf8_char(bytes, i) {",
  codes% "\t\t\t\tOk((c, len)) => {",
  codes% "\t\t\t\t\tif !automaton.push(c) {",
  codes% "\t\t\t\t\t\treturn false;",
  codes% "\t\t\t\t\t}",
  codes% "\t\t\t\t\ti += len;",
  codes% "\t\t\t\t}",
  codes% "\t\t\t\tErr(_) => return false,",
  codes% "\t\t\t}",
  codes% "\t\t}",
  codes% "\t\tautomaton.is_accepting()",
  codes% "\t}",
  codes% "}"]

/-- The lines of `/repo/src/grammar.rs`. -/
def grammarRs : List (List Nat) :=
  grammarRs0 ++
  grammarRs1 ++
  grammarRs2 ++
  grammarRs3 ++
  grammarRs4 ++
  grammarRs5 ++
  grammarRs6 ++
  grammarRs7 ++
  grammarRs8 ++
  grammarRs9 ++
  grammarRs10 ++
  grammarRs11 ++
  grammarRs12 ++
  grammarRs13 ++
  grammarRs14 ++
  grammarRs15 ++
  grammarRs16 ++
  grammarRs17 ++
  grammarRs18 ++
  grammarRs19 ++
  grammarRs20 ++
  grammarRs21 ++
  grammarRs22 ++
  grammarRs23 ++
  grammarRs24 ++
  grammarRs25

end Langtag.Source.Text
