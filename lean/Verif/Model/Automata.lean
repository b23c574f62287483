import Verif.Model.Dfa

/-! Generated by tools/gen_dfa.py from /repo/src/grammar.rs, do not edit by hand.
Each automaton of `grammar.rs` is a table: one row per arm `Nu32 => match token {..}` of `push`,
each row a list of (character ranges, next state) in source order.  The `_ => return false`
arms are the absence of a match.  States without an arm (only `_ => return false`) have no row.
A `'c'` pattern is the range `('c', 'c')`. -/

set_option autoImplicit false

namespace Langtag.Model.Automata
open Langtag.Model

/-- `push` of `LanguageTag`: src/grammar.rs:9-1035. -/
def languageTagRows : List Row := [
  ⟨0, [⟨[('A', 'A'), ('a', 'a')], 1⟩, ⟨[('B', 'B'), ('D', 'D'), ('F', 'H'), ('J', 'M'), ('O', 'R'), ('T', 'W'), ('Y', 'Y'), ('b', 'b'), ('d', 'd'), ('f', 'h'), ('j', 'm'), ('o', 'r'), ('t', 'w'), ('y', 'y')], 2⟩, ⟨[('C', 'C'), ('c', 'c')], 3⟩, ⟨[('E', 'E'), ('e', 'e')], 4⟩, ⟨[('I', 'I'), ('i', 'i')], 5⟩, ⟨[('N', 'N'), ('n', 'n')], 6⟩, ⟨[('S', 'S'), ('s', 's')], 7⟩, ⟨[('X', 'X'), ('x', 'x')], 8⟩, ⟨[('Z', 'Z'), ('z', 'z')], 9⟩]⟩,
  ⟨1, [⟨[('A', 'Q'), ('S', 'Z'), ('a', 'q'), ('s', 'z')], 10⟩, ⟨[('R', 'R'), ('r', 'r')], 11⟩]⟩,
  ⟨2, [⟨[('A', 'Z'), ('a', 'z')], 10⟩]⟩,
  ⟨3, [⟨[('A', 'D'), ('F', 'Z'), ('a', 'd'), ('f', 'z')], 10⟩, ⟨[('E', 'E'), ('e', 'e')], 12⟩]⟩,
  ⟨4, [⟨[('A', 'M'), ('O', 'Z'), ('a', 'm'), ('o', 'z')], 10⟩, ⟨[('N', 'N'), ('n', 'n')], 13⟩]⟩,
  ⟨5, [⟨[('-', '-')], 14⟩, ⟨[('A', 'Z'), ('a', 'z')], 10⟩]⟩,
  ⟨6, [⟨[('A', 'N'), ('P', 'Z'), ('a', 'n'), ('p', 'z')], 10⟩, ⟨[('O', 'O'), ('o', 'o')], 15⟩]⟩,
  ⟨7, [⟨[('A', 'F'), ('H', 'Z'), ('a', 'f'), ('h', 'z')], 10⟩, ⟨[('G', 'G'), ('g', 'g')], 16⟩]⟩,
  ⟨8, [⟨[('-', '-')], 17⟩, ⟨[('A', 'Z'), ('a', 'z')], 10⟩]⟩,
  ⟨9, [⟨[('A', 'G'), ('I', 'Z'), ('a', 'g'), ('i', 'z')], 10⟩, ⟨[('H', 'H'), ('h', 'h')], 18⟩]⟩,
  ⟨10, [⟨[('-', '-')], 19⟩, ⟨[('A', 'Z'), ('a', 'z')], 20⟩]⟩,
  ⟨11, [⟨[('-', '-')], 19⟩, ⟨[('A', 'S'), ('U', 'Z'), ('a', 's'), ('u', 'z')], 20⟩, ⟨[('T', 'T'), ('t', 't')], 176⟩]⟩,
  ⟨12, [⟨[('-', '-')], 19⟩, ⟨[('A', 'K'), ('M', 'Z'), ('a', 'k'), ('m', 'z')], 20⟩, ⟨[('L', 'L'), ('l', 'l')], 168⟩]⟩,
  ⟨13, [⟨[('-', '-')], 161⟩, ⟨[('A', 'Z'), ('a', 'z')], 20⟩]⟩,
  ⟨14, [⟨[('A', 'A'), ('a', 'a')], 123⟩, ⟨[('B', 'B'), ('b', 'b')], 124⟩, ⟨[('D', 'D'), ('d', 'd')], 125⟩, ⟨[('E', 'E'), ('e', 'e')], 126⟩, ⟨[('H', 'H'), ('h', 'h')], 127⟩, ⟨[('K', 'K'), ('k', 'k')], 128⟩, ⟨[('L', 'L'), ('l', 'l')], 129⟩, ⟨[('M', 'M'), ('m', 'm')], 130⟩, ⟨[('N', 'N'), ('n', 'n')], 131⟩, ⟨[('P', 'P'), ('p', 'p')], 132⟩, ⟨[('T', 'T'), ('t', 't')], 133⟩]⟩,
  ⟨15, [⟨[('-', '-')], 118⟩, ⟨[('A', 'Z'), ('a', 'z')], 20⟩]⟩,
  ⟨16, [⟨[('-', '-')], 19⟩, ⟨[('A', 'M'), ('O', 'Z'), ('a', 'm'), ('o', 'z')], 20⟩, ⟨[('N', 'N'), ('n', 'n')], 106⟩]⟩,
  ⟨17, [⟨[('0', '9'), ('A', 'Z'), ('a', 'z')], 64⟩]⟩,
  ⟨18, [⟨[('-', '-')], 21⟩, ⟨[('A', 'Z'), ('a', 'z')], 20⟩]⟩,
  ⟨19, [⟨[('0', '9')], 22⟩, ⟨[('A', 'W'), ('Y', 'Z'), ('a', 'w'), ('y', 'z')], 23⟩, ⟨[('X', 'X'), ('x', 'x')], 24⟩]⟩,
  ⟨20, [⟨[('-', '-')], 19⟩, ⟨[('A', 'Z'), ('a', 'z')], 25⟩]⟩,
  ⟨21, [⟨[('0', '9')], 22⟩, ⟨[('A', 'F'), ('I', 'L'), ('N', 'W'), ('Y', 'Z'), ('a', 'f'), ('i', 'l'), ('n', 'w'), ('y', 'z')], 23⟩, ⟨[('G', 'G'), ('g', 'g')], 88⟩, ⟨[('H', 'H'), ('h', 'h')], 89⟩, ⟨[('M', 'M'), ('m', 'm')], 90⟩, ⟨[('X', 'X'), ('x', 'x')], 91⟩]⟩,
  ⟨22, [⟨[('-', '-')], 33⟩, ⟨[('0', '9')], 34⟩, ⟨[('A', 'Z'), ('a', 'z')], 35⟩]⟩,
  ⟨23, [⟨[('-', '-')], 33⟩, ⟨[('0', '9')], 36⟩, ⟨[('A', 'Z'), ('a', 'z')], 76⟩]⟩,
  ⟨24, [⟨[('-', '-')], 17⟩, ⟨[('0', '9')], 36⟩, ⟨[('A', 'Z'), ('a', 'z')], 76⟩]⟩,
  ⟨25, [⟨[('-', '-')], 26⟩, ⟨[('A', 'Z'), ('a', 'z')], 27⟩]⟩,
  ⟨26, [⟨[('0', '9')], 22⟩, ⟨[('A', 'W'), ('Y', 'Z'), ('a', 'w'), ('y', 'z')], 28⟩, ⟨[('X', 'X'), ('x', 'x')], 29⟩]⟩,
  ⟨27, [⟨[('-', '-')], 26⟩, ⟨[('A', 'Z'), ('a', 'z')], 30⟩]⟩,
  ⟨28, [⟨[('-', '-')], 33⟩, ⟨[('0', '9')], 36⟩, ⟨[('A', 'Z'), ('a', 'z')], 37⟩]⟩,
  ⟨29, [⟨[('-', '-')], 17⟩, ⟨[('0', '9')], 36⟩, ⟨[('A', 'Z'), ('a', 'z')], 37⟩]⟩,
  ⟨30, [⟨[('-', '-')], 26⟩, ⟨[('A', 'Z'), ('a', 'z')], 31⟩]⟩,
  ⟨31, [⟨[('-', '-')], 26⟩, ⟨[('A', 'Z'), ('a', 'z')], 32⟩]⟩,
  ⟨32, [⟨[('-', '-')], 26⟩]⟩,
  ⟨33, [⟨[('0', '9'), ('A', 'Z'), ('a', 'z')], 38⟩]⟩,
  ⟨34, [⟨[('0', '9')], 75⟩, ⟨[('A', 'Z'), ('a', 'z')], 72⟩]⟩,
  ⟨35, [⟨[('0', '9'), ('A', 'Z'), ('a', 'z')], 72⟩]⟩,
  ⟨36, [⟨[('0', '9'), ('A', 'Z'), ('a', 'z')], 39⟩]⟩,
  ⟨37, [⟨[('-', '-')], 40⟩, ⟨[('0', '9')], 39⟩, ⟨[('A', 'Z'), ('a', 'z')], 41⟩]⟩,
  ⟨38, [⟨[('0', '9'), ('A', 'Z'), ('a', 'z')], 54⟩]⟩,
  ⟨39, [⟨[('0', '9'), ('A', 'Z'), ('a', 'z')], 45⟩]⟩,
  ⟨40, [⟨[('0', '9')], 42⟩, ⟨[('A', 'W'), ('Y', 'Z'), ('a', 'w'), ('y', 'z')], 43⟩, ⟨[('X', 'X'), ('x', 'x')], 44⟩]⟩,
  ⟨41, [⟨[('0', '9')], 45⟩, ⟨[('A', 'Z'), ('a', 'z')], 46⟩]⟩,
  ⟨42, [⟨[('-', '-')], 33⟩, ⟨[('0', '9'), ('A', 'Z'), ('a', 'z')], 35⟩]⟩,
  ⟨43, [⟨[('-', '-')], 33⟩, ⟨[('0', '9'), ('A', 'Z'), ('a', 'z')], 36⟩]⟩,
  ⟨44, [⟨[('-', '-')], 17⟩, ⟨[('0', '9'), ('A', 'Z'), ('a', 'z')], 36⟩]⟩,
  ⟨45, [⟨[('0', '9'), ('A', 'Z'), ('a', 'z')], 47⟩]⟩,
  ⟨46, [⟨[('-', '-')], 48⟩, ⟨[('0', '9'), ('A', 'Z'), ('a', 'z')], 47⟩]⟩,
  ⟨47, [⟨[('-', '-')], 40⟩, ⟨[('0', '9'), ('A', 'Z'), ('a', 'z')], 51⟩]⟩,
  ⟨48, [⟨[('0', '9')], 22⟩, ⟨[('A', 'W'), ('Y', 'Z'), ('a', 'w'), ('y', 'z')], 49⟩, ⟨[('X', 'X'), ('x', 'x')], 50⟩]⟩,
  ⟨49, [⟨[('-', '-')], 33⟩, ⟨[('0', '9')], 36⟩, ⟨[('A', 'Z'), ('a', 'z')], 74⟩]⟩,
  ⟨50, [⟨[('-', '-')], 17⟩, ⟨[('0', '9')], 36⟩, ⟨[('A', 'Z'), ('a', 'z')], 74⟩]⟩,
  ⟨51, [⟨[('-', '-')], 40⟩, ⟨[('0', '9'), ('A', 'Z'), ('a', 'z')], 52⟩]⟩,
  ⟨52, [⟨[('-', '-')], 40⟩, ⟨[('0', '9'), ('A', 'Z'), ('a', 'z')], 53⟩]⟩,
  ⟨53, [⟨[('-', '-')], 40⟩]⟩,
  ⟨54, [⟨[('-', '-')], 55⟩, ⟨[('0', '9'), ('A', 'Z'), ('a', 'z')], 56⟩]⟩,
  ⟨55, [⟨[('0', '9'), ('A', 'W'), ('Y', 'Z'), ('a', 'w'), ('y', 'z')], 57⟩, ⟨[('X', 'X'), ('x', 'x')], 58⟩]⟩,
  ⟨56, [⟨[('-', '-')], 55⟩, ⟨[('0', '9'), ('A', 'Z'), ('a', 'z')], 59⟩]⟩,
  ⟨57, [⟨[('-', '-')], 33⟩, ⟨[('0', '9'), ('A', 'Z'), ('a', 'z')], 54⟩]⟩,
  ⟨58, [⟨[('-', '-')], 17⟩, ⟨[('0', '9'), ('A', 'Z'), ('a', 'z')], 54⟩]⟩,
  ⟨59, [⟨[('-', '-')], 55⟩, ⟨[('0', '9'), ('A', 'Z'), ('a', 'z')], 60⟩]⟩,
  ⟨60, [⟨[('-', '-')], 55⟩, ⟨[('0', '9'), ('A', 'Z'), ('a', 'z')], 61⟩]⟩,
  ⟨61, [⟨[('-', '-')], 55⟩, ⟨[('0', '9'), ('A', 'Z'), ('a', 'z')], 62⟩]⟩,
  ⟨62, [⟨[('-', '-')], 55⟩, ⟨[('0', '9'), ('A', 'Z'), ('a', 'z')], 63⟩]⟩,
  ⟨63, [⟨[('-', '-')], 55⟩]⟩,
  ⟨64, [⟨[('-', '-')], 17⟩, ⟨[('0', '9'), ('A', 'Z'), ('a', 'z')], 65⟩]⟩,
  ⟨65, [⟨[('-', '-')], 17⟩, ⟨[('0', '9'), ('A', 'Z'), ('a', 'z')], 66⟩]⟩,
  ⟨66, [⟨[('-', '-')], 17⟩, ⟨[('0', '9'), ('A', 'Z'), ('a', 'z')], 67⟩]⟩,
  ⟨67, [⟨[('-', '-')], 17⟩, ⟨[('0', '9'), ('A', 'Z'), ('a', 'z')], 68⟩]⟩,
  ⟨68, [⟨[('-', '-')], 17⟩, ⟨[('0', '9'), ('A', 'Z'), ('a', 'z')], 69⟩]⟩,
  ⟨69, [⟨[('-', '-')], 17⟩, ⟨[('0', '9'), ('A', 'Z'), ('a', 'z')], 70⟩]⟩,
  ⟨70, [⟨[('-', '-')], 17⟩, ⟨[('0', '9'), ('A', 'Z'), ('a', 'z')], 71⟩]⟩,
  ⟨71, [⟨[('-', '-')], 17⟩]⟩,
  ⟨72, [⟨[('0', '9'), ('A', 'Z'), ('a', 'z')], 73⟩]⟩,
  ⟨73, [⟨[('-', '-')], 40⟩, ⟨[('0', '9'), ('A', 'Z'), ('a', 'z')], 47⟩]⟩,
  ⟨74, [⟨[('-', '-')], 40⟩, ⟨[('0', '9'), ('A', 'Z'), ('a', 'z')], 39⟩]⟩,
  ⟨75, [⟨[('-', '-')], 40⟩, ⟨[('0', '9'), ('A', 'Z'), ('a', 'z')], 73⟩]⟩,
  ⟨76, [⟨[('-', '-')], 40⟩, ⟨[('0', '9')], 39⟩, ⟨[('A', 'Z'), ('a', 'z')], 77⟩]⟩,
  ⟨77, [⟨[('-', '-')], 78⟩, ⟨[('0', '9')], 45⟩, ⟨[('A', 'Z'), ('a', 'z')], 46⟩]⟩,
  ⟨78, [⟨[('0', '9')], 22⟩, ⟨[('A', 'W'), ('Y', 'Z'), ('a', 'w'), ('y', 'z')], 79⟩, ⟨[('X', 'X'), ('x', 'x')], 80⟩]⟩,
  ⟨79, [⟨[('-', '-')], 33⟩, ⟨[('0', '9')], 36⟩, ⟨[('A', 'Z'), ('a', 'z')], 81⟩]⟩,
  ⟨80, [⟨[('-', '-')], 17⟩, ⟨[('0', '9')], 36⟩, ⟨[('A', 'Z'), ('a', 'z')], 81⟩]⟩,
  ⟨81, [⟨[('-', '-')], 40⟩, ⟨[('0', '9')], 39⟩, ⟨[('A', 'Z'), ('a', 'z')], 82⟩]⟩,
  ⟨82, [⟨[('-', '-')], 83⟩, ⟨[('0', '9')], 45⟩, ⟨[('A', 'Z'), ('a', 'z')], 46⟩]⟩,
  ⟨83, [⟨[('0', '9')], 22⟩, ⟨[('A', 'W'), ('Y', 'Z'), ('a', 'w'), ('y', 'z')], 84⟩, ⟨[('X', 'X'), ('x', 'x')], 85⟩]⟩,
  ⟨84, [⟨[('-', '-')], 33⟩, ⟨[('0', '9')], 36⟩, ⟨[('A', 'Z'), ('a', 'z')], 86⟩]⟩,
  ⟨85, [⟨[('-', '-')], 17⟩, ⟨[('0', '9')], 36⟩, ⟨[('A', 'Z'), ('a', 'z')], 86⟩]⟩,
  ⟨86, [⟨[('-', '-')], 40⟩, ⟨[('0', '9')], 39⟩, ⟨[('A', 'Z'), ('a', 'z')], 87⟩]⟩,
  ⟨87, [⟨[('-', '-')], 26⟩, ⟨[('0', '9')], 45⟩, ⟨[('A', 'Z'), ('a', 'z')], 46⟩]⟩,
  ⟨88, [⟨[('-', '-')], 33⟩, ⟨[('0', '9')], 36⟩, ⟨[('A', 'T'), ('V', 'Z'), ('a', 't'), ('v', 'z')], 76⟩, ⟨[('U', 'U'), ('u', 'u')], 92⟩]⟩,
  ⟨89, [⟨[('-', '-')], 33⟩, ⟨[('0', '9')], 36⟩, ⟨[('A', 'A'), ('a', 'a')], 93⟩, ⟨[('B', 'Z'), ('b', 'z')], 76⟩]⟩,
  ⟨90, [⟨[('-', '-')], 33⟩, ⟨[('0', '9')], 36⟩, ⟨[('A', 'H'), ('J', 'Z'), ('a', 'h'), ('j', 'z')], 76⟩, ⟨[('I', 'I'), ('i', 'i')], 94⟩]⟩,
  ⟨91, [⟨[('-', '-')], 17⟩, ⟨[('0', '9')], 36⟩, ⟨[('A', 'H'), ('J', 'Z'), ('a', 'h'), ('j', 'z')], 76⟩, ⟨[('I', 'I'), ('i', 'i')], 95⟩]⟩,
  ⟨92, [⟨[('-', '-')], 40⟩, ⟨[('0', '9')], 39⟩, ⟨[('A', 'N'), ('P', 'Z'), ('a', 'n'), ('p', 'z')], 77⟩, ⟨[('O', 'O'), ('o', 'o')], 104⟩]⟩,
  ⟨93, [⟨[('-', '-')], 40⟩, ⟨[('0', '9')], 39⟩, ⟨[('A', 'J'), ('L', 'Z'), ('a', 'j'), ('l', 'z')], 77⟩, ⟨[('K', 'K'), ('k', 'k')], 102⟩]⟩,
  ⟨94, [⟨[('-', '-')], 40⟩, ⟨[('0', '9')], 39⟩, ⟨[('A', 'M'), ('O', 'Z'), ('a', 'm'), ('o', 'z')], 77⟩, ⟨[('N', 'N'), ('n', 'n')], 98⟩]⟩,
  ⟨95, [⟨[('-', '-')], 40⟩, ⟨[('0', '9')], 39⟩, ⟨[('A', 'A'), ('a', 'a')], 96⟩, ⟨[('B', 'Z'), ('b', 'z')], 77⟩]⟩,
  ⟨96, [⟨[('-', '-')], 78⟩, ⟨[('0', '9')], 45⟩, ⟨[('A', 'M'), ('O', 'Z'), ('a', 'm'), ('o', 'z')], 46⟩, ⟨[('N', 'N'), ('n', 'n')], 97⟩]⟩,
  ⟨97, [⟨[('-', '-')], 48⟩, ⟨[('0', '9'), ('A', 'Z'), ('a', 'z')], 47⟩]⟩,
  ⟨98, [⟨[('-', '-')], 99⟩, ⟨[('0', '9')], 45⟩, ⟨[('A', 'Z'), ('a', 'z')], 46⟩]⟩,
  ⟨99, [⟨[('0', '9')], 22⟩, ⟨[('A', 'M'), ('O', 'W'), ('Y', 'Z'), ('a', 'm'), ('o', 'w'), ('y', 'z')], 79⟩, ⟨[('N', 'N'), ('n', 'n')], 100⟩, ⟨[('X', 'X'), ('x', 'x')], 80⟩]⟩,
  ⟨100, [⟨[('-', '-')], 33⟩, ⟨[('0', '9')], 36⟩, ⟨[('A', 'A'), ('a', 'a')], 101⟩, ⟨[('B', 'Z'), ('b', 'z')], 81⟩]⟩,
  ⟨101, [⟨[('-', '-')], 40⟩, ⟨[('0', '9')], 39⟩, ⟨[('A', 'Z'), ('a', 'z')], 82⟩]⟩,
  ⟨102, [⟨[('-', '-')], 78⟩, ⟨[('0', '9')], 45⟩, ⟨[('A', 'J'), ('L', 'Z'), ('a', 'j'), ('l', 'z')], 46⟩, ⟨[('K', 'K'), ('k', 'k')], 103⟩]⟩,
  ⟨103, [⟨[('-', '-')], 48⟩, ⟨[('0', '9'), ('A', 'Z'), ('a', 'z')], 47⟩]⟩,
  ⟨104, [⟨[('-', '-')], 78⟩, ⟨[('0', '9')], 45⟩, ⟨[('A', 'X'), ('Z', 'Z'), ('a', 'x'), ('z', 'z')], 46⟩, ⟨[('Y', 'Y'), ('y', 'y')], 105⟩]⟩,
  ⟨105, [⟨[('-', '-')], 48⟩, ⟨[('0', '9'), ('A', 'Z'), ('a', 'z')], 47⟩]⟩,
  ⟨106, [⟨[('-', '-')], 107⟩, ⟨[('A', 'Z'), ('a', 'z')], 25⟩]⟩,
  ⟨107, [⟨[('0', '9')], 22⟩, ⟨[('A', 'A'), ('D', 'W'), ('Y', 'Z'), ('a', 'a'), ('d', 'w'), ('y', 'z')], 23⟩, ⟨[('B', 'B'), ('b', 'b')], 108⟩, ⟨[('C', 'C'), ('c', 'c')], 109⟩, ⟨[('X', 'X'), ('x', 'x')], 24⟩]⟩,
  ⟨108, [⟨[('-', '-')], 33⟩, ⟨[('0', '9')], 36⟩, ⟨[('A', 'D'), ('F', 'Z'), ('a', 'd'), ('f', 'z')], 76⟩, ⟨[('E', 'E'), ('e', 'e')], 110⟩]⟩,
  ⟨109, [⟨[('-', '-')], 33⟩, ⟨[('0', '9')], 36⟩, ⟨[('A', 'G'), ('I', 'Z'), ('a', 'g'), ('i', 'z')], 76⟩, ⟨[('H', 'H'), ('h', 'h')], 111⟩]⟩,
  ⟨110, [⟨[('-', '-')], 115⟩, ⟨[('0', '9')], 39⟩, ⟨[('A', 'Z'), ('a', 'z')], 77⟩]⟩,
  ⟨111, [⟨[('-', '-')], 112⟩, ⟨[('0', '9')], 39⟩, ⟨[('A', 'Z'), ('a', 'z')], 77⟩]⟩,
  ⟨112, [⟨[('0', '9')], 42⟩, ⟨[('A', 'C'), ('E', 'W'), ('Y', 'Z'), ('a', 'c'), ('e', 'w'), ('y', 'z')], 43⟩, ⟨[('D', 'D'), ('d', 'd')], 113⟩, ⟨[('X', 'X'), ('x', 'x')], 44⟩]⟩,
  ⟨113, [⟨[('-', '-')], 33⟩, ⟨[('0', '9'), ('A', 'D'), ('F', 'Z'), ('a', 'd'), ('f', 'z')], 36⟩, ⟨[('E', 'E'), ('e', 'e')], 114⟩]⟩,
  ⟨114, [⟨[('0', '9'), ('A', 'Z'), ('a', 'z')], 39⟩]⟩,
  ⟨115, [⟨[('0', '9')], 42⟩, ⟨[('A', 'E'), ('G', 'M'), ('O', 'W'), ('Y', 'Z'), ('a', 'e'), ('g', 'm'), ('o', 'w'), ('y', 'z')], 43⟩, ⟨[('F', 'F'), ('f', 'f')], 116⟩, ⟨[('N', 'N'), ('n', 'n')], 117⟩, ⟨[('X', 'X'), ('x', 'x')], 44⟩]⟩,
  ⟨116, [⟨[('-', '-')], 33⟩, ⟨[('0', '9'), ('A', 'Q'), ('S', 'Z'), ('a', 'q'), ('s', 'z')], 36⟩, ⟨[('R', 'R'), ('r', 'r')], 114⟩]⟩,
  ⟨117, [⟨[('-', '-')], 33⟩, ⟨[('0', '9'), ('A', 'K'), ('M', 'Z'), ('a', 'k'), ('m', 'z')], 36⟩, ⟨[('L', 'L'), ('l', 'l')], 114⟩]⟩,
  ⟨118, [⟨[('0', '9')], 22⟩, ⟨[('A', 'A'), ('C', 'M'), ('O', 'W'), ('Y', 'Z'), ('a', 'a'), ('c', 'm'), ('o', 'w'), ('y', 'z')], 23⟩, ⟨[('B', 'B'), ('b', 'b')], 119⟩, ⟨[('N', 'N'), ('n', 'n')], 120⟩, ⟨[('X', 'X'), ('x', 'x')], 24⟩]⟩,
  ⟨119, [⟨[('-', '-')], 33⟩, ⟨[('0', '9')], 36⟩, ⟨[('A', 'N'), ('P', 'Z'), ('a', 'n'), ('p', 'z')], 76⟩, ⟨[('O', 'O'), ('o', 'o')], 121⟩]⟩,
  ⟨120, [⟨[('-', '-')], 33⟩, ⟨[('0', '9')], 36⟩, ⟨[('A', 'X'), ('Z', 'Z'), ('a', 'x'), ('z', 'z')], 76⟩, ⟨[('Y', 'Y'), ('y', 'y')], 122⟩]⟩,
  ⟨121, [⟨[('-', '-')], 40⟩, ⟨[('0', '9')], 39⟩, ⟨[('A', 'Z'), ('a', 'z')], 77⟩]⟩,
  ⟨122, [⟨[('-', '-')], 40⟩, ⟨[('0', '9')], 39⟩, ⟨[('A', 'Z'), ('a', 'z')], 77⟩]⟩,
  ⟨123, [⟨[('M', 'M'), ('m', 'm')], 134⟩]⟩,
  ⟨124, [⟨[('N', 'N'), ('n', 'n')], 135⟩]⟩,
  ⟨125, [⟨[('E', 'E'), ('e', 'e')], 136⟩]⟩,
  ⟨126, [⟨[('N', 'N'), ('n', 'n')], 137⟩]⟩,
  ⟨127, [⟨[('A', 'A'), ('a', 'a')], 138⟩]⟩,
  ⟨128, [⟨[('L', 'L'), ('l', 'l')], 139⟩]⟩,
  ⟨129, [⟨[('U', 'U'), ('u', 'u')], 140⟩]⟩,
  ⟨130, [⟨[('I', 'I'), ('i', 'i')], 141⟩]⟩,
  ⟨131, [⟨[('A', 'A'), ('a', 'a')], 142⟩]⟩,
  ⟨132, [⟨[('W', 'W'), ('w', 'w')], 135⟩]⟩,
  ⟨133, [⟨[('A', 'A'), ('a', 'a')], 143⟩, ⟨[('S', 'S'), ('s', 's')], 144⟩]⟩,
  ⟨134, [⟨[('I', 'I'), ('i', 'i')], 145⟩]⟩,
  ⟨135, [⟨[('N', 'N'), ('n', 'n')], 145⟩]⟩,
  ⟨136, [⟨[('F', 'F'), ('f', 'f')], 157⟩]⟩,
  ⟨137, [⟨[('O', 'O'), ('o', 'o')], 153⟩]⟩,
  ⟨138, [⟨[('K', 'K'), ('k', 'k')], 145⟩]⟩,
  ⟨139, [⟨[('I', 'I'), ('i', 'i')], 150⟩]⟩,
  ⟨140, [⟨[('X', 'X'), ('x', 'x')], 145⟩]⟩,
  ⟨141, [⟨[('N', 'N'), ('n', 'n')], 149⟩]⟩,
  ⟨142, [⟨[('V', 'V'), ('v', 'v')], 146⟩]⟩,
  ⟨143, [⟨[('O', 'O'), ('Y', 'Y'), ('o', 'o'), ('y', 'y')], 145⟩]⟩,
  ⟨144, [⟨[('U', 'U'), ('u', 'u')], 145⟩]⟩,
  ⟨146, [⟨[('A', 'A'), ('a', 'a')], 147⟩]⟩,
  ⟨147, [⟨[('J', 'J'), ('j', 'j')], 148⟩]⟩,
  ⟨148, [⟨[('O', 'O'), ('o', 'o')], 145⟩]⟩,
  ⟨149, [⟨[('G', 'G'), ('g', 'g')], 148⟩]⟩,
  ⟨150, [⟨[('N', 'N'), ('n', 'n')], 151⟩]⟩,
  ⟨151, [⟨[('G', 'G'), ('g', 'g')], 152⟩]⟩,
  ⟨152, [⟨[('O', 'O'), ('o', 'o')], 135⟩]⟩,
  ⟨153, [⟨[('C', 'C'), ('c', 'c')], 154⟩]⟩,
  ⟨154, [⟨[('H', 'H'), ('h', 'h')], 155⟩]⟩,
  ⟨155, [⟨[('I', 'I'), ('i', 'i')], 156⟩]⟩,
  ⟨156, [⟨[('A', 'A'), ('a', 'a')], 135⟩]⟩,
  ⟨157, [⟨[('A', 'A'), ('a', 'a')], 158⟩]⟩,
  ⟨158, [⟨[('U', 'U'), ('u', 'u')], 159⟩]⟩,
  ⟨159, [⟨[('L', 'L'), ('l', 'l')], 160⟩]⟩,
  ⟨160, [⟨[('T', 'T'), ('t', 't')], 145⟩]⟩,
  ⟨161, [⟨[('0', '9')], 22⟩, ⟨[('A', 'F'), ('H', 'W'), ('Y', 'Z'), ('a', 'f'), ('h', 'w'), ('y', 'z')], 23⟩, ⟨[('G', 'G'), ('g', 'g')], 162⟩, ⟨[('X', 'X'), ('x', 'x')], 24⟩]⟩,
  ⟨162, [⟨[('-', '-')], 33⟩, ⟨[('0', '9')], 36⟩, ⟨[('A', 'A'), ('C', 'Z'), ('a', 'a'), ('c', 'z')], 76⟩, ⟨[('B', 'B'), ('b', 'b')], 163⟩]⟩,
  ⟨163, [⟨[('-', '-')], 164⟩, ⟨[('0', '9')], 39⟩, ⟨[('A', 'Z'), ('a', 'z')], 77⟩]⟩,
  ⟨164, [⟨[('0', '9')], 42⟩, ⟨[('A', 'N'), ('P', 'W'), ('Y', 'Z'), ('a', 'n'), ('p', 'w'), ('y', 'z')], 43⟩, ⟨[('O', 'O'), ('o', 'o')], 165⟩, ⟨[('X', 'X'), ('x', 'x')], 44⟩]⟩,
  ⟨165, [⟨[('-', '-')], 33⟩, ⟨[('0', '9'), ('A', 'D'), ('F', 'Z'), ('a', 'd'), ('f', 'z')], 36⟩, ⟨[('E', 'E'), ('e', 'e')], 166⟩]⟩,
  ⟨166, [⟨[('0', '9'), ('A', 'C'), ('E', 'Z'), ('a', 'c'), ('e', 'z')], 39⟩, ⟨[('D', 'D'), ('d', 'd')], 167⟩]⟩,
  ⟨167, [⟨[('0', '9'), ('A', 'Z'), ('a', 'z')], 45⟩]⟩,
  ⟨168, [⟨[('-', '-')], 169⟩, ⟨[('A', 'Z'), ('a', 'z')], 25⟩]⟩,
  ⟨169, [⟨[('0', '9')], 22⟩, ⟨[('A', 'F'), ('H', 'W'), ('Y', 'Z'), ('a', 'f'), ('h', 'w'), ('y', 'z')], 23⟩, ⟨[('G', 'G'), ('g', 'g')], 170⟩, ⟨[('X', 'X'), ('x', 'x')], 24⟩]⟩,
  ⟨170, [⟨[('-', '-')], 33⟩, ⟨[('0', '9')], 36⟩, ⟨[('A', 'A'), ('a', 'a')], 171⟩, ⟨[('B', 'Z'), ('b', 'z')], 76⟩]⟩,
  ⟨171, [⟨[('-', '-')], 40⟩, ⟨[('0', '9')], 39⟩, ⟨[('A', 'T'), ('V', 'Z'), ('a', 't'), ('v', 'z')], 77⟩, ⟨[('U', 'U'), ('u', 'u')], 172⟩]⟩,
  ⟨172, [⟨[('-', '-')], 78⟩, ⟨[('0', '9')], 45⟩, ⟨[('A', 'K'), ('M', 'Z'), ('a', 'k'), ('m', 'z')], 46⟩, ⟨[('L', 'L'), ('l', 'l')], 173⟩]⟩,
  ⟨173, [⟨[('-', '-')], 48⟩, ⟨[('0', '9'), ('A', 'H'), ('J', 'Z'), ('a', 'h'), ('j', 'z')], 47⟩, ⟨[('I', 'I'), ('i', 'i')], 174⟩]⟩,
  ⟨174, [⟨[('-', '-')], 40⟩, ⟨[('0', '9'), ('A', 'R'), ('T', 'Z'), ('a', 'r'), ('t', 'z')], 51⟩, ⟨[('S', 'S'), ('s', 's')], 175⟩]⟩,
  ⟨175, [⟨[('-', '-')], 40⟩, ⟨[('0', '9'), ('A', 'Z'), ('a', 'z')], 52⟩]⟩,
  ⟨176, [⟨[('-', '-')], 177⟩, ⟨[('A', 'Z'), ('a', 'z')], 25⟩]⟩,
  ⟨177, [⟨[('0', '9')], 22⟩, ⟨[('A', 'K'), ('M', 'W'), ('Y', 'Z'), ('a', 'k'), ('m', 'w'), ('y', 'z')], 23⟩, ⟨[('L', 'L'), ('l', 'l')], 178⟩, ⟨[('X', 'X'), ('x', 'x')], 24⟩]⟩,
  ⟨178, [⟨[('-', '-')], 33⟩, ⟨[('0', '9')], 36⟩, ⟨[('A', 'N'), ('P', 'Z'), ('a', 'n'), ('p', 'z')], 76⟩, ⟨[('O', 'O'), ('o', 'o')], 179⟩]⟩,
  ⟨179, [⟨[('-', '-')], 40⟩, ⟨[('0', '9')], 39⟩, ⟨[('A', 'I'), ('K', 'Z'), ('a', 'i'), ('k', 'z')], 77⟩, ⟨[('J', 'J'), ('j', 'j')], 180⟩]⟩,
  ⟨180, [⟨[('-', '-')], 78⟩, ⟨[('0', '9')], 45⟩, ⟨[('A', 'A'), ('C', 'Z'), ('a', 'a'), ('c', 'z')], 46⟩, ⟨[('B', 'B'), ('b', 'b')], 181⟩]⟩,
  ⟨181, [⟨[('-', '-')], 48⟩, ⟨[('0', '9'), ('B', 'Z'), ('b', 'z')], 47⟩, ⟨[('A', 'A'), ('a', 'a')], 182⟩]⟩,
  ⟨182, [⟨[('-', '-')], 40⟩, ⟨[('0', '9'), ('A', 'Z'), ('a', 'z')], 51⟩]⟩]

/-- Automaton `LanguageTag`: `new` and `is_accepting`, src/grammar.rs:5-1078. -/
def languageTag : Dfa where
  init := 0
  rows := languageTagRows
  accepting := [10, 11, 12, 13, 15, 16, 18, 20, 25, 27, 30, 31, 32, 37, 46, 47, 51, 52, 53, 54,
    56, 59, 60, 61, 62, 63, 64, 65, 66, 67, 68, 69, 70, 71, 73, 74, 75, 76, 77, 81,
    82, 86, 87, 92, 93, 94, 95, 96, 97, 98, 101, 102, 103, 104, 105, 106, 110, 111, 114, 121,
    122, 145, 163, 167, 168, 171, 172, 173, 174, 175, 176, 179, 180, 181, 182]

/-- `push` of `Privateuse`: src/grammar.rs:1106-1162. -/
def privateuseRows : List Row := [
  ⟨0, [⟨[('X', 'X'), ('x', 'x')], 1⟩]⟩,
  ⟨1, [⟨[('-', '-')], 2⟩]⟩,
  ⟨2, [⟨[('0', '9'), ('A', 'Z'), ('a', 'z')], 3⟩]⟩,
  ⟨3, [⟨[('-', '-')], 2⟩, ⟨[('0', '9'), ('A', 'Z'), ('a', 'z')], 4⟩]⟩,
  ⟨4, [⟨[('-', '-')], 2⟩, ⟨[('0', '9'), ('A', 'Z'), ('a', 'z')], 5⟩]⟩,
  ⟨5, [⟨[('-', '-')], 2⟩, ⟨[('0', '9'), ('A', 'Z'), ('a', 'z')], 6⟩]⟩,
  ⟨6, [⟨[('-', '-')], 2⟩, ⟨[('0', '9'), ('A', 'Z'), ('a', 'z')], 7⟩]⟩,
  ⟨7, [⟨[('-', '-')], 2⟩, ⟨[('0', '9'), ('A', 'Z'), ('a', 'z')], 8⟩]⟩,
  ⟨8, [⟨[('-', '-')], 2⟩, ⟨[('0', '9'), ('A', 'Z'), ('a', 'z')], 9⟩]⟩,
  ⟨9, [⟨[('-', '-')], 2⟩, ⟨[('0', '9'), ('A', 'Z'), ('a', 'z')], 10⟩]⟩,
  ⟨10, [⟨[('-', '-')], 2⟩]⟩]

/-- Automaton `Privateuse`: `new` and `is_accepting`, src/grammar.rs:1102-1168. -/
def privateuse : Dfa where
  init := 0
  rows := privateuseRows
  accepting := [3, 4, 5, 6, 7, 8, 9, 10]

/-- `push` of `PrivateuseSubtag`: src/grammar.rs:1196-1233. -/
def privateuseSubtagRows : List Row := [
  ⟨0, [⟨[('0', '9'), ('A', 'Z'), ('a', 'z')], 1⟩]⟩,
  ⟨1, [⟨[('0', '9'), ('A', 'Z'), ('a', 'z')], 2⟩]⟩,
  ⟨2, [⟨[('0', '9'), ('A', 'Z'), ('a', 'z')], 3⟩]⟩,
  ⟨3, [⟨[('0', '9'), ('A', 'Z'), ('a', 'z')], 4⟩]⟩,
  ⟨4, [⟨[('0', '9'), ('A', 'Z'), ('a', 'z')], 5⟩]⟩,
  ⟨5, [⟨[('0', '9'), ('A', 'Z'), ('a', 'z')], 6⟩]⟩,
  ⟨6, [⟨[('0', '9'), ('A', 'Z'), ('a', 'z')], 7⟩]⟩,
  ⟨7, [⟨[('0', '9'), ('A', 'Z'), ('a', 'z')], 8⟩]⟩]

/-- Automaton `PrivateuseSubtag`: `new` and `is_accepting`, src/grammar.rs:1192-1239. -/
def privateuseSubtag : Dfa where
  init := 0
  rows := privateuseSubtagRows
  accepting := [1, 2, 3, 4, 5, 6, 7, 8]

/-- `push` of `Langtag`: src/grammar.rs:1267-1642. -/
def langtagRows : List Row := [
  ⟨0, [⟨[('A', 'Z'), ('a', 'z')], 1⟩]⟩,
  ⟨1, [⟨[('A', 'Z'), ('a', 'z')], 2⟩]⟩,
  ⟨2, [⟨[('-', '-')], 3⟩, ⟨[('A', 'Z'), ('a', 'z')], 4⟩]⟩,
  ⟨3, [⟨[('0', '9')], 5⟩, ⟨[('A', 'W'), ('Y', 'Z'), ('a', 'w'), ('y', 'z')], 6⟩, ⟨[('X', 'X'), ('x', 'x')], 7⟩]⟩,
  ⟨4, [⟨[('-', '-')], 3⟩, ⟨[('A', 'Z'), ('a', 'z')], 8⟩]⟩,
  ⟨5, [⟨[('-', '-')], 16⟩, ⟨[('0', '9')], 17⟩, ⟨[('A', 'Z'), ('a', 'z')], 18⟩]⟩,
  ⟨6, [⟨[('-', '-')], 16⟩, ⟨[('0', '9')], 19⟩, ⟨[('A', 'Z'), ('a', 'z')], 60⟩]⟩,
  ⟨7, [⟨[('-', '-')], 21⟩, ⟨[('0', '9')], 19⟩, ⟨[('A', 'Z'), ('a', 'z')], 60⟩]⟩,
  ⟨8, [⟨[('-', '-')], 9⟩, ⟨[('A', 'Z'), ('a', 'z')], 10⟩]⟩,
  ⟨9, [⟨[('0', '9')], 5⟩, ⟨[('A', 'W'), ('Y', 'Z'), ('a', 'w'), ('y', 'z')], 11⟩, ⟨[('X', 'X'), ('x', 'x')], 12⟩]⟩,
  ⟨10, [⟨[('-', '-')], 9⟩, ⟨[('A', 'Z'), ('a', 'z')], 13⟩]⟩,
  ⟨11, [⟨[('-', '-')], 16⟩, ⟨[('0', '9')], 19⟩, ⟨[('A', 'Z'), ('a', 'z')], 20⟩]⟩,
  ⟨12, [⟨[('-', '-')], 21⟩, ⟨[('0', '9')], 19⟩, ⟨[('A', 'Z'), ('a', 'z')], 20⟩]⟩,
  ⟨13, [⟨[('-', '-')], 9⟩, ⟨[('A', 'Z'), ('a', 'z')], 14⟩]⟩,
  ⟨14, [⟨[('-', '-')], 9⟩, ⟨[('A', 'Z'), ('a', 'z')], 15⟩]⟩,
  ⟨15, [⟨[('-', '-')], 9⟩]⟩,
  ⟨16, [⟨[('0', '9'), ('A', 'Z'), ('a', 'z')], 22⟩]⟩,
  ⟨17, [⟨[('0', '9')], 59⟩, ⟨[('A', 'Z'), ('a', 'z')], 56⟩]⟩,
  ⟨18, [⟨[('0', '9'), ('A', 'Z'), ('a', 'z')], 56⟩]⟩,
  ⟨19, [⟨[('0', '9'), ('A', 'Z'), ('a', 'z')], 23⟩]⟩,
  ⟨20, [⟨[('-', '-')], 24⟩, ⟨[('0', '9')], 23⟩, ⟨[('A', 'Z'), ('a', 'z')], 25⟩]⟩,
  ⟨21, [⟨[('0', '9'), ('A', 'Z'), ('a', 'z')], 48⟩]⟩,
  ⟨22, [⟨[('0', '9'), ('A', 'Z'), ('a', 'z')], 38⟩]⟩,
  ⟨23, [⟨[('0', '9'), ('A', 'Z'), ('a', 'z')], 29⟩]⟩,
  ⟨24, [⟨[('0', '9')], 26⟩, ⟨[('A', 'W'), ('Y', 'Z'), ('a', 'w'), ('y', 'z')], 27⟩, ⟨[('X', 'X'), ('x', 'x')], 28⟩]⟩,
  ⟨25, [⟨[('0', '9')], 29⟩, ⟨[('A', 'Z'), ('a', 'z')], 30⟩]⟩,
  ⟨26, [⟨[('-', '-')], 16⟩, ⟨[('0', '9'), ('A', 'Z'), ('a', 'z')], 18⟩]⟩,
  ⟨27, [⟨[('-', '-')], 16⟩, ⟨[('0', '9'), ('A', 'Z'), ('a', 'z')], 19⟩]⟩,
  ⟨28, [⟨[('-', '-')], 21⟩, ⟨[('0', '9'), ('A', 'Z'), ('a', 'z')], 19⟩]⟩,
  ⟨29, [⟨[('0', '9'), ('A', 'Z'), ('a', 'z')], 31⟩]⟩,
  ⟨30, [⟨[('-', '-')], 32⟩, ⟨[('0', '9'), ('A', 'Z'), ('a', 'z')], 31⟩]⟩,
  ⟨31, [⟨[('-', '-')], 24⟩, ⟨[('0', '9'), ('A', 'Z'), ('a', 'z')], 35⟩]⟩,
  ⟨32, [⟨[('0', '9')], 5⟩, ⟨[('A', 'W'), ('Y', 'Z'), ('a', 'w'), ('y', 'z')], 33⟩, ⟨[('X', 'X'), ('x', 'x')], 34⟩]⟩,
  ⟨33, [⟨[('-', '-')], 16⟩, ⟨[('0', '9')], 19⟩, ⟨[('A', 'Z'), ('a', 'z')], 58⟩]⟩,
  ⟨34, [⟨[('-', '-')], 21⟩, ⟨[('0', '9')], 19⟩, ⟨[('A', 'Z'), ('a', 'z')], 58⟩]⟩,
  ⟨35, [⟨[('-', '-')], 24⟩, ⟨[('0', '9'), ('A', 'Z'), ('a', 'z')], 36⟩]⟩,
  ⟨36, [⟨[('-', '-')], 24⟩, ⟨[('0', '9'), ('A', 'Z'), ('a', 'z')], 37⟩]⟩,
  ⟨37, [⟨[('-', '-')], 24⟩]⟩,
  ⟨38, [⟨[('-', '-')], 39⟩, ⟨[('0', '9'), ('A', 'Z'), ('a', 'z')], 40⟩]⟩,
  ⟨39, [⟨[('0', '9'), ('A', 'W'), ('Y', 'Z'), ('a', 'w'), ('y', 'z')], 41⟩, ⟨[('X', 'X'), ('x', 'x')], 42⟩]⟩,
  ⟨40, [⟨[('-', '-')], 39⟩, ⟨[('0', '9'), ('A', 'Z'), ('a', 'z')], 43⟩]⟩,
  ⟨41, [⟨[('-', '-')], 16⟩, ⟨[('0', '9'), ('A', 'Z'), ('a', 'z')], 38⟩]⟩,
  ⟨42, [⟨[('-', '-')], 21⟩, ⟨[('0', '9'), ('A', 'Z'), ('a', 'z')], 38⟩]⟩,
  ⟨43, [⟨[('-', '-')], 39⟩, ⟨[('0', '9'), ('A', 'Z'), ('a', 'z')], 44⟩]⟩,
  ⟨44, [⟨[('-', '-')], 39⟩, ⟨[('0', '9'), ('A', 'Z'), ('a', 'z')], 45⟩]⟩,
  ⟨45, [⟨[('-', '-')], 39⟩, ⟨[('0', '9'), ('A', 'Z'), ('a', 'z')], 46⟩]⟩,
  ⟨46, [⟨[('-', '-')], 39⟩, ⟨[('0', '9'), ('A', 'Z'), ('a', 'z')], 47⟩]⟩,
  ⟨47, [⟨[('-', '-')], 39⟩]⟩,
  ⟨48, [⟨[('-', '-')], 21⟩, ⟨[('0', '9'), ('A', 'Z'), ('a', 'z')], 49⟩]⟩,
  ⟨49, [⟨[('-', '-')], 21⟩, ⟨[('0', '9'), ('A', 'Z'), ('a', 'z')], 50⟩]⟩,
  ⟨50, [⟨[('-', '-')], 21⟩, ⟨[('0', '9'), ('A', 'Z'), ('a', 'z')], 51⟩]⟩,
  ⟨51, [⟨[('-', '-')], 21⟩, ⟨[('0', '9'), ('A', 'Z'), ('a', 'z')], 52⟩]⟩,
  ⟨52, [⟨[('-', '-')], 21⟩, ⟨[('0', '9'), ('A', 'Z'), ('a', 'z')], 53⟩]⟩,
  ⟨53, [⟨[('-', '-')], 21⟩, ⟨[('0', '9'), ('A', 'Z'), ('a', 'z')], 54⟩]⟩,
  ⟨54, [⟨[('-', '-')], 21⟩, ⟨[('0', '9'), ('A', 'Z'), ('a', 'z')], 55⟩]⟩,
  ⟨55, [⟨[('-', '-')], 21⟩]⟩,
  ⟨56, [⟨[('0', '9'), ('A', 'Z'), ('a', 'z')], 57⟩]⟩,
  ⟨57, [⟨[('-', '-')], 24⟩, ⟨[('0', '9'), ('A', 'Z'), ('a', 'z')], 31⟩]⟩,
  ⟨58, [⟨[('-', '-')], 24⟩, ⟨[('0', '9'), ('A', 'Z'), ('a', 'z')], 23⟩]⟩,
  ⟨59, [⟨[('-', '-')], 24⟩, ⟨[('0', '9'), ('A', 'Z'), ('a', 'z')], 57⟩]⟩,
  ⟨60, [⟨[('-', '-')], 24⟩, ⟨[('0', '9')], 23⟩, ⟨[('A', 'Z'), ('a', 'z')], 61⟩]⟩,
  ⟨61, [⟨[('-', '-')], 62⟩, ⟨[('0', '9')], 29⟩, ⟨[('A', 'Z'), ('a', 'z')], 30⟩]⟩,
  ⟨62, [⟨[('0', '9')], 5⟩, ⟨[('A', 'W'), ('Y', 'Z'), ('a', 'w'), ('y', 'z')], 63⟩, ⟨[('X', 'X'), ('x', 'x')], 64⟩]⟩,
  ⟨63, [⟨[('-', '-')], 16⟩, ⟨[('0', '9')], 19⟩, ⟨[('A', 'Z'), ('a', 'z')], 65⟩]⟩,
  ⟨64, [⟨[('-', '-')], 21⟩, ⟨[('0', '9')], 19⟩, ⟨[('A', 'Z'), ('a', 'z')], 65⟩]⟩,
  ⟨65, [⟨[('-', '-')], 24⟩, ⟨[('0', '9')], 23⟩, ⟨[('A', 'Z'), ('a', 'z')], 66⟩]⟩,
  ⟨66, [⟨[('-', '-')], 67⟩, ⟨[('0', '9')], 29⟩, ⟨[('A', 'Z'), ('a', 'z')], 30⟩]⟩,
  ⟨67, [⟨[('0', '9')], 5⟩, ⟨[('A', 'W'), ('Y', 'Z'), ('a', 'w'), ('y', 'z')], 68⟩, ⟨[('X', 'X'), ('x', 'x')], 69⟩]⟩,
  ⟨68, [⟨[('-', '-')], 16⟩, ⟨[('0', '9')], 19⟩, ⟨[('A', 'Z'), ('a', 'z')], 70⟩]⟩,
  ⟨69, [⟨[('-', '-')], 21⟩, ⟨[('0', '9')], 19⟩, ⟨[('A', 'Z'), ('a', 'z')], 70⟩]⟩,
  ⟨70, [⟨[('-', '-')], 24⟩, ⟨[('0', '9')], 23⟩, ⟨[('A', 'Z'), ('a', 'z')], 71⟩]⟩,
  ⟨71, [⟨[('-', '-')], 9⟩, ⟨[('0', '9')], 29⟩, ⟨[('A', 'Z'), ('a', 'z')], 30⟩]⟩]

/-- Automaton `Langtag`: `new` and `is_accepting`, src/grammar.rs:1263-1666. -/
def langtag : Dfa where
  init := 0
  rows := langtagRows
  accepting := [2, 4, 8, 10, 13, 14, 15, 20, 30, 31, 35, 36, 37, 38, 40, 43, 44, 45, 46, 47,
    48, 49, 50, 51, 52, 53, 54, 55, 57, 58, 59, 60, 61, 65, 66, 70, 71]

/-- `push` of `Language`: src/grammar.rs:1694-1777. -/
def languageRows : List Row := [
  ⟨0, [⟨[('A', 'Z'), ('a', 'z')], 1⟩]⟩,
  ⟨1, [⟨[('A', 'Z'), ('a', 'z')], 2⟩]⟩,
  ⟨2, [⟨[('-', '-')], 3⟩, ⟨[('A', 'Z'), ('a', 'z')], 4⟩]⟩,
  ⟨3, [⟨[('A', 'Z'), ('a', 'z')], 5⟩]⟩,
  ⟨4, [⟨[('-', '-')], 3⟩, ⟨[('A', 'Z'), ('a', 'z')], 6⟩]⟩,
  ⟨5, [⟨[('A', 'Z'), ('a', 'z')], 11⟩]⟩,
  ⟨6, [⟨[('A', 'Z'), ('a', 'z')], 7⟩]⟩,
  ⟨7, [⟨[('A', 'Z'), ('a', 'z')], 8⟩]⟩,
  ⟨8, [⟨[('A', 'Z'), ('a', 'z')], 9⟩]⟩,
  ⟨9, [⟨[('A', 'Z'), ('a', 'z')], 10⟩]⟩,
  ⟨11, [⟨[('A', 'Z'), ('a', 'z')], 12⟩]⟩,
  ⟨12, [⟨[('-', '-')], 13⟩]⟩,
  ⟨13, [⟨[('A', 'Z'), ('a', 'z')], 14⟩]⟩,
  ⟨14, [⟨[('A', 'Z'), ('a', 'z')], 15⟩]⟩,
  ⟨15, [⟨[('A', 'Z'), ('a', 'z')], 16⟩]⟩,
  ⟨16, [⟨[('-', '-')], 17⟩]⟩,
  ⟨17, [⟨[('A', 'Z'), ('a', 'z')], 18⟩]⟩,
  ⟨18, [⟨[('A', 'Z'), ('a', 'z')], 19⟩]⟩,
  ⟨19, [⟨[('A', 'Z'), ('a', 'z')], 10⟩]⟩]

/-- Automaton `Language`: `new` and `is_accepting`, src/grammar.rs:1690-1783. -/
def language : Dfa where
  init := 0
  rows := languageRows
  accepting := [2, 4, 6, 7, 8, 9, 10, 12, 16]

/-- `push` of `Primary`: src/grammar.rs:1811-1828. -/
def primaryRows : List Row := [
  ⟨0, [⟨[('A', 'Z'), ('a', 'z')], 1⟩]⟩,
  ⟨1, [⟨[('A', 'Z'), ('a', 'z')], 2⟩]⟩,
  ⟨2, [⟨[('A', 'Z'), ('a', 'z')], 3⟩]⟩]

/-- Automaton `Primary`: `new` and `is_accepting`, src/grammar.rs:1807-1831. -/
def primary : Dfa where
  init := 0
  rows := primaryRows
  accepting := [2, 3]

/-- `push` of `Extlang`: src/grammar.rs:1859-1908. -/
def extlangRows : List Row := [
  ⟨0, [⟨[('A', 'Z'), ('a', 'z')], 1⟩]⟩,
  ⟨1, [⟨[('A', 'Z'), ('a', 'z')], 2⟩]⟩,
  ⟨2, [⟨[('A', 'Z'), ('a', 'z')], 3⟩]⟩,
  ⟨3, [⟨[('-', '-')], 4⟩]⟩,
  ⟨4, [⟨[('A', 'Z'), ('a', 'z')], 5⟩]⟩,
  ⟨5, [⟨[('A', 'Z'), ('a', 'z')], 6⟩]⟩,
  ⟨6, [⟨[('A', 'Z'), ('a', 'z')], 7⟩]⟩,
  ⟨7, [⟨[('-', '-')], 8⟩]⟩,
  ⟨8, [⟨[('A', 'Z'), ('a', 'z')], 9⟩]⟩,
  ⟨9, [⟨[('A', 'Z'), ('a', 'z')], 10⟩]⟩,
  ⟨10, [⟨[('A', 'Z'), ('a', 'z')], 11⟩]⟩]

/-- Automaton `Extlang`: `new` and `is_accepting`, src/grammar.rs:1855-1911. -/
def extlang : Dfa where
  init := 0
  rows := extlangRows
  accepting := [3, 7, 11]

/-- `push` of `ExtlangTag`: src/grammar.rs:1939-1956. -/
def extlangTagRows : List Row := [
  ⟨0, [⟨[('A', 'Z'), ('a', 'z')], 1⟩]⟩,
  ⟨1, [⟨[('A', 'Z'), ('a', 'z')], 2⟩]⟩,
  ⟨2, [⟨[('A', 'Z'), ('a', 'z')], 3⟩]⟩]

/-- Automaton `ExtlangTag`: `new` and `is_accepting`, src/grammar.rs:1935-1959. -/
def extlangTag : Dfa where
  init := 0
  rows := extlangTagRows
  accepting := [3]

/-- `push` of `Script`: src/grammar.rs:1987-2008. -/
def scriptRows : List Row := [
  ⟨0, [⟨[('A', 'Z'), ('a', 'z')], 1⟩]⟩,
  ⟨1, [⟨[('A', 'Z'), ('a', 'z')], 2⟩]⟩,
  ⟨2, [⟨[('A', 'Z'), ('a', 'z')], 3⟩]⟩,
  ⟨3, [⟨[('A', 'Z'), ('a', 'z')], 4⟩]⟩]

/-- Automaton `Script`: `new` and `is_accepting`, src/grammar.rs:1983-2011. -/
def script : Dfa where
  init := 0
  rows := scriptRows
  accepting := [4]

/-- `push` of `Region`: src/grammar.rs:2039-2061. -/
def regionRows : List Row := [
  ⟨0, [⟨[('0', '9')], 1⟩, ⟨[('A', 'Z'), ('a', 'z')], 2⟩]⟩,
  ⟨1, [⟨[('0', '9')], 3⟩]⟩,
  ⟨2, [⟨[('A', 'Z'), ('a', 'z')], 4⟩]⟩,
  ⟨3, [⟨[('0', '9')], 4⟩]⟩]

/-- Automaton `Region`: `new` and `is_accepting`, src/grammar.rs:2035-2064. -/
def region : Dfa where
  init := 0
  rows := regionRows
  accepting := [4]

/-- `push` of `Variant`: src/grammar.rs:2092-2146. -/
def variantRows : List Row := [
  ⟨0, [⟨[('0', '9')], 1⟩, ⟨[('A', 'Z'), ('a', 'z')], 2⟩]⟩,
  ⟨1, [⟨[('0', '9'), ('A', 'Z'), ('a', 'z')], 3⟩]⟩,
  ⟨2, [⟨[('0', '9'), ('A', 'Z'), ('a', 'z')], 4⟩]⟩,
  ⟨3, [⟨[('0', '9'), ('A', 'Z'), ('a', 'z')], 11⟩]⟩,
  ⟨4, [⟨[('0', '9'), ('A', 'Z'), ('a', 'z')], 5⟩]⟩,
  ⟨5, [⟨[('0', '9'), ('A', 'Z'), ('a', 'z')], 6⟩]⟩,
  ⟨6, [⟨[('0', '9'), ('A', 'Z'), ('a', 'z')], 7⟩]⟩,
  ⟨7, [⟨[('0', '9'), ('A', 'Z'), ('a', 'z')], 8⟩]⟩,
  ⟨8, [⟨[('0', '9'), ('A', 'Z'), ('a', 'z')], 9⟩]⟩,
  ⟨9, [⟨[('0', '9'), ('A', 'Z'), ('a', 'z')], 10⟩]⟩,
  ⟨11, [⟨[('0', '9'), ('A', 'Z'), ('a', 'z')], 12⟩]⟩,
  ⟨12, [⟨[('0', '9'), ('A', 'Z'), ('a', 'z')], 7⟩]⟩]

/-- Automaton `Variant`: `new` and `is_accepting`, src/grammar.rs:2088-2149. -/
def variant : Dfa where
  init := 0
  rows := variantRows
  accepting := [7, 8, 9, 10, 12]

/-- `push` of `Variants`: src/grammar.rs:2177-2244. -/
def variantsRows : List Row := [
  ⟨0, [⟨[('0', '9')], 1⟩, ⟨[('A', 'Z'), ('a', 'z')], 2⟩]⟩,
  ⟨1, [⟨[('0', '9'), ('A', 'Z'), ('a', 'z')], 3⟩]⟩,
  ⟨2, [⟨[('0', '9'), ('A', 'Z'), ('a', 'z')], 4⟩]⟩,
  ⟨3, [⟨[('0', '9'), ('A', 'Z'), ('a', 'z')], 12⟩]⟩,
  ⟨4, [⟨[('0', '9'), ('A', 'Z'), ('a', 'z')], 5⟩]⟩,
  ⟨5, [⟨[('0', '9'), ('A', 'Z'), ('a', 'z')], 6⟩]⟩,
  ⟨6, [⟨[('0', '9'), ('A', 'Z'), ('a', 'z')], 7⟩]⟩,
  ⟨7, [⟨[('-', '-')], 8⟩, ⟨[('0', '9'), ('A', 'Z'), ('a', 'z')], 9⟩]⟩,
  ⟨8, [⟨[('0', '9')], 1⟩, ⟨[('A', 'Z'), ('a', 'z')], 2⟩]⟩,
  ⟨9, [⟨[('-', '-')], 8⟩, ⟨[('0', '9'), ('A', 'Z'), ('a', 'z')], 10⟩]⟩,
  ⟨10, [⟨[('-', '-')], 8⟩, ⟨[('0', '9'), ('A', 'Z'), ('a', 'z')], 11⟩]⟩,
  ⟨11, [⟨[('-', '-')], 8⟩]⟩,
  ⟨12, [⟨[('0', '9'), ('A', 'Z'), ('a', 'z')], 13⟩]⟩,
  ⟨13, [⟨[('-', '-')], 8⟩, ⟨[('0', '9'), ('A', 'Z'), ('a', 'z')], 7⟩]⟩]

/-- Automaton `Variants`: `new` and `is_accepting`, src/grammar.rs:2173-2247. -/
def variants : Dfa where
  init := 0
  rows := variantsRows
  accepting := [0, 7, 9, 10, 11, 13]

/-- `push` of `Extension`: src/grammar.rs:2275-2330. -/
def extensionRows : List Row := [
  ⟨0, [⟨[('0', '9'), ('A', 'W'), ('Y', 'Z'), ('a', 'w'), ('y', 'z')], 1⟩]⟩,
  ⟨1, [⟨[('-', '-')], 2⟩]⟩,
  ⟨2, [⟨[('0', '9'), ('A', 'Z'), ('a', 'z')], 3⟩]⟩,
  ⟨3, [⟨[('0', '9'), ('A', 'Z'), ('a', 'z')], 4⟩]⟩,
  ⟨4, [⟨[('-', '-')], 2⟩, ⟨[('0', '9'), ('A', 'Z'), ('a', 'z')], 5⟩]⟩,
  ⟨5, [⟨[('-', '-')], 2⟩, ⟨[('0', '9'), ('A', 'Z'), ('a', 'z')], 6⟩]⟩,
  ⟨6, [⟨[('-', '-')], 2⟩, ⟨[('0', '9'), ('A', 'Z'), ('a', 'z')], 7⟩]⟩,
  ⟨7, [⟨[('-', '-')], 2⟩, ⟨[('0', '9'), ('A', 'Z'), ('a', 'z')], 8⟩]⟩,
  ⟨8, [⟨[('-', '-')], 2⟩, ⟨[('0', '9'), ('A', 'Z'), ('a', 'z')], 9⟩]⟩,
  ⟨9, [⟨[('-', '-')], 2⟩, ⟨[('0', '9'), ('A', 'Z'), ('a', 'z')], 10⟩]⟩,
  ⟨10, [⟨[('-', '-')], 2⟩]⟩]

/-- Automaton `Extension`: `new` and `is_accepting`, src/grammar.rs:2271-2333. -/
def extension : Dfa where
  init := 0
  rows := extensionRows
  accepting := [4, 5, 6, 7, 8, 9, 10]

/-- `push` of `ExtensionSubtag`: src/grammar.rs:2361-2398. -/
def extensionSubtagRows : List Row := [
  ⟨0, [⟨[('0', '9'), ('A', 'Z'), ('a', 'z')], 1⟩]⟩,
  ⟨1, [⟨[('0', '9'), ('A', 'Z'), ('a', 'z')], 2⟩]⟩,
  ⟨2, [⟨[('0', '9'), ('A', 'Z'), ('a', 'z')], 3⟩]⟩,
  ⟨3, [⟨[('0', '9'), ('A', 'Z'), ('a', 'z')], 4⟩]⟩,
  ⟨4, [⟨[('0', '9'), ('A', 'Z'), ('a', 'z')], 5⟩]⟩,
  ⟨5, [⟨[('0', '9'), ('A', 'Z'), ('a', 'z')], 6⟩]⟩,
  ⟨6, [⟨[('0', '9'), ('A', 'Z'), ('a', 'z')], 7⟩]⟩,
  ⟨7, [⟨[('0', '9'), ('A', 'Z'), ('a', 'z')], 8⟩]⟩]

/-- Automaton `ExtensionSubtag`: `new` and `is_accepting`, src/grammar.rs:2357-2401. -/
def extensionSubtag : Dfa where
  init := 0
  rows := extensionSubtagRows
  accepting := [2, 3, 4, 5, 6, 7, 8]

/-- `push` of `Extensions`: src/grammar.rs:2429-2494. -/
def extensionsRows : List Row := [
  ⟨0, [⟨[('0', '9'), ('A', 'W'), ('Y', 'Z'), ('a', 'w'), ('y', 'z')], 1⟩]⟩,
  ⟨1, [⟨[('-', '-')], 2⟩]⟩,
  ⟨2, [⟨[('0', '9'), ('A', 'Z'), ('a', 'z')], 3⟩]⟩,
  ⟨3, [⟨[('0', '9'), ('A', 'Z'), ('a', 'z')], 4⟩]⟩,
  ⟨4, [⟨[('-', '-')], 5⟩, ⟨[('0', '9'), ('A', 'Z'), ('a', 'z')], 6⟩]⟩,
  ⟨5, [⟨[('0', '9'), ('A', 'W'), ('Y', 'Z'), ('a', 'w'), ('y', 'z')], 7⟩, ⟨[('X', 'X'), ('x', 'x')], 3⟩]⟩,
  ⟨6, [⟨[('-', '-')], 5⟩, ⟨[('0', '9'), ('A', 'Z'), ('a', 'z')], 8⟩]⟩,
  ⟨7, [⟨[('-', '-')], 2⟩, ⟨[('0', '9'), ('A', 'Z'), ('a', 'z')], 4⟩]⟩,
  ⟨8, [⟨[('-', '-')], 5⟩, ⟨[('0', '9'), ('A', 'Z'), ('a', 'z')], 9⟩]⟩,
  ⟨9, [⟨[('-', '-')], 5⟩, ⟨[('0', '9'), ('A', 'Z'), ('a', 'z')], 10⟩]⟩,
  ⟨10, [⟨[('-', '-')], 5⟩, ⟨[('0', '9'), ('A', 'Z'), ('a', 'z')], 11⟩]⟩,
  ⟨11, [⟨[('-', '-')], 5⟩, ⟨[('0', '9'), ('A', 'Z'), ('a', 'z')], 12⟩]⟩,
  ⟨12, [⟨[('-', '-')], 5⟩]⟩]

/-- Automaton `Extensions`: `new` and `is_accepting`, src/grammar.rs:2425-2500. -/
def extensions : Dfa where
  init := 0
  rows := extensionsRows
  accepting := [0, 4, 6, 8, 9, 10, 11, 12]

end Langtag.Model.Automata
