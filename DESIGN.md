# Design: a Lean 4 model of `langtag`

## What is modelled

| Rust source | Lean module | notes |
|---|---|---|
| `src/grammar.rs` (15 automata) | `Verif/Model/Automata.lean` (generated by `tools/gen_dfa.py`), `Verif/Model/Dfa.lean` | every `push` arm, `is_accepting`, `new`, `validate_bytes`, `validate_str` |
| `src/utils.rs` | `Verif/Model/Utils.lean` | all four functions, with their index loops |
| `src/normal/mod.rs` | `Verif/Model/Normal.lean`, `Verif/Model/Segments.lean` | all functions |
| `src/normal/language/*.rs` | `Verif/Model/Language.lean` | all functions |
| `src/normal/variant.rs` | `Verif/Model/Variant.lean` | all functions |
| `src/normal/extension.rs` | `Verif/Model/Extension.lean` | all functions but `Debug`/`Display` formatting flags |
| `src/normal/private_use.rs`, `src/private_use.rs` | `Verif/Model/PrivateUse.lean` | all functions |
| `src/grandfathered.rs` | `Verif/Model/Grandfathered.lean` | all functions |
| `src/lib.rs` | `Verif/Model/LangTag.lean` | all functions, `langtag!` |
| the `PartialEq`, `PartialOrd`, `Ord`, `Hash` impls of each of the 15 string types | `Verif/Model/Compare.lean` | one definition per impl |
| the index arithmetic of all of these, with overflow checks | `Verif/Model/Checked.lean` | a second transcription of every function with a `usize` `+` or `-` |
| the loops of all of these, counted | `Verif/Model/Timed.lean` | another transcription, with a counter of loop iterations |
| (not in the repository) comparison with `str` | `Verif/Model/Foreign.lean` | candidates for C54, see below |
| the `struct`s and their `#[automaton(…)]` attributes | `Verif/Model/Types.lean` | |

| the text of every file of `src/` | `Verif/Source/` | the text itself, read and executed: see "The text of the crate" below |

Conventions of the model:

* A `&str`/`&[u8]` is `List UInt8`.  A `char` is Lean's `Char` (also a Unicode scalar value).
* A function that may panic returns `Rust α = Except Panic α`; `Panic` says why.  Slicing `&s[a..b]`
  panics unless `a ≤ b ≤ len` and both ends are UTF-8 character boundaries; indexing panics out of bounds;
  `Result::unwrap` panics on `Err`.
* `usize` and `u32` are `Nat`; C57 shows, with `Verif/Model/Checked.lean`, that the same code with overflow-checked `usize` gives the same;
  `u8` is `UInt8`.
* `&mut self` methods return the new state.
* Loops are recursions with the loop's own variables, terminating on `len - i`.

## The text of the crate

The transcription into `Verif/Model/` is not trusted for the theorems named `…_source`, `C69_…` to `C76_…`.  They are about `run` (`Verif/Source/Run.lean`), which
reads and executes the text of the crate:

* `Verif/Source/Text/`: the text of each file of `/repo/src`, as character codes (written by `tools/gen_source.py`; `--check` compares with `/repo`).
* `Verif/Spec/Rust.lean`: the lexical structure and the grammar of the subset of Rust the files use, as inductive relations between texts, tokens and
  syntax: tokens are the longest there are, operators bind by precedence and group to the left, a `{` after a condition opens the block.
* `Verif/Source/Lexer.lean`, `Parser.lean`, `Syntax.lean`: a lexer and a parser that can be executed.  They are not trusted: `LexerSound.lean`,
  `ParserSound.lean` prove that what they read is what the grammar says, `LexerComplete.lean`, `ParserComplete.lean`, `ItemsComplete.lean` that they read
  every text the grammar gives a meaning, so that the grammar gives a text at most one (`Verif/Props/Grammar.lean`).
* `Verif/Source/Ast/`, `Verif/Source/Parsed/`: the abstract syntax of each file (written by `tools/gen_ast.py`, not trusted) and, by kernel evaluation of
  the lexer and parser on the text, the proof that it is what the text reads as (`readCrate_eq`).
* `Verif/Source/Automata.lean`, `Parsed/Grammar.lean`: the same for `grammar.rs`, the abstract syntax of which is a function of the tables of the model.
* `Verif/Source/Semantics.lean`: the evaluator; the least fixed point of its equations, so that a call that does not end is `none` and a theorem about
  the result of a call is also a theorem that it ends.  Anything outside the subset is `stuck`.
* `Verif/Spec/Plain.lean`: the evaluator copies `&mut` arguments in and out, lets a closure keep a copy of the variables it sees, resolves names by their last
  segment, and `unwrap_or_default`, `try_into` by the type of the result of the function.  This is what Rust does for programs that are `Plain`: no two names
  for a place that is written, no stored `&mut`, closures that only look, no name given twice.  `C69_plain`: the crate is.
* `Verif/Spec/Store.lean`, `Memory.lean`: the meaning of the same syntax with a memory.  A variable is a cell, a `&mut` parameter is the cell of the argument,
  a closure keeps cells and reads them when it is called.  `Verif/Source/Store/` proves, for every program that meets conditions checked by going through its
  expressions (`Tame.lean`; `Check.lean` for the crate), that each call that ends without memory ends so with it: a simulation, by induction over the
  evaluator (`Sim.lean`), the invariant being that each variable has a cell of its own with its value in it.  So for the crate the copying of the evaluator
  is proved exact (`C69_memory`), also in release builds and for functions of traits.
* `Verif/Source/Same.lean`, `FileOrder.lean`: for every program, that what it does depends on what its names stand for and not on the order of its items;
  so the order in which the files are read makes no difference (`C69_file_order`).
* `Verif/Source/Refine/`: for each function of the crate, that executing its text gives what the definition of the model gives, for all arguments, by
  rewriting with the equations of the evaluator (tactic `exec`) and induction over each loop.
* `Verif/Source/Derive.lean`: what `#[derive(PartialEq, PartialOrd, Ord, Hash, Debug)]` of `core` generates, as a function of the declaration, which is
  read from the text: the order of the variants in the text is the order of the values.
* `Verif/Source/RunConst.lean`, `Errors.lean`: the values of the public constants, and the messages of the two error types, read from the text.
* `Verif/Source/Counted/`: the evaluator once more, with a counter of executed bodies of loops (and of the bytes `split_once` looks at).  `Erase.lean` proves, for
  every program, that when the counting evaluator ends the plain one ends with the same result; the other files that each function of the text with a loop below
  it counts what `Verif/Model/Timed.lean` counts.
* `Verif/Spec/Run.lean`, `RunMaps.lean`, `RunWork.lean`: vocabulary for statements about `run` that mention only the specification.

## What is not modelled, and what is assumed

* The procedural macros `static_automata::grammar`, `static_automata::Validate` and `str_newtype::StrNewType` are not in
  `/repo`.  Assumed: `T::new(s)` is `Ok` of the same text when the automaton's `validate_*` returns `true` and an error holding
  the input otherwise; `new_unchecked` wraps without checking; `as_str`/`as_bytes` return the text.
  The other code they generate (owned `*Buf` types, cross-type comparisons `PartialEq<str>`, serde, `AsRef`, `Debug`) is not modelled.
* `src/grammar.rs` is the committed output of the macro for `src/grammar.abnf`.  Whether the macro uses the file or regenerates
  it, theorems C01–C07 say that the committed automata and the ABNF define the same languages.
* `static_automata::decode_utf8_char` is external.  The model uses a reference UTF-8 decoder; a theorem shows that the verdict of
  `validate_bytes` is the same for *any* decoder that maps a byte below 0x80 to that character with length 1, and a byte from 0x80 up
  either to an error or to a non-ASCII character of length ≥ 1.
* `core` functions: `str` slicing, `split_once('-')`, `is_ascii_uppercase`, `is_ascii_alphanumeric`, `u8::cmp`, `u8::hash`
  (= one `write_u8`), `Formatter::pad`, the derived `Hash`, `Option`/`Result` combinators have their documented behaviour.
* `thiserror` is external.  Assumed: for `#[error("…")]` without braces the `Display` of the type writes the message, whatever the options of the formatter
  (`Verif/Source/Errors.lean`; the attribute is read from the text).  The error types of the fifteen string types are generated by `str_newtype` and not modelled.
* Memory safety and lifetimes: not expressible in this model.  Of performance only the number of loop iterations (C68) and the nesting of calls (C76) are modelled.

## Trusted base

Lean 4.33.0's kernel; the axioms `propext`, `Classical.choice`, `Quot.sound` at most (the list per theorem is printed by
`#print axioms` in `Verif/Audit.lean`).  For the theorems named `…_source`, `C69_…` to `C76_…`: the grammar of the subset of Rust in
`Verif/Spec/Rust.lean` (the longest token is the longest among the operators of the subset), its abstract syntax and evaluator in `Verif/Source/{Syntax,Semantics}.lean` (for C68 also where `Counted/Semantics.lean` counts, for C76 where `Deep/Semantics.lean` does), which is that of Rust for programs that are `Plain` (`Verif/Spec/Plain.lean`; that they suffice is an argument in words, that the crate is one is `C69_plain`; that copying `&mut` arguments and captured variables is exact for the crate is proved, `C69_memory`, against the memory of `Verif/Spec/Store.lean`), with the functions of `core` listed above, and that the text in `Verif/Source/Text/` is that of `/repo`.
For the others: the transcription of the Rust code into `Verif/Model/` — C69 proves it for every function, so what is left to trust is again
the evaluator — and
`tools/gen_dfa.py` (syntactic translation of `grammar.rs`; `tools/check_dfa.py` prints Rust from the Lean tables and finds the tokens of
`grammar.rs`).  The grammar is in `Verif/Spec/Grammar.lean`; `C01_file`–`C07_file` say that it is what the text of `grammar.abnf` says
(`tools/check_abnf.py` compares the text with the file), for a reader of ABNF written in `Verif/Spec/AbnfText.lean`; `C01_rfc`–`C07_rfc`
say the same of the grammar of RFC 5646 §2.1.  No axiom, `sorry`, `native_decide` or `bv_decide` is used.

## Specification (independent of the model)

* `Verif/Spec/Abnf.lean`: abstract syntax of ABNF and its meaning as sets of byte strings (RFC 5234).
* `Verif/Spec/Grammar.lean`: `src/grammar.abnf`, rule by rule.
* `Verif/Spec/AbnfText.lean`: the text of `src/grammar.abnf`, the grammar of RFC 5646 §2.1, and a reader of ABNF.
* `Verif/Spec/Client.lean`: the public functions, what a program can get hold of by calling them, and the calls that panic.
* `Verif/Spec/Program.lean`: programs that use the crate, step by step; a value in lower case, and programs that do not look at letter case.
* `Verif/Spec/Text.lean`: ASCII lower-casing, subtags, joining with `-`.
* `Verif/Spec/Tag.lean`: `Parts`, the decomposition of a normal tag (RFC 5646 §2.1); truncation (RFC 4647 §3.4).
* `Verif/Spec/Rust.lean`: the grammar of the subset of Rust the crate is written in.
* `Verif/Spec/Plain.lean`: what a program must not do for the evaluator to be exact.
* `Verif/Spec/Parser.lean`: a left-to-right reference parser.
* `Verif/Spec/Order.lean`: the order of texts `cmp` is to implement.
* `Verif/Spec/Maps.lean`, `Verif/Spec/SortedLists.lean`: maps with values of the crate as keys, sorted lists of values.
* `Verif/Spec/Utf8.lean`, `Verif/Spec/Decoder.lean`, `Verif/Spec/Print.lean`: UTF-8 encoding; what is required of a decoder; padding.
* `Verif/Spec/Registered.lean`: the text of each grandfathered tag (mentions the enumeration of the model, nothing else of it).
* `Verif/Spec/Api.lean`: vocabulary for statements about the API: `Accepts`, `Constructed`, `Enumerates`, `EnumeratesBothEnds`, `ForEachType`
  (mentions constructors and `Rust` results of the model).

Theorems about the properties are in `Verif/Props/`, named after the property (`C17_…`); lemmas are in `Verif/Proof/`.
`Verif/Conformance/` evaluates the model on the test vectors of `/repo/tests`, the README and the documentation.  These are tests of the
transcription, not proofs, and no claim of the manifest rests on them.
`Verif/Audit.lean` prints the axioms of every theorem the manifest names.
`Verif/Repair/` has two edits of `normal/mod.rs` (not the code of the repository) after which C17–C23 hold, with the proofs, and a proof that
the repaired accessors return what the code returns wherever the code is right; and four edits of `utils.rs` and `extension.rs` after which
C31, C46, C48 and C59 hold.  No claim of the manifest rests on it.
`Verif/Tight/Determined.lean` is about the strength of the statements: for each function of the API, what the theorems say of it is satisfied by
no function that differs from it on any value made by a constructor (`Pins`).  No claim of the manifest rests on it.

`Verif/Tight/Decoder.lean` shows that the reference decoder in `Verif/Model/Dfa.lean` is the inverse of the UTF-8 encoder of Lean's core library, and so
that `validate_str` feeds the automaton the characters of the text and rejects bytes that are not UTF-8.
`Verif/Tight/Slices.lean` does the same for the reference `is_char_boundary`: on the encoding of a list of characters it holds exactly at the lengths of the
encodings of its prefixes, so the range checks of `str` slicing fail exactly when a character would be cut.
`Verif/Tight/Derives.lean`: the semantics generates nothing for a type without the `#[derive(…)]` attribute.

## How each property is proved

* **C01–C07**: a verified checker.  ABNF is compiled to regular expressions with Brzozowski derivatives (proved to preserve the
  denotation); a finite relation between automaton states and regular expressions is checked to be a bisimulation, by kernel
  evaluation of a boolean check over the whole (finite) relation; a general theorem turns that into language equality for all strings,
  by induction on the string.  The grammar is compared with its text by kernel evaluation of the reader on that one text.  `validate_bytes` is reduced to the automaton run by induction on the remaining bytes.
* **C08, C09**: from the ABNF denotation, by induction on grammars (closure under case change; subtag shape).
* **C10–C15, C40**: from C01–C03 and the fact that `Language-Tag` is the union of three productions; grandfathered table by
  finite enumeration of its 26 entries lifted by case-insensitive equality.
* **C16–C23, C39**: the ABNF `langtag` is shown equivalent to rendering `Parts`; `find_list_end` is characterised on `-`-separated
  segments by induction; accessors computed on `Parts.render p`.
* **C24–C26**: from the previous ones and the grammar of each part.
* **C27–C31, C33**: invariants of the iterator states; refinement to a list (queue, double-ended queue), induction over call histories.
* **C32**: direct, over all bytes/chars/strings.
* **C34–C38**: index loops shown equal to list functions on lower-cased text; order laws from a lexicographic specification; congruence
  from closure under case change plus uniqueness.

* **C41, C42**: from the theorems about accessors and iterators, on `Parts`.
* **C43**: prefixes of the list of subtags of a normal tag, by cases on the part the prefix ends in, induction on the extensions.
* **C44, C45, C51, C52**: from C01–C07 and the shape of each rule.
* **C46–C49, C53**: from C34–C38 and the iterator theorems; grandfathered tags by cases on the 26 variants, lifted to any letter case by C38.
* **C50**: from C01.
* **C54**: the code is generated by an external macro, which is not in the repository.  `Model/Foreign.lean` has the two ways it can
  delegate to the comparisons that are in the repository; both are proved to be what the property says.  Partial: that it delegates is assumed.
* **C55**: `Spec/Parser.lean` is a parser written without reference to the code; `parse_iff` (induction over the subtags) says that it finds a
  decomposition iff there is one; with uniqueness of decompositions this gives acceptance and accessors.
* **C56, C58**: from the theorems about each function; calls of `next` until `None` by induction over the list the iterator enumerates.
* **C57**: `Model/Checked.lean` is the model with `usize` additions and subtractions that fail when they leave `0..=max`; by induction over each
  loop it equals the model with unbounded numbers when the text is shorter than `max`.
* **C60**: all 26 × 26 pairs by kernel evaluation (the domain is finite and covered whole).
* **C61, C62**: `Spec/Maps.lean` has a hash table and an ordered list that use `==`, `hash` and `cmp` as the standard library's maps do; invariants
  (distinct keys per bucket; ascending keys; same map from texts to values), induction over the history.
* **C59**: induction over the common prefix, from the order specification.
* **C63**: the subtags of the range are a prefix of those of the tag (`BasicMatches` in `Spec/Tag.lean`); induction over the components gives which
  part of the decomposition each prefix covers; letter case by C38.
* **C64**: from C30 and C33.
* **C65**: `Spec/SortedLists.lean` has insertion sort, `dedup` and binary search written with `cmp` and `==`; induction over lists and over the
  interval searched; uniqueness of sorted permutations for any algorithm.
* **C66**: `Model/Print.lean` has `Formatter::pad` of `core` and the `Display` and `Debug` implementations that call it; by cases on the
  options, the 26 texts by computation.  `Spec/Format.lean` says what the options of a formatter ask for (`Shows`; only one text satisfies it), and
  `C66_options` and `C66_source_options` that it is what is printed, for all options together.
* **C67**: from C16–C21, C25, C27–C30: each result is the join of consecutive parts of the decomposition.
* **C68**: `Model/Timed.lean` repeats the functions with a counter of loop iterations in the monad; by induction over each loop, and for whole
  iterations with a potential (what is left to scan) that each call pays from.  Assumed constant: what is done between two iterations
  (indexing, slicing, which copies nothing, one step of the automaton, `Singleton::from_string`).  `C68_source…` (`Verif/Props/SourceWork.lean`) say the same
  of the text of the crate, executed by the counting evaluator, which proves `Timed.lean` of the text as C69 proves the rest of the model.
* **C69**: see "The text of the crate".  `C69_grammar`: the text of the crate has, by the grammar, exactly one reading, and it is the program executed; by
  soundness of the reader (induction on its fuel) and completeness (induction on the number of tokens).  Theorems named `C.._source..` (`Verif/Props/Source*.lean`) combine it with the other theorems, so that the statement mentions the text
  (`run`) and the specification only.  Every property has one except C39 (about the grammar only), C40 (for which `C15_source` is
  listed), C54 (external macro), and C57 (for which `C74_overflow` is listed).
  `C69_memory`: calls end the same with a memory in place of copies.
* **C70**: `Verif/Spec/Client.lean` has the table of public functions and the values a program can get hold of, the closure of what it starts with under
  calls (`Obtainable`).  By induction over that closure with an invariant (`Verif/Source/Client*.lean`: texts of the production or an exception, iterators
  that will enumerate such texts); each call through C69 and the property of the function.
* **C71**: `Verif/Spec/Program.lean` has programs, and those that choose their steps without looking at letter case.  Every function of the model commutes with
  putting its argument in lower case (`Verif/Proof/Lower.lean`: the automata and the scanning functions step alike on both cases of a letter); through
  C69 so does every call of the table of C70 but four (`Verif/Source/Lower.lean`), and by induction over its steps every program.
* **C72**: what C69 says a call does has no `max` in it (`Verif/Source/Platform.lean`, function by function); for programs by induction over the steps.
* **C73**: part of the invariant of C70.
* **C74**: the evaluator has a flag, `wraps`, for what a sum or difference does that does not fit its type.  `Verif/Source/Release.lean` proves for every
  program, by fixed-point induction, that a computation that ends, and not with an overflow, ends in the same way with the flag set; C70 names the panic of
  every call that panics, and it is never an overflow.
* **C75**: `Verif/Spec/Provided.lean` has the methods that `core` provides for every iterator, written as in `core` with `next` and `next_back`, which are
  executed; trusted: that `core` writes them so; that the crate redefines none of them is `C75_source_provided`.  By induction over the items that are left; for the iterators of a
  program through the invariant of C70.
* **C76**: `Verif/Source/Deep/` has the evaluator once more, with a number that says how many more calls may be under way; a call of a function of the crate or
  of a closure takes one, and where none is left there is no result.  Each function is executed with it as for C69, with the number of calls it needs and any
  number more.  That a bound changes no result, and a higher one neither, is proved for every program by fixed-point induction (`Sound.lean`).  For the values
  of a program through the invariant of C70.  Not counted: functions of `core`, those that derive macros generate, constants.  That thirteen is the least
  bound (`C76_exact`) is shown by executing the accessors with one call less on any normal tag with a `-` (`Least.lean`); that the bounds of comparisons and iterators are reached, in the same way (`LeastParts.lean`, `LeastGrandfathered.lean`).

Properties that are false of the code.  For each there is a theorem `…_violated` with a concrete counterexample, and a theorem `…_partial`
that says exactly what holds:

* **C17–C20, C22** `find_list_end` slices `string[offset..]` with `offset = len + 1` when the tag ends where the component would start, so
  `script()` panics on `en`, `variants()` on `en-US`, ...
* **C21, C23** `private_use_offset` starts after the variants, not after the extensions.
* **C24** `Language::primary` of a 4–8 letter language is not a `primary` (2–3 letters); `private_use()` with extensions is not a private use part.
* **C14** regular grandfathered tags are `is_grandfathered()` but have `kind() == Normal`.
* **C31, C48** `Extensions::get` and `Singleton ==` compare the singleton byte case-sensitively.
* **C64** a singleton may be repeated: `a-bbb-a-ccc`.
* **C46** `hash` writes no terminator.
* **C60** the derived order of `GrandfatheredLangTag` is the order of declaration.
* **C59** `en-us` < `eng` < `en`.
* **C47** `no-bok`, `no-nyn`, `zh-min`, `zh-min-nan` read as a language with extended language subtags.

## Wrong programs

`seeded/LOG.jsonl` records, for edits of the model a realistic bug would make, which theorems stopped proving.
