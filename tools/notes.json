{
 "C08": {
  "also": [
   "Langtag.Props.validateBytes_any_decoder"
  ]
 },
 "C14": {
  "note": "False of the code: the nine regular grandfathered tags are accepted by NormalLangTag, so is_normal() and is_grandfathered() both hold and kind() is Normal (C14_violated). C14_predicates_partial: full agreement holds exactly on the other tags. C14_always_partial: what holds on all tags. C14_answers and C14_typed say what each predicate answers."
 },
 "C17": {
  "note": "False of the code: script() panics on a tag that is only a language (C17_violated). C17_script_partial gives the exact result in every case. C16_langTag carries it over to LangTag. Not about this code, hence not listed: Langtag.Repair.C17_script proves the full statement of a repaired version.",
  "also": [
   "Langtag.Props.C16_langTag"
  ]
 },
 "C18": {
  "note": "False of the code: region() panics when nothing follows the language and script (C18_violated). C18_region_partial gives the exact result in every case. C16_langTag carries it over to LangTag. Not about this code, hence not listed: Langtag.Repair.C18_region proves the full statement of a repaired version.",
  "also": [
   "Langtag.Props.C16_langTag"
  ]
 },
 "C19": {
  "note": "False of the code: variants() panics when nothing follows the region (C19_violated). C19_variants_partial gives the exact result in every case. C16_langTag carries it over to LangTag. Not about this code, hence not listed: Langtag.Repair.C19_variants proves the full statement of a repaired version.",
  "also": [
   "Langtag.Props.C16_langTag"
  ]
 },
 "C20": {
  "note": "False of the code: extensions() panics when there is neither an extension nor a private use part (C20_violated). C20_extensions_partial gives the exact result in every case. C16_langTag carries it over to LangTag. Not about this code, hence not listed: Langtag.Repair.C20_extensions proves the full statement of a repaired version.",
  "also": [
   "Langtag.Props.C16_langTag"
  ]
 },
 "C21": {
  "note": "False of the code: private_use() returns extensions too, and panics when nothing follows the region (C21_violated). C21_privateUse_partial gives the exact result in every case. C16_langTag carries it over to LangTag. Not about this code, hence not listed: Langtag.Repair.C21_privateUse, Langtag.Repair.C21_privateUseSubtags proves the full statement of a repaired version.",
  "also": [
   "Langtag.Props.C16_langTag"
  ]
 },
 "C22": {
  "note": "False of the code (C22_violated). C22_noPanic_partial states exactly when each accessor returns. Not about this code, hence not listed: Langtag.Repair.C22_noPanic proves the full statement of a repaired version."
 },
 "C23": {
  "note": "False of the code: with extensions, private_use() repeats them (C23_violated). C23_reassemble_partial: when all accessors return, the components rejoin to the text iff there are no extensions. Not about this code, hence not listed: Langtag.Repair.C23_reassemble proves the full statement of a repaired version."
 },
 "C24": {
  "note": "False of the code for Language::primary() of 4-8 letters and private_use() with extensions (violated theorems). The partial theorems state exactly when these are valid; all others always are."
 },
 "C31": {
  "note": "False of the code: Extensions::get compares the singleton byte exactly (C31_violated). C31_get_partial: equal Extensions whose singletons are written in the same case answer alike. C31_otherCase_partial: in any case, get of the singleton as it is written there finds it."
 },
 "C39": {
  "also": [
   "Langtag.Props.normal_has_parts"
  ]
 },
 "C46": {
  "note": "False of the code: the bytes of a text are written without a terminator, so en is a prefix of en-US (C46_violated, for twelve of the fifteen types). C46_hash_partial: it holds for the three others, Script, ExtendedLangTag and Region."
 },
 "C47": {
  "note": "False of the code for no-bok, no-nyn, zh-min, zh-min-nan (C47_violated). C47_language_partial: both None, or equal primary languages, and equal except for these four."
 },
 "C48": {
  "note": "False of the code: singleton comparison is case-sensitive (C48_violated). C48_singleton_partial: the singletons are the same letter ignoring case, and equal iff written in the same case."
 },
 "C54": {
  "note": "The comparisons are generated by the external macro str_newtype, whose source is not in /repo. C54_eq_partial and C54_cmp_partial: if the generated code delegates to the comparison of the type, on the wrapped or on the parsed string, the property holds for every string. Missing: that the macro delegates, and the owned types."
 },
 "C59": {
  "note": "False of the code: en-us < eng < en (C59_violated). C59_prefix_partial: texts with a common prefix are adjacent. C59_primary_partial: a tag in between has a primary language that starts with theirs, so the same if of the same length."
 },
 "C60": {
  "note": "False of the code: art-lojban < i-ami as tags, the other way round as grandfathered tags (C60_violated). C60_order_partial says for which pairs the orders agree."
 },
 "C61": {
  "note": "The hash table is a small one with chaining and no resizing (Spec/Maps.lean), not the standard library's; it uses == and hash the way that one does."
 },
 "C62": {
  "note": "The ordered map is a sorted list of entries (Spec/Maps.lean), not the standard library's B-tree; it uses cmp the way that one does."
 },
 "C63": {
  "note": "Where an accessor of the range panics (C22) the range has no such component and nothing is claimed of it."
 },
 "C64": {
  "note": "False of the code: a repeated singleton is accepted, and get finds the first extension with it (C64_violated). C64_get_partial: an extension is found if none before it has the same singleton, otherwise an earlier one is; C64_distinct_partial: all are found if no singleton is repeated."
 },
 "C65": {
  "note": "The algorithms are small ones (Spec/SortedLists.lean), not the standard library's; they use cmp and == the way those do. C65_sortUnique is about any sorting algorithm."
 },
 "C66": {
  "note": "Formatter::pad is part of core; the model (Model/Print.lean) follows its documentation. The implementations in the repository delegate to it. C66_source_errors: the message is read from #[error(\"…\")] in the text; that thiserror writes it as it is, is assumed."
 },
 "C67": {
  "note": "RunOf (Spec/Api.lean) compares lists of subtags byte for byte."
 },
 "C68": {
  "note": "The theorems named C68_source... are about the text of the crate: runCounted (Source/Counted/) reads and executes it with a counter of executed bodies of loops (and of bytes split_once looks at), and each theorem says that the call ends, that counting does not change the result of run (proved for every program in Source/Counted/Erase.lean) and that the count is bounded. For the iterator over extensions the text is one Extensions::new accepts. The other theorems are about Model/Timed.lean, which repeats the model with a counter, and which the text refines function by function. Constant time is assumed between iterations: indexing, slicing, one step of the automaton."
 },
 "C69": {
  "note": "run (Source/Run.lean) reads the text kept in Source/Text (tools/gen_source.py --check compares it with /repo byte for byte) with a lexer and a parser and executes it with an evaluator for the subset of Rust used. C69_grammar: the lexer and parser are those of the grammar of the subset in Spec/Rust.lean, written as inductive relations, and the text of the crate has exactly one reading by it. C69_plain: the text does none of the things (Spec/Plain.lean) for which the evaluator's shortcuts would differ from Rust; C69_memory: calls end the same, with the same values in the cells of the &mut arguments, when the text is executed with a memory (Spec/Store.lean: variables are cells, &mut parameters the cells of the arguments, closures read cells) instead of copies; for arguments without closures in them. C69_file_order: the files may be read in any order. VariantsIter::next is stated for states with end within the text, which C28_source shows are the states reached. {:?} of a Singleton is stated for ASCII letters and digits. C69_derived: what derive(PartialEq, PartialOrd, Ord, Hash, Debug) generates is computed from the declarations in the text (Source/Derive.lean). Code generated by macros that are not in the repository is not executed. The theorems named C.._source.. restate other properties about run and the specification alone."
 },
 "C70": {
  "note": "api (Spec/Client.lean) is the table of public functions; C70_table proves that it has every function of the text that is not in the list of private ones, and tools/check_api.py compares it with the pub keywords in /repo. Obtainable is the closure of what a program starts with under calls of run. Not in the table: unsafe functions, functions generated by the str_newtype derive other than new and the text of a value, and trait functions generated by derive (C69_derived); a generic argument (AsRef<[u8]>) is a &str. A usize of fewer than 12 values is excluded because the texts of grandfathered tags are 11 bytes long."
 },
 "C40": {
  "also": [
   "Langtag.Props.C15_source"
  ]
 },
 "C56": {
  "also": [
   "Langtag.Props.C70_panics"
  ]
 },
 "C71": {
  "note": "About the text of the crate (run). UserProgram, its steps and CaseBlind are in Spec/Program.lean; C71_obtainable says that a step gets hold of nothing that Obtainable of C70 does not have. Two values differ in letter case only if lowerVal makes them equal; only A-Z change. The comparison of two Singletons is generated by derive and is not in the table of functions (see C48). C71_exceptions shows that the four functions excluded have to be."
 },
 "C72": {
  "note": "About the text of the crate (run max, max the largest usize; its arithmetic panics on overflow, see C74 for builds without that check). A text has to fit the smaller platform. A usize of fewer than 12 values is excluded as in C70."
 },
 "C73": {
  "note": "About the text of the crate (run), with Obtainable of C70. The texts a program starts with are UTF-8 (IsUtf8, Spec/Utf8.lean), as Rust demands; those it gets from calls are shown to be."
 },
 "C74": {
  "note": "About the text of the crate: run has the overflow checks of a debug build, runRelease (Spec/Release.lean) is the same evaluator with wrapping sums and differences. C74_overflow rests on C70_panic, which names the panic of every call that panics. Other differences between the two builds (debug_assert!, cfg(debug_assertions)) do not occur in the text. A usize of fewer than 12 values is excluded as in C70."
 },
 "C57": {
  "also": [
   "Langtag.Props.C74_overflow"
  ],
  "note": "C74_overflow says it of the text of the crate and of every program that uses it."
 },
 "C75": {
  "note": "About the text of the crate (run): next and next_back are executed. fold (a for loop), find, nth, count, last and collect are those of core, written in Spec/Provided.lean; position, any, all, map, filter and the like are fold or find with another closure. A closure is a function on values without effects that cannot panic. C75_source and C75_source_extensions name the items of the iterators; C75_obtainable and C75_obtainable_both_ends are about every iterator a program can get hold of (C70)."
 },
 "C76": {
  "note": "About the text of the crate: runWithin n (Source/Deep/Run.lean) is run with a bound on how many calls of functions of the crate or of closures in it are under way at the same time; past the bound it has no result. Not counted: functions of core, the functions that derive macros generate, constants. That the bound changes no result is proved for every program (Source/Deep/Sound.lean); NestsWithin says so in each statement. C76_api is about every function of the table of C70 on all values a program can get hold of; C76_types, C76_accessors and C76_iterators give smaller bounds, on texts of any content. C76_exact says that thirteen is the least bound for all of the table, C76_least, C76_least_types, C76_least_grandfathered and C76_least_iterators that the smaller bounds are reached: those of the accessors on every normal tag with a hyphen, of as_typed on every irregular tag, of parsing a grandfathered tag on every such tag, of the constructors on every text, of the comparisons on texts that are not empty, of the iterators as long as an item is left."
 }
}