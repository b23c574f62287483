{"id": "C01", "title": "LangTag::new accepts exactly RFC 5646 language tags", "statement": "LangTag::new(s) succeeds if and only if s matches the Language-Tag production of the ABNF grammar (normal, private use or grandfathered tag).", "quantifier": "every byte string, of any length and content, UTF-8 or not", "why_tests_cant": "The set of inputs is infinite in both directions (accepted and rejected); the automaton has 183 states and the tests sample about 300 strings.", "anchors": ["src/grammar.rs: LanguageTag", "src/grammar.abnf: Language-Tag", "src/lib.rs: LangTag"]}
{"id": "C02", "title": "NormalLangTag::new accepts exactly the langtag production", "statement": "NormalLangTag::new(s) succeeds iff s matches langtag.", "quantifier": "every byte string", "why_tests_cant": "Infinite input space; 72-state automaton.", "anchors": ["src/grammar.rs: Langtag", "src/grammar.abnf: langtag", "src/normal/mod.rs: NormalLangTag"]}
{"id": "C03", "title": "PrivateUse and PrivateUseSubtag constructors match their productions", "statement": "PrivateUse::new (PrivateUseLangTag::new) accepts exactly privateuse; PrivateUseSubtag::new accepts exactly privateuse-subtag.", "quantifier": "every byte string", "why_tests_cant": "Infinite input space.", "anchors": ["src/grammar.rs: Privateuse, PrivateuseSubtag", "src/grammar.abnf: privateuse, privateuse-subtag", "src/normal/private_use.rs", "src/private_use.rs"]}
{"id": "C04", "title": "Language, PrimaryLanguage, LanguageExtension, ExtendedLangTag constructors match their productions", "statement": "Each of Language::new, PrimaryLanguage::new, LanguageExtension::new, ExtendedLangTag::new accepts exactly language, primary, extlang, extlang-tag respectively.", "quantifier": "every byte string", "why_tests_cant": "Infinite input space.", "anchors": ["src/grammar.rs: Language, Primary, Extlang, ExtlangTag", "src/grammar.abnf: language, primary, extlang, extlang-tag", "src/normal/language/"]}
{"id": "C05", "title": "Script and Region constructors match their productions", "statement": "Script::new accepts exactly 4ALPHA, Region::new exactly 2ALPHA / 3DIGIT.", "quantifier": "every byte string", "why_tests_cant": "Infinite input space.", "anchors": ["src/grammar.rs: Script, Region", "src/grammar.abnf: script, region", "src/normal/script.rs", "src/normal/region.rs"]}
{"id": "C06", "title": "Variant and Variants constructors match their productions", "statement": "Variant::new accepts exactly variant, Variants::new exactly variants (possibly empty '-'-separated list).", "quantifier": "every byte string", "why_tests_cant": "Infinite input space, unbounded lists.", "anchors": ["src/grammar.rs: Variant, Variants", "src/grammar.abnf: variant, variants", "src/normal/variant.rs"]}
{"id": "C07", "title": "Extension, ExtensionSubtag, Extensions constructors match their productions", "statement": "Extension::new, ExtensionSubtag::new and Extensions::new accept exactly extension, extension-subtag and extensions.", "quantifier": "every byte string", "why_tests_cant": "Infinite input space, unbounded lists of unbounded lists.", "anchors": ["src/grammar.rs: Extension, ExtensionSubtag, Extensions", "src/grammar.abnf: extension, extension-subtag, extensions, singleton", "src/normal/extension.rs"]}
{"id": "C08", "title": "Only hyphen-separated ASCII alphanumeric subtags of 1 to 8 characters are ever accepted", "statement": "Whatever string LangTag::new accepts is a non-empty sequence of subtags of 1 to 8 ASCII letters/digits joined by single '-': no other byte, no leading, trailing or doubled '-'. The verdict does not depend on how non-ASCII bytes are decoded.", "quantifier": "every byte string and every UTF-8 decoder honouring the ASCII contract", "why_tests_cant": "A single bad character among 2^32 code points, at any position, would refute it.", "anchors": ["src/grammar.rs: LanguageTag::validate_bytes", "src/lib.rs: LangTag"]}
{"id": "C09", "title": "Acceptance ignores letter case", "statement": "For every type of the crate, changing the case of any letters of a string never changes whether the constructor accepts it.", "quantifier": "every byte string, every subset of letters re-cased, every string type", "why_tests_cant": "Exponentially many casings of infinitely many strings.", "anchors": ["src/grammar.rs: all automata", "src/normal/", "src/lib.rs"]}
{"id": "C10", "title": "Every accepted tag is classified; classification never panics", "statement": "For every value produced by LangTag::new, as_typed() and kind() return normally (the unwrap inside as_typed is never reached with an error), and the returned variant holds the tag itself (same text, up to case for grandfathered).", "quantifier": "every accepted LangTag", "why_tests_cant": "The panic would occur on any one accepted string that is none of the three kinds; absence over an infinite set is not testable.", "anchors": ["src/lib.rs: LangTag::as_typed, LangTag::kind"]}
{"id": "C11", "title": "Normal, private use and grandfathered kinds: what overlaps and what does not", "statement": "No tag is both normal and private use, and no tag is both private use and grandfathered; kind() is Normal iff is_normal(), PrivateUse iff is_private_use().", "quantifier": "every accepted LangTag", "why_tests_cant": "Disjointness of infinite sets.", "anchors": ["src/lib.rs: LangTag::is_normal, is_private_use, is_grandfathered, kind"]}
{"id": "C12", "title": "Grandfathered parsing is exact, case-insensitive and inverse to as_str", "statement": "GrandfatheredLangTag::new(s) succeeds iff s equals, ignoring case, one of the 26 registered tags, returns exactly that tag, and parsing as_str()/as_bytes() of any grandfathered tag in any letter case gives the tag back; it accepts exactly the grandfathered production.", "quantifier": "every byte string; every grandfathered tag; every casing", "why_tests_cant": "Infinite set of rejected strings; 2^n casings.", "anchors": ["src/grandfathered.rs: GrandfatheredLangTag::new, as_bytes, as_str, GRANDFATHERED", "src/grammar.abnf: grandfathered"]}
{"id": "C13", "title": "Every grandfathered tag is a language tag; regular ones are normal, irregular ones are not", "statement": "Any string GrandfatheredLangTag::new accepts is accepted by LangTag::new; it is accepted by NormalLangTag::new iff the tag is one of the nine regular ones, which are exactly those whose language() is Some.", "quantifier": "every byte string accepted as grandfathered, in every casing", "why_tests_cant": "2^n casings of each tag.", "anchors": ["src/grandfathered.rs: GrandfatheredLangTag::language", "src/lib.rs: LangTag"]}
{"id": "C14", "title": "LangTag predicates agree with the typed view", "statement": "is_normal(), is_private_use(), is_grandfathered() and the as_* accessors of a LangTag give the same answers as those of its as_typed() view and of its kind().", "quantifier": "every accepted LangTag", "why_tests_cant": "Must hold for each of infinitely many tags; fails only on a thin set of tags (regular grandfathered).", "anchors": ["src/lib.rs: LangTag::is_grandfathered, LangTag::as_grandfathered, TypedLangTag, Kind"]}
{"id": "C15", "title": "language() is present exactly for normal tags (regular grandfathered included)", "statement": "LangTag::language() is Some for normal tags and regular grandfathered tags, None for private use and irregular grandfathered tags, and equals as_typed().language(). It never panics.", "quantifier": "every accepted LangTag", "why_tests_cant": "Infinite set of tags.", "anchors": ["src/lib.rs: LangTag::language, TypedLangTag::language", "src/normal/mod.rs: NormalLangTag::language"]}
{"id": "C16", "title": "language() returns the language component", "statement": "For a normal tag written as language[-script][-region]*(-variant)*(-extension)[-privateuse], language() returns exactly the language part (primary plus extended language subtags), unchanged in case.", "quantifier": "every normal tag, any number of variants, extensions and subtags", "why_tests_cant": "Unbounded tag length and combination of optional parts.", "anchors": ["src/normal/mod.rs: NormalLangTag::language, find_list_end"]}
{"id": "C17", "title": "script() returns the script component", "statement": "script() of a normal tag returns the script part if the tag has one, and None otherwise.", "quantifier": "every normal tag", "why_tests_cant": "Unbounded combinations of optional parts.", "anchors": ["src/normal/mod.rs: NormalLangTag::script", "src/lib.rs: LangTag::script"]}
{"id": "C18", "title": "region() returns the region component", "statement": "region() of a normal tag returns the region part if the tag has one, and None otherwise.", "quantifier": "every normal tag", "why_tests_cant": "Unbounded combinations of optional parts.", "anchors": ["src/normal/mod.rs: NormalLangTag::region", "src/lib.rs: LangTag::region"]}
{"id": "C19", "title": "variants() returns the variant list", "statement": "variants() of a normal tag returns the '-'-joined list of all its variants, and the empty list when there are none.", "quantifier": "every normal tag, any number of variants", "why_tests_cant": "Unbounded lists.", "anchors": ["src/normal/mod.rs: NormalLangTag::variants", "src/lib.rs: LangTag::variants"]}
{"id": "C20", "title": "extensions() returns the extension list", "statement": "extensions() of a normal tag returns the '-'-joined list of all its extensions, and the empty list when there are none; it never includes private use subtags.", "quantifier": "every normal tag, any number of extensions and subtags", "why_tests_cant": "Unbounded lists.", "anchors": ["src/normal/mod.rs: NormalLangTag::extensions", "src/lib.rs: LangTag::extensions"]}
{"id": "C21", "title": "private_use() returns the private use component", "statement": "private_use() of a normal tag returns the trailing x-... part if the tag has one, and None otherwise; private_use_subtags() iterates its subtags.", "quantifier": "every normal tag", "why_tests_cant": "Fails only on particular combinations of parts (extensions present), which the tests never combine.", "anchors": ["src/normal/mod.rs: NormalLangTag::private_use, private_use_subtags", "src/lib.rs: LangTag::private_use, private_use_subtags"]}
{"id": "C22", "title": "Component accessors never panic", "statement": "script(), region(), variants(), extensions(), private_use(), private_use_subtags() and language() return normally on every tag that was accepted by its constructor.", "quantifier": "every accepted LangTag / NormalLangTag", "why_tests_cant": "Index arithmetic past the end occurs only for particular shapes of tag; absence must be shown for all.", "anchors": ["src/normal/mod.rs: find_list_end, script_range, region_range, variants_range, extensions_range, private_use_offset"]}
{"id": "C23", "title": "Components reassemble to the tag", "statement": "Joining with '-' the language, script, region, variants, extensions and private use returned by the accessors gives back the original text, byte for byte.", "quantifier": "every normal tag", "why_tests_cant": "Unbounded combinations of optional parts.", "anchors": ["src/normal/mod.rs: NormalLangTag accessors"]}
{"id": "C24", "title": "Values built without validation are nevertheless valid", "statement": "Every value the API hands out through an unchecked constructor (language, primary, extension, script, region, variants, extensions, private use, and every item of every iterator) would be accepted by the checking constructor of its own type.", "quantifier": "every accepted tag and every accessor and iterator item", "why_tests_cant": "It is the safety contract of new_unchecked; must hold on every reachable value.", "anchors": ["src/normal/mod.rs", "src/normal/language/mod.rs: Language::primary", "src/grandfathered.rs: GrandfatheredLangTag::language", "src/normal/variant.rs", "src/normal/extension.rs", "src/normal/private_use.rs"]}
{"id": "C25", "title": "Language splits into primary and extended language subtags", "statement": "For every Language, primary() is its first subtag; extension() is everything after the first '-', None if there is no '-'; primary and extension rejoin to the language; extension_subtags() yields the extension's subtags in order and nothing when there is none.", "quantifier": "every accepted Language", "why_tests_cant": "Infinite set of languages.", "anchors": ["src/normal/language/mod.rs: Language::primary, extension, extension_subtags"]}
{"id": "C26", "title": "Extended language subtags appear only after a 2-3 letter primary, at most three", "statement": "If extension() is Some then the primary has 2 or 3 letters and extension_subtags() yields between 1 and 3 subtags, each of three letters.", "quantifier": "every accepted Language", "why_tests_cant": "Infinite set of languages.", "anchors": ["src/normal/language/mod.rs: Language::extension", "src/normal/language/extlang.rs"]}
{"id": "C27", "title": "Subtag iterators enumerate exactly the subtags, in order, once, and stay finished", "statement": "PrivateUse::iter, Extension::iter and LanguageExtension::iter return, over any number of next() calls, exactly the '-'-separated subtags (after the singleton) in order, then None forever; they never panic; the empty() iterators yield nothing.", "quantifier": "every accepted value and every number of next() calls", "why_tests_cant": "Unbounded lists and unbounded call histories.", "anchors": ["src/normal/private_use.rs: PrivateUseIter", "src/normal/extension.rs: ExtensionIter", "src/normal/language/extlang.rs: LanguageExtensionIter"]}
{"id": "C28", "title": "Variants can be iterated from both ends in any interleaving", "statement": "For every Variants and every interleaving of next() and next_back() calls, the iterator behaves as a double-ended queue holding the list of variants: each variant is returned exactly once, from the right end, then None forever; never panics. first() and last() are the list's first and last elements.", "quantifier": "every accepted Variants and every finite sequence of next/next_back calls", "why_tests_cant": "Exponentially many interleavings over unbounded lists.", "anchors": ["src/normal/variant.rs: VariantsIter, Variants::first, Variants::last"]}
{"id": "C29", "title": "Extensions::iter enumerates exactly the extensions", "statement": "Extensions::iter returns, over any number of next() calls, exactly the extensions of the list in order (each from its singleton up to the next singleton), then None forever, and never panics.", "quantifier": "every accepted Extensions and every number of next() calls", "why_tests_cant": "Unbounded lists of unbounded lists.", "anchors": ["src/normal/extension.rs: ExtensionsIter, Extensions::iter"]}
{"id": "C30", "title": "Extensions::get finds the first extension with the given singleton", "statement": "Extensions::get(s) returns the first element of iter() whose singleton is s, and None iff there is none; iter_extension(s) iterates that extension's subtags, or nothing.", "quantifier": "every accepted Extensions and every Singleton", "why_tests_cant": "Unbounded lists; get scans bytes independently of iter and could be fooled by subtag contents.", "anchors": ["src/normal/extension.rs: Extensions::get, Extensions::iter_extension"]}
{"id": "C31", "title": "Extension lookup ignores letter case", "statement": "Equal (==) Extensions answer get() with equal results, and get() with either case of the same letter gives equal results, as extensions are case-insensitive.", "quantifier": "every pair of equal Extensions and every Singleton", "why_tests_cant": "Needs all pairs of casings.", "anchors": ["src/normal/extension.rs: Extensions::get, Singleton"]}
{"id": "C32", "title": "Singletons: all constructors agree with the grammar", "statement": "Singleton::new(b), TryFrom<u8>, TryFrom<char>, from_string and FromStr accept exactly one character of the singleton production (ASCII letter or digit other than x/X), keep it unchanged (unwrap, ==, Display), and never panic.", "quantifier": "every byte, every Unicode char, every string", "why_tests_cant": "1.1 million chars and infinitely many strings.", "anchors": ["src/normal/extension.rs: Singleton", "src/grammar.abnf: singleton"]}
{"id": "C33", "title": "Extension::singleton is the extension's identifier", "statement": "For every accepted Extension, singleton() does not panic, returns its first byte, and that byte would be accepted by Singleton::new.", "quantifier": "every accepted Extension", "why_tests_cant": "Infinite set.", "anchors": ["src/normal/extension.rs: Extension::singleton"]}
{"id": "C34", "title": "== is case-insensitive equality and an equivalence relation", "statement": "For every string type, a == b iff the texts are equal after ASCII lower-casing; hence == is reflexive, symmetric and transitive; it never panics.", "quantifier": "every pair/triple of values", "why_tests_cant": "All pairs and triples of an infinite set.", "anchors": ["src/utils.rs: case_insensitive_eq", "impl PartialEq in src/lib.rs and src/normal/"]}
{"id": "C35", "title": "cmp is a total order consistent with ==", "statement": "For every string type cmp is a total order (antisymmetric under swapping, transitive), returns Equal iff ==, terminates without panic, and partial_cmp is Some(cmp).", "quantifier": "every pair/triple of values", "why_tests_cant": "All triples of an infinite set; sorting and BTreeMap silently misbehave otherwise.", "anchors": ["src/utils.rs: case_insensitive_cmp", "impl Ord / PartialOrd in src/lib.rs and src/normal/"]}
{"id": "C36", "title": "cmp is lexicographic on lower-cased text, a proper prefix being greater", "statement": "cmp compares the lower-cased texts byte by byte; at the first difference the smaller byte is Less; if one text is a proper prefix of the other, the shorter one is Greater.", "quantifier": "every pair of values", "why_tests_cant": "Infinite set of pairs.", "anchors": ["src/utils.rs: case_insensitive_cmp"]}
{"id": "C37", "title": "Hash agrees with ==", "statement": "If a == b then hashing a and b feeds any hasher the same sequence of bytes, from any hasher state, so they hash alike; conversely equal byte sequences imply a == b.", "quantifier": "every pair of values, every Hasher implementation and state", "why_tests_cant": "All pairs, all hashers.", "anchors": ["src/utils.rs: case_insensitive_hash", "impl Hash in src/lib.rs and src/normal/"]}
{"id": "C38", "title": "Equal tags have equal kinds and components", "statement": "If a == b then a and b have the same kind, and each accessor (language, script, region, variants, extensions, private_use, primary, extlang) gives equal (==) results on both, or fails on both.", "quantifier": "every pair of equal tags", "why_tests_cant": "Exponentially many casings of infinitely many tags.", "anchors": ["src/lib.rs: LangTag accessors, PartialEq for LangTag", "src/normal/mod.rs"]}
{"id": "C39", "title": "The decomposition of a normal tag is unique", "statement": "A normal tag can be split in only one way into language, script, region, variants, extensions and private use, so the accessors' answers are the only possible ones.", "quantifier": "every normal tag and every pair of splittings", "why_tests_cant": "Unambiguity of an infinite grammar.", "anchors": ["src/grammar.abnf: langtag", "src/normal/mod.rs"]}
{"id": "C40", "title": "Private use and irregular grandfathered tags expose no components", "statement": "On a tag that is not normal, script(), region() and private_use() are None, variants() and extensions() are empty, private_use_subtags() yields nothing, without panicking.", "quantifier": "every accepted LangTag that is not normal", "why_tests_cant": "Infinite set of private use tags.", "anchors": ["src/lib.rs: LangTag::script, region, variants, extensions, private_use, private_use_subtags"]}
{"id": "C41", "title": "Valid components join to a valid tag made of exactly these components", "statement": "For any valid Language, optional Script, optional Region, Variants, Extensions and optional PrivateUse, the text obtained by joining the non-empty ones with '-' is accepted by NormalLangTag::new and LangTag::new, it decomposes into exactly these components, and every accessor that returns gives back the component it was built from (private_use() when there are no extensions).", "quantifier": "all combinations of valid components", "why_tests_cant": "Product of infinite sets of components.", "anchors": ["src/normal/mod.rs: NormalLangTag", "src/lib.rs: LangTag::new"]}
{"id": "C42", "title": "Walking a tag through its accessors and iterators gives exactly its parts", "statement": "For a normal tag, variants().iter() from either end, first() and last() give the variants of the tag; extensions().iter(), get(s) and iter_extension(s) give the extensions of the tag; language().primary() is the first subtag of the tag and language().extension_subtags() the other subtags of the language, whenever the accessor returns.", "quantifier": "every normal tag, every sequence of iterator calls", "why_tests_cant": "Unbounded tags and histories of calls.", "anchors": ["src/normal/mod.rs: variants, extensions, language", "src/normal/variant.rs", "src/normal/extension.rs"]}
{"id": "C43", "title": "Truncating a tag leaves a valid tag", "statement": "The first k subtags of a normal tag are a normal tag unless the last of them has one character; so every range derived from an accepted tag by the RFC 4647 lookup algorithm (drop the last subtag and trailing one-character subtags) is accepted, until nothing is left. The first k >= 2 subtags of a private use tag are a private use tag.", "quantifier": "every accepted tag, every k, every number of truncations", "why_tests_cant": "Infinite set of tags and of prefixes.", "anchors": ["src/normal/mod.rs: NormalLangTag::new", "src/private_use.rs"]}
{"id": "C44", "title": "Which types include which", "statement": "Every PrimaryLanguage is a Language, every Language a NormalLangTag, every NormalLangTag and PrivateUse a LangTag, every ExtendedLangTag a LanguageExtension, every Variant a Variants, every Extension an Extensions, every ExtensionSubtag a PrivateUseSubtag; PrimaryLanguage, ExtendedLangTag, Script, Region and Variant are all ExtensionSubtags.", "quantifier": "every string", "why_tests_cant": "Inclusion of infinite sets.", "anchors": ["src/grammar.rs", "src/grammar.abnf"]}
{"id": "C45", "title": "The role of a subtag is determined by its form", "statement": "No string is accepted by two of ExtendedLangTag, Script, Region, Variant, and none of them, nor ExtensionSubtag, accepts a string of one character.", "quantifier": "every string", "why_tests_cant": "Disjointness of sets with billions of elements.", "anchors": ["src/grammar.rs"]}
{"id": "C46", "title": "Hashing is prefix-free", "statement": "No value feeds a hasher a proper prefix of what an unequal value of the same type feeds it, as the documentation of core::hash::Hash asks.", "quantifier": "every two values of each string type", "why_tests_cant": "All pairs of values.", "anchors": ["src/utils.rs: case_insensitive_hash"]}
{"id": "C47", "title": "A regular grandfathered tag has the same language in both views", "statement": "For a text that is both a LangTag and a grandfathered tag, LangTag::language() and GrandfatheredLangTag::language() are both None or are equal.", "quantifier": "every text equal to a grandfathered tag, in any letter case", "why_tests_cant": "All spellings of the tags.", "anchors": ["src/grandfathered.rs: language", "src/lib.rs: LangTag::language"]}
{"id": "C48", "title": "Equal extensions have equal singletons", "statement": "If two Extension values are equal then their singleton() are equal.", "quantifier": "every two equal extensions", "why_tests_cant": "All pairs of extensions.", "anchors": ["src/normal/extension.rs: Singleton, Extension::singleton"]}
{"id": "C49", "title": "Iterating equal values gives equal items", "statement": "If two values of PrivateUse, Extension, LanguageExtension, Language (extension_subtags), Variants or Extensions are equal, their iterators give the same number of items, equal at each place.", "quantifier": "every two equal values, every number of calls", "why_tests_cant": "All pairs of values.", "anchors": ["src/normal/*.rs: iterators", "src/utils.rs: case_insensitive_eq"]}
{"id": "C50", "title": "langtag! accepts exactly the language tags", "statement": "langtag!(v) evaluates to the tag whose text is v if v is a language tag, and panics otherwise.", "quantifier": "every literal", "why_tests_cant": "Infinite set of literals.", "anchors": ["src/lib.rs: langtag!"]}
{"id": "C51", "title": "Lengths of the texts", "statement": "PrimaryLanguage has 2-3 bytes, ExtendedLangTag 3, LanguageExtension 3, 7 or 11, Language 2-15, Script 4, Region 2-3, Variant 4-8, ExtensionSubtag 2-8, PrivateUseSubtag 1-8, Extension at least 4, PrivateUse at least 3, LangTag at least 2.", "quantifier": "every value of each type", "why_tests_cant": "All values.", "anchors": ["src/grammar.rs"]}
{"id": "C52", "title": "Constructors keep the text and give it back on failure", "statement": "For each string type, the text of a value is the text it was made from, a rejected text is given back in the error, parsing the text of a value gives the value again, and values with the same text are the same.", "quantifier": "every string, every string type", "why_tests_cant": "Infinite set of strings.", "anchors": ["src/lib.rs: LangTag::new and the constructor of each type"]}
{"id": "C53", "title": "Comparisons and hashes of GrandfatheredLangTag, Kind and Singleton agree and are total orders", "statement": "For each of them == is identity and cmp is a total order, Equal only on identical values; kinds are ordered Normal, PrivateUse, Grandfathered, singletons by their byte, grandfathered tags irregular ones first and then alphabetically; two grandfathered tags are equal iff their texts are equal ignoring case; partial_cmp is cmp; two values are == iff every hasher hashes them alike.", "quantifier": "every two or three values", "why_tests_cant": "Transitivity over all triples.", "anchors": ["src/grandfathered.rs", "src/lib.rs: Kind", "src/normal/extension.rs: Singleton"]}
{"id": "C54", "title": "Comparison with plain strings and owned values agrees with comparison of tags", "statement": "tag == \"Fr-fr\" and comparisons between LangTag and LangTagBuf, String, Vec<u8> give the same answers as comparing the tags themselves.", "quantifier": "every tag and every string", "why_tests_cant": "All pairs.", "anchors": ["src/lib.rs: newtype(ord(...)), documentation example"]}
{"id": "C55", "title": "A left-to-right parser finds the parts", "statement": "A straightforward left-to-right parser (split at the dashes, then take the language, script, region, variants, extensions and private use part in turn) succeeds on exactly the texts NormalLangTag accepts, and the parts it finds are the ones the accessors return, wherever they return.", "quantifier": "every string", "why_tests_cant": "All strings; the parser and the automaton must agree on each.", "anchors": ["src/normal/mod.rs", "src/grammar.rs: Langtag"]}
{"id": "C56", "title": "Everything outside the accessors returns", "statement": "Comparison and hashing of any two values, GrandfatheredLangTag::new on any text, kind/as_typed/language/is_grandfathered/as_grandfathered of any tag, Singleton::from_string on any string, first/last/get/singleton/iter_extension and every iterator on any value never panic.", "quantifier": "every value and argument", "why_tests_cant": "All inputs; a panic on a single one is enough.", "anchors": ["src/lib.rs", "src/utils.rs", "src/grandfathered.rs", "src/normal"]}
{"id": "C57", "title": "No index computation overflows or underflows", "statement": "With usize arithmetic that fails on overflow and underflow, the accessors, Extensions::get, the iterators, the comparison and the validation give the same results as with unbounded integers.", "quantifier": "every text of length less than usize::MAX, every history of iterator calls", "why_tests_cant": "The bound holds for lengths no test can allocate.", "anchors": ["src/normal/mod.rs: find_list_end, find_segment_end, find_segment_start, *_range, *_offset", "src/normal/extension.rs", "src/normal/variant.rs", "src/utils.rs: case_insensitive_cmp", "src/grammar.rs: validate_bytes"]}
{"id": "C58", "title": "for loops over the iterators terminate", "statement": "Calling next until it returns None ends after finitely many calls, at most one more than there are subtags, having yielded every item.", "quantifier": "every value, every iterator", "why_tests_cant": "All values; termination is not observable in finite time.", "anchors": ["src/normal/extension.rs", "src/normal/private_use.rs", "src/normal/variant.rs", "src/normal/language/extlang.rs"]}
{"id": "C59", "title": "Sorting groups tags by language", "statement": "In sorted order the tags of one primary language are next to each other.", "quantifier": "every three tags", "why_tests_cant": "All triples of tags.", "anchors": ["src/utils.rs: case_insensitive_cmp", "src/lib.rs: Ord for LangTag"]}
{"id": "C60", "title": "GrandfatheredLangTag and LangTag order grandfathered tags alike", "statement": "Comparing two grandfathered tags as GrandfatheredLangTag gives the same Ordering as comparing their texts as LangTag.", "quantifier": "every two grandfathered tags", "why_tests_cant": "All pairs, and any letter case of their texts.", "anchors": ["src/grandfathered.rs: derive(Ord)", "src/lib.rs: Ord for LangTag"]}
{"id": "C61", "title": "Values as keys of a hash map", "statement": "A hash map keyed by values of any of the types answers get, insert and remove as a map keyed by the text ignoring ASCII case: a value is found under every spelling of its key and under no other, and no operation panics.", "quantifier": "every type, every hasher and assignment of hashes to buckets, every history of operations", "why_tests_cant": "All histories and all hashers: a hash that told two spellings apart would only show with some hashers and some tables.", "anchors": ["src/utils.rs: case_insensitive_eq, case_insensitive_hash", "src/lib.rs: PartialEq, Hash for LangTag and the same impls of each type"]}
{"id": "C62", "title": "Values as keys of an ordered map", "statement": "An ordered map keyed by values of any of the types answers get, insert and remove as a map keyed by the text ignoring ASCII case, never panics, and keeps its keys in strictly ascending order.", "quantifier": "every type, every history of operations", "why_tests_cant": "All histories: an order that is not total or not consistent with == only shows for some sets of keys.", "anchors": ["src/utils.rs: case_insensitive_cmp", "src/lib.rs: Ord for LangTag and the same impl of each type"]}
{"id": "C63", "title": "Tags selected by a range have the components of the range", "statement": "If a normal tag a, used as a basic language range (RFC 4647 section 3.3.1: equal ignoring case, or a prefix followed by '-'), matches a normal tag b, then b.language().primary() equals a's; where a has a script or a region, b has an equal one; where a has variants, extensions or a private_use(), those of b are a's or continue them; and the components before one that a has are equal in both.", "quantifier": "every two normal tags such that the first matches the second as a range", "why_tests_cant": "All pairs of tags; a subtag appended to a tag could be read as part of another component.", "anchors": ["src/normal/mod.rs: NormalLangTag::language, script, region, variants, extensions, private_use", "src/normal/language/mod.rs: Language::primary"]}
{"id": "C64", "title": "Each extension is found by its singleton", "statement": "For each extension e that Extensions::iter() yields, get(e.singleton()) returns e.", "quantifier": "every accepted Extensions and every extension its iterator yields", "why_tests_cant": "Unbounded lists of extensions with any singletons.", "anchors": ["src/normal/extension.rs: Extensions::get, Extensions::iter, Extension::singleton"]}
{"id": "C65", "title": "Sorting, removing duplicates and binary search", "statement": "Sorting a list of values of any of the types never panics; the sorted list does not depend on the algorithm or on the initial order, up to ==; removing consecutive duplicates from it leaves exactly one value of each class of ==; binary search in it finds an equal value if there is one and otherwise the place to insert at.", "quantifier": "every type, every list of values, every choice of positions in the search", "why_tests_cant": "All lists: an order that is not total or not consistent with == only shows for some lists.", "anchors": ["src/utils.rs: case_insensitive_eq, case_insensitive_cmp", "src/lib.rs: Ord for LangTag and the same impl of each type"]}
{"id": "C66", "title": "What is printed reads back", "statement": "format!(\"{}\") of a grandfathered tag is its registered text and parses back to the same tag; different tags are printed differently. A width only adds fill characters, on the side asked for, up to the width, and never cuts; trimmed of the fill the result still parses to the tag. A precision cuts to that many characters. The same holds of a singleton, printed as the byte it was made of; {:?} puts it between single quotes. {:?} of a kind is its name. The errors of GrandfatheredLangTag::try_from and of the constructors of Singleton are printed as a fixed message, whatever was rejected.", "quantifier": "every grandfathered tag, singleton and kind, every rejected text, byte and character, every fill character, alignment, width and precision", "why_tests_cant": "All formatting options: width and precision are unbounded.", "anchors": ["src/grandfathered.rs: Display for GrandfatheredLangTag", "src/normal/extension.rs: Display and Debug for Singleton", "src/lib.rs: Kind", "src/grandfathered.rs: InvalidGrandfatheredTag", "src/normal/extension.rs: InvalidSingleton"]}
{"id": "C67", "title": "What is returned is a run of the tag's own subtags", "statement": "Whatever an accessor or an iterator returns is some consecutive subtags of the text it was asked of, whole, in their order and in the letter case they were written in: nothing is invented, reordered, cut inside a subtag or changed. This holds also of the results that are not the right component (C17 to C22). The language is a prefix of the tag, what private_use returns is a suffix.", "quantifier": "every tag and value obtained from a constructor, every accessor, every number of calls of next and next_back", "why_tests_cant": "All tags and histories of calls.", "anchors": ["src/normal/mod.rs: language, script, region, variants, extensions, private_use, private_use_subtags", "src/normal/language/mod.rs: primary, extension", "src/normal/extension.rs: Extensions::get, ExtensionsIter", "src/normal/variant.rs: VariantsIter", "src/lib.rs: LangTag"]}
{"id": "C68", "title": "Linear work", "statement": "The work of a constructor, a comparison, a hash, an accessor or a lookup is at most a constant times the length of the text: no input makes it quadratic. Validation looks at each byte once at most; == and hash make at most one iteration per byte, cmp at most one more; accessors of a normal tag of n bytes make at most 10n iterations, of any tag 11n + 312 at most; recognising a grandfathered tag takes at most 312 iterations whatever the length. All the calls on an iterator together, however many and from whichever end, make at most n + 1 iterations, or 2n for the iterator over extensions.", "quantifier": "every text, well-formed or not, every value, every number and order of calls", "why_tests_cant": "All inputs of every length: tests sample lengths.", "anchors": ["src/grammar.rs: validate_str", "src/utils.rs", "src/normal/mod.rs: find_list_end, find_segment_end, find_segment_start", "src/grandfathered.rs: TryFrom<&[u8]>", "src/normal/extension.rs: Extensions::get"]}
{"id": "C69", "title": "Every call of the code as written ends, with the result described", "statement": "Executing the text of the files of /repo/src, statement by statement: every call of a public function, method, macro or trait implementation written in the repository ends. It never loops for ever and never does anything Rust leaves to interpretation here; it ends in exactly one way, with the value or the panic that the other properties attribute to it, also on values no constructor made. So what the other properties say of the API they say of this text, not of a paraphrase of it. The text is read by the grammar of the part of Rust it uses, by which it has one reading only.", "quantifier": "every function of the crate, every argument whose text is shorter than usize::MAX, every size of usize, every iterator state", "why_tests_cant": "All arguments and sizes of usize; and a test cannot tell a call that does not end from one that takes long.", "anchors": ["src/lib.rs", "src/utils.rs", "src/private_use.rs", "src/grandfathered.rs", "src/grammar.rs", "src/normal/mod.rs", "src/normal/extension.rs", "src/normal/private_use.rs", "src/normal/region.rs", "src/normal/script.rs", "src/normal/variant.rs", "src/normal/language/mod.rs", "src/normal/language/extlang.rs", "src/normal/language/primary.rs"]}
{"id": "C70", "title": "Whatever calls a program makes", "statement": "A program that uses only the safe public API, calling any functions in any order on any values it has got so far (texts of its own, results of earlier calls, iterators in the state earlier calls left them, variants of public enums it builds itself), never makes a call that does not end, and never gets hold of a value of a string type whose text is not of the production of its type, except for the two known cases: a PrimaryLanguage of four to eight letters, and a PrivateUse that begins with the extensions of the tag it comes from. The only calls that panic are: script, region, variants, extensions, private_use and private_use_subtags on a normal tag that ends where that accessor begins to search; and langtag! of a text that is not a language tag. Every text of a production, and every one of the exceptions, is reached by some program.", "quantifier": "every program: every finite history of calls of the 145 public functions, every argument, every size of usize of at least 12", "why_tests_cant": "Histories of calls are unbounded, and so are the values they lead to; tests run some.", "anchors": ["src/lib.rs", "src/grandfathered.rs", "src/normal/mod.rs", "src/normal/extension.rs", "src/normal/private_use.rs", "src/normal/variant.rs", "src/normal/language/mod.rs", "src/normal/language/extlang.rs"]}
{"id": "C71", "title": "Letter case is not information", "statement": "A program whose decisions do not depend on the case of letters, run on inputs that differ in letter case only, makes the same calls; they panic in both runs or in neither, and everything they return, write to a formatter or feed to a hasher is the same up to letter case. This holds of every safe public function except four, which compare a singleton by its exact byte: the two comparisons of a Singleton with a u8 and a char, and Extensions::get and iter_extension; each of those four does tell case apart.", "quantifier": "every program, of any number of steps, every pair of inputs equal up to ASCII case, every size of usize of at least 12", "why_tests_cant": "It relates two runs of every program on every pair of inputs; a text of n letters alone has 2^n spellings.", "anchors": ["src/lib.rs", "src/utils.rs", "src/grandfathered.rs", "src/normal/mod.rs", "src/normal/extension.rs", "src/normal/private_use.rs", "src/normal/variant.rs", "src/normal/language/mod.rs", "src/normal/language/extlang.rs"]}
{"id": "C72", "title": "The same on every platform", "statement": "The size of usize makes no difference: a call of a public function on values a program can have, and a whole program on inputs that fit the smaller address space, end on a platform with a larger usize exactly as they do on one with a smaller usize, with the same values and the same panics.", "quantifier": "every pair of usize sizes of at least 12, every public function, every program of any number of steps, every input that fits the smaller", "why_tests_cant": "Tests run on the platforms at hand, on some inputs; an index computation that wraps does so only for one size of usize.", "anchors": ["src/lib.rs", "src/utils.rs", "src/grandfathered.rs", "src/normal/mod.rs", "src/normal/extension.rs", "src/normal/private_use.rs", "src/normal/variant.rs", "src/normal/language/mod.rs", "src/normal/language/extlang.rs"]}
{"id": "C73", "title": "Every str is UTF-8", "statement": "However the safe API is used, every &str a program gets hold of is valid UTF-8, and the text of every value of a string type is ASCII. So the unsafe code of the crate, which makes str values and tags without a check, never makes one that breaks the guarantee of str.", "quantifier": "every program: every finite history of calls of the public functions, every argument, every size of usize of at least 12", "why_tests_cant": "Histories of calls and the texts they are given are unbounded; a str that is not UTF-8 is undefined behaviour, which a test need not notice.", "anchors": ["src/grandfathered.rs: GrandfatheredLangTag::as_str, GrandfatheredLangTag::language", "src/normal/mod.rs", "src/normal/extension.rs", "src/normal/private_use.rs", "src/normal/variant.rs", "src/normal/language/mod.rs", "src/normal/language/extlang.rs"]}
{"id": "C74", "title": "Debug and release builds behave alike", "statement": "Overflow checks make no difference: a call of a public function on values a program can have, and a whole program of any number of calls, end in a build without overflow checks (release), where sums and differences wrap around, exactly as in one with them (debug): with the same values and the same panics. No call ever panics because of an overflow.", "quantifier": "every public function, every argument a program can get hold of, every program of any number of steps, every input that fits the address space, every size of usize of at least 12", "why_tests_cant": "Tests usually run in a debug build and the crate ships in a release build; a sum that wraps does so only for particular offsets, which can depend on the input and on the calls made before.", "anchors": ["src/utils.rs (into_smallcase, find_list_end)", "src/normal/mod.rs", "src/normal/extension.rs", "src/normal/private_use.rs", "src/normal/variant.rs", "src/normal/language/mod.rs", "src/normal/language/extlang.rs"]}
{"id": "C75", "title": "for, collect, count, last, nth, find and rev see exactly the items", "statement": "On an iterator of the crate, the methods every iterator has see exactly its items, each once and in order: a for loop over it ends, and fold, collect, count, last, nth and find give what they give on the list of the items; rev() on the iterator over variants gives the list in reverse. What such a call does not take is left in the iterator, to be taken from either end where it has two. So for the iterators of the accessors, whose items the other properties name, and for every iterator that a program can get hold of in any other way, in whatever state: its items are finitely many, and each is of the production of its type.", "quantifier": "every value the iterators come from, every closure given to fold or find, every n, every iterator a program can get hold of after any history of calls, every input that fits the address space", "why_tests_cant": "A loop that ends on the tags a test tries can go on for ever on another, and an iterator can give its items in order to next but not to nth or rev after items were taken from the other end; values, closures and histories of calls are unbounded.", "anchors": ["src/normal/variant.rs: VariantsIter (Iterator, DoubleEndedIterator), Variants::iter", "src/normal/extension.rs: ExtensionsIter, ExtensionIter, Extensions::iter, Extensions::iter_extension, Extension::iter", "src/normal/private_use.rs: PrivateUseIter, PrivateUse::iter", "src/normal/language/extlang.rs: LanguageExtensionIter, LanguageExtension::iter", "src/normal/language/mod.rs: Language::extension_subtags", "src/normal/mod.rs: NormalLangTag::private_use_subtags"]}
{"id": "C76", "title": "No input overflows the stack", "statement": "Calls are nested to a bounded depth, whatever the input: during a call of a public function of the crate, on values a program can have, never more than thirteen calls of functions of the crate or closures in it are under way at the same time, the call itself included, and no smaller bound holds of all of them. The constructors, ==, cmp and hash of the fifteen string types need at most three, partial_cmp four, a step of an iterator two, or six over extensions; the accessors of NormalLangTag and LangTag at most thirteen. The length of the text and the number of subtags make no difference: there is no recursion that goes deeper with them.", "quantifier": "every public function, every argument a program can get hold of after any history of calls; for the string types, accessors and iterators every text of any content and length that fits the address space, every state of an iterator", "why_tests_cant": "A recursion as deep as the text is long passes every test with short tags, and aborts the process, without a panic to catch, on an input that an attacker makes long enough.", "anchors": ["src/utils.rs: find_segment_end, find_list_end, case_insensitive_eq, case_insensitive_cmp, case_insensitive_hash", "src/grammar.rs", "src/lib.rs", "src/normal/mod.rs", "src/normal/extension.rs", "src/normal/variant.rs", "src/normal/private_use.rs", "src/normal/language/mod.rs", "src/normal/language/extlang.rs", "src/grandfathered.rs"]}
