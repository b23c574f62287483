{
 "claims": [
  {
   "property": "C01",
   "status": "proved",
   "theorems": [
    "Langtag.Props.C01_langTag",
    "Langtag.Props.C01_file",
    "Langtag.Props.C01_rfc",
    "Langtag.Props.C01_source"
   ],
   "note": ""
  },
  {
   "property": "C02",
   "status": "proved",
   "theorems": [
    "Langtag.Props.C02_normalLangTag",
    "Langtag.Props.C02_file",
    "Langtag.Props.C02_rfc",
    "Langtag.Props.C02_source"
   ],
   "note": ""
  },
  {
   "property": "C03",
   "status": "proved",
   "theorems": [
    "Langtag.Props.C03_privateUse",
    "Langtag.Props.C03_privateUseSubtag",
    "Langtag.Props.C03_file",
    "Langtag.Props.C03_rfc",
    "Langtag.Props.C03_source"
   ],
   "note": ""
  },
  {
   "property": "C04",
   "status": "proved",
   "theorems": [
    "Langtag.Props.C04_language",
    "Langtag.Props.C04_primaryLanguage",
    "Langtag.Props.C04_languageExtension",
    "Langtag.Props.C04_extendedLangTag",
    "Langtag.Props.C04_file",
    "Langtag.Props.C04_rfc",
    "Langtag.Props.C04_source"
   ],
   "note": ""
  },
  {
   "property": "C05",
   "status": "proved",
   "theorems": [
    "Langtag.Props.C05_script",
    "Langtag.Props.C05_region",
    "Langtag.Props.C05_file",
    "Langtag.Props.C05_rfc",
    "Langtag.Props.C05_source"
   ],
   "note": ""
  },
  {
   "property": "C06",
   "status": "proved",
   "theorems": [
    "Langtag.Props.C06_variant",
    "Langtag.Props.C06_variants",
    "Langtag.Props.C06_file",
    "Langtag.Props.C06_rfc",
    "Langtag.Props.C06_source"
   ],
   "note": ""
  },
  {
   "property": "C07",
   "status": "proved",
   "theorems": [
    "Langtag.Props.C07_extension",
    "Langtag.Props.C07_extensionSubtag",
    "Langtag.Props.C07_extensions",
    "Langtag.Props.C07_file",
    "Langtag.Props.C07_rfc",
    "Langtag.Props.C07_source"
   ],
   "note": ""
  },
  {
   "property": "C08",
   "status": "proved",
   "theorems": [
    "Langtag.Props.C08_subtags",
    "Langtag.Props.C08_ascii",
    "Langtag.Props.C08_source",
    "Langtag.Props.C08_source_ascii",
    "Langtag.Props.validateBytes_any_decoder"
   ],
   "note": ""
  },
  {
   "property": "C09",
   "status": "proved",
   "theorems": [
    "Langtag.Props.C09_caseInsensitive",
    "Langtag.Props.C09_grandfathered",
    "Langtag.Props.C09_singleton",
    "Langtag.Props.C09_source_others",
    "Langtag.Props.C09_source"
   ],
   "note": ""
  },
  {
   "property": "C10",
   "status": "proved",
   "theorems": [
    "Langtag.Props.C10_asTyped",
    "Langtag.Props.C10_source"
   ],
   "note": ""
  },
  {
   "property": "C11",
   "status": "proved",
   "theorems": [
    "Langtag.Props.C11_normal_privateUse",
    "Langtag.Props.C11_privateUse_grandfathered",
    "Langtag.Props.C11_kind",
    "Langtag.Props.C11_source_kind",
    "Langtag.Props.C11_source"
   ],
   "note": ""
  },
  {
   "property": "C12",
   "status": "proved",
   "theorems": [
    "Langtag.Props.C12_texts",
    "Langtag.Props.C12_new_ok",
    "Langtag.Props.C12_new_error",
    "Langtag.Props.C12_grammar",
    "Langtag.Props.C12_inverse",
    "Langtag.Props.C12_tryFrom",
    "Langtag.Props.C12_list",
    "Langtag.Props.C12_source_list",
    "Langtag.Props.C12_source_tryFrom",
    "Langtag.Props.C12_source"
   ],
   "note": ""
  },
  {
   "property": "C13",
   "status": "proved",
   "theorems": [
    "Langtag.Props.C13_langTag",
    "Langtag.Props.C13_regular",
    "Langtag.Props.C13_language",
    "Langtag.Props.C13_source_anyCase",
    "Langtag.Props.C13_source"
   ],
   "note": ""
  },
  {
   "property": "C14",
   "status": "partial",
   "theorems": [
    "Langtag.Props.C14_violated",
    "Langtag.Props.C14_predicates_partial",
    "Langtag.Props.C14_answers",
    "Langtag.Props.C14_typed",
    "Langtag.Props.C14_always_partial",
    "Langtag.Props.C14_source_partial",
    "Langtag.Props.C14_source_violated",
    "Langtag.Props.C14_source"
   ],
   "note": "False of the code: the nine regular grandfathered tags are accepted by NormalLangTag, so is_normal() and is_grandfathered() both hold and kind() is Normal (C14_violated). C14_predicates_partial: full agreement holds exactly on the other tags. C14_always_partial: what holds on all tags. C14_answers and C14_typed say what each predicate answers."
  },
  {
   "property": "C15",
   "status": "proved",
   "theorems": [
    "Langtag.Props.C15_language",
    "Langtag.Props.C15_source_typed",
    "Langtag.Props.C15_source"
   ],
   "note": ""
  },
  {
   "property": "C16",
   "status": "proved",
   "theorems": [
    "Langtag.Props.C16_language",
    "Langtag.Props.C16_langTag",
    "Langtag.Props.C16_source",
    "Langtag.Props.C16_source_langTag"
   ],
   "note": ""
  },
  {
   "property": "C17",
   "status": "partial",
   "theorems": [
    "Langtag.Props.C17_violated",
    "Langtag.Props.C17_script_partial",
    "Langtag.Props.C17_source_partial",
    "Langtag.Props.C17_source_violated",
    "Langtag.Props.C16_langTag"
   ],
   "note": "False of the code: script() panics on a tag that is only a language (C17_violated). C17_script_partial gives the exact result in every case. C16_langTag carries it over to LangTag. Not about this code, hence not listed: Langtag.Repair.C17_script proves the full statement of a repaired version."
  },
  {
   "property": "C18",
   "status": "partial",
   "theorems": [
    "Langtag.Props.C18_violated",
    "Langtag.Props.C18_region_partial",
    "Langtag.Props.C18_source_partial",
    "Langtag.Props.C18_source_violated",
    "Langtag.Props.C16_langTag"
   ],
   "note": "False of the code: region() panics when nothing follows the language and script (C18_violated). C18_region_partial gives the exact result in every case. C16_langTag carries it over to LangTag. Not about this code, hence not listed: Langtag.Repair.C18_region proves the full statement of a repaired version."
  },
  {
   "property": "C19",
   "status": "partial",
   "theorems": [
    "Langtag.Props.C19_violated",
    "Langtag.Props.C19_variants_partial",
    "Langtag.Props.C19_source_partial",
    "Langtag.Props.C19_source_violated",
    "Langtag.Props.C16_langTag"
   ],
   "note": "False of the code: variants() panics when nothing follows the region (C19_violated). C19_variants_partial gives the exact result in every case. C16_langTag carries it over to LangTag. Not about this code, hence not listed: Langtag.Repair.C19_variants proves the full statement of a repaired version."
  },
  {
   "property": "C20",
   "status": "partial",
   "theorems": [
    "Langtag.Props.C20_violated",
    "Langtag.Props.C20_extensions_partial",
    "Langtag.Props.C20_source_partial",
    "Langtag.Props.C20_source_violated",
    "Langtag.Props.C16_langTag"
   ],
   "note": "False of the code: extensions() panics when there is neither an extension nor a private use part (C20_violated). C20_extensions_partial gives the exact result in every case. C16_langTag carries it over to LangTag. Not about this code, hence not listed: Langtag.Repair.C20_extensions proves the full statement of a repaired version."
  },
  {
   "property": "C21",
   "status": "partial",
   "theorems": [
    "Langtag.Props.C21_violated",
    "Langtag.Props.C21_privateUse_partial",
    "Langtag.Props.C21_privateUseSubtags_partial",
    "Langtag.Props.C21_privateUseSubtags_extensions",
    "Langtag.Props.C21_source_partial",
    "Langtag.Props.C21_source_subtags_partial",
    "Langtag.Props.C21_source_violated",
    "Langtag.Props.C16_langTag"
   ],
   "note": "False of the code: private_use() returns extensions too, and panics when nothing follows the region (C21_violated). C21_privateUse_partial gives the exact result in every case. C16_langTag carries it over to LangTag. Not about this code, hence not listed: Langtag.Repair.C21_privateUse, Langtag.Repair.C21_privateUseSubtags proves the full statement of a repaired version."
  },
  {
   "property": "C22",
   "status": "partial",
   "theorems": [
    "Langtag.Props.C22_violated",
    "Langtag.Props.C22_noPanic_partial",
    "Langtag.Props.C22_noPanic_of_tail",
    "Langtag.Props.C22_source_langTag_partial",
    "Langtag.Props.C22_source_subtags_partial",
    "Langtag.Props.C22_source_violated",
    "Langtag.Props.C22_source_partial",
    "Langtag.Props.C22_langTag_partial"
   ],
   "note": "False of the code (C22_violated). C22_noPanic_partial states exactly when each accessor returns. Not about this code, hence not listed: Langtag.Repair.C22_noPanic proves the full statement of a repaired version."
  },
  {
   "property": "C23",
   "status": "partial",
   "theorems": [
    "Langtag.Props.C23_violated",
    "Langtag.Props.C23_reassemble_partial",
    "Langtag.Props.C23_source_violated",
    "Langtag.Props.C23_source_partial"
   ],
   "note": "False of the code: with extensions, private_use() repeats them (C23_violated). C23_reassemble_partial: when all accessors return, the components rejoin to the text iff there are no extensions. Not about this code, hence not listed: Langtag.Repair.C23_reassemble proves the full statement of a repaired version."
  },
  {
   "property": "C24",
   "status": "partial",
   "theorems": [
    "Langtag.Props.C24_source_violated",
    "Langtag.Props.C24_source_components_partial",
    "Langtag.Props.C24_source_langTag_partial",
    "Langtag.Props.C24_source_language_partial",
    "Langtag.Props.C24_source_primary_violated",
    "Langtag.Props.C24_source_items",
    "Langtag.Props.C24_source_privateUseSubtags",
    "Langtag.Props.C24_source_grandfathered",
    "Langtag.Props.C24_primary_violated",
    "Langtag.Props.C24_privateUse_violated",
    "Langtag.Props.C24_components_partial",
    "Langtag.Props.C24_language_partial",
    "Langtag.Props.C24_empty",
    "Langtag.Props.C24_items",
    "Langtag.Props.C24_privateUseSubtags",
    "Langtag.Props.C24_grandfathered",
    "Langtag.Props.C24_langTag_partial"
   ],
   "note": "False of the code for Language::primary() of 4-8 letters and private_use() with extensions (violated theorems). The partial theorems state exactly when these are valid; all others always are."
  },
  {
   "property": "C25",
   "status": "proved",
   "theorems": [
    "Langtag.Props.C25_split",
    "Langtag.Props.C25_rejoin",
    "Langtag.Props.C25_extensionSubtags",
    "Langtag.Props.C25_source",
    "Langtag.Props.C25_source_subtags"
   ],
   "note": ""
  },
  {
   "property": "C26",
   "status": "proved",
   "theorems": [
    "Langtag.Props.C26_extension",
    "Langtag.Props.C26_source"
   ],
   "note": ""
  },
  {
   "property": "C27",
   "status": "proved",
   "theorems": [
    "Langtag.Props.C27_privateUse",
    "Langtag.Props.C27_extension",
    "Langtag.Props.C27_languageExtension",
    "Langtag.Props.C27_empty",
    "Langtag.Props.C27_source_constants",
    "Langtag.Props.C27_source",
    "Langtag.Props.C27_source_empty"
   ],
   "note": ""
  },
  {
   "property": "C28",
   "status": "proved",
   "theorems": [
    "Langtag.Props.C28_iter",
    "Langtag.Props.C28_first_last",
    "Langtag.Props.C28_oneEnd",
    "Langtag.Props.C28_source"
   ],
   "note": ""
  },
  {
   "property": "C29",
   "status": "proved",
   "theorems": [
    "Langtag.Props.C29_exists",
    "Langtag.Props.C29_iter",
    "Langtag.Props.C29_unique",
    "Langtag.Props.C29_source"
   ],
   "note": ""
  },
  {
   "property": "C30",
   "status": "proved",
   "theorems": [
    "Langtag.Props.C30_get",
    "Langtag.Props.C30_none",
    "Langtag.Props.C30_iterExtension",
    "Langtag.Props.C30_source",
    "Langtag.Props.C30_source_iter"
   ],
   "note": ""
  },
  {
   "property": "C31",
   "status": "partial",
   "theorems": [
    "Langtag.Props.C31_violated",
    "Langtag.Props.C31_get_partial",
    "Langtag.Props.C31_otherCase_partial",
    "Langtag.Props.C31_source_violated",
    "Langtag.Props.C31_source_partial",
    "Langtag.Props.C31_source_otherCase_partial"
   ],
   "note": "False of the code: Extensions::get compares the singleton byte exactly (C31_violated). C31_get_partial: equal Extensions whose singletons are written in the same case answer alike. C31_otherCase_partial: in any case, get of the singleton as it is written there finds it."
  },
  {
   "property": "C32",
   "status": "proved",
   "theorems": [
    "Langtag.Props.C32_u8",
    "Langtag.Props.C32_char",
    "Langtag.Props.C32_string",
    "Langtag.Props.C32_observers",
    "Langtag.Props.C32_source",
    "Langtag.Props.C32_source_observers"
   ],
   "note": ""
  },
  {
   "property": "C33",
   "status": "proved",
   "theorems": [
    "Langtag.Props.C33_singleton",
    "Langtag.Props.C33_source"
   ],
   "note": ""
  },
  {
   "property": "C34",
   "status": "proved",
   "theorems": [
    "Langtag.Props.C34_eq",
    "Langtag.Props.C34_equivalence",
    "Langtag.Props.C34_source"
   ],
   "note": ""
  },
  {
   "property": "C35",
   "status": "proved",
   "theorems": [
    "Langtag.Props.C35_total",
    "Langtag.Props.C35_trans",
    "Langtag.Props.C35_source"
   ],
   "note": ""
  },
  {
   "property": "C36",
   "status": "proved",
   "theorems": [
    "Langtag.Props.C36_cmp",
    "Langtag.Props.C36_prefix",
    "Langtag.Props.C36_source"
   ],
   "note": ""
  },
  {
   "property": "C37",
   "status": "proved",
   "theorems": [
    "Langtag.Props.C37_hash",
    "Langtag.Props.C37_writes",
    "Langtag.Props.C37_bytes",
    "Langtag.Props.C37_source"
   ],
   "note": ""
  },
  {
   "property": "C38",
   "status": "proved",
   "theorems": [
    "Langtag.Props.C38_language",
    "Langtag.Props.C38_normal",
    "Langtag.Props.C38_langTag",
    "Langtag.Props.C38_source",
    "Langtag.Props.C38_source_normal"
   ],
   "note": ""
  },
  {
   "property": "C39",
   "status": "proved",
   "theorems": [
    "Langtag.Props.C39_unique",
    "Langtag.Props.normal_has_parts"
   ],
   "note": ""
  },
  {
   "property": "C40",
   "status": "proved",
   "theorems": [
    "Langtag.Props.C40_noComponents",
    "Langtag.Props.C15_source"
   ],
   "note": ""
  },
  {
   "property": "C41",
   "status": "proved",
   "theorems": [
    "Langtag.Props.C41_compose",
    "Langtag.Props.C41_accessors",
    "Langtag.Props.C41_source"
   ],
   "note": ""
  },
  {
   "property": "C42",
   "status": "proved",
   "theorems": [
    "Langtag.Props.C42_variants",
    "Langtag.Props.C42_extensions",
    "Langtag.Props.C42_language",
    "Langtag.Props.C42_source"
   ],
   "note": ""
  },
  {
   "property": "C43",
   "status": "proved",
   "theorems": [
    "Langtag.Props.C43_prefix",
    "Langtag.Props.C43_lookup",
    "Langtag.Props.C43_privateUse",
    "Langtag.Props.C43_source"
   ],
   "note": ""
  },
  {
   "property": "C44",
   "status": "proved",
   "theorems": [
    "Langtag.Props.C44_source",
    "Langtag.Props.C44_inclusions"
   ],
   "note": ""
  },
  {
   "property": "C45",
   "status": "proved",
   "theorems": [
    "Langtag.Props.C45_source",
    "Langtag.Props.C45_disjoint"
   ],
   "note": ""
  },
  {
   "property": "C46",
   "status": "partial",
   "theorems": [
    "Langtag.Props.C46_violated",
    "Langtag.Props.C46_hash_partial",
    "Langtag.Props.C46_source_violated",
    "Langtag.Props.C46_source_partial",
    "Langtag.Props.C46_source_types_violated"
   ],
   "note": "False of the code: the bytes of a text are written without a terminator, so en is a prefix of en-US (C46_violated, for twelve of the fifteen types). C46_hash_partial: it holds for the three others, Script, ExtendedLangTag and Region."
  },
  {
   "property": "C47",
   "status": "partial",
   "theorems": [
    "Langtag.Props.C47_violated",
    "Langtag.Props.C47_language_partial",
    "Langtag.Props.C47_source_partial",
    "Langtag.Props.C47_source_violated"
   ],
   "note": "False of the code for no-bok, no-nyn, zh-min, zh-min-nan (C47_violated). C47_language_partial: both None, or equal primary languages, and equal except for these four."
  },
  {
   "property": "C48",
   "status": "partial",
   "theorems": [
    "Langtag.Props.C48_violated",
    "Langtag.Props.C48_singleton_partial",
    "Langtag.Props.C48_source_violated",
    "Langtag.Props.C48_source_partial"
   ],
   "note": "False of the code: singleton comparison is case-sensitive (C48_violated). C48_singleton_partial: the singletons are the same letter ignoring case, and equal iff written in the same case."
  },
  {
   "property": "C49",
   "status": "proved",
   "theorems": [
    "Langtag.Props.C49_items",
    "Langtag.Props.C49_source",
    "Langtag.Props.C49_source_variants"
   ],
   "note": ""
  },
  {
   "property": "C50",
   "status": "proved",
   "theorems": [
    "Langtag.Props.C50_source",
    "Langtag.Props.C50_macro"
   ],
   "note": ""
  },
  {
   "property": "C51",
   "status": "proved",
   "theorems": [
    "Langtag.Props.C51_source",
    "Langtag.Props.C51_lengths"
   ],
   "note": ""
  },
  {
   "property": "C52",
   "status": "proved",
   "theorems": [
    "Langtag.Props.C52_source",
    "Langtag.Props.C52_keepsText"
   ],
   "note": ""
  },
  {
   "property": "C53",
   "status": "proved",
   "theorems": [
    "Langtag.Props.C53_orders",
    "Langtag.Props.C53_grandfathered",
    "Langtag.Props.C53_ascending",
    "Langtag.Props.C53_hash",
    "Langtag.Props.C53_source_grandfathered",
    "Langtag.Props.C53_source_kind",
    "Langtag.Props.C53_source_singleton"
   ],
   "note": ""
  },
  {
   "property": "C54",
   "status": "partial",
   "theorems": [
    "Langtag.Props.C54_eq_partial",
    "Langtag.Props.C54_cmp_partial"
   ],
   "note": "The comparisons are generated by the external macro str_newtype, whose source is not in /repo. C54_eq_partial and C54_cmp_partial: if the generated code delegates to the comparison of the type, on the wrapped or on the parsed string, the property holds for every string. Missing: that the macro delegates, and the owned types."
  },
  {
   "property": "C55",
   "status": "proved",
   "theorems": [
    "Langtag.Props.C55_parse",
    "Langtag.Props.C55_accepts",
    "Langtag.Props.C55_accessors",
    "Langtag.Props.C55_source"
   ],
   "note": ""
  },
  {
   "property": "C56",
   "status": "proved",
   "theorems": [
    "Langtag.Props.C56_source",
    "Langtag.Props.C56_compare",
    "Langtag.Props.C56_grandfathered",
    "Langtag.Props.C56_langTag",
    "Langtag.Props.C56_singleton",
    "Langtag.Props.C56_parts",
    "Langtag.Props.C56_iterators",
    "Langtag.Props.C70_panics"
   ],
   "note": ""
  },
  {
   "property": "C57",
   "status": "proved",
   "theorems": [
    "Langtag.Props.C57_accessors",
    "Langtag.Props.C57_get",
    "Langtag.Props.C57_iterators",
    "Langtag.Props.C57_variants",
    "Langtag.Props.C57_cmp",
    "Langtag.Props.C57_validate",
    "Langtag.Props.C74_overflow"
   ],
   "note": "C74_overflow says it of the text of the crate and of every program that uses it."
  },
  {
   "property": "C58",
   "status": "proved",
   "theorems": [
    "Langtag.Props.C58_source",
    "Langtag.Props.C58_subtags",
    "Langtag.Props.C58_extlang",
    "Langtag.Props.C58_variants",
    "Langtag.Props.C58_extensions"
   ],
   "note": ""
  },
  {
   "property": "C59",
   "status": "partial",
   "theorems": [
    "Langtag.Props.C59_violated",
    "Langtag.Props.C59_prefix_partial",
    "Langtag.Props.C59_primary_partial",
    "Langtag.Props.C59_source_violated",
    "Langtag.Props.C59_source_prefix_partial",
    "Langtag.Props.C59_source_partial"
   ],
   "note": "False of the code: en-us < eng < en (C59_violated). C59_prefix_partial: texts with a common prefix are adjacent. C59_primary_partial: a tag in between has a primary language that starts with theirs, so the same if of the same length."
  },
  {
   "property": "C60",
   "status": "partial",
   "theorems": [
    "Langtag.Props.C60_violated",
    "Langtag.Props.C60_order_partial",
    "Langtag.Props.C60_source_violated",
    "Langtag.Props.C60_source_partial"
   ],
   "note": "False of the code: art-lojban < i-ami as tags, the other way round as grandfathered tags (C60_violated). C60_order_partial says for which pairs the orders agree."
  },
  {
   "property": "C61",
   "status": "proved",
   "theorems": [
    "Langtag.Props.C61_hashMap",
    "Langtag.Props.C61_source"
   ],
   "note": "The hash table is a small one with chaining and no resizing (Spec/Maps.lean), not the standard library's; it uses == and hash the way that one does."
  },
  {
   "property": "C62",
   "status": "proved",
   "theorems": [
    "Langtag.Props.C62_orderedMap",
    "Langtag.Props.C62_source"
   ],
   "note": "The ordered map is a sorted list of entries (Spec/Maps.lean), not the standard library's B-tree; it uses cmp the way that one does."
  },
  {
   "property": "C63",
   "status": "proved",
   "theorems": [
    "Langtag.Props.C63_filter",
    "Langtag.Props.C63_source"
   ],
   "note": "Where an accessor of the range panics (C22) the range has no such component and nothing is claimed of it."
  },
  {
   "property": "C64",
   "status": "partial",
   "theorems": [
    "Langtag.Props.C64_violated",
    "Langtag.Props.C64_get_partial",
    "Langtag.Props.C64_distinct_partial",
    "Langtag.Props.C64_source_violated",
    "Langtag.Props.C64_source_partial",
    "Langtag.Props.C64_source_distinct_partial"
   ],
   "note": "False of the code: a repeated singleton is accepted, and get finds the first extension with it (C64_violated). C64_get_partial: an extension is found if none before it has the same singleton, otherwise an earlier one is; C64_distinct_partial: all are found if no singleton is repeated."
  },
  {
   "property": "C65",
   "status": "proved",
   "theorems": [
    "Langtag.Props.C65_sort",
    "Langtag.Props.C65_sortUnique",
    "Langtag.Props.C65_dedup",
    "Langtag.Props.C65_search",
    "Langtag.Props.C65_source"
   ],
   "note": "The algorithms are small ones (Spec/SortedLists.lean), not the standard library's; they use cmp and == the way those do. C65_sortUnique is about any sorting algorithm."
  },
  {
   "property": "C66",
   "status": "proved",
   "theorems": [
    "Langtag.Props.C66_options",
    "Langtag.Props.C66_source_options",
    "Langtag.Props.C66_grandfathered",
    "Langtag.Props.C66_width",
    "Langtag.Props.C66_precision",
    "Langtag.Props.C66_singleton",
    "Langtag.Props.C66_kind",
    "Langtag.Props.C66_source_trim",
    "Langtag.Props.C66_source_kind",
    "Langtag.Props.C66_source_errors",
    "Langtag.Props.C66_source_grandfathered",
    "Langtag.Props.C66_source_singleton"
   ],
   "note": "Formatter::pad is part of core; the model (Model/Print.lean) follows its documentation. The implementations in the repository delegate to it. C66_source_errors: the message is read from #[error(\"…\")] in the text; that thiserror writes it as it is, is assumed."
  },
  {
   "property": "C67",
   "status": "proved",
   "theorems": [
    "Langtag.Props.C67_trans",
    "Langtag.Props.C67_accessors",
    "Langtag.Props.C67_items",
    "Langtag.Props.C67_parts",
    "Langtag.Props.C67_langTag",
    "Langtag.Props.C67_privateUseSubtags",
    "Langtag.Props.C67_source",
    "Langtag.Props.C67_source_items"
   ],
   "note": "RunOf (Spec/Api.lean) compares lists of subtags byte for byte."
  },
  {
   "property": "C68",
   "status": "proved",
   "theorems": [
    "Langtag.Props.C68_source",
    "Langtag.Props.C68_source_accessors",
    "Langtag.Props.C68_source_langTag",
    "Langtag.Props.C68_source_parts",
    "Langtag.Props.C68_source_iterators",
    "Langtag.Props.C68_source_variants",
    "Langtag.Props.C68_new",
    "Langtag.Props.C68_compare",
    "Langtag.Props.C68_accessors",
    "Langtag.Props.C68_grandfathered",
    "Langtag.Props.C68_langTag",
    "Langtag.Props.C68_parts",
    "Langtag.Props.C68_iterators",
    "Langtag.Props.C68_variants",
    "Langtag.Props.C68_extensions"
   ],
   "note": "The theorems named C68_source... are about the text of the crate: runCounted (Source/Counted/) reads and executes it with a counter of executed bodies of loops (and of bytes split_once looks at), and each theorem says that the call ends, that counting does not change the result of run (proved for every program in Source/Counted/Erase.lean) and that the count is bounded. For the iterator over extensions the text is one Extensions::new accepts. The other theorems are about Model/Timed.lean, which repeats the model with a counter, and which the text refines function by function. Constant time is assumed between iterations: indexing, slicing, one step of the automaton."
  },
  {
   "property": "C69",
   "status": "proved",
   "theorems": [
    "Langtag.Props.C69_file_order",
    "Langtag.Props.C69_reader",
    "Langtag.Props.C69_unambiguous",
    "Langtag.Props.C69_grammar",
    "Langtag.Props.C69_memory",
    "Langtag.Props.C69_memory_traits",
    "Langtag.Props.C69_memory_release",
    "Langtag.Props.C69_memory_iterators",
    "Langtag.Props.C69_plain",
    "Langtag.Props.C69_types",
    "Langtag.Props.C69_normalLangTag",
    "Langtag.Props.C69_langTag",
    "Langtag.Props.C69_typedLangTag",
    "Langtag.Props.C69_kind",
    "Langtag.Props.C69_grandfathered",
    "Langtag.Props.C69_parts",
    "Langtag.Props.C69_singleton",
    "Langtag.Props.C69_iterators",
    "Langtag.Props.C69_macro",
    "Langtag.Props.C69_derived",
    "Langtag.Props.C69_constants",
    "Langtag.Props.C69_constants_table"
   ],
   "note": "run (Source/Run.lean) reads the text kept in Source/Text (tools/gen_source.py --check compares it with /repo byte for byte) with a lexer and a parser and executes it with an evaluator for the subset of Rust used. C69_grammar: the lexer and parser are those of the grammar of the subset in Spec/Rust.lean, written as inductive relations, and the text of the crate has exactly one reading by it. C69_plain: the text does none of the things (Spec/Plain.lean) for which the evaluator's shortcuts would differ from Rust; C69_memory: calls end the same, with the same values in the cells of the &mut arguments, when the text is executed with a memory (Spec/Store.lean: variables are cells, &mut parameters the cells of the arguments, closures read cells) instead of copies; for arguments without closures in them. C69_file_order: the files may be read in any order. VariantsIter::next is stated for states with end within the text, which C28_source shows are the states reached. {:?} of a Singleton is stated for ASCII letters and digits. C69_derived: what derive(PartialEq, PartialOrd, Ord, Hash, Debug) generates is computed from the declarations in the text (Source/Derive.lean). Code generated by macros that are not in the repository is not executed. The theorems named C.._source.. restate other properties about run and the specification alone."
  },
  {
   "property": "C70",
   "status": "proved",
   "theorems": [
    "Langtag.Props.C70_ends",
    "Langtag.Props.C70_panics",
    "Langtag.Props.C70_panic",
    "Langtag.Props.C70_texts",
    "Langtag.Props.C70_singletons",
    "Langtag.Props.C70_reached",
    "Langtag.Props.C70_table"
   ],
   "note": "api (Spec/Client.lean) is the table of public functions; C70_table proves that it has every function of the text that is not in the list of private ones, and tools/check_api.py compares it with the pub keywords in /repo. Obtainable is the closure of what a program starts with under calls of run. Not in the table: unsafe functions, functions generated by the str_newtype derive other than new and the text of a value, and trait functions generated by derive (C69_derived); a generic argument (AsRef<[u8]>) is a &str. A usize of fewer than 12 values is excluded because the texts of grandfathered tags are 11 bytes long."
  },
  {
   "property": "C71",
   "status": "proved",
   "theorems": [
    "Langtag.Props.C71_calls",
    "Langtag.Props.C71_programs",
    "Langtag.Props.C71_texts",
    "Langtag.Props.C71_obtainable",
    "Langtag.Props.C71_exceptions"
   ],
   "note": "About the text of the crate (run). UserProgram, its steps and CaseBlind are in Spec/Program.lean; C71_obtainable says that a step gets hold of nothing that Obtainable of C70 does not have. Two values differ in letter case only if lowerVal makes them equal; only A-Z change. The comparison of two Singletons is generated by derive and is not in the table of functions (see C48). C71_exceptions shows that the four functions excluded have to be."
  },
  {
   "property": "C72",
   "status": "proved",
   "theorems": [
    "Langtag.Props.C72_calls",
    "Langtag.Props.C72_programs",
    "Langtag.Props.C72_obtainable"
   ],
   "note": "About the text of the crate (run max, max the largest usize; its arithmetic panics on overflow, see C74 for builds without that check). A text has to fit the smaller platform. A usize of fewer than 12 values is excluded as in C70."
  },
  {
   "property": "C73",
   "status": "proved",
   "theorems": [
    "Langtag.Props.C73_str",
    "Langtag.Props.C73_text"
   ],
   "note": "About the text of the crate (run), with Obtainable of C70. The texts a program starts with are UTF-8 (IsUtf8, Spec/Utf8.lean), as Rust demands; those it gets from calls are shown to be."
  },
  {
   "property": "C74",
   "status": "proved",
   "theorems": [
    "Langtag.Props.C74_calls",
    "Langtag.Props.C74_overflow",
    "Langtag.Props.C74_programs"
   ],
   "note": "About the text of the crate: run has the overflow checks of a debug build, runRelease (Spec/Release.lean) is the same evaluator with wrapping sums and differences. C74_overflow rests on C70_panic, which names the panic of every call that panics. Other differences between the two builds (debug_assert!, cfg(debug_assertions)) do not occur in the text. A usize of fewer than 12 values is excluded as in C70."
  },
  {
   "property": "C75",
   "status": "proved",
   "theorems": [
    "Langtag.Props.C75_forward",
    "Langtag.Props.C75_both_ends",
    "Langtag.Props.C75_source",
    "Langtag.Props.C75_source_extensions",
    "Langtag.Props.C75_source_tags",
    "Langtag.Props.C75_source_provided",
    "Langtag.Props.C75_obtainable",
    "Langtag.Props.C75_obtainable_both_ends"
   ],
   "note": "About the text of the crate (run): next and next_back are executed. fold (a for loop), find, nth, count, last and collect are those of core, written in Spec/Provided.lean; position, any, all, map, filter and the like are fold or find with another closure. A closure is a function on values without effects that cannot panic. C75_source and C75_source_extensions name the items of the iterators; C75_obtainable and C75_obtainable_both_ends are about every iterator a program can get hold of (C70)."
  },
  {
   "property": "C76",
   "status": "proved",
   "theorems": [
    "Langtag.Props.C76_raise",
    "Langtag.Props.C76_types",
    "Langtag.Props.C76_accessors",
    "Langtag.Props.C76_iterators",
    "Langtag.Props.C76_api",
    "Langtag.Props.C76_least_types",
    "Langtag.Props.C76_least_iterators",
    "Langtag.Props.C76_least",
    "Langtag.Props.C76_least_grandfathered",
    "Langtag.Props.C76_exact"
   ],
   "note": "About the text of the crate: runWithin n (Source/Deep/Run.lean) is run with a bound on how many calls of functions of the crate or of closures in it are under way at the same time; past the bound it has no result. Not counted: functions of core, the functions that derive macros generate, constants. That the bound changes no result is proved for every program (Source/Deep/Sound.lean); NestsWithin says so in each statement. C76_api is about every function of the table of C70 on all values a program can get hold of; C76_types, C76_accessors and C76_iterators give smaller bounds, on texts of any content. C76_exact says that thirteen is the least bound for all of the table, C76_least, C76_least_types, C76_least_grandfathered and C76_least_iterators that the smaller bounds are reached: those of the accessors on every normal tag with a hyphen, of as_typed on every irregular tag, of parsing a grandfathered tag on every such tag, of the constructors on every text, of the comparisons on texts that are not empty, of the iterators as long as an item is left."
  }
 ]
}
