import Verif.Props.Acceptance
import Verif.Props.Checked
import Verif.Props.Client
import Verif.Props.Components
import Verif.Props.Compose
import Verif.Props.Depth
import Verif.Props.DepthLeast
import Verif.Props.Equal
import Verif.Props.File
import Verif.Props.FileOrder
import Verif.Props.Filter
import Verif.Props.Foreign
import Verif.Props.Format
import Verif.Props.Grammar
import Verif.Props.Iterators
import Verif.Props.Kinds
import Verif.Props.Language
import Verif.Props.LetterCase
import Verif.Props.Maps
import Verif.Props.Memory
import Verif.Props.Order
import Verif.Props.Parser
import Verif.Props.Plain
import Verif.Props.Platform
import Verif.Props.Print
import Verif.Props.Provided
import Verif.Props.Release
import Verif.Props.Retrieve
import Verif.Props.Slices
import Verif.Props.SortedLists
import Verif.Props.Sorting
import Verif.Props.Source
import Verif.Props.SourceConst
import Verif.Props.SourceItems
import Verif.Props.SourceKinds
import Verif.Props.SourceMaps
import Verif.Props.SourceMore
import Verif.Props.SourceRest
import Verif.Props.SourceSpec
import Verif.Props.SourceValid
import Verif.Props.SourceWalk
import Verif.Props.SourceWork
import Verif.Props.Total
import Verif.Props.Types
import Verif.Props.Validity
import Verif.Props.Work

/-!
# The axioms each property theorem depends on

Generated by tools/gen_manifest.py.
-/

set_option autoImplicit false

#print axioms Langtag.Props.C01_langTag
#print axioms Langtag.Props.C01_file
#print axioms Langtag.Props.C01_rfc
#print axioms Langtag.Props.C01_source
#print axioms Langtag.Props.C02_normalLangTag
#print axioms Langtag.Props.C02_file
#print axioms Langtag.Props.C02_rfc
#print axioms Langtag.Props.C02_source
#print axioms Langtag.Props.C03_privateUse
#print axioms Langtag.Props.C03_privateUseSubtag
#print axioms Langtag.Props.C03_file
#print axioms Langtag.Props.C03_rfc
#print axioms Langtag.Props.C03_source
#print axioms Langtag.Props.C04_language
#print axioms Langtag.Props.C04_primaryLanguage
#print axioms Langtag.Props.C04_languageExtension
#print axioms Langtag.Props.C04_extendedLangTag
#print axioms Langtag.Props.C04_file
#print axioms Langtag.Props.C04_rfc
#print axioms Langtag.Props.C04_source
#print axioms Langtag.Props.C05_script
#print axioms Langtag.Props.C05_region
#print axioms Langtag.Props.C05_file
#print axioms Langtag.Props.C05_rfc
#print axioms Langtag.Props.C05_source
#print axioms Langtag.Props.C06_variant
#print axioms Langtag.Props.C06_variants
#print axioms Langtag.Props.C06_file
#print axioms Langtag.Props.C06_rfc
#print axioms Langtag.Props.C06_source
#print axioms Langtag.Props.C07_extension
#print axioms Langtag.Props.C07_extensionSubtag
#print axioms Langtag.Props.C07_extensions
#print axioms Langtag.Props.C07_file
#print axioms Langtag.Props.C07_rfc
#print axioms Langtag.Props.C07_source
#print axioms Langtag.Props.C08_subtags
#print axioms Langtag.Props.C08_ascii
#print axioms Langtag.Props.C08_source
#print axioms Langtag.Props.C08_source_ascii
#print axioms Langtag.Props.validateBytes_any_decoder
#print axioms Langtag.Props.C09_caseInsensitive
#print axioms Langtag.Props.C09_grandfathered
#print axioms Langtag.Props.C09_singleton
#print axioms Langtag.Props.C09_source_others
#print axioms Langtag.Props.C09_source
#print axioms Langtag.Props.C10_asTyped
#print axioms Langtag.Props.C10_source
#print axioms Langtag.Props.C11_normal_privateUse
#print axioms Langtag.Props.C11_privateUse_grandfathered
#print axioms Langtag.Props.C11_kind
#print axioms Langtag.Props.C11_source_kind
#print axioms Langtag.Props.C11_source
#print axioms Langtag.Props.C12_texts
#print axioms Langtag.Props.C12_new_ok
#print axioms Langtag.Props.C12_new_error
#print axioms Langtag.Props.C12_grammar
#print axioms Langtag.Props.C12_inverse
#print axioms Langtag.Props.C12_tryFrom
#print axioms Langtag.Props.C12_list
#print axioms Langtag.Props.C12_source_list
#print axioms Langtag.Props.C12_source_tryFrom
#print axioms Langtag.Props.C12_source
#print axioms Langtag.Props.C13_langTag
#print axioms Langtag.Props.C13_regular
#print axioms Langtag.Props.C13_language
#print axioms Langtag.Props.C13_source_anyCase
#print axioms Langtag.Props.C13_source
#print axioms Langtag.Props.C14_violated
#print axioms Langtag.Props.C14_predicates_partial
#print axioms Langtag.Props.C14_answers
#print axioms Langtag.Props.C14_typed
#print axioms Langtag.Props.C14_always_partial
#print axioms Langtag.Props.C14_source_partial
#print axioms Langtag.Props.C14_source_violated
#print axioms Langtag.Props.C14_source
#print axioms Langtag.Props.C15_language
#print axioms Langtag.Props.C15_source_typed
#print axioms Langtag.Props.C15_source
#print axioms Langtag.Props.C16_language
#print axioms Langtag.Props.C16_langTag
#print axioms Langtag.Props.C16_source
#print axioms Langtag.Props.C16_source_langTag
#print axioms Langtag.Props.C17_violated
#print axioms Langtag.Props.C17_script_partial
#print axioms Langtag.Props.C17_source_partial
#print axioms Langtag.Props.C17_source_violated
#print axioms Langtag.Props.C16_langTag
#print axioms Langtag.Props.C18_violated
#print axioms Langtag.Props.C18_region_partial
#print axioms Langtag.Props.C18_source_partial
#print axioms Langtag.Props.C18_source_violated
#print axioms Langtag.Props.C16_langTag
#print axioms Langtag.Props.C19_violated
#print axioms Langtag.Props.C19_variants_partial
#print axioms Langtag.Props.C19_source_partial
#print axioms Langtag.Props.C19_source_violated
#print axioms Langtag.Props.C16_langTag
#print axioms Langtag.Props.C20_violated
#print axioms Langtag.Props.C20_extensions_partial
#print axioms Langtag.Props.C20_source_partial
#print axioms Langtag.Props.C20_source_violated
#print axioms Langtag.Props.C16_langTag
#print axioms Langtag.Props.C21_violated
#print axioms Langtag.Props.C21_privateUse_partial
#print axioms Langtag.Props.C21_privateUseSubtags_partial
#print axioms Langtag.Props.C21_privateUseSubtags_extensions
#print axioms Langtag.Props.C21_source_partial
#print axioms Langtag.Props.C21_source_subtags_partial
#print axioms Langtag.Props.C21_source_violated
#print axioms Langtag.Props.C16_langTag
#print axioms Langtag.Props.C22_violated
#print axioms Langtag.Props.C22_noPanic_partial
#print axioms Langtag.Props.C22_noPanic_of_tail
#print axioms Langtag.Props.C22_source_langTag_partial
#print axioms Langtag.Props.C22_source_subtags_partial
#print axioms Langtag.Props.C22_source_violated
#print axioms Langtag.Props.C22_source_partial
#print axioms Langtag.Props.C22_langTag_partial
#print axioms Langtag.Props.C23_violated
#print axioms Langtag.Props.C23_reassemble_partial
#print axioms Langtag.Props.C23_source_violated
#print axioms Langtag.Props.C23_source_partial
#print axioms Langtag.Props.C24_source_violated
#print axioms Langtag.Props.C24_source_components_partial
#print axioms Langtag.Props.C24_source_langTag_partial
#print axioms Langtag.Props.C24_source_language_partial
#print axioms Langtag.Props.C24_source_primary_violated
#print axioms Langtag.Props.C24_source_items
#print axioms Langtag.Props.C24_source_privateUseSubtags
#print axioms Langtag.Props.C24_source_grandfathered
#print axioms Langtag.Props.C24_primary_violated
#print axioms Langtag.Props.C24_privateUse_violated
#print axioms Langtag.Props.C24_components_partial
#print axioms Langtag.Props.C24_language_partial
#print axioms Langtag.Props.C24_empty
#print axioms Langtag.Props.C24_items
#print axioms Langtag.Props.C24_privateUseSubtags
#print axioms Langtag.Props.C24_grandfathered
#print axioms Langtag.Props.C24_langTag_partial
#print axioms Langtag.Props.C25_split
#print axioms Langtag.Props.C25_rejoin
#print axioms Langtag.Props.C25_extensionSubtags
#print axioms Langtag.Props.C25_source
#print axioms Langtag.Props.C25_source_subtags
#print axioms Langtag.Props.C26_extension
#print axioms Langtag.Props.C26_source
#print axioms Langtag.Props.C27_privateUse
#print axioms Langtag.Props.C27_extension
#print axioms Langtag.Props.C27_languageExtension
#print axioms Langtag.Props.C27_empty
#print axioms Langtag.Props.C27_source_constants
#print axioms Langtag.Props.C27_source
#print axioms Langtag.Props.C27_source_empty
#print axioms Langtag.Props.C28_iter
#print axioms Langtag.Props.C28_first_last
#print axioms Langtag.Props.C28_oneEnd
#print axioms Langtag.Props.C28_source
#print axioms Langtag.Props.C29_exists
#print axioms Langtag.Props.C29_iter
#print axioms Langtag.Props.C29_unique
#print axioms Langtag.Props.C29_source
#print axioms Langtag.Props.C30_get
#print axioms Langtag.Props.C30_none
#print axioms Langtag.Props.C30_iterExtension
#print axioms Langtag.Props.C30_source
#print axioms Langtag.Props.C30_source_iter
#print axioms Langtag.Props.C31_violated
#print axioms Langtag.Props.C31_get_partial
#print axioms Langtag.Props.C31_otherCase_partial
#print axioms Langtag.Props.C31_source_violated
#print axioms Langtag.Props.C31_source_partial
#print axioms Langtag.Props.C31_source_otherCase_partial
#print axioms Langtag.Props.C32_u8
#print axioms Langtag.Props.C32_char
#print axioms Langtag.Props.C32_string
#print axioms Langtag.Props.C32_observers
#print axioms Langtag.Props.C32_source
#print axioms Langtag.Props.C32_source_observers
#print axioms Langtag.Props.C33_singleton
#print axioms Langtag.Props.C33_source
#print axioms Langtag.Props.C34_eq
#print axioms Langtag.Props.C34_equivalence
#print axioms Langtag.Props.C34_source
#print axioms Langtag.Props.C35_total
#print axioms Langtag.Props.C35_trans
#print axioms Langtag.Props.C35_source
#print axioms Langtag.Props.C36_cmp
#print axioms Langtag.Props.C36_prefix
#print axioms Langtag.Props.C36_source
#print axioms Langtag.Props.C37_hash
#print axioms Langtag.Props.C37_writes
#print axioms Langtag.Props.C37_bytes
#print axioms Langtag.Props.C37_source
#print axioms Langtag.Props.C38_language
#print axioms Langtag.Props.C38_normal
#print axioms Langtag.Props.C38_langTag
#print axioms Langtag.Props.C38_source
#print axioms Langtag.Props.C38_source_normal
#print axioms Langtag.Props.C39_unique
#print axioms Langtag.Props.normal_has_parts
#print axioms Langtag.Props.C40_noComponents
#print axioms Langtag.Props.C15_source
#print axioms Langtag.Props.C41_compose
#print axioms Langtag.Props.C41_accessors
#print axioms Langtag.Props.C41_source
#print axioms Langtag.Props.C42_variants
#print axioms Langtag.Props.C42_extensions
#print axioms Langtag.Props.C42_language
#print axioms Langtag.Props.C42_source
#print axioms Langtag.Props.C43_prefix
#print axioms Langtag.Props.C43_lookup
#print axioms Langtag.Props.C43_privateUse
#print axioms Langtag.Props.C43_source
#print axioms Langtag.Props.C44_source
#print axioms Langtag.Props.C44_inclusions
#print axioms Langtag.Props.C45_source
#print axioms Langtag.Props.C45_disjoint
#print axioms Langtag.Props.C46_violated
#print axioms Langtag.Props.C46_hash_partial
#print axioms Langtag.Props.C46_source_violated
#print axioms Langtag.Props.C46_source_partial
#print axioms Langtag.Props.C46_source_types_violated
#print axioms Langtag.Props.C47_violated
#print axioms Langtag.Props.C47_language_partial
#print axioms Langtag.Props.C47_source_partial
#print axioms Langtag.Props.C47_source_violated
#print axioms Langtag.Props.C48_violated
#print axioms Langtag.Props.C48_singleton_partial
#print axioms Langtag.Props.C48_source_violated
#print axioms Langtag.Props.C48_source_partial
#print axioms Langtag.Props.C49_items
#print axioms Langtag.Props.C49_source
#print axioms Langtag.Props.C49_source_variants
#print axioms Langtag.Props.C50_source
#print axioms Langtag.Props.C50_macro
#print axioms Langtag.Props.C51_source
#print axioms Langtag.Props.C51_lengths
#print axioms Langtag.Props.C52_source
#print axioms Langtag.Props.C52_keepsText
#print axioms Langtag.Props.C53_orders
#print axioms Langtag.Props.C53_grandfathered
#print axioms Langtag.Props.C53_ascending
#print axioms Langtag.Props.C53_hash
#print axioms Langtag.Props.C53_source_grandfathered
#print axioms Langtag.Props.C53_source_kind
#print axioms Langtag.Props.C53_source_singleton
#print axioms Langtag.Props.C54_eq_partial
#print axioms Langtag.Props.C54_cmp_partial
#print axioms Langtag.Props.C55_parse
#print axioms Langtag.Props.C55_accepts
#print axioms Langtag.Props.C55_accessors
#print axioms Langtag.Props.C55_source
#print axioms Langtag.Props.C56_source
#print axioms Langtag.Props.C56_compare
#print axioms Langtag.Props.C56_grandfathered
#print axioms Langtag.Props.C56_langTag
#print axioms Langtag.Props.C56_singleton
#print axioms Langtag.Props.C56_parts
#print axioms Langtag.Props.C56_iterators
#print axioms Langtag.Props.C70_panics
#print axioms Langtag.Props.C57_accessors
#print axioms Langtag.Props.C57_get
#print axioms Langtag.Props.C57_iterators
#print axioms Langtag.Props.C57_variants
#print axioms Langtag.Props.C57_cmp
#print axioms Langtag.Props.C57_validate
#print axioms Langtag.Props.C74_overflow
#print axioms Langtag.Props.C58_source
#print axioms Langtag.Props.C58_subtags
#print axioms Langtag.Props.C58_extlang
#print axioms Langtag.Props.C58_variants
#print axioms Langtag.Props.C58_extensions
#print axioms Langtag.Props.C59_violated
#print axioms Langtag.Props.C59_prefix_partial
#print axioms Langtag.Props.C59_primary_partial
#print axioms Langtag.Props.C59_source_violated
#print axioms Langtag.Props.C59_source_prefix_partial
#print axioms Langtag.Props.C59_source_partial
#print axioms Langtag.Props.C60_violated
#print axioms Langtag.Props.C60_order_partial
#print axioms Langtag.Props.C60_source_violated
#print axioms Langtag.Props.C60_source_partial
#print axioms Langtag.Props.C61_hashMap
#print axioms Langtag.Props.C61_source
#print axioms Langtag.Props.C62_orderedMap
#print axioms Langtag.Props.C62_source
#print axioms Langtag.Props.C63_filter
#print axioms Langtag.Props.C63_source
#print axioms Langtag.Props.C64_violated
#print axioms Langtag.Props.C64_get_partial
#print axioms Langtag.Props.C64_distinct_partial
#print axioms Langtag.Props.C64_source_violated
#print axioms Langtag.Props.C64_source_partial
#print axioms Langtag.Props.C64_source_distinct_partial
#print axioms Langtag.Props.C65_sort
#print axioms Langtag.Props.C65_sortUnique
#print axioms Langtag.Props.C65_dedup
#print axioms Langtag.Props.C65_search
#print axioms Langtag.Props.C65_source
#print axioms Langtag.Props.C66_options
#print axioms Langtag.Props.C66_source_options
#print axioms Langtag.Props.C66_grandfathered
#print axioms Langtag.Props.C66_width
#print axioms Langtag.Props.C66_precision
#print axioms Langtag.Props.C66_singleton
#print axioms Langtag.Props.C66_kind
#print axioms Langtag.Props.C66_source_trim
#print axioms Langtag.Props.C66_source_kind
#print axioms Langtag.Props.C66_source_errors
#print axioms Langtag.Props.C66_source_grandfathered
#print axioms Langtag.Props.C66_source_singleton
#print axioms Langtag.Props.C67_trans
#print axioms Langtag.Props.C67_accessors
#print axioms Langtag.Props.C67_items
#print axioms Langtag.Props.C67_parts
#print axioms Langtag.Props.C67_langTag
#print axioms Langtag.Props.C67_privateUseSubtags
#print axioms Langtag.Props.C67_source
#print axioms Langtag.Props.C67_source_items
#print axioms Langtag.Props.C68_source
#print axioms Langtag.Props.C68_source_accessors
#print axioms Langtag.Props.C68_source_langTag
#print axioms Langtag.Props.C68_source_parts
#print axioms Langtag.Props.C68_source_iterators
#print axioms Langtag.Props.C68_source_variants
#print axioms Langtag.Props.C68_new
#print axioms Langtag.Props.C68_compare
#print axioms Langtag.Props.C68_accessors
#print axioms Langtag.Props.C68_grandfathered
#print axioms Langtag.Props.C68_langTag
#print axioms Langtag.Props.C68_parts
#print axioms Langtag.Props.C68_iterators
#print axioms Langtag.Props.C68_variants
#print axioms Langtag.Props.C68_extensions
#print axioms Langtag.Props.C69_file_order
#print axioms Langtag.Props.C69_reader
#print axioms Langtag.Props.C69_unambiguous
#print axioms Langtag.Props.C69_grammar
#print axioms Langtag.Props.C69_memory
#print axioms Langtag.Props.C69_memory_traits
#print axioms Langtag.Props.C69_memory_release
#print axioms Langtag.Props.C69_memory_iterators
#print axioms Langtag.Props.C69_plain
#print axioms Langtag.Props.C69_types
#print axioms Langtag.Props.C69_normalLangTag
#print axioms Langtag.Props.C69_langTag
#print axioms Langtag.Props.C69_typedLangTag
#print axioms Langtag.Props.C69_kind
#print axioms Langtag.Props.C69_grandfathered
#print axioms Langtag.Props.C69_parts
#print axioms Langtag.Props.C69_singleton
#print axioms Langtag.Props.C69_iterators
#print axioms Langtag.Props.C69_macro
#print axioms Langtag.Props.C69_derived
#print axioms Langtag.Props.C69_constants
#print axioms Langtag.Props.C69_constants_table
#print axioms Langtag.Props.C70_ends
#print axioms Langtag.Props.C70_panics
#print axioms Langtag.Props.C70_panic
#print axioms Langtag.Props.C70_texts
#print axioms Langtag.Props.C70_singletons
#print axioms Langtag.Props.C70_reached
#print axioms Langtag.Props.C70_table
#print axioms Langtag.Props.C71_calls
#print axioms Langtag.Props.C71_programs
#print axioms Langtag.Props.C71_texts
#print axioms Langtag.Props.C71_obtainable
#print axioms Langtag.Props.C71_exceptions
#print axioms Langtag.Props.C72_calls
#print axioms Langtag.Props.C72_programs
#print axioms Langtag.Props.C72_obtainable
#print axioms Langtag.Props.C73_str
#print axioms Langtag.Props.C73_text
#print axioms Langtag.Props.C74_calls
#print axioms Langtag.Props.C74_overflow
#print axioms Langtag.Props.C74_programs
#print axioms Langtag.Props.C75_forward
#print axioms Langtag.Props.C75_both_ends
#print axioms Langtag.Props.C75_source
#print axioms Langtag.Props.C75_source_extensions
#print axioms Langtag.Props.C75_source_tags
#print axioms Langtag.Props.C75_source_provided
#print axioms Langtag.Props.C75_obtainable
#print axioms Langtag.Props.C75_obtainable_both_ends
#print axioms Langtag.Props.C76_raise
#print axioms Langtag.Props.C76_types
#print axioms Langtag.Props.C76_accessors
#print axioms Langtag.Props.C76_iterators
#print axioms Langtag.Props.C76_api
#print axioms Langtag.Props.C76_least_types
#print axioms Langtag.Props.C76_least_iterators
#print axioms Langtag.Props.C76_least
#print axioms Langtag.Props.C76_least_grandfathered
#print axioms Langtag.Props.C76_exact
