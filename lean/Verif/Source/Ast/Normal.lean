import Verif.Source.Syntax

/-! The abstract syntax of `/repo/src/normal/mod.rs` (written by `tools/gen_ast.py`; `Verif/Source/Parsed/Normal.lean` proves that it is that). -/

set_option autoImplicit false
set_option maxRecDepth 10000

namespace Langtag.Source.Ast

/-- `NormalLangTag::language_end` -/
def NormalLangTag_language_end : FnDef := ⟨"language_end", [("self", (.ref false (.path ["Self"] [])))], (.path ["usize"] []),
  (.block []
    (.call (.path ["find_list_end"]) [(.ref false (.field (.path ["self"]) "0")), (.lit (.int 0 "")), (.closure [(.path ["i"]), (.path ["segment"])]
      (.block []
        (.bin .or (.bin .eq (.path ["i"]) (.lit (.int 0 ""))) (.method (.call (.path ["ExtendedLangTag", "new"]) [(.path ["segment"])]) "is_ok" []))))]))⟩

/-- `NormalLangTag::language` -/
def NormalLangTag_language : FnDef := ⟨"language", [("self", (.ref false (.path ["Self"] [])))], (.ref false (.path ["Language"] [])),
  (.block []
    (.block []
      (.call (.path ["Language", "new_unchecked"]) [(.ref false (.index (.field (.path ["self"]) "0") (.rangeTo (.method (.path ["self"]) "language_end" []))))])))⟩

/-- `NormalLangTag::script_range` -/
def NormalLangTag_script_range : FnDef := ⟨"script_range", [("self", (.ref false (.path ["Self"] [])))], (.path ["Result"] [(.path ["Range"] [(.path ["usize"] [])]), (.path ["usize"] [])]),
  (.block [
    .let (.path ["language_end"]) (.method (.path ["self"]) "language_end" []),
    .let (.path ["offset"]) (.bin .add (.path ["language_end"]) (.lit (.int 1 ""))),
    .let (.path ["end"]) (.call (.path ["find_list_end"]) [(.ref false (.field (.path ["self"]) "0")), (.path ["offset"]), (.closure [(.path ["i"]), (.path ["segment"])]
      (.block []
        (.bin .and (.bin .eq (.path ["i"]) (.path ["offset"])) (.method (.call (.path ["Script", "new"]) [(.path ["segment"])]) "is_ok" []))))])]
    (.ite (.bin .ne (.path ["end"]) (.path ["offset"]))
      (.block []
        (.call (.path ["Ok"]) [(.range (.path ["offset"]) (.path ["end"]))]))
      (.block []
        (.call (.path ["Err"]) [(.path ["language_end"])]))))⟩

/-- `NormalLangTag::script` -/
def NormalLangTag_script : FnDef := ⟨"script", [("self", (.ref false (.path ["Self"] [])))], (.path ["Option"] [(.ref false (.path ["Script"] []))]),
  (.block []
    (.method (.method (.method (.path ["self"]) "script_range" []) "ok" []) "map" [(.closure [(.path ["range"])]
      (.block []
        (.call (.path ["Script", "new_unchecked"]) [(.ref false (.index (.field (.path ["self"]) "0") (.path ["range"])))])))]))⟩

/-- `NormalLangTag::region_range` -/
def NormalLangTag_region_range : FnDef := ⟨"region_range", [("self", (.ref false (.path ["Self"] [])))], (.path ["Result"] [(.path ["Range"] [(.path ["usize"] [])]), (.path ["usize"] [])]),
  (.block [
    .let (.path ["script_end"]) (.match (.method (.path ["self"]) "script_range" []) [
      .mk (.ctor ["Ok"] [(.path ["range"])]) (.field (.path ["range"]) "end"),
      .mk (.ctor ["Err"] [(.path ["i"])]) (.path ["i"])]),
    .let (.path ["offset"]) (.bin .add (.path ["script_end"]) (.lit (.int 1 ""))),
    .let (.path ["end"]) (.call (.path ["find_list_end"]) [(.ref false (.field (.path ["self"]) "0")), (.path ["offset"]), (.closure [(.path ["i"]), (.path ["segment"])]
      (.block []
        (.bin .and (.bin .eq (.path ["i"]) (.path ["offset"])) (.method (.call (.path ["Region", "new"]) [(.path ["segment"])]) "is_ok" []))))])]
    (.ite (.bin .ne (.path ["end"]) (.path ["offset"]))
      (.block []
        (.call (.path ["Ok"]) [(.range (.path ["offset"]) (.path ["end"]))]))
      (.block []
        (.call (.path ["Err"]) [(.path ["script_end"])]))))⟩

/-- `NormalLangTag::region` -/
def NormalLangTag_region : FnDef := ⟨"region", [("self", (.ref false (.path ["Self"] [])))], (.path ["Option"] [(.ref false (.path ["Region"] []))]),
  (.block []
    (.method (.method (.method (.path ["self"]) "region_range" []) "ok" []) "map" [(.closure [(.path ["range"])]
      (.block []
        (.call (.path ["Region", "new_unchecked"]) [(.ref false (.index (.field (.path ["self"]) "0") (.path ["range"])))])))]))⟩

/-- `NormalLangTag::variants_range` -/
def NormalLangTag_variants_range : FnDef := ⟨"variants_range", [("self", (.ref false (.path ["Self"] [])))], (.path ["Range"] [(.path ["usize"] [])]),
  (.block [
    .let (.path ["region_end"]) (.match (.method (.path ["self"]) "region_range" []) [
      .mk (.ctor ["Ok"] [(.path ["range"])]) (.field (.path ["range"]) "end"),
      .mk (.ctor ["Err"] [(.path ["i"])]) (.path ["i"])]),
    .let (.path ["offset"]) (.bin .add (.path ["region_end"]) (.lit (.int 1 ""))),
    .let (.path ["end"]) (.call (.path ["find_list_end"]) [(.ref false (.field (.path ["self"]) "0")), (.path ["offset"]), (.closure [.wild, (.path ["segment"])]
      (.method (.call (.path ["Variant", "new"]) [(.path ["segment"])]) "is_ok" []))])]
    (.ite (.bin .eq (.path ["end"]) (.path ["offset"]))
      (.block []
        (.range (.path ["region_end"]) (.path ["region_end"])))
      (.block []
        (.range (.path ["offset"]) (.path ["end"])))))⟩

/-- `NormalLangTag::variants` -/
def NormalLangTag_variants : FnDef := ⟨"variants", [("self", (.ref false (.path ["Self"] [])))], (.ref false (.path ["Variants"] [])),
  (.block []
    (.block []
      (.call (.path ["Variants", "new_unchecked"]) [(.ref false (.index (.field (.path ["self"]) "0") (.method (.path ["self"]) "variants_range" [])))])))⟩

/-- `NormalLangTag::extensions_range` -/
def NormalLangTag_extensions_range : FnDef := ⟨"extensions_range", [("self", (.ref false (.path ["Self"] [])))], (.path ["Range"] [(.path ["usize"] [])]),
  (.block [
    .let (.path ["variants_end"]) (.field (.method (.path ["self"]) "variants_range" []) "end"),
    .let (.path ["offset"]) (.bin .add (.path ["variants_end"]) (.lit (.int 1 ""))),
    .let (.path ["end"]) (.call (.path ["find_list_end"]) [(.ref false (.field (.path ["self"]) "0")), (.path ["offset"]), (.closure [.wild, (.path ["segment"])]
      (.block []
        (.bin .or (.method (.call (.path ["Singleton", "from_string"]) [(.path ["segment"])]) "is_ok" []) (.method (.call (.path ["ExtensionSubtag", "new"]) [(.path ["segment"])]) "is_ok" []))))])]
    (.ite (.bin .eq (.path ["end"]) (.path ["offset"]))
      (.block []
        (.range (.path ["variants_end"]) (.path ["variants_end"])))
      (.block []
        (.range (.path ["offset"]) (.path ["end"])))))⟩

/-- `NormalLangTag::extensions` -/
def NormalLangTag_extensions : FnDef := ⟨"extensions", [("self", (.ref false (.path ["Self"] [])))], (.ref false (.path ["Extensions"] [])),
  (.block []
    (.block []
      (.call (.path ["Extensions", "new_unchecked"]) [(.ref false (.index (.field (.path ["self"]) "0") (.method (.path ["self"]) "extensions_range" [])))])))⟩

/-- `NormalLangTag::private_use_offset` -/
def NormalLangTag_private_use_offset : FnDef := ⟨"private_use_offset", [("self", (.ref false (.path ["Self"] [])))], (.path ["Option"] [(.path ["usize"] [])]),
  (.block [
    .let (.path ["variants_end"]) (.field (.method (.path ["self"]) "variants_range" []) "end")]
    (.ite (.bin .lt (.path ["variants_end"]) (.method (.field (.path ["self"]) "0") "len" []))
      (.block []
        (.call (.path ["Some"]) [(.bin .add (.path ["variants_end"]) (.lit (.int 1 "")))]))
      (.block []
        (.path ["None"]))))⟩

/-- `NormalLangTag::private_use` -/
def NormalLangTag_private_use : FnDef := ⟨"private_use", [("self", (.ref false (.path ["Self"] [])))], (.path ["Option"] [(.ref false (.path ["PrivateUse"] []))]),
  (.block []
    (.method (.method (.path ["self"]) "private_use_offset" []) "map" [(.closure [(.path ["i"])]
      (.block []
        (.call (.path ["PrivateUse", "new_unchecked"]) [(.ref false (.index (.field (.path ["self"]) "0") (.rangeFrom (.path ["i"]))))])))]))⟩

/-- `NormalLangTag::private_use_subtags` -/
def NormalLangTag_private_use_subtags : FnDef := ⟨"private_use_subtags", [("self", (.ref false (.path ["Self"] [])))], (.path ["PrivateUseIter"] []),
  (.block []
    (.match (.method (.path ["self"]) "private_use" []) [
      .mk (.ctor ["Some"] [(.path ["p"])]) (.method (.path ["p"]) "iter" []),
      .mk (.path ["None"]) (.call (.path ["PrivateUseIter", "empty"]) [])]))⟩

/-- `<NormalLangTag as PartialEq>::eq` -/
def NormalLangTag_PartialEq_eq : FnDef := ⟨"eq", [("self", (.ref false (.path ["Self"] []))), ("other", (.ref false (.path ["Self"] [])))], (.path ["bool"] []),
  (.block []
    (.call (.path ["utils", "case_insensitive_eq"]) [(.method (.path ["self"]) "as_bytes" []), (.method (.path ["other"]) "as_bytes" [])]))⟩

/-- `<NormalLangTag as PartialOrd>::partial_cmp` -/
def NormalLangTag_PartialOrd_partial_cmp : FnDef := ⟨"partial_cmp", [("self", (.ref false (.path ["Self"] []))), ("other", (.ref false (.path ["Self"] [])))], (.path ["Option"] [(.path ["core", "cmp", "Ordering"] [])]),
  (.block []
    (.call (.path ["Some"]) [(.method (.path ["self"]) "cmp" [(.path ["other"])])]))⟩

/-- `<NormalLangTag as Ord>::cmp` -/
def NormalLangTag_Ord_cmp : FnDef := ⟨"cmp", [("self", (.ref false (.path ["Self"] []))), ("other", (.ref false (.path ["Self"] [])))], (.path ["core", "cmp", "Ordering"] []),
  (.block []
    (.call (.path ["utils", "case_insensitive_cmp"]) [(.method (.path ["self"]) "as_bytes" []), (.method (.path ["other"]) "as_bytes" [])]))⟩

/-- `<NormalLangTag as Hash>::hash` -/
def NormalLangTag_Hash_hash : FnDef := ⟨"hash", [("self", (.ref false (.path ["Self"] []))), ("state", (.ref true (.path ["H"] [])))], (.tuple []),
  (.block []
    (.call (.path ["utils", "case_insensitive_hash"]) [(.method (.path ["self"]) "as_bytes" []), (.path ["state"])]))⟩

/-- `fn find_list_end` -/
def find_list_end : FnDef := ⟨"find_list_end", [("string", (.ref false (.path ["str"] []))), ("offset", (.path ["usize"] [])), ("f", (.fnMut [(.path ["usize"] []), (.ref false (.path ["str"] []))] (.path ["bool"] [])))], (.path ["usize"] []),
  (.block [
    .let (.path ["bytes"]) (.method (.path ["string"]) "as_bytes" []),
    .let (.path ["i"]) (.path ["offset"]),
    .let (.path ["end"]) (.path ["i"]),
    .expr (.while (.bin .lt (.path ["i"]) (.method (.path ["bytes"]) "len" []))
      (.block [
        .expr (.ite (.bin .eq (.index (.path ["bytes"]) (.path ["i"])) (.lit (.byte 45)))
          (.block [
            .let (.path ["subtag"]) (.ref false (.index (.path ["string"]) (.range (.path ["offset"]) (.path ["i"]))))]
            (.ite (.call (.path ["f"]) [(.path ["offset"]), (.path ["subtag"])])
              (.block [
                .expr (.assign (.path ["end"]) (.path ["i"])),
                .expr (.assign (.path ["offset"]) (.bin .add (.path ["i"]) (.lit (.int 1 ""))))]
                (.tuple []))
              (.block [
                .expr (.return (.path ["end"]))]
                (.tuple []))))
          (.tuple []))]
        (.opAssign .add (.path ["i"]) (.lit (.int 1 ""))))),
    .let (.path ["subtag"]) (.ref false (.index (.path ["string"]) (.rangeFrom (.path ["offset"]))))]
    (.ite (.call (.path ["f"]) [(.path ["offset"]), (.path ["subtag"])])
      (.block []
        (.method (.path ["string"]) "len" []))
      (.block []
        (.path ["end"]))))⟩

/-- `fn find_segment_end` -/
def find_segment_end : FnDef := ⟨"find_segment_end", [("string", (.ref false (.path ["str"] []))), ("offset", (.path ["usize"] []))], (.path ["usize"] []),
  (.block [
    .let (.path ["bytes"]) (.method (.path ["string"]) "as_bytes" []),
    .let (.path ["i"]) (.path ["offset"]),
    .expr (.while (.bin .lt (.path ["i"]) (.method (.path ["bytes"]) "len" []))
      (.block [
        .expr (.ite (.bin .eq (.index (.path ["bytes"]) (.path ["i"])) (.lit (.byte 45)))
          (.block [
            .expr (.return (.path ["i"]))]
            (.tuple []))
          (.tuple []))]
        (.opAssign .add (.path ["i"]) (.lit (.int 1 "")))))]
    (.path ["i"]))⟩

/-- `fn find_segment_start` -/
def find_segment_start : FnDef := ⟨"find_segment_start", [("string", (.ref false (.path ["str"] []))), ("end", (.path ["usize"] []))], (.path ["usize"] []),
  (.block []
    (.ite (.bin .gt (.path ["end"]) (.lit (.int 0 "")))
      (.block [
        .let (.path ["bytes"]) (.method (.path ["string"]) "as_bytes" []),
        .let (.path ["i"]) (.bin .sub (.path ["end"]) (.lit (.int 1 "")))]
        (.loop
          (.block [
            .expr (.ite (.bin .eq (.index (.path ["bytes"]) (.path ["i"])) (.lit (.byte 45)))
              (.block [
                .expr (.break (.bin .add (.path ["i"]) (.lit (.int 1 ""))))]
                (.tuple []))
              (.tuple []))]
            (.ite (.bin .gt (.path ["i"]) (.lit (.int 0 "")))
              (.block []
                (.opAssign .sub (.path ["i"]) (.lit (.int 1 ""))))
              (.block [
                .expr (.break (.lit (.int 0 "")))]
                (.tuple []))))))
      (.block []
        (.lit (.int 0 "")))))⟩

/-- The items of `/repo/src/normal/mod.rs`. -/
def normalRs : List Item := [
  .glob "extension",
  .glob "language",
  .glob "private_use",
  .glob "region",
  .glob "script",
  .glob "variant",
  .struct "NormalLangTag" ["Validate", "StrNewType"] ["crate", "grammar", "Langtag"] (.tuple [(.path ["str"] [])]),
  .impl none (.path ["NormalLangTag"] []) []
    [NormalLangTag_language_end, NormalLangTag_language, NormalLangTag_script_range, NormalLangTag_script, NormalLangTag_region_range, NormalLangTag_region, NormalLangTag_variants_range, NormalLangTag_variants, NormalLangTag_extensions_range, NormalLangTag_extensions, NormalLangTag_private_use_offset, NormalLangTag_private_use, NormalLangTag_private_use_subtags],
  .impl (some (.path ["PartialEq"] [])) (.path ["NormalLangTag"] []) []
    [NormalLangTag_PartialEq_eq],
  .impl (some (.path ["Eq"] [])) (.path ["NormalLangTag"] []) []
    [],
  .impl (some (.path ["PartialOrd"] [])) (.path ["NormalLangTag"] []) []
    [NormalLangTag_PartialOrd_partial_cmp],
  .impl (some (.path ["Ord"] [])) (.path ["NormalLangTag"] []) []
    [NormalLangTag_Ord_cmp],
  .impl (some (.path ["Hash"] [])) (.path ["NormalLangTag"] []) []
    [NormalLangTag_Hash_hash],
  .fn find_list_end,
  .fn find_segment_end,
  .fn find_segment_start]

end Langtag.Source.Ast
