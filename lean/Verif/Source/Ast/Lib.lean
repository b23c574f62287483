import Verif.Source.Syntax

/-! The abstract syntax of `/repo/src/lib.rs` (written by `tools/gen_ast.py`; `Verif/Source/Parsed/Lib.lean` proves that it is that). -/

set_option autoImplicit false
set_option maxRecDepth 10000

namespace Langtag.Source.Ast

/-- `LangTag::language` -/
def LangTag_language : FnDef := ⟨"language", [("self", (.ref false (.path ["Self"] [])))], (.path ["Option"] [(.ref false (.path ["Language"] []))]),
  (.block []
    (.match (.call (.path ["NormalLangTag", "new"]) [(.ref false (.field (.path ["self"]) "0"))]) [
      .mk (.ctor ["Ok"] [(.path ["t"])]) (.call (.path ["Some"]) [(.method (.path ["t"]) "language" [])]),
      .mk (.ctor ["Err"] [.wild]) (.match (.call (.path ["GrandfatheredLangTag", "new"]) [(.ref false (.field (.path ["self"]) "0"))]) [
        .mk (.ctor ["Ok"] [(.path ["t"])]) (.method (.path ["t"]) "language" []),
        .mk (.ctor ["Err"] [.wild]) (.path ["None"])])]))⟩

/-- `LangTag::script` -/
def LangTag_script : FnDef := ⟨"script", [("self", (.ref false (.path ["Self"] [])))], (.path ["Option"] [(.ref false (.path ["Script"] []))]),
  (.block []
    (.method (.method (.path ["self"]) "as_normal" []) "and_then" [(.path ["NormalLangTag", "script"])]))⟩

/-- `LangTag::region` -/
def LangTag_region : FnDef := ⟨"region", [("self", (.ref false (.path ["Self"] [])))], (.path ["Option"] [(.ref false (.path ["Region"] []))]),
  (.block []
    (.method (.method (.path ["self"]) "as_normal" []) "and_then" [(.path ["NormalLangTag", "region"])]))⟩

/-- `LangTag::variants` -/
def LangTag_variants : FnDef := ⟨"variants", [("self", (.ref false (.path ["Self"] [])))], (.ref false (.path ["Variants"] [])),
  (.block []
    (.method (.method (.method (.path ["self"]) "as_normal" []) "map" [(.path ["NormalLangTag", "variants"])]) "unwrap_or" [(.path ["Variants", "EMPTY"])]))⟩

/-- `LangTag::extensions` -/
def LangTag_extensions : FnDef := ⟨"extensions", [("self", (.ref false (.path ["Self"] [])))], (.ref false (.path ["Extensions"] [])),
  (.block []
    (.method (.method (.method (.path ["self"]) "as_normal" []) "map" [(.path ["NormalLangTag", "extensions"])]) "unwrap_or" [(.path ["Extensions", "EMPTY"])]))⟩

/-- `LangTag::private_use` -/
def LangTag_private_use : FnDef := ⟨"private_use", [("self", (.ref false (.path ["Self"] [])))], (.path ["Option"] [(.ref false (.path ["PrivateUse"] []))]),
  (.block []
    (.method (.method (.path ["self"]) "as_normal" []) "and_then" [(.path ["NormalLangTag", "private_use"])]))⟩

/-- `LangTag::private_use_subtags` -/
def LangTag_private_use_subtags : FnDef := ⟨"private_use_subtags", [("self", (.ref false (.path ["Self"] [])))], (.path ["PrivateUseIter"] []),
  (.block []
    (.method (.method (.method (.path ["self"]) "private_use" []) "map" [(.path ["PrivateUse", "iter"])]) "unwrap_or" [(.call (.path ["PrivateUseIter", "empty"]) [])]))⟩

/-- `LangTag::is_normal` -/
def LangTag_is_normal : FnDef := ⟨"is_normal", [("self", (.ref false (.path ["Self"] [])))], (.path ["bool"] []),
  (.block []
    (.method (.method (.path ["self"]) "as_normal" []) "is_some" []))⟩

/-- `LangTag::is_private_use` -/
def LangTag_is_private_use : FnDef := ⟨"is_private_use", [("self", (.ref false (.path ["Self"] [])))], (.path ["bool"] []),
  (.block []
    (.method (.method (.path ["self"]) "as_private_use" []) "is_some" []))⟩

/-- `LangTag::is_grandfathered` -/
def LangTag_is_grandfathered : FnDef := ⟨"is_grandfathered", [("self", (.ref false (.path ["Self"] [])))], (.path ["bool"] []),
  (.block []
    (.method (.method (.path ["self"]) "as_grandfathered" []) "is_some" []))⟩

/-- `LangTag::as_normal` -/
def LangTag_as_normal : FnDef := ⟨"as_normal", [("self", (.ref false (.path ["Self"] [])))], (.path ["Option"] [(.ref false (.path ["NormalLangTag"] []))]),
  (.block []
    (.method (.call (.path ["NormalLangTag", "new"]) [(.ref false (.field (.path ["self"]) "0"))]) "ok" []))⟩

/-- `LangTag::as_private_use` -/
def LangTag_as_private_use : FnDef := ⟨"as_private_use", [("self", (.ref false (.path ["Self"] [])))], (.path ["Option"] [(.ref false (.path ["PrivateUseLangTag"] []))]),
  (.block []
    (.method (.call (.path ["PrivateUseLangTag", "new"]) [(.ref false (.field (.path ["self"]) "0"))]) "ok" []))⟩

/-- `LangTag::as_grandfathered` -/
def LangTag_as_grandfathered : FnDef := ⟨"as_grandfathered", [("self", (.ref false (.path ["Self"] [])))], (.path ["Option"] [(.path ["GrandfatheredLangTag"] [])]),
  (.block []
    (.method (.call (.path ["GrandfatheredLangTag", "new"]) [(.ref false (.field (.path ["self"]) "0"))]) "ok" []))⟩

/-- `LangTag::kind` -/
def LangTag_kind : FnDef := ⟨"kind", [("self", (.ref false (.path ["Self"] [])))], (.path ["Kind"] []),
  (.block []
    (.method (.method (.path ["self"]) "as_typed" []) "kind" []))⟩

/-- `LangTag::as_typed` -/
def LangTag_as_typed : FnDef := ⟨"as_typed", [("self", (.ref false (.path ["Self"] [])))], (.path ["TypedLangTag"] []),
  (.block []
    (.match (.call (.path ["NormalLangTag", "new"]) [(.ref false (.field (.path ["self"]) "0"))]) [
      .mk (.ctor ["Ok"] [(.path ["t"])]) (.call (.path ["TypedLangTag", "Normal"]) [(.path ["t"])]),
      .mk (.ctor ["Err"] [.wild]) (.match (.call (.path ["PrivateUseLangTag", "new"]) [(.ref false (.field (.path ["self"]) "0"))]) [
        .mk (.ctor ["Ok"] [(.path ["t"])]) (.call (.path ["TypedLangTag", "PrivateUse"]) [(.path ["t"])]),
        .mk (.ctor ["Err"] [.wild]) (.call (.path ["TypedLangTag", "Grandfathered"]) [(.method (.call (.path ["GrandfatheredLangTag", "new"]) [(.ref false (.field (.path ["self"]) "0"))]) "unwrap" [])])])]))⟩

/-- `<LangTag as PartialEq>::eq` -/
def LangTag_PartialEq_eq : FnDef := ⟨"eq", [("self", (.ref false (.path ["Self"] []))), ("other", (.ref false (.path ["Self"] [])))], (.path ["bool"] []),
  (.block []
    (.call (.path ["utils", "case_insensitive_eq"]) [(.method (.path ["self"]) "as_bytes" []), (.method (.path ["other"]) "as_bytes" [])]))⟩

/-- `<LangTag as PartialOrd>::partial_cmp` -/
def LangTag_PartialOrd_partial_cmp : FnDef := ⟨"partial_cmp", [("self", (.ref false (.path ["Self"] []))), ("other", (.ref false (.path ["Self"] [])))], (.path ["Option"] [(.path ["core", "cmp", "Ordering"] [])]),
  (.block []
    (.call (.path ["Some"]) [(.method (.path ["self"]) "cmp" [(.path ["other"])])]))⟩

/-- `<LangTag as Ord>::cmp` -/
def LangTag_Ord_cmp : FnDef := ⟨"cmp", [("self", (.ref false (.path ["Self"] []))), ("other", (.ref false (.path ["Self"] [])))], (.path ["core", "cmp", "Ordering"] []),
  (.block []
    (.call (.path ["utils", "case_insensitive_cmp"]) [(.method (.path ["self"]) "as_bytes" []), (.method (.path ["other"]) "as_bytes" [])]))⟩

/-- `<LangTag as Hash>::hash` -/
def LangTag_Hash_hash : FnDef := ⟨"hash", [("self", (.ref false (.path ["Self"] []))), ("state", (.ref true (.path ["H"] [])))], (.tuple []),
  (.block []
    (.call (.path ["utils", "case_insensitive_hash"]) [(.method (.path ["self"]) "as_bytes" []), (.path ["state"])]))⟩

/-- `TypedLangTag::language` -/
def TypedLangTag_language : FnDef := ⟨"language", [("self", (.ref false (.path ["Self"] [])))], (.path ["Option"] [(.ref false (.path ["Language"] []))]),
  (.block []
    (.match (.path ["self"]) [
      .mk (.ctor ["Self", "Normal"] [(.path ["n"])]) (.call (.path ["Some"]) [(.method (.path ["n"]) "language" [])]),
      .mk (.ctor ["Self", "PrivateUse"] [.wild]) (.path ["None"]),
      .mk (.ctor ["Self", "Grandfathered"] [(.path ["g"])]) (.method (.path ["g"]) "language" [])]))⟩

/-- `TypedLangTag::kind` -/
def TypedLangTag_kind : FnDef := ⟨"kind", [("self", (.ref false (.path ["Self"] [])))], (.path ["Kind"] []),
  (.block []
    (.match (.path ["self"]) [
      .mk (.ctor ["Self", "Normal"] [.wild]) (.path ["Kind", "Normal"]),
      .mk (.ctor ["Self", "PrivateUse"] [.wild]) (.path ["Kind", "PrivateUse"]),
      .mk (.ctor ["Self", "Grandfathered"] [.wild]) (.path ["Kind", "Grandfathered"])]))⟩

/-- `TypedLangTag::is_normal` -/
def TypedLangTag_is_normal : FnDef := ⟨"is_normal", [("self", (.ref false (.path ["Self"] [])))], (.path ["bool"] []),
  (.block []
    (.matches (.path ["self"]) (.ctor ["Self", "Normal"] [.wild])))⟩

/-- `TypedLangTag::is_private_use` -/
def TypedLangTag_is_private_use : FnDef := ⟨"is_private_use", [("self", (.ref false (.path ["Self"] [])))], (.path ["bool"] []),
  (.block []
    (.matches (.path ["self"]) (.ctor ["Self", "PrivateUse"] [.wild])))⟩

/-- `TypedLangTag::is_grandfathered` -/
def TypedLangTag_is_grandfathered : FnDef := ⟨"is_grandfathered", [("self", (.ref false (.path ["Self"] [])))], (.path ["bool"] []),
  (.block []
    (.matches (.path ["self"]) (.ctor ["Self", "Grandfathered"] [.wild])))⟩

/-- `TypedLangTag::as_normal` -/
def TypedLangTag_as_normal : FnDef := ⟨"as_normal", [("self", (.ref false (.path ["Self"] [])))], (.path ["Option"] [(.ref false (.path ["NormalLangTag"] []))]),
  (.block []
    (.match (.path ["self"]) [
      .mk (.ctor ["Self", "Normal"] [(.path ["n"])]) (.call (.path ["Some"]) [(.deref (.path ["n"]))]),
      .mk .wild (.path ["None"])]))⟩

/-- `TypedLangTag::as_private_use` -/
def TypedLangTag_as_private_use : FnDef := ⟨"as_private_use", [("self", (.ref false (.path ["Self"] [])))], (.path ["Option"] [(.ref false (.path ["PrivateUseLangTag"] []))]),
  (.block []
    (.match (.path ["self"]) [
      .mk (.ctor ["Self", "PrivateUse"] [(.path ["p"])]) (.call (.path ["Some"]) [(.deref (.path ["p"]))]),
      .mk .wild (.path ["None"])]))⟩

/-- `TypedLangTag::as_grandfathered` -/
def TypedLangTag_as_grandfathered : FnDef := ⟨"as_grandfathered", [("self", (.ref false (.path ["Self"] [])))], (.path ["Option"] [(.path ["GrandfatheredLangTag"] [])]),
  (.block []
    (.match (.path ["self"]) [
      .mk (.ctor ["Self", "Grandfathered"] [(.path ["g"])]) (.call (.path ["Some"]) [(.deref (.path ["g"]))]),
      .mk .wild (.path ["None"])]))⟩

/-- `Kind::is_normal` -/
def Kind_is_normal : FnDef := ⟨"is_normal", [("self", (.ref false (.path ["Self"] [])))], (.path ["bool"] []),
  (.block []
    (.matches (.path ["self"]) (.path ["Self", "Normal"])))⟩

/-- `Kind::is_private_use` -/
def Kind_is_private_use : FnDef := ⟨"is_private_use", [("self", (.ref false (.path ["Self"] [])))], (.path ["bool"] []),
  (.block []
    (.matches (.path ["self"]) (.path ["Self", "PrivateUse"])))⟩

/-- `Kind::is_grandfathered` -/
def Kind_is_grandfathered : FnDef := ⟨"is_grandfathered", [("self", (.ref false (.path ["Self"] [])))], (.path ["bool"] []),
  (.block []
    (.matches (.path ["self"]) (.path ["Self", "Grandfathered"])))⟩

/-- The items of `/repo/src/lib.rs`. -/
def libRs : List Item := [
  .glob "grandfathered",
  .glob "normal",
  .glob "private_use",
  .struct "LangTag" ["Validate", "StrNewType"] ["crate", "grammar", "LanguageTag"] (.tuple [(.path ["str"] [])]),
  .impl none (.path ["LangTag"] []) []
    [LangTag_language, LangTag_script, LangTag_region, LangTag_variants, LangTag_extensions, LangTag_private_use, LangTag_private_use_subtags, LangTag_is_normal, LangTag_is_private_use, LangTag_is_grandfathered, LangTag_as_normal, LangTag_as_private_use, LangTag_as_grandfathered, LangTag_kind, LangTag_as_typed],
  .impl (some (.path ["PartialEq"] [])) (.path ["LangTag"] []) []
    [LangTag_PartialEq_eq],
  .impl (some (.path ["Eq"] [])) (.path ["LangTag"] []) []
    [],
  .impl (some (.path ["PartialOrd"] [])) (.path ["LangTag"] []) []
    [LangTag_PartialOrd_partial_cmp],
  .impl (some (.path ["Ord"] [])) (.path ["LangTag"] []) []
    [LangTag_Ord_cmp],
  .impl (some (.path ["Hash"] [])) (.path ["LangTag"] []) []
    [LangTag_Hash_hash],
  .macroRules "langtag" "value"
    (.block []
      (.match (.call (.path ["crate", "LangTag", "from_str"]) [(.path ["value"])]) [
        .mk (.ctor ["Ok"] [(.path ["value"])]) (.path ["value"]),
        .mk (.ctor ["Err"] [.wild]) .panic])),
  .enum "TypedLangTag" [] [("Normal", (.tuple [(.ref false (.path ["NormalLangTag"] []))])), ("PrivateUse", (.tuple [(.ref false (.path ["PrivateUseLangTag"] []))])), ("Grandfathered", (.tuple [(.path ["GrandfatheredLangTag"] [])]))],
  .impl none (.path ["TypedLangTag"] []) []
    [TypedLangTag_language, TypedLangTag_kind, TypedLangTag_is_normal, TypedLangTag_is_private_use, TypedLangTag_is_grandfathered, TypedLangTag_as_normal, TypedLangTag_as_private_use, TypedLangTag_as_grandfathered],
  .enum "Kind" ["Debug", "Clone", "Copy", "PartialEq", "Eq", "PartialOrd", "Ord", "Hash"] [("Normal", (.tuple [])), ("PrivateUse", (.tuple [])), ("Grandfathered", (.tuple []))],
  .impl none (.path ["Kind"] []) []
    [Kind_is_normal, Kind_is_private_use, Kind_is_grandfathered]]

end Langtag.Source.Ast
