import Verif.Source.Syntax

/-! The abstract syntax of `/repo/src/normal/language/mod.rs` (written by `tools/gen_ast.py`; `Verif/Source/Parsed/Language.lean` proves that it is that). -/

set_option autoImplicit false
set_option maxRecDepth 10000

namespace Langtag.Source.Ast

/-- `Language::primary` -/
def Language_primary : FnDef := ⟨"primary", [("self", (.ref false (.path ["Self"] [])))], (.ref false (.path ["PrimaryLanguage"] [])),
  (.block [
    .let (.path ["primary"]) (.match (.method (.field (.path ["self"]) "0") "split_once" [(.lit (.char 45))]) [
      .mk (.ctor ["Some"] [(.tuple [(.path ["primary"]), .wild])]) (.path ["primary"]),
      .mk (.path ["None"]) (.ref false (.field (.path ["self"]) "0"))])]
    (.block []
      (.call (.path ["PrimaryLanguage", "new_unchecked"]) [(.path ["primary"])])))⟩

/-- `Language::extension` -/
def Language_extension : FnDef := ⟨"extension", [("self", (.ref false (.path ["Self"] [])))], (.path ["Option"] [(.ref false (.path ["LanguageExtension"] []))]),
  (.block []
    (.method (.method (.field (.path ["self"]) "0") "split_once" [(.lit (.char 45))]) "map" [(.closure [(.tuple [.wild, (.path ["ext"])])]
      (.block []
        (.call (.path ["LanguageExtension", "new_unchecked"]) [(.path ["ext"])])))]))⟩

/-- `Language::extension_subtags` -/
def Language_extension_subtags : FnDef := ⟨"extension_subtags", [("self", (.ref false (.path ["Self"] [])))], (.path ["LanguageExtensionIter"] []),
  (.block []
    (.method (.method (.method (.path ["self"]) "extension" []) "map" [(.path ["LanguageExtension", "iter"])]) "unwrap_or_default" []))⟩

/-- `<Language as PartialEq>::eq` -/
def Language_PartialEq_eq : FnDef := ⟨"eq", [("self", (.ref false (.path ["Self"] []))), ("other", (.ref false (.path ["Self"] [])))], (.path ["bool"] []),
  (.block []
    (.call (.path ["utils", "case_insensitive_eq"]) [(.method (.path ["self"]) "as_bytes" []), (.method (.path ["other"]) "as_bytes" [])]))⟩

/-- `<Language as PartialOrd>::partial_cmp` -/
def Language_PartialOrd_partial_cmp : FnDef := ⟨"partial_cmp", [("self", (.ref false (.path ["Self"] []))), ("other", (.ref false (.path ["Self"] [])))], (.path ["Option"] [(.path ["core", "cmp", "Ordering"] [])]),
  (.block []
    (.call (.path ["Some"]) [(.method (.path ["self"]) "cmp" [(.path ["other"])])]))⟩

/-- `<Language as Ord>::cmp` -/
def Language_Ord_cmp : FnDef := ⟨"cmp", [("self", (.ref false (.path ["Self"] []))), ("other", (.ref false (.path ["Self"] [])))], (.path ["core", "cmp", "Ordering"] []),
  (.block []
    (.call (.path ["utils", "case_insensitive_cmp"]) [(.method (.path ["self"]) "as_bytes" []), (.method (.path ["other"]) "as_bytes" [])]))⟩

/-- `<Language as Hash>::hash` -/
def Language_Hash_hash : FnDef := ⟨"hash", [("self", (.ref false (.path ["Self"] []))), ("state", (.ref true (.path ["H"] [])))], (.tuple []),
  (.block []
    (.call (.path ["utils", "case_insensitive_hash"]) [(.method (.path ["self"]) "as_bytes" []), (.path ["state"])]))⟩

/-- The items of `/repo/src/normal/language/mod.rs`. -/
def languageRs : List Item := [
  .glob "extlang",
  .glob "primary",
  .struct "Language" ["Validate", "StrNewType"] ["crate", "grammar", "Language"] (.tuple [(.path ["str"] [])]),
  .impl none (.path ["Language"] []) []
    [Language_primary, Language_extension, Language_extension_subtags],
  .impl (some (.path ["PartialEq"] [])) (.path ["Language"] []) []
    [Language_PartialEq_eq],
  .impl (some (.path ["Eq"] [])) (.path ["Language"] []) []
    [],
  .impl (some (.path ["PartialOrd"] [])) (.path ["Language"] []) []
    [Language_PartialOrd_partial_cmp],
  .impl (some (.path ["Ord"] [])) (.path ["Language"] []) []
    [Language_Ord_cmp],
  .impl (some (.path ["Hash"] [])) (.path ["Language"] []) []
    [Language_Hash_hash]]

end Langtag.Source.Ast
