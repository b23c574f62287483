import Verif.Source.Syntax

/-! The abstract syntax of `/repo/src/normal/language/extlang.rs` (written by `tools/gen_ast.py`; `Verif/Source/Parsed/Extlang.lean` proves that it is that). -/

set_option autoImplicit false
set_option maxRecDepth 10000

namespace Langtag.Source.Ast

/-- `LanguageExtension::iter` -/
def LanguageExtension_iter : FnDef := ⟨"iter", [("self", (.ref false (.path ["Self"] [])))], (.path ["LanguageExtensionIter"] []),
  (.block []
    (.call (.path ["LanguageExtensionIter", "new"]) [(.ref false (.field (.path ["self"]) "0"))]))⟩

/-- `<LanguageExtension as PartialEq>::eq` -/
def LanguageExtension_PartialEq_eq : FnDef := ⟨"eq", [("self", (.ref false (.path ["Self"] []))), ("other", (.ref false (.path ["Self"] [])))], (.path ["bool"] []),
  (.block []
    (.call (.path ["utils", "case_insensitive_eq"]) [(.method (.path ["self"]) "as_bytes" []), (.method (.path ["other"]) "as_bytes" [])]))⟩

/-- `<LanguageExtension as PartialOrd>::partial_cmp` -/
def LanguageExtension_PartialOrd_partial_cmp : FnDef := ⟨"partial_cmp", [("self", (.ref false (.path ["Self"] []))), ("other", (.ref false (.path ["Self"] [])))], (.path ["Option"] [(.path ["core", "cmp", "Ordering"] [])]),
  (.block []
    (.call (.path ["Some"]) [(.method (.path ["self"]) "cmp" [(.path ["other"])])]))⟩

/-- `<LanguageExtension as Ord>::cmp` -/
def LanguageExtension_Ord_cmp : FnDef := ⟨"cmp", [("self", (.ref false (.path ["Self"] []))), ("other", (.ref false (.path ["Self"] [])))], (.path ["core", "cmp", "Ordering"] []),
  (.block []
    (.call (.path ["utils", "case_insensitive_cmp"]) [(.method (.path ["self"]) "as_bytes" []), (.method (.path ["other"]) "as_bytes" [])]))⟩

/-- `<LanguageExtension as Hash>::hash` -/
def LanguageExtension_Hash_hash : FnDef := ⟨"hash", [("self", (.ref false (.path ["Self"] []))), ("state", (.ref true (.path ["H"] [])))], (.tuple []),
  (.block []
    (.call (.path ["utils", "case_insensitive_hash"]) [(.method (.path ["self"]) "as_bytes" []), (.path ["state"])]))⟩

/-- `LanguageExtensionIter::new` -/
def LanguageExtensionIter_new : FnDef := ⟨"new", [("data", (.ref false (.path ["str"] [])))], (.path ["Self"] []),
  (.block []
    (.struct ["Self"] [.mk "data" (.path ["data"]), .mk "offset" (.lit (.int 0 ""))]))⟩

/-- `LanguageExtensionIter::empty` -/
def LanguageExtensionIter_empty : FnDef := ⟨"empty", [], (.path ["Self"] []),
  (.block []
    (.call (.path ["Self", "default"]) []))⟩

/-- `<LanguageExtensionIter as Iterator>::next` -/
def LanguageExtensionIter_Iterator_next : FnDef := ⟨"next", [("self", (.ref true (.path ["Self"] [])))], (.path ["Option"] [(.path ["Self", "Item"] [])]),
  (.block []
    (.ite (.bin .lt (.field (.path ["self"]) "offset") (.method (.field (.path ["self"]) "data") "len" []))
      (.block [
        .let (.path ["end"]) (.call (.path ["super", "super", "find_segment_end"]) [(.field (.path ["self"]) "data"), (.field (.path ["self"]) "offset")]),
        .let (.path ["item"]) (.block []
          (.call (.path ["ExtendedLangTag", "new_unchecked"]) [(.ref false (.index (.field (.path ["self"]) "data") (.range (.field (.path ["self"]) "offset") (.path ["end"]))))])),
        .expr (.assign (.field (.path ["self"]) "offset") (.bin .add (.path ["end"]) (.lit (.int 1 ""))))]
        (.call (.path ["Some"]) [(.path ["item"])]))
      (.block []
        (.path ["None"]))))⟩

/-- `<ExtendedLangTag as PartialEq>::eq` -/
def ExtendedLangTag_PartialEq_eq : FnDef := ⟨"eq", [("self", (.ref false (.path ["Self"] []))), ("other", (.ref false (.path ["Self"] [])))], (.path ["bool"] []),
  (.block []
    (.call (.path ["utils", "case_insensitive_eq"]) [(.method (.path ["self"]) "as_bytes" []), (.method (.path ["other"]) "as_bytes" [])]))⟩

/-- `<ExtendedLangTag as PartialOrd>::partial_cmp` -/
def ExtendedLangTag_PartialOrd_partial_cmp : FnDef := ⟨"partial_cmp", [("self", (.ref false (.path ["Self"] []))), ("other", (.ref false (.path ["Self"] [])))], (.path ["Option"] [(.path ["core", "cmp", "Ordering"] [])]),
  (.block []
    (.call (.path ["Some"]) [(.method (.path ["self"]) "cmp" [(.path ["other"])])]))⟩

/-- `<ExtendedLangTag as Ord>::cmp` -/
def ExtendedLangTag_Ord_cmp : FnDef := ⟨"cmp", [("self", (.ref false (.path ["Self"] []))), ("other", (.ref false (.path ["Self"] [])))], (.path ["core", "cmp", "Ordering"] []),
  (.block []
    (.call (.path ["utils", "case_insensitive_cmp"]) [(.method (.path ["self"]) "as_bytes" []), (.method (.path ["other"]) "as_bytes" [])]))⟩

/-- `<ExtendedLangTag as Hash>::hash` -/
def ExtendedLangTag_Hash_hash : FnDef := ⟨"hash", [("self", (.ref false (.path ["Self"] []))), ("state", (.ref true (.path ["H"] [])))], (.tuple []),
  (.block []
    (.call (.path ["utils", "case_insensitive_hash"]) [(.method (.path ["self"]) "as_bytes" []), (.path ["state"])]))⟩

/-- The items of `/repo/src/normal/language/extlang.rs`. -/
def extlangRs : List Item := [
  .struct "LanguageExtension" ["Validate", "StrNewType"] ["crate", "grammar", "Extlang"] (.tuple [(.path ["str"] [])]),
  .impl none (.path ["LanguageExtension"] []) []
    [LanguageExtension_iter],
  .impl (some (.path ["PartialEq"] [])) (.path ["LanguageExtension"] []) []
    [LanguageExtension_PartialEq_eq],
  .impl (some (.path ["Eq"] [])) (.path ["LanguageExtension"] []) []
    [],
  .impl (some (.path ["PartialOrd"] [])) (.path ["LanguageExtension"] []) []
    [LanguageExtension_PartialOrd_partial_cmp],
  .impl (some (.path ["Ord"] [])) (.path ["LanguageExtension"] []) []
    [LanguageExtension_Ord_cmp],
  .impl (some (.path ["Hash"] [])) (.path ["LanguageExtension"] []) []
    [LanguageExtension_Hash_hash],
  .struct "LanguageExtensionIter" ["Default"] [] (.named [("data", (.ref false (.path ["str"] []))), ("offset", (.path ["usize"] []))]),
  .impl none (.path ["LanguageExtensionIter"] []) []
    [LanguageExtensionIter_new, LanguageExtensionIter_empty],
  .impl (some (.path ["Iterator"] [])) (.path ["LanguageExtensionIter"] []) []
    [LanguageExtensionIter_Iterator_next],
  .struct "ExtendedLangTag" ["Validate", "StrNewType"] ["crate", "grammar", "ExtlangTag"] (.tuple [(.path ["str"] [])]),
  .impl (some (.path ["PartialEq"] [])) (.path ["ExtendedLangTag"] []) []
    [ExtendedLangTag_PartialEq_eq],
  .impl (some (.path ["Eq"] [])) (.path ["ExtendedLangTag"] []) []
    [],
  .impl (some (.path ["PartialOrd"] [])) (.path ["ExtendedLangTag"] []) []
    [ExtendedLangTag_PartialOrd_partial_cmp],
  .impl (some (.path ["Ord"] [])) (.path ["ExtendedLangTag"] []) []
    [ExtendedLangTag_Ord_cmp],
  .impl (some (.path ["Hash"] [])) (.path ["ExtendedLangTag"] []) []
    [ExtendedLangTag_Hash_hash]]

end Langtag.Source.Ast
