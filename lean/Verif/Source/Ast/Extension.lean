import Verif.Source.Syntax

/-! The abstract syntax of `/repo/src/normal/extension.rs` (written by `tools/gen_ast.py`; `Verif/Source/Parsed/Extension.lean` proves that it is that). -/

set_option autoImplicit false
set_option maxRecDepth 10000

namespace Langtag.Source.Ast

/-- `Singleton::new` -/
def Singleton_new : FnDef := ⟨"new", [("c", (.path ["u8"] []))], (.path ["Result"] [(.path ["Self"] []), (.path ["InvalidSingleton"] [(.path ["u8"] [])])]),
  (.block []
    (.ite (.bin .and (.bin .and (.bin .ne (.path ["c"]) (.lit (.byte 120))) (.bin .ne (.path ["c"]) (.lit (.byte 88)))) (.method (.path ["c"]) "is_ascii_alphanumeric" []))
      (.block []
        (.call (.path ["Ok"]) [(.call (.path ["Self"]) [(.path ["c"])])]))
      (.block []
        (.call (.path ["Err"]) [(.call (.path ["InvalidSingleton"]) [(.path ["c"])])]))))⟩

/-- `Singleton::from_string` -/
def Singleton_from_string : FnDef := ⟨"from_string", [("str", (.ref false (.path ["str"] [])))], (.path ["Result"] [(.path ["Self"] []), (.path ["InvalidSingleton"] [(.ref false (.path ["str"] []))])]),
  (.block []
    (.ite (.bin .eq (.method (.path ["str"]) "len" []) (.lit (.int 1 "")))
      (.block []
        (.method (.method (.method (.method (.method (.path ["str"]) "chars" []) "next" []) "unwrap" []) "try_into" []) "map_err" [(.closure [.wild]
          (.call (.path ["InvalidSingleton"]) [(.path ["str"])]))]))
      (.block []
        (.call (.path ["Err"]) [(.call (.path ["InvalidSingleton"]) [(.path ["str"])])]))))⟩

/-- `Singleton::unwrap` -/
def Singleton_unwrap : FnDef := ⟨"unwrap", [("self", (.path ["Self"] []))], (.path ["u8"] []),
  (.block []
    (.field (.path ["self"]) "0"))⟩

/-- `<Singleton as FromStr>::from_str` -/
def Singleton_FromStr_from_str : FnDef := ⟨"from_str", [("str", (.ref false (.path ["str"] [])))], (.path ["Result"] [(.path ["Self"] []), (.path ["InvalidSingleton"] [(.path ["String"] [])])]),
  (.block []
    (.method (.call (.path ["Self", "from_string"]) [(.path ["str"])]) "map_err" [(.closure [.wild]
      (.call (.path ["InvalidSingleton"]) [(.method (.path ["str"]) "to_owned" [])]))]))⟩

/-- `<Singleton as TryFrom>::try_from` -/
def Singleton_TryFrom_try_from : FnDef := ⟨"try_from", [("b", (.path ["u8"] []))], (.path ["Result"] [(.path ["Singleton"] []), (.path ["InvalidSingleton"] [(.path ["u8"] [])])]),
  (.block []
    (.call (.path ["Self", "new"]) [(.path ["b"])]))⟩

/-- `<Singleton as TryFrom>::try_from` -/
def Singleton_TryFrom_try_from_2 : FnDef := ⟨"try_from", [("c", (.path ["char"] []))], (.path ["Result"] [(.path ["Singleton"] []), (.path ["InvalidSingleton"] [(.path ["char"] [])])]),
  (.block [
    .let (.path ["codepoint"]) (.cast (.path ["c"]) (.path ["u32"] []))]
    (.ite (.bin .lt (.path ["codepoint"]) (.cast (.path ["u8", "MAX"]) (.path ["u32"] [])))
      (.block []
        (.method (.call (.path ["Self", "new"]) [(.cast (.path ["codepoint"]) (.path ["u8"] []))]) "map_err" [(.closure [.wild]
          (.call (.path ["InvalidSingleton"]) [(.path ["c"])]))]))
      (.block []
        (.call (.path ["Err"]) [(.call (.path ["InvalidSingleton"]) [(.path ["c"])])]))))⟩

/-- `<Singleton as PartialEq>::eq` -/
def Singleton_PartialEq_eq : FnDef := ⟨"eq", [("self", (.ref false (.path ["Self"] []))), ("b", (.ref false (.path ["u8"] [])))], (.path ["bool"] []),
  (.block []
    (.bin .eq (.field (.path ["self"]) "0") (.deref (.path ["b"]))))⟩

/-- `<Singleton as PartialEq>::eq` -/
def Singleton_PartialEq_eq_2 : FnDef := ⟨"eq", [("self", (.ref false (.path ["Self"] []))), ("b", (.ref false (.path ["char"] [])))], (.path ["bool"] []),
  (.block []
    (.bin .eq (.cast (.field (.path ["self"]) "0") (.path ["u32"] [])) (.cast (.deref (.path ["b"])) (.path ["u32"] []))))⟩

/-- `<Singleton as Display>::fmt` -/
def Singleton_Display_fmt : FnDef := ⟨"fmt", [("self", (.ref false (.path ["Self"] []))), ("f", (.ref true (.path ["fmt", "Formatter"] [])))], (.path ["fmt", "Result"] []),
  (.block []
    (.method (.cast (.field (.path ["self"]) "0") (.path ["char"] [])) "fmt" [(.path ["f"])]))⟩

/-- `<Singleton as Debug>::fmt` -/
def Singleton_Debug_fmt : FnDef := ⟨"fmt", [("self", (.ref false (.path ["Self"] []))), ("f", (.ref true (.path ["fmt", "Formatter"] [])))], (.path ["fmt", "Result"] []),
  (.block []
    (.method (.cast (.field (.path ["self"]) "0") (.path ["char"] [])) "fmt" [(.path ["f"])]))⟩

/-- `Extension::singleton` -/
def Extension_singleton : FnDef := ⟨"singleton", [("self", (.ref false (.path ["Self"] [])))], (.path ["Singleton"] []),
  (.block []
    (.call (.path ["Singleton"]) [(.index (.method (.field (.path ["self"]) "0") "as_bytes" []) (.lit (.int 0 "")))]))⟩

/-- `Extension::iter` -/
def Extension_iter : FnDef := ⟨"iter", [("self", (.ref false (.path ["Self"] [])))], (.path ["ExtensionIter"] []),
  (.block []
    (.call (.path ["ExtensionIter", "new"]) [(.ref false (.field (.path ["self"]) "0"))]))⟩

/-- `<Extension as PartialEq>::eq` -/
def Extension_PartialEq_eq : FnDef := ⟨"eq", [("self", (.ref false (.path ["Self"] []))), ("other", (.ref false (.path ["Self"] [])))], (.path ["bool"] []),
  (.block []
    (.call (.path ["utils", "case_insensitive_eq"]) [(.method (.path ["self"]) "as_bytes" []), (.method (.path ["other"]) "as_bytes" [])]))⟩

/-- `<Extension as PartialOrd>::partial_cmp` -/
def Extension_PartialOrd_partial_cmp : FnDef := ⟨"partial_cmp", [("self", (.ref false (.path ["Self"] []))), ("other", (.ref false (.path ["Self"] [])))], (.path ["Option"] [(.path ["core", "cmp", "Ordering"] [])]),
  (.block []
    (.call (.path ["Some"]) [(.method (.path ["self"]) "cmp" [(.path ["other"])])]))⟩

/-- `<Extension as Ord>::cmp` -/
def Extension_Ord_cmp : FnDef := ⟨"cmp", [("self", (.ref false (.path ["Self"] []))), ("other", (.ref false (.path ["Self"] [])))], (.path ["core", "cmp", "Ordering"] []),
  (.block []
    (.call (.path ["utils", "case_insensitive_cmp"]) [(.method (.path ["self"]) "as_bytes" []), (.method (.path ["other"]) "as_bytes" [])]))⟩

/-- `<Extension as Hash>::hash` -/
def Extension_Hash_hash : FnDef := ⟨"hash", [("self", (.ref false (.path ["Self"] []))), ("state", (.ref true (.path ["H"] [])))], (.tuple []),
  (.block []
    (.call (.path ["utils", "case_insensitive_hash"]) [(.method (.path ["self"]) "as_bytes" []), (.path ["state"])]))⟩

/-- `ExtensionIter::new` -/
def ExtensionIter_new : FnDef := ⟨"new", [("data", (.ref false (.path ["str"] [])))], (.path ["Self"] []),
  (.block []
    (.struct ["Self"] [.mk "data" (.path ["data"]), .mk "offset" (.lit (.int 2 ""))]))⟩

/-- `ExtensionIter::empty` -/
def ExtensionIter_empty : FnDef := ⟨"empty", [], (.path ["Self"] []),
  (.block []
    (.call (.path ["Self", "default"]) []))⟩

/-- `<ExtensionIter as Iterator>::next` -/
def ExtensionIter_Iterator_next : FnDef := ⟨"next", [("self", (.ref true (.path ["Self"] [])))], (.path ["Option"] [(.path ["Self", "Item"] [])]),
  (.block []
    (.ite (.bin .lt (.field (.path ["self"]) "offset") (.method (.field (.path ["self"]) "data") "len" []))
      (.block [
        .let (.path ["end"]) (.call (.path ["super", "find_segment_end"]) [(.field (.path ["self"]) "data"), (.field (.path ["self"]) "offset")]),
        .let (.path ["item"]) (.block []
          (.call (.path ["ExtensionSubtag", "new_unchecked"]) [(.ref false (.index (.field (.path ["self"]) "data") (.range (.field (.path ["self"]) "offset") (.path ["end"]))))])),
        .expr (.assign (.field (.path ["self"]) "offset") (.bin .add (.path ["end"]) (.lit (.int 1 ""))))]
        (.call (.path ["Some"]) [(.path ["item"])]))
      (.block []
        (.path ["None"]))))⟩

/-- `Extensions::get` -/
def Extensions_get : FnDef := ⟨"get", [("self", (.ref false (.path ["Self"] []))), ("singleton", (.path ["Singleton"] []))], (.path ["Option"] [(.ref false (.path ["Extension"] []))]),
  (.block [
    .let (.path ["bytes"]) (.method (.field (.path ["self"]) "0") "as_bytes" []),
    .let (.path ["i"]) (.lit (.int 0 "")),
    .let (.path ["starting"]) (.lit (.bool true)),
    .expr (.while (.bin .lt (.bin .add (.path ["i"]) (.lit (.int 1 ""))) (.method (.field (.path ["self"]) "0") "len" []))
      (.block [
        .expr (.ite (.path ["starting"])
          (.block [
            .expr (.ite (.bin .and (.bin .eq (.index (.path ["bytes"]) (.path ["i"])) (.field (.path ["singleton"]) "0")) (.bin .eq (.index (.path ["bytes"]) (.bin .add (.path ["i"]) (.lit (.int 1 "")))) (.lit (.byte 45))))
              (.block [
                .let (.path ["end"]) (.call (.path ["super", "find_list_end"]) [(.ref false (.field (.path ["self"]) "0")), (.bin .add (.path ["i"]) (.lit (.int 2 ""))), (.closure [.wild, (.path ["segment"])]
                  (.bin .gt (.method (.path ["segment"]) "len" []) (.lit (.int 1 ""))))]),
                .expr (.return (.call (.path ["Some"]) [(.block []
                  (.call (.path ["Extension", "new_unchecked"]) [(.ref false (.index (.field (.path ["self"]) "0") (.range (.path ["i"]) (.path ["end"]))))]))]))]
                (.tuple []))
              (.tuple []))]
            (.assign (.path ["starting"]) (.lit (.bool false))))
          (.ite (.bin .eq (.index (.path ["bytes"]) (.path ["i"])) (.lit (.byte 45)))
            (.block []
              (.assign (.path ["starting"]) (.lit (.bool true))))
            (.tuple [])))]
        (.opAssign .add (.path ["i"]) (.lit (.int 1 "")))))]
    (.path ["None"]))⟩

/-- `Extensions::iter` -/
def Extensions_iter : FnDef := ⟨"iter", [("self", (.ref false (.path ["Self"] [])))], (.path ["ExtensionsIter"] []),
  (.block []
    (.call (.path ["ExtensionsIter", "new"]) [(.ref false (.field (.path ["self"]) "0"))]))⟩

/-- `Extensions::iter_extension` -/
def Extensions_iter_extension : FnDef := ⟨"iter_extension", [("self", (.ref false (.path ["Self"] []))), ("singleton", (.path ["Singleton"] []))], (.path ["ExtensionIter"] []),
  (.block []
    (.method (.method (.method (.path ["self"]) "get" [(.path ["singleton"])]) "map" [(.path ["Extension", "iter"])]) "unwrap_or_default" []))⟩

/-- `<Extensions as PartialEq>::eq` -/
def Extensions_PartialEq_eq : FnDef := ⟨"eq", [("self", (.ref false (.path ["Self"] []))), ("other", (.ref false (.path ["Self"] [])))], (.path ["bool"] []),
  (.block []
    (.call (.path ["utils", "case_insensitive_eq"]) [(.method (.path ["self"]) "as_bytes" []), (.method (.path ["other"]) "as_bytes" [])]))⟩

/-- `<Extensions as PartialOrd>::partial_cmp` -/
def Extensions_PartialOrd_partial_cmp : FnDef := ⟨"partial_cmp", [("self", (.ref false (.path ["Self"] []))), ("other", (.ref false (.path ["Self"] [])))], (.path ["Option"] [(.path ["core", "cmp", "Ordering"] [])]),
  (.block []
    (.call (.path ["Some"]) [(.method (.path ["self"]) "cmp" [(.path ["other"])])]))⟩

/-- `<Extensions as Ord>::cmp` -/
def Extensions_Ord_cmp : FnDef := ⟨"cmp", [("self", (.ref false (.path ["Self"] []))), ("other", (.ref false (.path ["Self"] [])))], (.path ["core", "cmp", "Ordering"] []),
  (.block []
    (.call (.path ["utils", "case_insensitive_cmp"]) [(.method (.path ["self"]) "as_bytes" []), (.method (.path ["other"]) "as_bytes" [])]))⟩

/-- `<Extensions as Hash>::hash` -/
def Extensions_Hash_hash : FnDef := ⟨"hash", [("self", (.ref false (.path ["Self"] []))), ("state", (.ref true (.path ["H"] [])))], (.tuple []),
  (.block []
    (.call (.path ["utils", "case_insensitive_hash"]) [(.method (.path ["self"]) "as_bytes" []), (.path ["state"])]))⟩

/-- `ExtensionsIter::new` -/
def ExtensionsIter_new : FnDef := ⟨"new", [("data", (.ref false (.path ["str"] [])))], (.path ["Self"] []),
  (.block []
    (.struct ["Self"] [.mk "data" (.path ["data"]), .mk "offset" (.lit (.int 0 ""))]))⟩

/-- `<ExtensionsIter as Iterator>::next` -/
def ExtensionsIter_Iterator_next : FnDef := ⟨"next", [("self", (.ref true (.path ["Self"] [])))], (.path ["Option"] [(.path ["Self", "Item"] [])]),
  (.block []
    (.ite (.bin .lt (.field (.path ["self"]) "offset") (.method (.field (.path ["self"]) "data") "len" []))
      (.block [
        .let (.path ["offset"]) (.bin .add (.field (.path ["self"]) "offset") (.lit (.int 2 ""))),
        .let (.path ["end"]) (.call (.path ["super", "find_list_end"]) [(.field (.path ["self"]) "data"), (.path ["offset"]), (.closure [.wild, (.path ["segment"])]
          (.block []
            (.method (.call (.path ["ExtensionSubtag", "new"]) [(.path ["segment"])]) "is_ok" [])))]),
        .let (.path ["item"]) (.block []
          (.call (.path ["Extension", "new_unchecked"]) [(.ref false (.index (.field (.path ["self"]) "data") (.range (.field (.path ["self"]) "offset") (.path ["end"]))))])),
        .expr (.assign (.field (.path ["self"]) "offset") (.bin .add (.path ["end"]) (.lit (.int 1 ""))))]
        (.call (.path ["Some"]) [(.path ["item"])]))
      (.block []
        (.path ["None"]))))⟩

/-- `<ExtensionSubtag as PartialEq>::eq` -/
def ExtensionSubtag_PartialEq_eq : FnDef := ⟨"eq", [("self", (.ref false (.path ["Self"] []))), ("other", (.ref false (.path ["Self"] [])))], (.path ["bool"] []),
  (.block []
    (.call (.path ["utils", "case_insensitive_eq"]) [(.method (.path ["self"]) "as_bytes" []), (.method (.path ["other"]) "as_bytes" [])]))⟩

/-- `<ExtensionSubtag as PartialOrd>::partial_cmp` -/
def ExtensionSubtag_PartialOrd_partial_cmp : FnDef := ⟨"partial_cmp", [("self", (.ref false (.path ["Self"] []))), ("other", (.ref false (.path ["Self"] [])))], (.path ["Option"] [(.path ["core", "cmp", "Ordering"] [])]),
  (.block []
    (.call (.path ["Some"]) [(.method (.path ["self"]) "cmp" [(.path ["other"])])]))⟩

/-- `<ExtensionSubtag as Ord>::cmp` -/
def ExtensionSubtag_Ord_cmp : FnDef := ⟨"cmp", [("self", (.ref false (.path ["Self"] []))), ("other", (.ref false (.path ["Self"] [])))], (.path ["core", "cmp", "Ordering"] []),
  (.block []
    (.call (.path ["utils", "case_insensitive_cmp"]) [(.method (.path ["self"]) "as_bytes" []), (.method (.path ["other"]) "as_bytes" [])]))⟩

/-- `<ExtensionSubtag as Hash>::hash` -/
def ExtensionSubtag_Hash_hash : FnDef := ⟨"hash", [("self", (.ref false (.path ["Self"] []))), ("state", (.ref true (.path ["H"] [])))], (.tuple []),
  (.block []
    (.call (.path ["utils", "case_insensitive_hash"]) [(.method (.path ["self"]) "as_bytes" []), (.path ["state"])]))⟩

/-- The items of `/repo/src/normal/extension.rs`. -/
def extensionRs : List Item := [
  .struct "InvalidSingleton" ["Debug", "Error"] [] (.tuple [(.path ["T"] [])]),
  .struct "Singleton" ["Copy", "Clone", "PartialEq", "Eq", "Hash", "PartialOrd", "Ord"] [] (.tuple [(.path ["u8"] [])]),
  .impl none (.path ["Singleton"] []) []
    [Singleton_new, Singleton_from_string, Singleton_unwrap],
  .impl (some (.path ["core", "str", "FromStr"] [])) (.path ["Singleton"] []) []
    [Singleton_FromStr_from_str],
  .impl (some (.path ["TryFrom"] [(.path ["u8"] [])])) (.path ["Singleton"] []) []
    [Singleton_TryFrom_try_from],
  .impl (some (.path ["TryFrom"] [(.path ["char"] [])])) (.path ["Singleton"] []) []
    [Singleton_TryFrom_try_from_2],
  .impl (some (.path ["PartialEq"] [(.path ["u8"] [])])) (.path ["Singleton"] []) []
    [Singleton_PartialEq_eq],
  .impl (some (.path ["PartialEq"] [(.path ["char"] [])])) (.path ["Singleton"] []) []
    [Singleton_PartialEq_eq_2],
  .impl (some (.path ["fmt", "Display"] [])) (.path ["Singleton"] []) []
    [Singleton_Display_fmt],
  .impl (some (.path ["fmt", "Debug"] [])) (.path ["Singleton"] []) []
    [Singleton_Debug_fmt],
  .struct "Extension" ["Validate", "StrNewType"] ["crate", "grammar", "Extension"] (.tuple [(.path ["str"] [])]),
  .impl none (.path ["Extension"] []) []
    [Extension_singleton, Extension_iter],
  .impl (some (.path ["PartialEq"] [])) (.path ["Extension"] []) []
    [Extension_PartialEq_eq],
  .impl (some (.path ["Eq"] [])) (.path ["Extension"] []) []
    [],
  .impl (some (.path ["PartialOrd"] [])) (.path ["Extension"] []) []
    [Extension_PartialOrd_partial_cmp],
  .impl (some (.path ["Ord"] [])) (.path ["Extension"] []) []
    [Extension_Ord_cmp],
  .impl (some (.path ["Hash"] [])) (.path ["Extension"] []) []
    [Extension_Hash_hash],
  .struct "ExtensionIter" ["Default"] [] (.named [("data", (.ref false (.path ["str"] []))), ("offset", (.path ["usize"] []))]),
  .impl none (.path ["ExtensionIter"] []) []
    [ExtensionIter_new, ExtensionIter_empty],
  .impl (some (.path ["Iterator"] [])) (.path ["ExtensionIter"] []) []
    [ExtensionIter_Iterator_next],
  .struct "Extensions" ["Validate", "StrNewType"] ["crate", "grammar", "Extensions"] (.tuple [(.path ["str"] [])]),
  .impl none (.path ["Extensions"] []) [("EMPTY", (.block []
    (.call (.path ["Self", "new_unchecked"]) [(.lit (.str []))])))]
    [Extensions_get, Extensions_iter, Extensions_iter_extension],
  .impl (some (.path ["PartialEq"] [])) (.path ["Extensions"] []) []
    [Extensions_PartialEq_eq],
  .impl (some (.path ["Eq"] [])) (.path ["Extensions"] []) []
    [],
  .impl (some (.path ["PartialOrd"] [])) (.path ["Extensions"] []) []
    [Extensions_PartialOrd_partial_cmp],
  .impl (some (.path ["Ord"] [])) (.path ["Extensions"] []) []
    [Extensions_Ord_cmp],
  .impl (some (.path ["Hash"] [])) (.path ["Extensions"] []) []
    [Extensions_Hash_hash],
  .struct "ExtensionsIter" [] [] (.named [("data", (.ref false (.path ["str"] []))), ("offset", (.path ["usize"] []))]),
  .impl none (.path ["ExtensionsIter"] []) []
    [ExtensionsIter_new],
  .impl (some (.path ["Iterator"] [])) (.path ["ExtensionsIter"] []) []
    [ExtensionsIter_Iterator_next],
  .struct "ExtensionSubtag" ["Validate", "StrNewType"] ["crate", "grammar", "ExtensionSubtag"] (.tuple [(.path ["str"] [])]),
  .impl (some (.path ["PartialEq"] [])) (.path ["ExtensionSubtag"] []) []
    [ExtensionSubtag_PartialEq_eq],
  .impl (some (.path ["Eq"] [])) (.path ["ExtensionSubtag"] []) []
    [],
  .impl (some (.path ["PartialOrd"] [])) (.path ["ExtensionSubtag"] []) []
    [ExtensionSubtag_PartialOrd_partial_cmp],
  .impl (some (.path ["Ord"] [])) (.path ["ExtensionSubtag"] []) []
    [ExtensionSubtag_Ord_cmp],
  .impl (some (.path ["Hash"] [])) (.path ["ExtensionSubtag"] []) []
    [ExtensionSubtag_Hash_hash]]

end Langtag.Source.Ast
