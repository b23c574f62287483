import Verif.Source.Syntax

/-! The abstract syntax of `/repo/src/normal/private_use.rs` (written by `tools/gen_ast.py`; `Verif/Source/Parsed/PrivateUse.lean` proves that it is that). -/

set_option autoImplicit false
set_option maxRecDepth 10000

namespace Langtag.Source.Ast

/-- `PrivateUse::iter` -/
def PrivateUse_iter : FnDef := ⟨"iter", [("self", (.ref false (.path ["Self"] [])))], (.path ["PrivateUseIter"] []),
  (.block []
    (.call (.path ["PrivateUseIter", "new"]) [(.ref false (.field (.path ["self"]) "0"))]))⟩

/-- `<PrivateUse as PartialEq>::eq` -/
def PrivateUse_PartialEq_eq : FnDef := ⟨"eq", [("self", (.ref false (.path ["Self"] []))), ("other", (.ref false (.path ["Self"] [])))], (.path ["bool"] []),
  (.block []
    (.call (.path ["utils", "case_insensitive_eq"]) [(.method (.path ["self"]) "as_bytes" []), (.method (.path ["other"]) "as_bytes" [])]))⟩

/-- `<PrivateUse as PartialOrd>::partial_cmp` -/
def PrivateUse_PartialOrd_partial_cmp : FnDef := ⟨"partial_cmp", [("self", (.ref false (.path ["Self"] []))), ("other", (.ref false (.path ["Self"] [])))], (.path ["Option"] [(.path ["core", "cmp", "Ordering"] [])]),
  (.block []
    (.call (.path ["Some"]) [(.method (.path ["self"]) "cmp" [(.path ["other"])])]))⟩

/-- `<PrivateUse as Ord>::cmp` -/
def PrivateUse_Ord_cmp : FnDef := ⟨"cmp", [("self", (.ref false (.path ["Self"] []))), ("other", (.ref false (.path ["Self"] [])))], (.path ["core", "cmp", "Ordering"] []),
  (.block []
    (.call (.path ["utils", "case_insensitive_cmp"]) [(.method (.path ["self"]) "as_bytes" []), (.method (.path ["other"]) "as_bytes" [])]))⟩

/-- `<PrivateUse as Hash>::hash` -/
def PrivateUse_Hash_hash : FnDef := ⟨"hash", [("self", (.ref false (.path ["Self"] []))), ("state", (.ref true (.path ["H"] [])))], (.tuple []),
  (.block []
    (.call (.path ["utils", "case_insensitive_hash"]) [(.method (.path ["self"]) "as_bytes" []), (.path ["state"])]))⟩

/-- `PrivateUseIter::new` -/
def PrivateUseIter_new : FnDef := ⟨"new", [("data", (.ref false (.path ["str"] [])))], (.path ["Self"] []),
  (.block []
    (.struct ["Self"] [.mk "data" (.path ["data"]), .mk "offset" (.lit (.int 2 ""))]))⟩

/-- `PrivateUseIter::empty` -/
def PrivateUseIter_empty : FnDef := ⟨"empty", [], (.path ["Self"] []),
  (.block []
    (.call (.path ["Self", "default"]) []))⟩

/-- `<PrivateUseIter as Iterator>::next` -/
def PrivateUseIter_Iterator_next : FnDef := ⟨"next", [("self", (.ref true (.path ["Self"] [])))], (.path ["Option"] [(.path ["Self", "Item"] [])]),
  (.block []
    (.ite (.bin .lt (.field (.path ["self"]) "offset") (.method (.field (.path ["self"]) "data") "len" []))
      (.block [
        .let (.path ["end"]) (.call (.path ["super", "find_segment_end"]) [(.field (.path ["self"]) "data"), (.field (.path ["self"]) "offset")]),
        .let (.path ["item"]) (.block []
          (.ref false (.call (.path ["PrivateUseSubtag", "new_unchecked"]) [(.ref false (.index (.field (.path ["self"]) "data") (.range (.field (.path ["self"]) "offset") (.path ["end"]))))]))),
        .expr (.assign (.field (.path ["self"]) "offset") (.bin .add (.path ["end"]) (.lit (.int 1 ""))))]
        (.call (.path ["Some"]) [(.path ["item"])]))
      (.block []
        (.path ["None"]))))⟩

/-- `<PrivateUseSubtag as PartialEq>::eq` -/
def PrivateUseSubtag_PartialEq_eq : FnDef := ⟨"eq", [("self", (.ref false (.path ["Self"] []))), ("other", (.ref false (.path ["Self"] [])))], (.path ["bool"] []),
  (.block []
    (.call (.path ["utils", "case_insensitive_eq"]) [(.method (.path ["self"]) "as_bytes" []), (.method (.path ["other"]) "as_bytes" [])]))⟩

/-- `<PrivateUseSubtag as PartialOrd>::partial_cmp` -/
def PrivateUseSubtag_PartialOrd_partial_cmp : FnDef := ⟨"partial_cmp", [("self", (.ref false (.path ["Self"] []))), ("other", (.ref false (.path ["Self"] [])))], (.path ["Option"] [(.path ["core", "cmp", "Ordering"] [])]),
  (.block []
    (.call (.path ["Some"]) [(.method (.path ["self"]) "cmp" [(.path ["other"])])]))⟩

/-- `<PrivateUseSubtag as Ord>::cmp` -/
def PrivateUseSubtag_Ord_cmp : FnDef := ⟨"cmp", [("self", (.ref false (.path ["Self"] []))), ("other", (.ref false (.path ["Self"] [])))], (.path ["core", "cmp", "Ordering"] []),
  (.block []
    (.call (.path ["utils", "case_insensitive_cmp"]) [(.method (.path ["self"]) "as_bytes" []), (.method (.path ["other"]) "as_bytes" [])]))⟩

/-- `<PrivateUseSubtag as Hash>::hash` -/
def PrivateUseSubtag_Hash_hash : FnDef := ⟨"hash", [("self", (.ref false (.path ["Self"] []))), ("state", (.ref true (.path ["H"] [])))], (.tuple []),
  (.block []
    (.call (.path ["utils", "case_insensitive_hash"]) [(.method (.path ["self"]) "as_bytes" []), (.path ["state"])]))⟩

/-- The items of `/repo/src/normal/private_use.rs`. -/
def privateUseRs : List Item := [
  .struct "PrivateUse" ["Validate", "StrNewType"] ["crate", "grammar", "Privateuse"] (.tuple [(.path ["str"] [])]),
  .impl none (.path ["PrivateUse"] []) []
    [PrivateUse_iter],
  .impl (some (.path ["PartialEq"] [])) (.path ["PrivateUse"] []) []
    [PrivateUse_PartialEq_eq],
  .impl (some (.path ["Eq"] [])) (.path ["PrivateUse"] []) []
    [],
  .impl (some (.path ["PartialOrd"] [])) (.path ["PrivateUse"] []) []
    [PrivateUse_PartialOrd_partial_cmp],
  .impl (some (.path ["Ord"] [])) (.path ["PrivateUse"] []) []
    [PrivateUse_Ord_cmp],
  .impl (some (.path ["Hash"] [])) (.path ["PrivateUse"] []) []
    [PrivateUse_Hash_hash],
  .struct "PrivateUseIter" ["Default"] [] (.named [("data", (.ref false (.path ["str"] []))), ("offset", (.path ["usize"] []))]),
  .impl none (.path ["PrivateUseIter"] []) []
    [PrivateUseIter_new, PrivateUseIter_empty],
  .impl (some (.path ["Iterator"] [])) (.path ["PrivateUseIter"] []) []
    [PrivateUseIter_Iterator_next],
  .struct "PrivateUseSubtag" ["Validate", "StrNewType"] ["crate", "grammar", "PrivateuseSubtag"] (.tuple [(.path ["str"] [])]),
  .impl (some (.path ["PartialEq"] [])) (.path ["PrivateUseSubtag"] []) []
    [PrivateUseSubtag_PartialEq_eq],
  .impl (some (.path ["Eq"] [])) (.path ["PrivateUseSubtag"] []) []
    [],
  .impl (some (.path ["PartialOrd"] [])) (.path ["PrivateUseSubtag"] []) []
    [PrivateUseSubtag_PartialOrd_partial_cmp],
  .impl (some (.path ["Ord"] [])) (.path ["PrivateUseSubtag"] []) []
    [PrivateUseSubtag_Ord_cmp],
  .impl (some (.path ["Hash"] [])) (.path ["PrivateUseSubtag"] []) []
    [PrivateUseSubtag_Hash_hash]]

end Langtag.Source.Ast
