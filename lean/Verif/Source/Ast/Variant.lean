import Verif.Source.Syntax

/-! The abstract syntax of `/repo/src/normal/variant.rs` (written by `tools/gen_ast.py`; `Verif/Source/Parsed/Variant.lean` proves that it is that). -/

set_option autoImplicit false
set_option maxRecDepth 10000

namespace Langtag.Source.Ast

/-- `<Variant as PartialEq>::eq` -/
def Variant_PartialEq_eq : FnDef := ⟨"eq", [("self", (.ref false (.path ["Self"] []))), ("other", (.ref false (.path ["Self"] [])))], (.path ["bool"] []),
  (.block []
    (.call (.path ["utils", "case_insensitive_eq"]) [(.method (.path ["self"]) "as_bytes" []), (.method (.path ["other"]) "as_bytes" [])]))⟩

/-- `<Variant as PartialOrd>::partial_cmp` -/
def Variant_PartialOrd_partial_cmp : FnDef := ⟨"partial_cmp", [("self", (.ref false (.path ["Self"] []))), ("other", (.ref false (.path ["Self"] [])))], (.path ["Option"] [(.path ["core", "cmp", "Ordering"] [])]),
  (.block []
    (.call (.path ["Some"]) [(.method (.path ["self"]) "cmp" [(.path ["other"])])]))⟩

/-- `<Variant as Ord>::cmp` -/
def Variant_Ord_cmp : FnDef := ⟨"cmp", [("self", (.ref false (.path ["Self"] []))), ("other", (.ref false (.path ["Self"] [])))], (.path ["core", "cmp", "Ordering"] []),
  (.block []
    (.call (.path ["utils", "case_insensitive_cmp"]) [(.method (.path ["self"]) "as_bytes" []), (.method (.path ["other"]) "as_bytes" [])]))⟩

/-- `<Variant as Hash>::hash` -/
def Variant_Hash_hash : FnDef := ⟨"hash", [("self", (.ref false (.path ["Self"] []))), ("state", (.ref true (.path ["H"] [])))], (.tuple []),
  (.block []
    (.call (.path ["utils", "case_insensitive_hash"]) [(.method (.path ["self"]) "as_bytes" []), (.path ["state"])]))⟩

/-- `Variants::iter` -/
def Variants_iter : FnDef := ⟨"iter", [("self", (.ref false (.path ["Self"] [])))], (.path ["VariantsIter"] []),
  (.block []
    (.call (.path ["VariantsIter", "new"]) [(.ref false (.field (.path ["self"]) "0"))]))⟩

/-- `Variants::first` -/
def Variants_first : FnDef := ⟨"first", [("self", (.ref false (.path ["Self"] [])))], (.path ["Option"] [(.ref false (.path ["Variant"] []))]),
  (.block []
    (.method (.method (.path ["self"]) "iter" []) "next" []))⟩

/-- `Variants::last` -/
def Variants_last : FnDef := ⟨"last", [("self", (.ref false (.path ["Self"] [])))], (.path ["Option"] [(.ref false (.path ["Variant"] []))]),
  (.block []
    (.method (.method (.path ["self"]) "iter" []) "next_back" []))⟩

/-- `<Variants as PartialEq>::eq` -/
def Variants_PartialEq_eq : FnDef := ⟨"eq", [("self", (.ref false (.path ["Self"] []))), ("other", (.ref false (.path ["Self"] [])))], (.path ["bool"] []),
  (.block []
    (.call (.path ["utils", "case_insensitive_eq"]) [(.method (.path ["self"]) "as_bytes" []), (.method (.path ["other"]) "as_bytes" [])]))⟩

/-- `<Variants as PartialOrd>::partial_cmp` -/
def Variants_PartialOrd_partial_cmp : FnDef := ⟨"partial_cmp", [("self", (.ref false (.path ["Self"] []))), ("other", (.ref false (.path ["Self"] [])))], (.path ["Option"] [(.path ["core", "cmp", "Ordering"] [])]),
  (.block []
    (.call (.path ["Some"]) [(.method (.path ["self"]) "cmp" [(.path ["other"])])]))⟩

/-- `<Variants as Ord>::cmp` -/
def Variants_Ord_cmp : FnDef := ⟨"cmp", [("self", (.ref false (.path ["Self"] []))), ("other", (.ref false (.path ["Self"] [])))], (.path ["core", "cmp", "Ordering"] []),
  (.block []
    (.call (.path ["utils", "case_insensitive_cmp"]) [(.method (.path ["self"]) "as_bytes" []), (.method (.path ["other"]) "as_bytes" [])]))⟩

/-- `<Variants as Hash>::hash` -/
def Variants_Hash_hash : FnDef := ⟨"hash", [("self", (.ref false (.path ["Self"] []))), ("state", (.ref true (.path ["H"] [])))], (.tuple []),
  (.block []
    (.call (.path ["utils", "case_insensitive_hash"]) [(.method (.path ["self"]) "as_bytes" []), (.path ["state"])]))⟩

/-- `VariantsIter::new` -/
def VariantsIter_new : FnDef := ⟨"new", [("data", (.ref false (.path ["str"] [])))], (.path ["Self"] []),
  (.block []
    (.struct ["Self"] [.mk "data" (.path ["data"]), .mk "offset" (.lit (.int 0 "")), .mk "end" (.method (.path ["data"]) "len" [])]))⟩

/-- `VariantsIter::empty` -/
def VariantsIter_empty : FnDef := ⟨"empty", [], (.path ["Self"] []),
  (.block []
    (.call (.path ["Self", "default"]) []))⟩

/-- `<VariantsIter as Iterator>::next` -/
def VariantsIter_Iterator_next : FnDef := ⟨"next", [("self", (.ref true (.path ["Self"] [])))], (.path ["Option"] [(.path ["Self", "Item"] [])]),
  (.block []
    (.ite (.bin .lt (.field (.path ["self"]) "offset") (.field (.path ["self"]) "end"))
      (.block [
        .let (.path ["end"]) (.call (.path ["super", "find_segment_end"]) [(.field (.path ["self"]) "data"), (.field (.path ["self"]) "offset")]),
        .let (.path ["item"]) (.block []
          (.call (.path ["Variant", "new_unchecked"]) [(.ref false (.index (.field (.path ["self"]) "data") (.range (.field (.path ["self"]) "offset") (.path ["end"]))))])),
        .expr (.assign (.field (.path ["self"]) "offset") (.bin .add (.path ["end"]) (.lit (.int 1 ""))))]
        (.call (.path ["Some"]) [(.path ["item"])]))
      (.block []
        (.path ["None"]))))⟩

/-- `<VariantsIter as DoubleEndedIterator>::next_back` -/
def VariantsIter_DoubleEndedIterator_next_back : FnDef := ⟨"next_back", [("self", (.ref true (.path ["Self"] [])))], (.path ["Option"] [(.path ["Self", "Item"] [])]),
  (.block []
    (.ite (.bin .gt (.field (.path ["self"]) "end") (.field (.path ["self"]) "offset"))
      (.block [
        .let (.path ["start"]) (.call (.path ["super", "find_segment_start"]) [(.field (.path ["self"]) "data"), (.field (.path ["self"]) "end")]),
        .let (.path ["item"]) (.block []
          (.call (.path ["Variant", "new_unchecked"]) [(.ref false (.index (.field (.path ["self"]) "data") (.range (.path ["start"]) (.field (.path ["self"]) "end"))))])),
        .expr (.assign (.field (.path ["self"]) "end") (.ite (.bin .gt (.path ["start"]) (.lit (.int 0 "")))
          (.block []
            (.bin .sub (.path ["start"]) (.lit (.int 1 ""))))
          (.block []
            (.lit (.int 0 "")))))]
        (.call (.path ["Some"]) [(.path ["item"])]))
      (.block []
        (.path ["None"]))))⟩

/-- The items of `/repo/src/normal/variant.rs`. -/
def variantRs : List Item := [
  .struct "Variant" ["Validate", "StrNewType"] ["crate", "grammar", "Variant"] (.tuple [(.path ["str"] [])]),
  .impl (some (.path ["PartialEq"] [])) (.path ["Variant"] []) []
    [Variant_PartialEq_eq],
  .impl (some (.path ["Eq"] [])) (.path ["Variant"] []) []
    [],
  .impl (some (.path ["PartialOrd"] [])) (.path ["Variant"] []) []
    [Variant_PartialOrd_partial_cmp],
  .impl (some (.path ["Ord"] [])) (.path ["Variant"] []) []
    [Variant_Ord_cmp],
  .impl (some (.path ["Hash"] [])) (.path ["Variant"] []) []
    [Variant_Hash_hash],
  .struct "Variants" ["Validate", "StrNewType"] ["crate", "grammar", "Variants"] (.tuple [(.path ["str"] [])]),
  .impl none (.path ["Variants"] []) [("EMPTY", (.block []
    (.call (.path ["Self", "new_unchecked"]) [(.lit (.str []))])))]
    [Variants_iter, Variants_first, Variants_last],
  .impl (some (.path ["PartialEq"] [])) (.path ["Variants"] []) []
    [Variants_PartialEq_eq],
  .impl (some (.path ["Eq"] [])) (.path ["Variants"] []) []
    [],
  .impl (some (.path ["PartialOrd"] [])) (.path ["Variants"] []) []
    [Variants_PartialOrd_partial_cmp],
  .impl (some (.path ["Ord"] [])) (.path ["Variants"] []) []
    [Variants_Ord_cmp],
  .impl (some (.path ["Hash"] [])) (.path ["Variants"] []) []
    [Variants_Hash_hash],
  .struct "VariantsIter" ["Default"] [] (.named [("data", (.ref false (.path ["str"] []))), ("offset", (.path ["usize"] [])), ("end", (.path ["usize"] []))]),
  .impl none (.path ["VariantsIter"] []) []
    [VariantsIter_new, VariantsIter_empty],
  .impl (some (.path ["Iterator"] [])) (.path ["VariantsIter"] []) []
    [VariantsIter_Iterator_next],
  .impl (some (.path ["DoubleEndedIterator"] [])) (.path ["VariantsIter"] []) []
    [VariantsIter_DoubleEndedIterator_next_back]]

end Langtag.Source.Ast
