import Verif.Source.Syntax

/-! The abstract syntax of `/repo/src/normal/region.rs` (written by `tools/gen_ast.py`; `Verif/Source/Parsed/Region.lean` proves that it is that). -/

set_option autoImplicit false
set_option maxRecDepth 10000

namespace Langtag.Source.Ast

/-- `<Region as PartialEq>::eq` -/
def Region_PartialEq_eq : FnDef := ⟨"eq", [("self", (.ref false (.path ["Self"] []))), ("other", (.ref false (.path ["Self"] [])))], (.path ["bool"] []),
  (.block []
    (.call (.path ["utils", "case_insensitive_eq"]) [(.method (.path ["self"]) "as_bytes" []), (.method (.path ["other"]) "as_bytes" [])]))⟩

/-- `<Region as PartialOrd>::partial_cmp` -/
def Region_PartialOrd_partial_cmp : FnDef := ⟨"partial_cmp", [("self", (.ref false (.path ["Self"] []))), ("other", (.ref false (.path ["Self"] [])))], (.path ["Option"] [(.path ["core", "cmp", "Ordering"] [])]),
  (.block []
    (.call (.path ["Some"]) [(.method (.path ["self"]) "cmp" [(.path ["other"])])]))⟩

/-- `<Region as Ord>::cmp` -/
def Region_Ord_cmp : FnDef := ⟨"cmp", [("self", (.ref false (.path ["Self"] []))), ("other", (.ref false (.path ["Self"] [])))], (.path ["core", "cmp", "Ordering"] []),
  (.block []
    (.call (.path ["utils", "case_insensitive_cmp"]) [(.method (.path ["self"]) "as_bytes" []), (.method (.path ["other"]) "as_bytes" [])]))⟩

/-- `<Region as Hash>::hash` -/
def Region_Hash_hash : FnDef := ⟨"hash", [("self", (.ref false (.path ["Self"] []))), ("state", (.ref true (.path ["H"] [])))], (.tuple []),
  (.block []
    (.call (.path ["utils", "case_insensitive_hash"]) [(.method (.path ["self"]) "as_bytes" []), (.path ["state"])]))⟩

/-- The items of `/repo/src/normal/region.rs`. -/
def regionRs : List Item := [
  .struct "Region" ["Validate", "StrNewType"] ["crate", "grammar", "Region"] (.tuple [(.path ["str"] [])]),
  .impl (some (.path ["PartialEq"] [])) (.path ["Region"] []) []
    [Region_PartialEq_eq],
  .impl (some (.path ["Eq"] [])) (.path ["Region"] []) []
    [],
  .impl (some (.path ["PartialOrd"] [])) (.path ["Region"] []) []
    [Region_PartialOrd_partial_cmp],
  .impl (some (.path ["Ord"] [])) (.path ["Region"] []) []
    [Region_Ord_cmp],
  .impl (some (.path ["Hash"] [])) (.path ["Region"] []) []
    [Region_Hash_hash]]

end Langtag.Source.Ast
