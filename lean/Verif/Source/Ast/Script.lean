import Verif.Source.Syntax

/-! The abstract syntax of `/repo/src/normal/script.rs` (written by `tools/gen_ast.py`; `Verif/Source/Parsed/Script.lean` proves that it is that). -/

set_option autoImplicit false
set_option maxRecDepth 10000

namespace Langtag.Source.Ast

/-- `<Script as PartialEq>::eq` -/
def Script_PartialEq_eq : FnDef := ⟨"eq", [("self", (.ref false (.path ["Self"] []))), ("other", (.ref false (.path ["Self"] [])))], (.path ["bool"] []),
  (.block []
    (.call (.path ["utils", "case_insensitive_eq"]) [(.method (.path ["self"]) "as_bytes" []), (.method (.path ["other"]) "as_bytes" [])]))⟩

/-- `<Script as PartialOrd>::partial_cmp` -/
def Script_PartialOrd_partial_cmp : FnDef := ⟨"partial_cmp", [("self", (.ref false (.path ["Self"] []))), ("other", (.ref false (.path ["Self"] [])))], (.path ["Option"] [(.path ["core", "cmp", "Ordering"] [])]),
  (.block []
    (.call (.path ["Some"]) [(.method (.path ["self"]) "cmp" [(.path ["other"])])]))⟩

/-- `<Script as Ord>::cmp` -/
def Script_Ord_cmp : FnDef := ⟨"cmp", [("self", (.ref false (.path ["Self"] []))), ("other", (.ref false (.path ["Self"] [])))], (.path ["core", "cmp", "Ordering"] []),
  (.block []
    (.call (.path ["utils", "case_insensitive_cmp"]) [(.method (.path ["self"]) "as_bytes" []), (.method (.path ["other"]) "as_bytes" [])]))⟩

/-- `<Script as Hash>::hash` -/
def Script_Hash_hash : FnDef := ⟨"hash", [("self", (.ref false (.path ["Self"] []))), ("state", (.ref true (.path ["H"] [])))], (.tuple []),
  (.block []
    (.call (.path ["utils", "case_insensitive_hash"]) [(.method (.path ["self"]) "as_bytes" []), (.path ["state"])]))⟩

/-- The items of `/repo/src/normal/script.rs`. -/
def scriptRs : List Item := [
  .struct "Script" ["Validate", "StrNewType"] ["crate", "grammar", "Script"] (.tuple [(.path ["str"] [])]),
  .impl (some (.path ["PartialEq"] [])) (.path ["Script"] []) []
    [Script_PartialEq_eq],
  .impl (some (.path ["Eq"] [])) (.path ["Script"] []) []
    [],
  .impl (some (.path ["PartialOrd"] [])) (.path ["Script"] []) []
    [Script_PartialOrd_partial_cmp],
  .impl (some (.path ["Ord"] [])) (.path ["Script"] []) []
    [Script_Ord_cmp],
  .impl (some (.path ["Hash"] [])) (.path ["Script"] []) []
    [Script_Hash_hash]]

end Langtag.Source.Ast
