import Verif.Source.Syntax

/-! The abstract syntax of `/repo/src/normal/language/primary.rs` (written by `tools/gen_ast.py`; `Verif/Source/Parsed/Primary.lean` proves that it is that). -/

set_option autoImplicit false
set_option maxRecDepth 10000

namespace Langtag.Source.Ast

/-- `<PrimaryLanguage as PartialEq>::eq` -/
def PrimaryLanguage_PartialEq_eq : FnDef := ⟨"eq", [("self", (.ref false (.path ["Self"] []))), ("other", (.ref false (.path ["Self"] [])))], (.path ["bool"] []),
  (.block []
    (.call (.path ["utils", "case_insensitive_eq"]) [(.method (.path ["self"]) "as_bytes" []), (.method (.path ["other"]) "as_bytes" [])]))⟩

/-- `<PrimaryLanguage as PartialOrd>::partial_cmp` -/
def PrimaryLanguage_PartialOrd_partial_cmp : FnDef := ⟨"partial_cmp", [("self", (.ref false (.path ["Self"] []))), ("other", (.ref false (.path ["Self"] [])))], (.path ["Option"] [(.path ["core", "cmp", "Ordering"] [])]),
  (.block []
    (.call (.path ["Some"]) [(.method (.path ["self"]) "cmp" [(.path ["other"])])]))⟩

/-- `<PrimaryLanguage as Ord>::cmp` -/
def PrimaryLanguage_Ord_cmp : FnDef := ⟨"cmp", [("self", (.ref false (.path ["Self"] []))), ("other", (.ref false (.path ["Self"] [])))], (.path ["core", "cmp", "Ordering"] []),
  (.block []
    (.call (.path ["utils", "case_insensitive_cmp"]) [(.method (.path ["self"]) "as_bytes" []), (.method (.path ["other"]) "as_bytes" [])]))⟩

/-- `<PrimaryLanguage as Hash>::hash` -/
def PrimaryLanguage_Hash_hash : FnDef := ⟨"hash", [("self", (.ref false (.path ["Self"] []))), ("state", (.ref true (.path ["H"] [])))], (.tuple []),
  (.block []
    (.call (.path ["utils", "case_insensitive_hash"]) [(.method (.path ["self"]) "as_bytes" []), (.path ["state"])]))⟩

/-- The items of `/repo/src/normal/language/primary.rs`. -/
def primaryRs : List Item := [
  .struct "PrimaryLanguage" ["Validate", "StrNewType"] ["crate", "grammar", "Primary"] (.tuple [(.path ["str"] [])]),
  .impl (some (.path ["PartialEq"] [])) (.path ["PrimaryLanguage"] []) []
    [PrimaryLanguage_PartialEq_eq],
  .impl (some (.path ["Eq"] [])) (.path ["PrimaryLanguage"] []) []
    [],
  .impl (some (.path ["PartialOrd"] [])) (.path ["PrimaryLanguage"] []) []
    [PrimaryLanguage_PartialOrd_partial_cmp],
  .impl (some (.path ["Ord"] [])) (.path ["PrimaryLanguage"] []) []
    [PrimaryLanguage_Ord_cmp],
  .impl (some (.path ["Hash"] [])) (.path ["PrimaryLanguage"] []) []
    [PrimaryLanguage_Hash_hash]]

end Langtag.Source.Ast
