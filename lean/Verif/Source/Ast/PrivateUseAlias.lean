import Verif.Source.Syntax

/-! The abstract syntax of `/repo/src/private_use.rs` (written by `tools/gen_ast.py`; `Verif/Source/Parsed/PrivateUseAlias.lean` proves that it is that). -/

set_option autoImplicit false
set_option maxRecDepth 10000

namespace Langtag.Source.Ast

/-- The items of `/repo/src/private_use.rs`. -/
def privateUseAliasRs : List Item := [
  .alias "PrivateUseLangTag" (.path ["crate", "normal", "PrivateUse"] []),
  .alias "PrivateUseLangTagBuf" (.path ["crate", "normal", "PrivateUseBuf"] [])]

end Langtag.Source.Ast
