import Verif.Source.Parser
import Verif.Source.KernelRfl
import Verif.Source.Text.PrivateUseAlias
import Verif.Source.Ast.PrivateUseAlias

/-! `/repo/src/private_use.rs` reads as the abstract syntax of `Verif/Source/Ast/PrivateUseAlias.lean`. -/

set_option autoImplicit false

namespace Langtag.Source.Parsed

theorem privateUseAliasRs : parseCodes Text.privateUseAliasRs = some Ast.privateUseAliasRs := by kernel_rfl

end Langtag.Source.Parsed
