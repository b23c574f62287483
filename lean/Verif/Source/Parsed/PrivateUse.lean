import Verif.Source.Parser
import Verif.Source.KernelRfl
import Verif.Source.Text.PrivateUse
import Verif.Source.Ast.PrivateUse

/-! `/repo/src/normal/private_use.rs` reads as the abstract syntax of `Verif/Source/Ast/PrivateUse.lean`. -/

set_option autoImplicit false

namespace Langtag.Source.Parsed

theorem privateUseRs : parseCodes Text.privateUseRs = some Ast.privateUseRs := by kernel_rfl

end Langtag.Source.Parsed
