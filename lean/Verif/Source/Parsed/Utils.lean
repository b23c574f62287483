import Verif.Source.Parser
import Verif.Source.KernelRfl
import Verif.Source.Text.Utils
import Verif.Source.Ast.Utils

/-! `/repo/src/utils.rs` reads as the abstract syntax of `Verif/Source/Ast/Utils.lean`. -/

set_option autoImplicit false

namespace Langtag.Source.Parsed

theorem utilsRs : parseCodes Text.utilsRs = some Ast.utilsRs := by kernel_rfl

end Langtag.Source.Parsed
