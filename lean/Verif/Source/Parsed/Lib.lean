import Verif.Source.Parser
import Verif.Source.KernelRfl
import Verif.Source.Text.Lib
import Verif.Source.Ast.Lib

/-! `/repo/src/lib.rs` reads as the abstract syntax of `Verif/Source/Ast/Lib.lean`. -/

set_option autoImplicit false

namespace Langtag.Source.Parsed

theorem libRs : parseCodes Text.libRs = some Ast.libRs := by kernel_rfl

end Langtag.Source.Parsed
