import Verif.Source.Parser
import Verif.Source.KernelRfl
import Verif.Source.Text.Script
import Verif.Source.Ast.Script

/-! `/repo/src/normal/script.rs` reads as the abstract syntax of `Verif/Source/Ast/Script.lean`. -/

set_option autoImplicit false

namespace Langtag.Source.Parsed

theorem scriptRs : parseCodes Text.scriptRs = some Ast.scriptRs := by kernel_rfl

end Langtag.Source.Parsed
