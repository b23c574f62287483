import Verif.Source.Parser
import Verif.Source.KernelRfl
import Verif.Source.Text.Extension
import Verif.Source.Ast.Extension

/-! `/repo/src/normal/extension.rs` reads as the abstract syntax of `Verif/Source/Ast/Extension.lean`. -/

set_option autoImplicit false

namespace Langtag.Source.Parsed

theorem extensionRs : parseCodes Text.extensionRs = some Ast.extensionRs := by kernel_rfl

end Langtag.Source.Parsed
