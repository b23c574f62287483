import Verif.Source.Parser
import Verif.Source.KernelRfl
import Verif.Source.Text.Normal
import Verif.Source.Ast.Normal

/-! `/repo/src/normal/mod.rs` reads as the abstract syntax of `Verif/Source/Ast/Normal.lean`. -/

set_option autoImplicit false

namespace Langtag.Source.Parsed

theorem normalRs : parseCodes Text.normalRs = some Ast.normalRs := by kernel_rfl

end Langtag.Source.Parsed
