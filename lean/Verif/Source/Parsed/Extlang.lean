import Verif.Source.Parser
import Verif.Source.KernelRfl
import Verif.Source.Text.Extlang
import Verif.Source.Ast.Extlang

/-! `/repo/src/normal/language/extlang.rs` reads as the abstract syntax of `Verif/Source/Ast/Extlang.lean`. -/

set_option autoImplicit false

namespace Langtag.Source.Parsed

theorem extlangRs : parseCodes Text.extlangRs = some Ast.extlangRs := by kernel_rfl

end Langtag.Source.Parsed
