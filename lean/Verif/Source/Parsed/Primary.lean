import Verif.Source.Parser
import Verif.Source.KernelRfl
import Verif.Source.Text.Primary
import Verif.Source.Ast.Primary

/-! `/repo/src/normal/language/primary.rs` reads as the abstract syntax of `Verif/Source/Ast/Primary.lean`. -/

set_option autoImplicit false

namespace Langtag.Source.Parsed

theorem primaryRs : parseCodes Text.primaryRs = some Ast.primaryRs := by kernel_rfl

end Langtag.Source.Parsed
