import Verif.Source.Parser
import Verif.Source.KernelRfl
import Verif.Source.Text.Grandfathered
import Verif.Source.Ast.Grandfathered

/-! `/repo/src/grandfathered.rs` reads as the abstract syntax of `Verif/Source/Ast/Grandfathered.lean`. -/

set_option autoImplicit false

namespace Langtag.Source.Parsed

theorem grandfatheredRs : parseCodes Text.grandfatheredRs = some Ast.grandfatheredRs := by kernel_rfl

end Langtag.Source.Parsed
