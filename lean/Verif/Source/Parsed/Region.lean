import Verif.Source.Parser
import Verif.Source.KernelRfl
import Verif.Source.Text.Region
import Verif.Source.Ast.Region

/-! `/repo/src/normal/region.rs` reads as the abstract syntax of `Verif/Source/Ast/Region.lean`. -/

set_option autoImplicit false

namespace Langtag.Source.Parsed

theorem regionRs : parseCodes Text.regionRs = some Ast.regionRs := by kernel_rfl

end Langtag.Source.Parsed
