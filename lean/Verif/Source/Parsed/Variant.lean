import Verif.Source.Parser
import Verif.Source.KernelRfl
import Verif.Source.Text.Variant
import Verif.Source.Ast.Variant

/-! `/repo/src/normal/variant.rs` reads as the abstract syntax of `Verif/Source/Ast/Variant.lean`. -/

set_option autoImplicit false

namespace Langtag.Source.Parsed

theorem variantRs : parseCodes Text.variantRs = some Ast.variantRs := by kernel_rfl

end Langtag.Source.Parsed
