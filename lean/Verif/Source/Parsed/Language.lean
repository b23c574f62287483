import Verif.Source.Parser
import Verif.Source.KernelRfl
import Verif.Source.Text.Language
import Verif.Source.Ast.Language

/-! `/repo/src/normal/language/mod.rs` reads as the abstract syntax of `Verif/Source/Ast/Language.lean`. -/

set_option autoImplicit false

namespace Langtag.Source.Parsed

theorem languageRs : parseCodes Text.languageRs = some Ast.languageRs := by kernel_rfl

end Langtag.Source.Parsed
