import Verif.Source.Parser
import Verif.Source.KernelRfl
import Verif.Source.Text.Grammar
import Verif.Source.Automata

/-! `/repo/src/grammar.rs` reads as the automata of `Verif/Model/Automata.lean`. -/

set_option autoImplicit false

namespace Langtag.Source.Parsed

theorem grammarRs : parseCodes Text.grammarRs = some Automata.grammarRs := by kernel_rfl

end Langtag.Source.Parsed
