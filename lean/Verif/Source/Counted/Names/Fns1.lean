import Verif.Source.Counted.Names

/-! Rules for the calls of the functions of the crate, counting (part). -/

set_option autoImplicit false

counted_fn_rules 1 2
