import Verif.Source.Names

/-! Rules for the calls of the functions of the crate (part). -/

set_option autoImplicit false

fn_rules 0 4
