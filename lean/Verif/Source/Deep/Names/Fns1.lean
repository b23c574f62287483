import Verif.Source.Deep.Names

/-! Rules for the calls of the functions of the crate, with bounded nesting (part). -/

set_option autoImplicit false

deep_fn_rules 1 2
