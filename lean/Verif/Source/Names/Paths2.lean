import Verif.Source.Names

/-! Rules for the paths of the crate (part). -/

set_option autoImplicit false

path_rules 2 4
