import Verif.Source.Codes

/-! The text of `/repo/src/private_use.rs`, line by line and verbatim (written and compared by `tools/gen_source.py`). -/

set_option autoImplicit false
set_option maxRecDepth 10000

namespace Langtag.Source.Text

/-- Lines 1 to 6. -/
def privateUseAliasRs0 : List (List Nat) := [
  codes% "/// Private use language tag.",
  codes% "pub type PrivateUseLangTag = crate::normal::PrivateUse;",
  codes% "",
  codes% "/// Owned private use language tag.",
  codes% "#[cfg(feature = \"std\")]",
  codes% "pub type PrivateUseLangTagBuf = crate::normal::PrivateUseBuf;"]

/-- The lines of `/repo/src/private_use.rs`. -/
def privateUseAliasRs : List (List Nat) :=
  privateUseAliasRs0

end Langtag.Source.Text
