import Verif.Source.Codes

/-! The text of `/repo/src/utils.rs`, line by line and verbatim (written and compared by `tools/gen_source.py`). -/

set_option autoImplicit false
set_option maxRecDepth 10000

namespace Langtag.Source.Text

/-- Lines 1 to 49. -/
def utilsRs0 : List (List Nat) := [
  codes% "use core::{",
  codes% "\tcmp::Ordering,",
  codes% "\thash::{Hash, Hasher},",
  codes% "};",
  codes% "",
  codes% "pub fn into_smallcase(c: u8) -> u8 {",
  codes% "\tif c.is_ascii_uppercase() { c + 0x20 } else { c }",
  codes% "}",
  codes% "",
  codes% "pub fn case_insensitive_eq(a: &[u8], b: &[u8]) -> bool {",
  codes% "\tif a.len() == b.len() {",
  codes% "\t\tfor i in 0..a.len() {",
  codes% "\t\t\tif into_smallcase(a[i]) != into_smallcase(b[i]) {",
  codes% "\t\t\t\treturn false;",
  codes% "\t\t\t}",
  codes% "\t\t}",
  codes% "",
  codes% "\t\ttrue",
  codes% "\t} else {",
  codes% "\t\tfalse",
  codes% "\t}",
  codes% "}",
  codes% "",
  codes% "pub fn case_insensitive_hash<H: Hasher>(bytes: &[u8], hasher: &mut H) {",
  codes% "\tfor b in bytes {",
  codes% "\t\tinto_smallcase(*b).hash(hasher)",
  codes% "\t}",
  codes% "}",
  codes% "",
  codes% "pub fn case_insensitive_cmp(a: &[u8], b: &[u8]) -> Ordering {",
  codes% "\tlet mut i = 0;",
  codes% "",
  codes% "\tloop {",
  codes% "\t\tif a.len() <= i {",
  codes% "\t\t\tif b.len() <= i {",
  codes% "\t\t\t\treturn Ordering::Equal;",
  codes% "\t\t\t}",
  codes% "",
  codes% "\t\t\treturn Ordering::Greater;",
  codes% "\t\t} else if b.len() <= i {",
  codes% "\t\t\treturn Ordering::Less;",
  codes% "\t\t} else {",
  codes% "\t\t\tmatch into_smallcase(a[i]).cmp(&into_smallcase(b[i])) {",
  codes% "\t\t\t\tOrdering::Equal => i += 1,",
  codes% "\t\t\t\tord => return ord,",
  codes% "\t\t\t}",
  codes% "\t\t}",
  codes% "\t}",
  codes% "}"]

/-- The lines of `/repo/src/utils.rs`. -/
def utilsRs : List (List Nat) :=
  utilsRs0

end Langtag.Source.Text
