import Verif.Spec.Text

/-!
# The order of the crate on lower-cased texts

Independent of the model of the code.
-/

set_option autoImplicit false

namespace Langtag.Spec

/-- `u` comes before `v`: at the first difference `u` has the smaller byte, or `v` is a proper prefix of `u`. -/
def Precedes (u v : Text) : Prop :=
  (∃ c x u' y v', u = c ++ x :: u' ∧ v = c ++ y :: v' ∧ x < y) ∨ (∃ x u', u = v ++ x :: u')

-- `az` before `b` before `a` before the empty text
example : Precedes (ascii "az") (ascii "b") := Or.inl ⟨[], 97, [122], 98, [], by decide +kernel⟩
example : Precedes (ascii "ab") (ascii "a") := Or.inr ⟨98, [], by decide +kernel⟩

end Langtag.Spec
