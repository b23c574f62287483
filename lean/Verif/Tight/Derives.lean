import Verif.Source.Derive

/-! # Nothing is generated for a type without the attribute

The semantics of `Verif/Source` gives a derived function to a type only if its declaration asks for it: a text from which the attribute is missing is stuck. -/

set_option autoImplicit false

namespace Langtag.Source

variable {d : TypeDef}

/-- No `==`, `cmp`, … without `#[derive(…)]`. -/
theorem derived2_none {α : Type} {trait T : String} {f : Nat × List UInt8 → Nat × List UInt8 → α} {a b : Val} (h : trait ∉ d.derives) :
    derived2 trait T f a b (some d) = none := by
  simp [derived2, h]

example : "Ord" ∉ (TypeDef.enum ["Clone", "PartialEq"] [("A", .tuple []), ("B", .tuple [])]).derives := by decide +kernel

/-- No `hash` without `#[derive(Hash)]`. -/
theorem derived1_none {T : String} {a : Val} (h : "Hash" ∉ d.derives) : derived1 T a (some d) = none := by simp [derived1, h]

/-- No `{:?}` without `#[derive(Debug)]`. -/
theorem derivedDebug_none {T : String} {a : Val} (h : "Debug" ∉ d.derives) : derivedDebug T a (some d) = none := by
  unfold derivedDebug
  split
  · simp_all
  · rfl

/-- No `default()` without `#[derive(Default)]`. -/
theorem derivedDefault_none {P : Program} {ty : List String} (hd : P.types.lookup ty = some d) (h : "Default" ∉ d.derives) :
    derivedDefault P ty = M.stuck := by
  unfold derivedDefault
  rw [hd]
  cases d with
  | struct ds a s =>
    have : "Default" ∉ ds := h
    cases s <;> simp [this]
  | enum => rfl

end Langtag.Source
