import Verif.Model.Foreign
import Verif.Props.Acceptance
import Verif.Props.Order

/-!
# C54: comparison with plain strings

The full property is about code generated by a macro that is not in the repository.  What is proved: if the generated code
delegates to the comparison of the type, on the wrapped or on the parsed string, then the property holds, and the two ways
agree.  Missing: that the macro does delegate, and the owned types.
-/

set_option autoImplicit false

namespace Langtag.Props
open Langtag.Spec Langtag.Model Langtag.Proof

theorem str_of_new {T : Type} [StrNewtype T] (hmk : ∀ s : Text, StrNewtype.str (StrNewtype.newUnchecked (T := T) s) = s) {s : Text}
    {u : T} (h : StrNewtype.new T s = .ok u) : u = StrNewtype.newUnchecked s ∧ StrNewtype.str u = s := by
  unfold StrNewtype.new at h
  split at h
  · obtain rfl := Except.ok.inj h
    exact ⟨rfl, hmk s⟩
  · cases h

theorem foreignEq_of {T : Type} [StrNewtype T] [Compare T] [LawfulCompare T] (hic : IgnoresCase T)
    (hmk : ∀ s : Text, StrNewtype.str (StrNewtype.newUnchecked (T := T) s) = s) (t : T) (ht : Constructed t) (s : Text) :
    Foreign.eqUnchecked t s = .ok (decide (CaseEq (StrNewtype.str t) s)) ∧
    Foreign.eqParsed t s = .ok (decide (CaseEq (StrNewtype.str t) s)) := by
  have h1 : Foreign.eqUnchecked t s = .ok (decide (CaseEq (StrNewtype.str t) s)) := by
    unfold Foreign.eqUnchecked
    by_cases h : CaseEq (StrNewtype.str t) s
    · rw [decide_eq_true h, eq_true_iff, hmk]; exact h
    · rw [decide_eq_false h, eq_false_iff, hmk]; exact h
  refine ⟨h1, ?_⟩
  unfold Foreign.eqParsed
  cases hn : StrNewtype.new T s with
  | ok u =>
    obtain ⟨rfl, _⟩ := str_of_new hmk hn
    exact h1
  | error e =>
    have : ¬ CaseEq (StrNewtype.str t) s := by
      intro h
      obtain ⟨s', hs'⟩ := ht
      obtain ⟨u, hu⟩ := (hic _ _ h).mp ⟨t, by rw [(str_of_new hmk hs').2]; exact hs'⟩
      rw [hn] at hu
      cases hu
    rw [decide_eq_false this]

/-- C54, assuming the generated `==` delegates: for every value made by the constructor and every string whatever, it returns,
and is equality ignoring ASCII case, whether the string is wrapped or parsed first. -/
theorem C54_eq_partial : ForEachType fun T => ∀ (t : T), Constructed t → ∀ s : Text,
    Foreign.eqUnchecked t s = .ok (decide (CaseEq (StrNewtype.str t) s)) ∧
    Foreign.eqParsed t s = .ok (decide (CaseEq (StrNewtype.str t) s)) := by
  obtain ⟨h0, h1, h2, h3, h4, h5, h6, h7, h8, h9, h10, h11, h12, h13, h14⟩ := C09_caseInsensitive
  exact ⟨foreignEq_of h0 fun _ => rfl, foreignEq_of h1 fun _ => rfl, foreignEq_of h2 fun _ => rfl, foreignEq_of h3 fun _
    => rfl, foreignEq_of h4 fun _ => rfl, foreignEq_of h5 fun _ => rfl, foreignEq_of h6 fun _ => rfl, foreignEq_of h7
    fun _ => rfl, foreignEq_of h8 fun _ => rfl, foreignEq_of h9 fun _ => rfl, foreignEq_of h10 fun _ => rfl,
    foreignEq_of h12 fun _ => rfl, foreignEq_of h11 fun _ => rfl, foreignEq_of h13 fun _ => rfl, foreignEq_of h14 fun _
    => rfl⟩

/-- C54, assuming the generated `partial_cmp` delegates: on a string the constructor accepts it is the comparison with the
value parsed from the string, whether the string is wrapped or parsed first; parsed first, it is `None` on the others. -/
theorem C54_cmp_partial : ForEachType fun T => ∀ (t : T) (s : Text),
    (∀ u : T, StrNewtype.new T s = .ok u →
      Foreign.partialCmpUnchecked t s = Compare.partialCmp t u ∧ Foreign.partialCmpParsed t s = Compare.partialCmp t u) ∧
    (¬ Accepts T s → Foreign.partialCmpParsed t s = .ok none) := by
  have key : ∀ (T : Type) [StrNewtype T] [Compare T], (∀ s : Text, StrNewtype.str (StrNewtype.newUnchecked (T := T) s) = s) →
      ∀ (t : T) (s : Text),
        (∀ u : T, StrNewtype.new T s = .ok u →
          Foreign.partialCmpUnchecked t s = Compare.partialCmp t u ∧ Foreign.partialCmpParsed t s = Compare.partialCmp t u) ∧
        (¬ Accepts T s → Foreign.partialCmpParsed t s = .ok none) := by
    intro T _ _ hmk t s
    refine ⟨fun u hu => ?_, fun h => ?_⟩
    · obtain ⟨rfl, _⟩ := str_of_new hmk hu
      exact ⟨rfl, by unfold Foreign.partialCmpParsed; rw [hu]⟩
    · unfold Foreign.partialCmpParsed
      cases hn : StrNewtype.new T s with
      | ok u => exact absurd ⟨u, hn⟩ h
      | error e => rfl
  exact ⟨key _ fun _ => rfl, key _ fun _ => rfl, key _ fun _ => rfl, key _ fun _ => rfl, key _ fun _ => rfl, key _ fun _
    => rfl, key _ fun _ => rfl, key _ fun _ => rfl, key _ fun _ => rfl, key _ fun _ => rfl, key _ fun _ => rfl, key _
    fun _ => rfl, key _ fun _ => rfl, key _ fun _ => rfl, key _ fun _ => rfl⟩

-- the documentation example: `tag == "Fr-fr"`
example : ∃ t : LangTag, StrNewtype.new LangTag (ascii "fr-FR") = .ok t ∧
    Foreign.eqUnchecked t (ascii "Fr-fr") = .ok true ∧ Foreign.eqParsed t (ascii "Fr-fr") = .ok true ∧
    Foreign.eqParsed t (ascii "fr_FR") = .ok false := ⟨⟨ascii "fr-FR"⟩, by decide +kernel⟩

end Langtag.Props
