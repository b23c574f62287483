import Verif.Spec.Api
import Verif.Proof.Utils

/-! # Comparison of the fifteen types -/

set_option autoImplicit false

namespace Langtag.Proof
open Langtag.Spec Langtag.Model

/-- The comparisons of `T` are those of `utils.rs` on the texts. -/
class LawfulCompare (T : Type) [StrNewtype T] [Compare T] : Prop where
  eq : ∀ a b : T, Compare.eq a b = caseInsensitiveEq (StrNewtype.str a) (StrNewtype.str b)
  cmp : ∀ a b : T, Compare.cmp a b = caseInsensitiveCmp (StrNewtype.str a) (StrNewtype.str b)
  partialCmp : ∀ a b : T, Compare.partialCmp a b = (Compare.cmp a b).map some
  hash : ∀ (H : Hasher) (a : T) (st : H.State), Compare.hash H a st = caseInsensitiveHash H (StrNewtype.str a) st

theorem do_some {α : Type} (x : Rust α) : (do return some (← x)) = x.map some := by cases x <;> rfl

instance : LawfulCompare LangTag := ⟨fun _ _ => rfl, fun _ _ => rfl, fun a b => do_some (LangTag.cmp a b), fun _ _ _ => rfl⟩
instance : LawfulCompare NormalLangTag := ⟨fun _ _ => rfl, fun _ _ => rfl, fun a b => do_some (NormalLangTag.cmp a b), fun _ _ _ => rfl⟩
instance : LawfulCompare Language := ⟨fun _ _ => rfl, fun _ _ => rfl, fun a b => do_some (Language.cmp a b), fun _ _ _ => rfl⟩
instance : LawfulCompare PrimaryLanguage := ⟨fun _ _ => rfl, fun _ _ => rfl, fun a b => do_some (PrimaryLanguage.cmp a b), fun _ _ _ => rfl⟩
instance : LawfulCompare LanguageExtension := ⟨fun _ _ => rfl, fun _ _ => rfl, fun a b => do_some (LanguageExtension.cmp a b), fun _ _ _ => rfl⟩
instance : LawfulCompare ExtendedLangTag := ⟨fun _ _ => rfl, fun _ _ => rfl, fun a b => do_some (ExtendedLangTag.cmp a b), fun _ _ _ => rfl⟩
instance : LawfulCompare Script := ⟨fun _ _ => rfl, fun _ _ => rfl, fun a b => do_some (Script.cmp a b), fun _ _ _ => rfl⟩
instance : LawfulCompare Region := ⟨fun _ _ => rfl, fun _ _ => rfl, fun a b => do_some (Region.cmp a b), fun _ _ _ => rfl⟩
instance : LawfulCompare Variant := ⟨fun _ _ => rfl, fun _ _ => rfl, fun a b => do_some (Variant.cmp a b), fun _ _ _ => rfl⟩
instance : LawfulCompare Variants := ⟨fun _ _ => rfl, fun _ _ => rfl, fun a b => do_some (Variants.cmp a b), fun _ _ _ => rfl⟩
instance : LawfulCompare Extension := ⟨fun _ _ => rfl, fun _ _ => rfl, fun a b => do_some (Extension.cmp a b), fun _ _ _ => rfl⟩
instance : LawfulCompare Extensions := ⟨fun _ _ => rfl, fun _ _ => rfl, fun a b => do_some (Extensions.cmp a b), fun _ _ _ => rfl⟩
instance : LawfulCompare ExtensionSubtag := ⟨fun _ _ => rfl, fun _ _ => rfl, fun a b => do_some (ExtensionSubtag.cmp a b), fun _ _ _ => rfl⟩
instance : LawfulCompare PrivateUse := ⟨fun _ _ => rfl, fun _ _ => rfl, fun a b => do_some (PrivateUse.cmp a b), fun _ _ _ => rfl⟩
instance : LawfulCompare PrivateUseSubtag := ⟨fun _ _ => rfl, fun _ _ => rfl, fun a b => do_some (PrivateUseSubtag.cmp a b), fun _ _ _ => rfl⟩

theorem forEachType_of {P : (T : Type) → [StrNewtype T] → [Compare T] → Prop}
    (h : ∀ (T : Type) [StrNewtype T] [Compare T] [LawfulCompare T], P T) : ForEachType P :=
  ⟨h _, h _, h _, h _, h _, h _, h _, h _, h _, h _, h _, h _, h _, h _, h _⟩

end Langtag.Proof
