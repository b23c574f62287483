import Verif.Proof.AcceptLanguageTag
import Verif.Proof.AcceptOthers

/-! # Constructors and ABNF rules -/

set_option autoImplicit false

namespace Langtag.Proof
open Langtag.Spec Langtag.Model

theorem isOk_eq (T : Type) [StrNewtype T] (s : Str) :
    StrNewtype.isOk T s = (StrNewtype.automaton T).validateStr s := by
  unfold StrNewtype.isOk StrNewtype.new
  cases (StrNewtype.automaton T).validateStr s <;> rfl

theorem new_eq_of_isOk {T : Type} [StrNewtype T] {s : Str} (h : StrNewtype.isOk T s = true) :
    StrNewtype.new T s = .ok (StrNewtype.newUnchecked s) := by
  rw [isOk_eq] at h
  simp [StrNewtype.new, h]

theorem new_eq_of_not_isOk {T : Type} [StrNewtype T] {s : Str} (h : StrNewtype.isOk T s = false) :
    StrNewtype.new T s = .error s := by
  rw [isOk_eq] at h
  simp [StrNewtype.new, h]

theorem isOk_LangTag (s : Str) : StrNewtype.isOk LangTag s = true ↔ Grammar.languageTag.Matches s := by
  rw [isOk_eq]; exact validateStr_iff check_languageTag s
theorem isOk_NormalLangTag (s : Str) : StrNewtype.isOk NormalLangTag s = true ↔ Grammar.langtag.Matches s := by
  rw [isOk_eq]; exact validateStr_iff check_langtag s
theorem isOk_Language (s : Str) : StrNewtype.isOk Language s = true ↔ Grammar.language.Matches s := by
  rw [isOk_eq]; exact validateStr_iff check_language s
theorem isOk_PrimaryLanguage (s : Str) : StrNewtype.isOk PrimaryLanguage s = true ↔ Grammar.primary.Matches s := by
  rw [isOk_eq]; exact validateStr_iff check_primary s
theorem isOk_LanguageExtension (s : Str) : StrNewtype.isOk LanguageExtension s = true ↔ Grammar.extlang.Matches s := by
  rw [isOk_eq]; exact validateStr_iff check_extlang s
theorem isOk_ExtendedLangTag (s : Str) : StrNewtype.isOk ExtendedLangTag s = true ↔ Grammar.extlangTag.Matches s := by
  rw [isOk_eq]; exact validateStr_iff check_extlangTag s
theorem isOk_Script (s : Str) : StrNewtype.isOk Script s = true ↔ Grammar.script.Matches s := by
  rw [isOk_eq]; exact validateStr_iff check_script s
theorem isOk_Region (s : Str) : StrNewtype.isOk Region s = true ↔ Grammar.region.Matches s := by
  rw [isOk_eq]; exact validateStr_iff check_region s
theorem isOk_Variant (s : Str) : StrNewtype.isOk Variant s = true ↔ Grammar.variant.Matches s := by
  rw [isOk_eq]; exact validateStr_iff check_variant s
theorem isOk_Variants (s : Str) : StrNewtype.isOk Variants s = true ↔ Grammar.variants.Matches s := by
  rw [isOk_eq]; exact validateStr_iff check_variants s
theorem isOk_Extension (s : Str) : StrNewtype.isOk Extension s = true ↔ Grammar.extension.Matches s := by
  rw [isOk_eq]; exact validateStr_iff check_extension s
theorem isOk_Extensions (s : Str) : StrNewtype.isOk Extensions s = true ↔ Grammar.extensions.Matches s := by
  rw [isOk_eq]; exact validateStr_iff check_extensions s
theorem isOk_ExtensionSubtag (s : Str) : StrNewtype.isOk ExtensionSubtag s = true ↔ Grammar.extensionSubtag.Matches s := by
  rw [isOk_eq]; exact validateStr_iff check_extensionSubtag s
theorem isOk_PrivateUse (s : Str) : StrNewtype.isOk PrivateUse s = true ↔ Grammar.privateuse.Matches s := by
  rw [isOk_eq]; exact validateStr_iff check_privateuse s
theorem isOk_PrivateUseSubtag (s : Str) : StrNewtype.isOk PrivateUseSubtag s = true ↔ Grammar.privateuseSubtag.Matches s := by
  rw [isOk_eq]; exact validateStr_iff check_privateuseSubtag s

end Langtag.Proof
