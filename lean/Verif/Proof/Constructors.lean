import Verif.Spec.Api
import Verif.Proof.CaseParts

/-! # Constructors in terms of the grammar -/

set_option autoImplicit false

namespace Langtag.Proof
open Langtag.Spec Langtag.Model

section
variable {T : Type} [StrNewtype T] {g : Abnf}

theorem constructorIs_of (h : ∀ s, StrNewtype.isOk T s = true ↔ g.Matches s)
    (hstr : ∀ s, StrNewtype.str (StrNewtype.newUnchecked (T := T) s) = s) : ConstructorIs T g := by
  intro s
  exact ⟨fun hm => ⟨_, new_eq_of_isOk ((h s).mpr hm), hstr s⟩, fun hm => new_eq_of_not_isOk (isOk_false (h s) hm)⟩

theorem accepts_iff (h : ConstructorIs T g) (s : Text) : Accepts T s ↔ g.Matches s := by
  constructor
  · rintro ⟨t, ht⟩
    by_cases hm : g.Matches s
    · exact hm
    · rw [(h s).2 hm] at ht; simp at ht
  · intro hm
    obtain ⟨t, ht, _⟩ := (h s).1 hm
    exact ⟨t, ht⟩

theorem matches_of_constructed (h : ConstructorIs T g) {t : T} (ht : Constructed t) :
    g.Matches (StrNewtype.str t) := by
  obtain ⟨s, hs⟩ := ht
  have hm := (accepts_iff h s).mp ⟨t, hs⟩
  obtain ⟨t', ht', hstr⟩ := (h s).1 hm
  rw [hs] at ht'
  have e : t = t' := by injection ht'
  rw [e, hstr]
  exact hm

theorem caseInsensitive_of (h : ConstructorIs T g) (hok : (Re.ofAbnf g).okRe = true) (u v : Text) (hc : CaseEq u v) :
    Accepts T u ↔ Accepts T v := by
  rw [accepts_iff h, accepts_iff h, matches_caseEq hok hc]

end

theorem is_LangTag : ConstructorIs LangTag Grammar.languageTag := constructorIs_of isOk_LangTag fun _ => rfl
theorem is_NormalLangTag : ConstructorIs NormalLangTag Grammar.langtag := constructorIs_of isOk_NormalLangTag fun _ => rfl
theorem is_Language : ConstructorIs Language Grammar.language := constructorIs_of isOk_Language fun _ => rfl
theorem is_PrimaryLanguage : ConstructorIs PrimaryLanguage Grammar.primary :=
  constructorIs_of isOk_PrimaryLanguage fun _ => rfl
theorem is_LanguageExtension : ConstructorIs LanguageExtension Grammar.extlang :=
  constructorIs_of isOk_LanguageExtension fun _ => rfl
theorem is_ExtendedLangTag : ConstructorIs ExtendedLangTag Grammar.extlangTag :=
  constructorIs_of isOk_ExtendedLangTag fun _ => rfl
theorem is_Script : ConstructorIs Script Grammar.script := constructorIs_of isOk_Script fun _ => rfl
theorem is_Region : ConstructorIs Region Grammar.region := constructorIs_of isOk_Region fun _ => rfl
theorem is_Variant : ConstructorIs Variant Grammar.variant := constructorIs_of isOk_Variant fun _ => rfl
theorem is_Variants : ConstructorIs Variants Grammar.variants := constructorIs_of isOk_Variants fun _ => rfl
theorem is_Extension : ConstructorIs Extension Grammar.extension := constructorIs_of isOk_Extension fun _ => rfl
theorem is_ExtensionSubtag : ConstructorIs ExtensionSubtag Grammar.extensionSubtag :=
  constructorIs_of isOk_ExtensionSubtag fun _ => rfl
theorem is_Extensions : ConstructorIs Extensions Grammar.extensions := constructorIs_of isOk_Extensions fun _ => rfl
theorem is_PrivateUse : ConstructorIs PrivateUse Grammar.privateuse := constructorIs_of isOk_PrivateUse fun _ => rfl
theorem is_PrivateUseSubtag : ConstructorIs PrivateUseSubtag Grammar.privateuseSubtag :=
  constructorIs_of isOk_PrivateUseSubtag fun _ => rfl

theorem accepts_of_isOk {T : Type} [StrNewtype T] {s : Text} (h : StrNewtype.isOk T s = true) : Accepts T s :=
  ⟨_, new_eq_of_isOk h⟩

/-- A normal tag obtained from the constructor decomposes. -/
theorem normal_decomposes {t : NormalLangTag} (h : Constructed t) : ∃ p, Decomposes t.str p :=
  (matches_langtag t.str).mp (matches_of_constructed is_NormalLangTag h)

theorem constructed_of_matches {T : Type} [StrNewtype T] {g : Abnf} (h : ConstructorIs T g)
    (heta : ∀ t t' : T, StrNewtype.str t = StrNewtype.str t' → t = t') {t : T} (hm : g.Matches (StrNewtype.str t)) :
    Constructed t := by
  obtain ⟨t', ht', hs⟩ := (h _).1 hm
  exact ⟨_, by rw [ht', heta t t' hs.symm]⟩

end Langtag.Proof
