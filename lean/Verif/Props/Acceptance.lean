import Verif.Spec.Decoder
import Verif.Proof.Constructors

/-!
# C01–C09: what the constructors accept
-/

set_option autoImplicit false

namespace Langtag.Props
open Langtag.Spec Langtag.Model Langtag.Proof

/-! ## C01–C07 -/

/-- C01: `LangTag::new(s)` succeeds iff `s` matches `Language-Tag`, keeping the text. -/
theorem C01_langTag : ConstructorIs LangTag Grammar.languageTag := is_LangTag

/-- C02: `NormalLangTag::new` and `langtag`. -/
theorem C02_normalLangTag : ConstructorIs NormalLangTag Grammar.langtag := is_NormalLangTag

/-- C03: `PrivateUse::new` (= `PrivateUseLangTag::new`) and `privateuse`. -/
theorem C03_privateUse : ConstructorIs PrivateUse Grammar.privateuse := is_PrivateUse
/-- C03: `PrivateUseSubtag::new` and `privateuse-subtag`. -/
theorem C03_privateUseSubtag : ConstructorIs PrivateUseSubtag Grammar.privateuseSubtag := is_PrivateUseSubtag

/-- C04: `Language::new` and `language`. -/
theorem C04_language : ConstructorIs Language Grammar.language := is_Language
/-- C04: `PrimaryLanguage::new` and `primary`. -/
theorem C04_primaryLanguage : ConstructorIs PrimaryLanguage Grammar.primary := is_PrimaryLanguage
/-- C04: `LanguageExtension::new` and `extlang`. -/
theorem C04_languageExtension : ConstructorIs LanguageExtension Grammar.extlang := is_LanguageExtension
/-- C04: `ExtendedLangTag::new` and `extlang-tag`. -/
theorem C04_extendedLangTag : ConstructorIs ExtendedLangTag Grammar.extlangTag := is_ExtendedLangTag

/-- C05: `Script::new` and `script`. -/
theorem C05_script : ConstructorIs Script Grammar.script := is_Script
/-- C05: `Region::new` and `region`. -/
theorem C05_region : ConstructorIs Region Grammar.region := is_Region

/-- C06: `Variant::new` and `variant`. -/
theorem C06_variant : ConstructorIs Variant Grammar.variant := is_Variant
/-- C06: `Variants::new` and `variants`. -/
theorem C06_variants : ConstructorIs Variants Grammar.variants := is_Variants

/-- C07: `Extension::new` and `extension`. -/
theorem C07_extension : ConstructorIs Extension Grammar.extension := is_Extension
/-- C07: `ExtensionSubtag::new` and `extension-subtag`. -/
theorem C07_extensionSubtag : ConstructorIs ExtensionSubtag Grammar.extensionSubtag := is_ExtensionSubtag
/-- C07: `Extensions::new` and `extensions`. -/
theorem C07_extensions : ConstructorIs Extensions Grammar.extensions := is_Extensions

-- Both sides of the equivalences are inhabited.
example : Accepts LangTag (ascii "zh-yue-Hant-HK-1abc-abcde-a-bbb-cc-b-dd-x-y-zzz") :=
  accepts_of_isOk (by decide +kernel)
example : Accepts LangTag (ascii "X-Whatever") := accepts_of_isOk (by decide +kernel)
example : Accepts LangTag (ascii "I-KLINGON") := accepts_of_isOk (by decide +kernel)
example : StrNewtype.new LangTag (ascii "en--US") = .error (ascii "en--US") := new_eq_of_not_isOk (by decide +kernel)
example : StrNewtype.new LangTag (ascii "i-vulcan") = .error (ascii "i-vulcan") := new_eq_of_not_isOk (by decide +kernel)
example : StrNewtype.new LangTag [0xC3, 0x9C] = .error [0xC3, 0x9C] := new_eq_of_not_isOk (by decide +kernel)
example : Grammar.languageTag.Matches (ascii "sl-Latn-IT-nedis") := (isOk_LangTag _).mp (by decide +kernel)
example : ¬ Grammar.languageTag.Matches (ascii "a-DE") := by rw [← isOk_LangTag]; decide +kernel
example : Accepts Variants [] := accepts_of_isOk (by decide +kernel)
example : Accepts Extensions (ascii "a-bb-cc-b-dd") := accepts_of_isOk (by decide +kernel)
example : ¬ Grammar.extensions.Matches (ascii "x-bb") := by rw [← isOk_Extensions]; decide +kernel

/-! ## C08 -/

/-- C08: an accepted text is a non-empty sequence of subtags of one to eight ASCII letters or digits joined by
single `-`. -/
theorem C08_subtags (s : Text) (h : Accepts LangTag s) :
    ∃ us : List Text, us ≠ [] ∧ s = joinDash us ∧ ∀ u ∈ us, 1 ≤ u.length ∧ u.length ≤ 8 ∧ ∀ b ∈ u, IsAlphanum b :=
  ⟨subtags s, subtags_ne_nil s, (joinDash_subtags s).symm, good_languageTag ((accepts_iff is_LangTag s).mp h)⟩

/-- C08: the verdict of every automaton of the crate on every byte string is the same with any decoder that
reads ASCII as ASCII, however it treats the other bytes. -/
theorem validateBytes_any_decoder (dec : Decoder) (hdec : AsciiCompatible dec) (s : Text) (d : Dfa)
    (hd : d ∈ [StrNewtype.automaton LangTag, StrNewtype.automaton NormalLangTag, StrNewtype.automaton Language,
      StrNewtype.automaton PrimaryLanguage, StrNewtype.automaton LanguageExtension,
      StrNewtype.automaton ExtendedLangTag, StrNewtype.automaton Script, StrNewtype.automaton Region,
      StrNewtype.automaton Variant, StrNewtype.automaton Variants, StrNewtype.automaton Extension,
      StrNewtype.automaton ExtensionSubtag, StrNewtype.automaton Extensions, StrNewtype.automaton PrivateUse,
      StrNewtype.automaton PrivateUseSubtag]) :
    d.validateBytesWith dec s = d.validateStr s := by
  have key : ∀ d ∈ [StrNewtype.automaton LangTag, StrNewtype.automaton NormalLangTag, StrNewtype.automaton Language,
      StrNewtype.automaton PrimaryLanguage, StrNewtype.automaton LanguageExtension,
      StrNewtype.automaton ExtendedLangTag, StrNewtype.automaton Script, StrNewtype.automaton Region,
      StrNewtype.automaton Variant, StrNewtype.automaton Variants, StrNewtype.automaton Extension,
      StrNewtype.automaton ExtensionSubtag, StrNewtype.automaton Extensions, StrNewtype.automaton PrivateUse,
      StrNewtype.automaton PrivateUseSubtag], okDfa d = true := by decide +kernel
  rw [validateBytesWith_eq (key d hd) hdec, validateStr_eq (key d hd)]

/-- C08: one non-ASCII byte anywhere is enough for rejection. -/
theorem C08_ascii (s : Text) (b : UInt8) (hb : b ∈ s) (h : 0x80 ≤ b) : StrNewtype.new LangTag s = .error s := by
  refine (is_LangTag s).2 fun hm => ?_
  have := ascii_of_matches okRe_languageTag hm b hb
  rw [UInt8.lt_iff_toNat_lt] at this
  rw [UInt8.le_iff_toNat_le] at h
  omega

-- a decoder that rejects every non-ASCII byte, and the reference decoder of the model, are both compatible
example : AsciiCompatible fun s i =>
    match s[i]? with
    | some b => if b.toNat < 0x80 then some (Char.ofNat b.toNat, 1) else none
    | none => none where
  ascii := by
    intro s i b h hb
    refine ⟨Char.ofNat b.toNat, ?_, by simp [h, hb]⟩
    have hv : b.toNat.isValidChar := Or.inl (by omega)
    simp [Char.ofNat, hv, Char.ofNatAux, Char.toNat]
  nonAscii := by
    intro s i b c len h hb
    simp [h]
    omega
example : AsciiCompatible decodeUtf8Char := asciiCompatible_decodeUtf8Char
example : subtags (ascii "en-US") = [ascii "en", ascii "US"] := by decide +kernel
example : Accepts LangTag (ascii "en-x-abcdefgh-1") := accepts_of_isOk (by decide +kernel)
example : StrNewtype.new LangTag (ascii "en-x-" ++ [0xC3, 0x9C]) = .error (ascii "en-x-" ++ [0xC3, 0x9C]) :=
  C08_ascii _ 0xC3 (by decide +kernel) (by decide)

/-! ## C09 -/

/-- Acceptance by the constructor of `T` ignores letter case. -/
def IgnoresCase (T : Type) [StrNewtype T] : Prop := ∀ u v : Text, CaseEq u v → (Accepts T u ↔ Accepts T v)

/-- C09, the fifteen string types. -/
theorem C09_caseInsensitive :
    IgnoresCase LangTag ∧ IgnoresCase NormalLangTag ∧ IgnoresCase Language ∧ IgnoresCase PrimaryLanguage ∧
    IgnoresCase LanguageExtension ∧ IgnoresCase ExtendedLangTag ∧ IgnoresCase Script ∧ IgnoresCase Region ∧
    IgnoresCase Variant ∧ IgnoresCase Variants ∧ IgnoresCase Extension ∧ IgnoresCase ExtensionSubtag ∧
    IgnoresCase Extensions ∧ IgnoresCase PrivateUse ∧ IgnoresCase PrivateUseSubtag :=
  ⟨caseInsensitive_of is_LangTag okRe_languageTag, caseInsensitive_of is_NormalLangTag okRe_langtag,
   caseInsensitive_of is_Language okRe_language, caseInsensitive_of is_PrimaryLanguage (by decide +kernel),
   caseInsensitive_of is_LanguageExtension (by decide +kernel), caseInsensitive_of is_ExtendedLangTag (by decide +kernel),
   caseInsensitive_of is_Script okRe_script, caseInsensitive_of is_Region okRe_region,
   caseInsensitive_of is_Variant okRe_variant, caseInsensitive_of is_Variants (by decide +kernel),
   caseInsensitive_of is_Extension okRe_extension, caseInsensitive_of is_ExtensionSubtag (by decide +kernel),
   caseInsensitive_of is_Extensions (by decide +kernel), caseInsensitive_of is_PrivateUse okRe_privateuse,
   caseInsensitive_of is_PrivateUseSubtag (by decide +kernel)⟩

/-- C09, `GrandfatheredLangTag::new`: equal texts up to case are accepted or rejected together, with the same tag. -/
theorem C09_grandfathered (u v : Text) (h : CaseEq u v) (g : GrandfatheredLangTag) :
    GrandfatheredLangTag.new u = .ok (.ok g) ↔ GrandfatheredLangTag.new v = .ok (.ok g) := by
  have key : ∀ (u v : Text), CaseEq u v →
      GrandfatheredLangTag.new u = .ok (.ok g) → GrandfatheredLangTag.new v = .ok (.ok g) := by
    intro u v h hu
    by_cases hg : ∃ g' : GrandfatheredLangTag, CaseEq g'.asBytes u
    · obtain ⟨g', hg'⟩ := hg
      rw [grandfathered_new_ok hg'] at hu
      rw [grandfathered_new_ok (hg'.trans h), hu]
    · rw [grandfathered_new_error fun g' hg' => hg ⟨g', hg'⟩] at hu
      simp at hu
  exact ⟨key u v h, key v u h.symm⟩

/-- C09, `Singleton::new`. -/
theorem C09_singleton (b c : UInt8) (h : lower b = lower c) :
    (∃ x, Singleton.new b = .ok x) ↔ (∃ x, Singleton.new c = .ok x) := by
  have iff : ∀ b : UInt8, (∃ x, Singleton.new b = .ok x) ↔ IsSingleton b := by
    intro b
    by_cases hb : IsSingleton b
    · simp [singleton_new_ok hb, hb]
    · simp [singleton_new_error hb, hb]
  have hok : (Re.ofAbnf Grammar.singleton).okRe = true := by decide +kernel
  have hcls : ∀ b, IsSingleton b ↔ Grammar.singleton.Matches [b] := by
    intro b
    rw [isClass_singleton]
    constructor
    · exact fun h => ⟨b, rfl, h⟩
    · rintro ⟨c, hc, h⟩
      simp only [List.cons.injEq, and_true] at hc
      rw [hc]; exact h
  rw [iff, iff, hcls, hcls]
  exact matches_caseEq hok (by simpa [CaseEq, lowerText] using h)

example : CaseEq (ascii "EN-latn-us-X-FOO") (ascii "en-Latn-US-x-foo") := by decide +kernel
example : GrandfatheredLangTag.new (ascii "I-Klingon") = .ok (.ok .IKlingon) := by decide +kernel
example : Singleton.new 65 = .ok ⟨65⟩ ∧ lower 65 = lower 97 := by decide

end Langtag.Props
