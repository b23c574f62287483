import Verif.Model.LangTag
import Verif.Spec.Api
import Verif.Spec.Utf8

/-!
# The other tests of `/repo/tests`, on the model

Each `#[test]` that is not commented out, as a closed computation.  These are tests of the transcription, not proofs of properties.
Where the test compares with a string literal (`assert_eq!(tag.variants(), "…")`, an impl generated by an external macro), the
comparison here is of the texts.
-/

set_option autoImplicit false

namespace Langtag.Conformance
open Langtag.Model Langtag.Spec

/-- The UTF-8 bytes of a literal. -/
def utf8 (s : String) : Text := s.toList.flatMap encodeChar

/-- `LangTag::new(s).unwrap()`. -/
def tag (s : String) : Rust LangTag :=
  match StrNewtype.new LangTag (utf8 s) with
  | .ok t => .ok t
  | .error _ => .error .unwrap

/-- `NormalLangTag::new(s).unwrap()`. -/
def normal (s : String) : Rust NormalLangTag :=
  match StrNewtype.new NormalLangTag (utf8 s) with
  | .ok t => .ok t
  | .error _ => .error .unwrap

/-! ## tests/extension.rs -/

-- `extensions_eq`, tests/extension.rs:5-9
example : (do return (← tag "fr-a-ext1-ext2-b-ext3-ext4-c-ext5-ext6").isNormal) = .ok true := by decide +kernel
example : (do (← tag "fr-a-ext1-ext2-b-ext3-ext4-c-ext5-ext6").extensions) =
    .ok ⟨utf8 "a-ext1-ext2-b-ext3-ext4-c-ext5-ext6"⟩ := by decide +kernel

-- `extensions_iter`, tests/extension.rs:12-19
example : (do collect ExtensionsIter.next 4 (← (← tag "fr-a-ext1-ext2-b-ext3-ext4-c-ext5-ext6").extensions).iter) =
    .ok [some ⟨utf8 "a-ext1-ext2"⟩, some ⟨utf8 "b-ext3-ext4"⟩, some ⟨utf8 "c-ext5-ext6"⟩, none] := by decide +kernel

-- `extensions_iter_extension`, tests/extension.rs:22-30
example : okOf (Singleton.tryFromChar 'a') = some ⟨97⟩ ∧ okOf (Singleton.tryFromChar 'b') = some ⟨98⟩ := by decide +kernel
example : (do collect ExtensionIter.next 2 (← (← (← tag "fr-a-ext1-ext2-b-ext3").extensions).iterExtension ⟨97⟩)) =
    .ok [some ⟨utf8 "ext1"⟩, some ⟨utf8 "ext2"⟩] := by decide +kernel
example : (do collect ExtensionIter.next 2 (← (← (← tag "fr-a-ext1-ext2-b-ext3").extensions).iterExtension ⟨98⟩)) =
    .ok [some ⟨utf8 "ext3"⟩, none] := by decide +kernel

/-! ## tests/langtag.rs -/

-- `langtag_script_region`, tests/langtag.rs:4-9
example : (do return (← normal "fr-abc-nice-bz-e-foo").str) = .ok (utf8 "fr-abc-nice-bz-e-foo") := by decide +kernel
example : (do (← normal "fr-abc-nice-bz-e-foo").script) = .ok (some ⟨utf8 "nice"⟩) := by decide +kernel
example : (do (← normal "fr-abc-nice-bz-e-foo").region) = .ok (some ⟨utf8 "bz"⟩) := by decide +kernel

/-! ## tests/language.rs -/

-- `language_eq`, tests/language.rs:4-7
example : (do (← tag "fr-abc-def-ghi-bz").language) = .ok (some ⟨utf8 "fr-abc-def-ghi"⟩) := by decide +kernel
-- `language_primary_eq`, tests/language.rs:10-13
example : (do return (← (← normal "fr-abc-def-ghi-bz").language).primary) = .ok ⟨utf8 "fr"⟩ := by decide +kernel
-- `language_ext_eq`, tests/language.rs:34-37
example : (do return (← (← normal "fr-abc-def-ghi-bz").language).extension) = .ok (some ⟨utf8 "abc-def-ghi"⟩) := by
  decide +kernel

/-! ## tests/lib.rs -/

-- `const _: &LangTag = langtag!("fr-FR")`, tests/lib.rs:3
example : LangTag.langtag! (utf8 "fr-FR") = .ok ⟨utf8 "fr-FR"⟩ := by decide +kernel

/-- `LangTag::new(s).unwrap().language()` and its `primary()`. -/
def primaryOf (s : String) : Rust (Option PrimaryLanguage) := do
  return (← (← tag s).language).map Language.primary

-- `test_primary_language`, tests/lib.rs:7-28
example : primaryOf "fr" = .ok (some ⟨utf8 "fr"⟩) := by decide +kernel
example : primaryOf "de" = .ok (some ⟨utf8 "de"⟩) := by decide +kernel
example : primaryOf "x-fr-CH" = .ok none := by decide +kernel
example : primaryOf "i-klingon" = .ok none := by decide +kernel
example : primaryOf "i-bnn" = .ok none := by decide +kernel
example : primaryOf "zh-hakka" = .ok (some ⟨utf8 "zh"⟩) := by decide +kernel

-- `test_unicode`, tests/lib.rs:31-33
example : StrNewtype.isOk LangTag (utf8 "zh-x-Üńìcødê") = false := by decide +kernel

-- `test_cmp`, tests/lib.rs:36-45
example : (do Compare.eq (← tag "dE-AraB-lY") (← tag "DE-aRaB-LY")) = .ok true := by decide +kernel
example : (do Compare.eq (← tag "zh") (← tag "zh-Latn")) = .ok false := by decide +kernel

/-! ## tests/privateuse.rs -/

-- `privateuse_eq`, tests/privateuse.rs:4-10
example : (do (← tag "fr-x-ext1-ext2-ext3-ext4-ext5-ext6").privateUse) =
    .ok (some ⟨utf8 "x-ext1-ext2-ext3-ext4-ext5-ext6"⟩) := by decide +kernel

-- `privateuse_iter`, tests/privateuse.rs:13-23
example : (do collect PrivateUseIter.next 7 (← (← tag "fr-x-ext1-ext2-ext3-ext4-ext5-ext6").privateUseSubtags)) =
    .ok [some ⟨utf8 "ext1"⟩, some ⟨utf8 "ext2"⟩, some ⟨utf8 "ext3"⟩, some ⟨utf8 "ext4"⟩, some ⟨utf8 "ext5"⟩,
      some ⟨utf8 "ext6"⟩, none] := by decide +kernel

/-! ## tests/variant.rs -/

-- `variants_eq`, tests/variant.rs:4-7
example : (do (← tag "fr-azert-0foo-barbz-4242-e-ext").variants) = .ok ⟨utf8 "azert-0foo-barbz-4242"⟩ := by decide +kernel

-- `variants_iter`, tests/variant.rs:10-18
example : (do collect VariantsIter.next 5 (← (← tag "fr-azert-0foo-barbz-4242-e-ext").variants).iter) =
    .ok [some ⟨utf8 "azert"⟩, some ⟨utf8 "0foo"⟩, some ⟨utf8 "barbz"⟩, some ⟨utf8 "4242"⟩, none] := by decide +kernel

-- `variants_first` and `variants_last`, tests/variant.rs:21-30
example : (do (← (← tag "fr-azert-0foo-barbz-4242-e-ext").variants).first) = .ok (some ⟨utf8 "azert"⟩) := by decide +kernel
example : (do (← (← tag "fr-azert-0foo-barbz-4242-e-ext").variants).last) = .ok (some ⟨utf8 "4242"⟩) := by decide +kernel

/-! ## README.md -/

-- README.md:23-25
example : primaryOf "fr-FR" = .ok (some ⟨utf8 "fr"⟩) := by decide +kernel
example : (do Compare.eq (← tag "fr-FR") (← tag "Fr-fr")) = .ok true := by decide +kernel

end Langtag.Conformance
