import Verif.Props.Iterators
import Verif.Proof.WorkIter

/-! # C68: the work done is linear in the length of the text -/

set_option autoImplicit false

namespace Langtag.Props
open Langtag.Spec Langtag.Model Langtag.Proof

/-- C68: `T::new` on any text goes over it once at most. -/
theorem C68_new : ForEachType fun T => ∀ s : Text, WorkAtMost (Timed.new T s) (.ok (StrNewtype.new T s)) s.length :=
  forEachType_of fun T => work_new T

example : (Timed.new LangTag (ascii "en-Latn-US")).steps = 10 ∧ (Timed.new LangTag (ascii "en_Latn-US")).steps = 3 := by decide +kernel

/-- C68: comparing two values goes over the shorter text at most, and one iteration more for the order; hashing goes over the text once. -/
theorem C68_compare : ForEachType fun T => ∀ a b : T,
    WorkAtMost (Timed.caseInsensitiveEq (StrNewtype.str a) (StrNewtype.str b)) (Compare.eq a b)
      (min (StrNewtype.str a).length (StrNewtype.str b).length) ∧
    WorkAtMost (Timed.caseInsensitiveCmp (StrNewtype.str a) (StrNewtype.str b)) (Compare.cmp a b)
      (min (StrNewtype.str a).length (StrNewtype.str b).length + 1) ∧
    ∀ (H : Hasher) (st : H.State),
      WorkAtMost (Timed.caseInsensitiveHash H (StrNewtype.str a) st) (Compare.hash H a st) (StrNewtype.str a).length := by
  refine ⟨?_, ?_, ?_, ?_, ?_, ?_, ?_, ?_, ?_, ?_, ?_, ?_, ?_, ?_, ?_⟩ <;>
  exact fun a b => ⟨⟨caseInsensitiveEq_timed _ _, caseInsensitiveEq_steps _ _⟩,
    ⟨caseInsensitiveCmp_timed _ _, caseInsensitiveCmp_steps _ _⟩, fun H st => ⟨hash_timed H _ st, hash_steps H _ st⟩⟩

example : (Timed.caseInsensitiveEq (ascii "en-US") (ascii "EN-us")).steps = 5 ∧ (Timed.caseInsensitiveCmp (ascii "en") (ascii "en")).steps = 3 := by
  decide +kernel

/-- C68: the accessors of a normal tag of length `n`, whether or not it is well-formed. -/
theorem C68_accessors (t : NormalLangTag) :
    WorkAtMost (Timed.language t) t.language (2 * t.str.length) ∧ WorkAtMost (Timed.script t) t.script (4 * t.str.length) ∧
    WorkAtMost (Timed.region t) t.region (6 * t.str.length) ∧ WorkAtMost (Timed.variants t) t.variants (8 * t.str.length) ∧
    WorkAtMost (Timed.extensions t) t.extensions (10 * t.str.length) ∧ WorkAtMost (Timed.privateUse t) t.privateUse (8 * t.str.length) ∧
    WorkAtMost (Timed.privateUseSubtags t) t.privateUseSubtags (8 * t.str.length) :=
  ⟨work_language t, work_script t, work_region t, work_variants t, work_extensions t, work_privateUse t, work_privateUseSubtags t⟩

example : (Timed.extensions ⟨ascii "en-Latn-US-rozaj-a-bbb"⟩).steps = 57 ∧ (ascii "en-Latn-US-rozaj-a-bbb").length = 22 := by decide +kernel

/-- C68: recognising a grandfathered tag takes at most 312 iterations, whatever the length of the text. -/
theorem C68_grandfathered (s : Text) : WorkAtMost (Timed.newGrandfathered s) (GrandfatheredLangTag.new s) 312 ∧
    WorkAtMost (Timed.tryFrom s) (GrandfatheredLangTag.tryFrom s) 312 := ⟨work_newGrandfathered s, work_tryFrom s⟩

example : (Timed.newGrandfathered (ascii "zh-xiang")).steps = 43 := by decide +kernel

/-- C68: classifying a tag of length `n`, and its accessors. -/
theorem C68_langTag (t : LangTag) :
    WorkAtMost (Timed.LangTag.asTyped t) t.asTyped (2 * t.str.length + 312) ∧ WorkAtMost (Timed.LangTag.kind t) t.kind (2 * t.str.length + 312) ∧
    WorkAtMost (Timed.LangTag.asNormal t) (.ok t.asNormal) t.str.length ∧
    WorkAtMost (Timed.LangTag.asPrivateUse t) (.ok t.asPrivateUse) t.str.length ∧
    WorkAtMost (Timed.LangTag.asGrandfathered t) t.asGrandfathered 312 ∧
    WorkAtMost (Timed.LangTag.isNormal t) (.ok t.isNormal) t.str.length ∧
    WorkAtMost (Timed.LangTag.isPrivateUse t) (.ok t.isPrivateUse) t.str.length ∧
    WorkAtMost (Timed.LangTag.isGrandfathered t) t.isGrandfathered 312 ∧
    WorkAtMost (Timed.LangTag.language t) t.language (3 * t.str.length + 312) ∧
    WorkAtMost (Timed.LangTag.script t) t.script (5 * t.str.length) ∧ WorkAtMost (Timed.LangTag.region t) t.region (7 * t.str.length) ∧
    WorkAtMost (Timed.LangTag.variants t) t.variants (9 * t.str.length) ∧
    WorkAtMost (Timed.LangTag.extensions t) t.extensions (11 * t.str.length) ∧
    WorkAtMost (Timed.LangTag.privateUse t) t.privateUse (9 * t.str.length) ∧
    WorkAtMost (Timed.LangTag.privateUseSubtags t) t.privateUseSubtags (9 * t.str.length) :=
  ⟨work_asTyped t, work_kind t, work_asNormal t, work_asPrivateUse t, work_asGrandfathered t, work_isNormal t, work_isPrivateUse t,
    work_isGrandfathered t, work_langTag_language t, work_langTag_script t, work_langTag_region t, work_langTag_variants t,
    work_langTag_extensions t, work_langTag_privateUse t, work_langTag_privateUseSubtags t⟩

example : (Timed.LangTag.script ⟨ascii "en-Latn-US"⟩).steps = 33 ∧ (Timed.LangTag.kind ⟨ascii "x-abc"⟩).steps = 7 := by decide +kernel

/-- C68: the parts of a language, and looking up an extension. -/
theorem C68_parts (l : Language) (e : Extensions) (g : Model.Singleton) :
    WorkAtMost (Timed.primary l) (.ok l.primary) l.str.length ∧ WorkAtMost (Timed.extension l) (.ok l.extension) l.str.length ∧
    WorkAtMost (Timed.extensionSubtags l) (.ok l.extensionSubtags) l.str.length ∧ WorkAtMost (Timed.get e g) (e.get g) e.str.length ∧
    WorkAtMost (Timed.iterExtension e g) (e.iterExtension g) e.str.length :=
  ⟨work_primary l, work_extension l, work_extensionSubtags l, work_get e g, work_iterExtension e g⟩

example : (Timed.get ⟨ascii "a-bbb-cc-b-dd"⟩ ⟨98⟩).steps = 12 ∧ (Timed.primary ⟨ascii "zh-yue"⟩).steps = 3 := by decide +kernel

/-- C68: all the calls of `next` together on an iterator over the subtags of a value of length `n`, however many. -/
theorem C68_iterators (calls : Nat) (p : PrivateUse) (e : Extension) (l : LanguageExtension) :
    WorkAtMost (collectTimed Timed.privateUseNext calls p.iter) (collect PrivateUseIter.next calls p.iter) p.str.length ∧
    WorkAtMost (collectTimed Timed.extensionNext calls e.iter) (collect ExtensionIter.next calls e.iter) e.str.length ∧
    WorkAtMost (collectTimed Timed.languageExtensionNext calls l.iter) (collect LanguageExtensionIter.next calls l.iter) l.str.length :=
  ⟨work_mono (work_privateUseIter calls _) (Nat.sub_le _ _), work_mono (work_extensionIter calls _) (Nat.sub_le _ _),
    work_mono (work_languageExtensionIter calls _) (Nat.sub_le _ _)⟩

example : (collectTimed Timed.privateUseNext 100 (PrivateUse.iter ⟨ascii "x-ab-cd"⟩)).steps = 5 := by decide +kernel

/-- C68: all the calls of `next` and `next_back` together, in any order; `first` and `last`. -/
theorem C68_variants (history : List Side) (v : Variants) :
    WorkAtMost (collectSidesTimed Timed.variantsNext Timed.variantsNextBack history v.iter)
      (collectSides VariantsIter.next VariantsIter.nextBack history v.iter) (v.str.length + 1) ∧
    WorkAtMost (Timed.first v) v.first (v.str.length + 1) ∧ WorkAtMost (Timed.last v) v.last (v.str.length + 1) :=
  ⟨work_variantsIter history v, work_first v, work_last v⟩

example : (collectSidesTimed Timed.variantsNext Timed.variantsNextBack [.back, .front, .back, .front, .back] (Variants.iter ⟨ascii "rozaj-1994-biske"⟩)).steps =
    17 := by decide +kernel

/-- C68: all the calls of `next` together on the iterator over the extensions of a constructed value. -/
theorem C68_extensions (calls : Nat) (e : Extensions) (h : Constructed e) :
    WorkAtMost (collectTimed Timed.extensionsNext calls e.iter) (collect ExtensionsIter.next calls e.iter) (2 * e.str.length) := by
  obtain ⟨es, he⟩ := C29_exists e h
  simp only [Extensions.iter, ExtensionsIter.new, he.2]
  exact work_extensionsIter calls (extInv_start (ascii_isListOf he) he.1)

example : Constructed (⟨ascii "a-bbb-cc-b-dd"⟩ : Extensions) ∧
    (collectTimed Timed.extensionsNext 100 (Extensions.iter ⟨ascii "a-bbb-cc-b-dd"⟩)).steps = 19 := by
  exact ⟨⟨ascii "a-bbb-cc-b-dd", by decide +kernel⟩, by decide +kernel⟩

end Langtag.Props
