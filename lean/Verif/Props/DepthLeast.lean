import Verif.Props.Depth
import Verif.Source.Deep.LeastGrandfathered

/-!
# C76: the bounds are the least ones

On a text with more than one subtag the accessors do nest calls as deep as `C76_accessors` allows, so that `C76_api` is not true of a smaller
number than thirteen.
-/

set_option autoImplicit false

namespace Langtag.Props
open Langtag.Model hiding Singleton
open Langtag.Spec Langtag.Client Langtag.Proof
open Langtag.Source (run Val val tag crate outcome)
open Langtag.Source.Deep

theorem _root_.Langtag.Spec.NestsWithin.within {n max : Nat} {T : List String} {f : String} {args : List Val} (h : NestsWithin n max T f args) :
    Within n max T f args := h.imp fun _ => And.left

theorem not_nests {n max : Nat} {T : List String} {f : String} {args : List Val} {F : Langtag.Source.Fn}
    (h : callPath n (crate max) ⟨[], "", .tuple []⟩ T f args [] = callFn n (crate max) F args [])
    (h' : callFn n (crate max) F args [] = none) : ¬ NestsWithin n max T f args := fun hn => not_within (h.trans h') hn.within

theorem least_stringTypes : ∀ T ∈ stringTypes, LeastSource T := by
  intro T hT
  simp only [stringTypes, List.mem_cons, List.not_mem_nil, or_false] at hT
  rcases hT with rfl | rfl | rfl | rfl | rfl | rfl | rfl | rfl | rfl | rfl | rfl | rfl | rfl | rfl | rfl
  · exact LangTag.least
  · exact NormalLangTag.least
  · exact Language.least
  · exact PrimaryLanguage.least
  · exact LanguageExtension.least
  · exact ExtendedLangTag.least
  · exact Script.least
  · exact Region.least
  · exact Variant.least
  · exact Variants.least
  · exact Extension.least
  · exact Extensions.least
  · exact ExtensionSubtag.least
  · exact PrivateUse.least
  · exact PrivateUseSubtag.least

/-- C76: the constructors of the fifteen string types nest three calls on every text, `hash` on every text that is not empty, `==` on two such of
the same length, `cmp` and `partial_cmp` on any two such. -/
theorem C76_least_types : ∀ T ∈ stringTypes, ∀ (max : Nat) (s t : Text) (w : List UInt8), ¬ NestsWithin 2 max [T] "new" [.str s] ∧
    (s ≠ [] → t.length = s.length → ¬ NestsWithin 2 max [T] "eq" [tag T s, tag T t]) ∧
    (s ≠ [] → t ≠ [] → ¬ NestsWithin 2 max [T] "cmp" [tag T s, tag T t] ∧ ¬ NestsWithin 3 max [T] "partial_cmp" [tag T s, tag T t]) ∧
    (s ≠ [] → ¬ NestsWithin 2 max [T] "hash" [tag T s, .hasher w]) := by
  intro T hT max s t w
  have h := least_stringTypes T hT
  exact ⟨fun hn => h.new max s hn.within, fun hs ht hn => h.eq max s t ht.symm hs hn.within,
    fun hs ht => ⟨fun hn => h.cmp max s t hs ht hn.within, fun hn => h.partialCmp max s t hs ht hn.within⟩, fun hs hn => h.hash max s w hs hn.within⟩

/-- C76: the iterators reach their bounds on every ASCII text, as long as an item is left. -/
theorem C76_least_iterators (max : Nat) (d : Text) (o e : Nat) (h : d.length + 1 ≤ max) (ha : ∀ b ∈ d, b < 128) :
    (o < e → ¬ NestsWithin 1 max ["VariantsIter"] "next" [val (⟨d, o, e⟩ : VariantsIter)]) ∧
    (o < e → ¬ NestsWithin 1 max ["VariantsIter"] "next_back" [val (⟨d, o, e⟩ : VariantsIter)]) ∧
    (o < d.length → ¬ NestsWithin 1 max ["ExtensionIter"] "next" [val (⟨d, o⟩ : ExtensionIter)]) ∧
    (o + 2 ≤ d.length → ¬ NestsWithin 5 max ["ExtensionsIter"] "next" [val (⟨d, o⟩ : ExtensionsIter)]) ∧
    (o < d.length → ¬ NestsWithin 1 max ["PrivateUseIter"] "next" [val (⟨d, o⟩ : PrivateUseIter)]) ∧
    (o < d.length → ¬ NestsWithin 1 max ["LanguageExtensionIter"] "next" [val (⟨d, o⟩ : LanguageExtensionIter)]) := by
  obtain ⟨i1, i2, i3, i4, i5, i6⟩ := iterators_least max d o e h ha
  exact ⟨fun ho hn => i1 ho hn.within, fun ho hn => i2 ho hn.within, fun ho hn => i3 ho hn.within, fun ho hn => i4 ho hn.within,
    fun ho hn => i5 ho hn.within, fun ho hn => i6 ho hn.within⟩

-- the bounds of `C76_types` and `C76_iterators` are met, and none less
example : NestsWithin 3 100 ["Script"] "eq" [tag "Script" (ascii "Latn"), tag "Script" (ascii "LATN")] ∧
    ¬ NestsWithin 2 100 ["Script"] "eq" [tag "Script" (ascii "Latn"), tag "Script" (ascii "LATN")] :=
  ⟨(C76_types "Script" (by decide) 100 (ascii "Latn") (ascii "LATN") [] (by decide)).2.1,
   (C76_least_types "Script" (by decide) 100 (ascii "Latn") (ascii "LATN") []).2.1 (by decide) rfl⟩

example : NestsWithin 6 100 ["ExtensionsIter"] "next" [val (⟨ascii "a-bb-c-dd", 5⟩ : ExtensionsIter)] ∧
    ¬ NestsWithin 5 100 ["ExtensionsIter"] "next" [val (⟨ascii "a-bb-c-dd", 5⟩ : ExtensionsIter)] :=
  ⟨(C76_iterators 100 (ascii "a-bb-c-dd") 5 0 (by decide)).2.2.2.1,
   (C76_least_iterators 100 (ascii "a-bb-c-dd") 5 0 (by decide) (by decide)).2.2.2.1 (by decide)⟩

/-- C76: on every normal tag with a `-`, the accessors nest calls deeper than one less than the bound of `C76_accessors`. -/
theorem C76_least (max : Nat) (s : Text) (h : s.length + 1 ≤ max) (hs : Grammar.langtag.Matches s) (hd : dash ∈ s) :
    ¬ NestsWithin 6 max ["NormalLangTag"] "language" [tag "NormalLangTag" s] ∧ ¬ NestsWithin 7 max ["NormalLangTag"] "script" [tag "NormalLangTag" s] ∧
    ¬ NestsWithin 8 max ["NormalLangTag"] "region" [tag "NormalLangTag" s] ∧ ¬ NestsWithin 9 max ["NormalLangTag"] "variants" [tag "NormalLangTag" s] ∧
    ¬ NestsWithin 10 max ["NormalLangTag"] "extensions" [tag "NormalLangTag" s] ∧
    ¬ NestsWithin 10 max ["NormalLangTag"] "private_use" [tag "NormalLangTag" s] ∧
    ¬ NestsWithin 11 max ["NormalLangTag"] "private_use_subtags" [tag "NormalLangTag" s] ∧
    ¬ NestsWithin 7 max ["LangTag"] "language" [tag "LangTag" s] ∧ ¬ NestsWithin 8 max ["LangTag"] "script" [tag "LangTag" s] ∧
    ¬ NestsWithin 9 max ["LangTag"] "region" [tag "LangTag" s] ∧ ¬ NestsWithin 10 max ["LangTag"] "variants" [tag "LangTag" s] ∧
    ¬ NestsWithin 11 max ["LangTag"] "extensions" [tag "LangTag" s] ∧ ¬ NestsWithin 11 max ["LangTag"] "private_use" [tag "LangTag" s] ∧
    ¬ NestsWithin 12 max ["LangTag"] "private_use_subtags" [tag "LangTag" s] := by
  have ha : Ascii s := ascii_of_matches okRe_langtag hs
  have hok : StrNewtype.isOk NormalLangTag s = true := (isOk_NormalLangTag s).mpr hs
  have hn : LangTag.asNormal ⟨s⟩ = some ⟨s⟩ := by simp only [LangTag.asNormal, Langtag.Source.new_isOk, hok]; rfl
  open Langtag.Source.Deep in
  exact ⟨not_nests (Names.NormalLangTag_language.callPath ..) (NormalLangTag.language_none _ s h ha hd),
    not_nests (Names.NormalLangTag_script.callPath ..) (NormalLangTag.script_none _ s h ha hd),
    not_nests (Names.NormalLangTag_region.callPath ..) (NormalLangTag.region_none _ s h ha hd),
    not_nests (Names.NormalLangTag_variants.callPath ..) (NormalLangTag.variants_none _ s h ha hd),
    not_nests (Names.NormalLangTag_extensions.callPath ..) (NormalLangTag.extensions_none _ s h ha hd),
    not_nests (Names.NormalLangTag_private_use.callPath ..) (NormalLangTag.private_use_none _ s h ha hd),
    not_nests (Names.NormalLangTag_private_use_subtags.callPath ..) (NormalLangTag.private_use_subtags_none _ s h ha hd),
    not_nests (Names.LangTag_language.callPath ..) (LangTag.language_none _ s h ha hd hn),
    not_nests (Names.LangTag_script.callPath ..) (LangTag.script_none _ s h ha hd hn),
    not_nests (Names.LangTag_region.callPath ..) (LangTag.region_none _ s h ha hd hn),
    not_nests (Names.LangTag_variants.callPath ..) (LangTag.variants_none _ s h ha hd hn),
    not_nests (Names.LangTag_extensions.callPath ..) (LangTag.extensions_none _ s h ha hd hn),
    not_nests (Names.LangTag_private_use.callPath ..) (LangTag.private_use_none _ s h ha hd hn),
    not_nests (Names.LangTag_private_use_subtags.callPath ..) (LangTag.private_use_subtags_none _ s h ha hd hn)⟩

/-- C76: parsing a grandfathered tag nests four calls, and what asks for one in a `LangTag` one or two more; `as_typed` and `kind` get there on the
irregular ones. -/
theorem C76_least_grandfathered (max : Nat) (s : Text) (h : s.length + 1 ≤ max) (hs : Grammar.grandfathered.Matches s) :
    ¬ NestsWithin 3 max ["GrandfatheredLangTag"] "new" [.str s] ∧ ¬ NestsWithin 2 max ["GrandfatheredLangTag"] "try_from" [.bytes s] ∧
    ¬ NestsWithin 4 max ["LangTag"] "as_grandfathered" [tag "LangTag" s] ∧ ¬ NestsWithin 5 max ["LangTag"] "is_grandfathered" [tag "LangTag" s] ∧
    (¬ Grammar.langtag.Matches s →
      ¬ NestsWithin 4 max ["LangTag"] "as_typed" [tag "LangTag" s] ∧ ¬ NestsWithin 5 max ["LangTag"] "kind" [tag "LangTag" s]) := by
  obtain ⟨g, hg⟩ := (matches_grandfathered s).mp hs
  have hl : ∃ g ∈ GRANDFATHERED, g.asBytes.length = s.length := ⟨g, mem_GRANDFATHERED g, CaseEq.length hg⟩
  have hp : ¬ StrNewtype.isOk PrivateUse s = true := fun hp => grandfathered_not_privateuse hs ((isOk_PrivateUse s).mp hp)
  refine ⟨not_nests (Names.GrandfatheredLangTag_new.callPath ..) (GrandfatheredLangTag.new_none s hl),
    not_nests (Names.GrandfatheredLangTag_TryFrom_try_from.callPath ..) (GrandfatheredLangTag.try_from_none s hl),
    not_nests (Names.LangTag_as_grandfathered.callPath ..) (LangTag.as_grandfathered_none s hl _),
    not_nests (Names.LangTag_is_grandfathered.callPath ..) (LangTag.is_grandfathered_none s hl _), fun hn => ?_⟩
  have hn' : ¬ StrNewtype.isOk NormalLangTag s = true := fun h => hn ((isOk_NormalLangTag s).mp h)
  exact ⟨not_nests (Names.LangTag_as_typed.callPath ..) (LangTag.as_typed_none s hl _ h hn' hp),
    not_nests (Names.LangTag_kind.callPath ..) (LangTag.kind_none s hl _ h hn' hp)⟩

-- an irregular one
example : Grammar.grandfathered.Matches (ascii "I-Klingon") ∧ ¬ Grammar.langtag.Matches (ascii "I-Klingon") :=
  ⟨(matches_grandfathered _).mpr ⟨.IKlingon, by decide⟩, fun h => absurd ((isOk_NormalLangTag _).mpr h) (by decide +kernel)⟩

/-- C76: thirteen is the least number that is enough for every public function, on the values a program can get hold of. -/
theorem C76_exact (n max : Nat) (hmax : 12 ≤ max) :
    (∀ F ∈ api, ∀ args, FitAll F.params args → (∀ a ∈ args, Obtainable max a) → NestsWithin n max F.owner F.name args) ↔ 13 ≤ n := by
  refine ⟨fun h => ?_, fun hn F hF args hf ha => C76_raise hn (C76_api max hmax F hF args hf ha)⟩
  refine Nat.lt_of_not_le fun hn => ?_
  have hm : Grammar.langtag.Matches (ascii "en-GB") := (isOk_NormalLangTag _).mp (by decide +kernel)
  have ho : Obtainable max (tag "LangTag" (ascii "en-GB")) :=
    (C70_reached max "LangTag" (by decide) (ascii "en-GB")).1 ⟨_, rfl, (isOk_LangTag _).mp (by decide +kernel)⟩ (by simp [ascii]; omega)
  have := h ⟨["LangTag"], "private_use_subtags", [.of "LangTag"]⟩ (by decide) [tag "LangTag" (ascii "en-GB")] ⟨rfl, trivial⟩ (by simpa using ho)
  exact (C76_least max (ascii "en-GB") (by simp [ascii]; omega) hm (by decide)).2.2.2.2.2.2.2.2.2.2.2.2.2 (C76_raise hn this)

-- a normal tag with a `-`
example : Grammar.langtag.Matches (ascii "sl-Latn-IT-nedis") ∧ dash ∈ ascii "sl-Latn-IT-nedis" :=
  ⟨(isOk_NormalLangTag _).mp (by decide +kernel), by decide⟩

end Langtag.Props
