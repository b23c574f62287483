import Verif.Source.RunIter
import Verif.Props.Acceptance
import Verif.Props.Kinds
import Verif.Props.Components
import Verif.Props.Language
import Verif.Props.Iterators
import Verif.Props.Order
import Verif.Props.Types
import Verif.Props.Slices

/-!
# The properties, of the text of the crate

Each statement says what calls of functions of the crate do, in terms of the specification.  `run max ["T"] "f" args` reads the text of the files
of `/repo/src`, and executes the call `T::f(args)`; nothing of the model occurs in a statement.  `max` is the largest `usize`; the texts have to fit.
-/

set_option autoImplicit false

namespace Langtag.Props
open Langtag.Model hiding Singleton
open Langtag.Source Langtag.Spec Langtag.Proof

/-! ## Constructors -/

theorem runConstructorIs {n : String} {T : Type} [StrNewtype T] [Compare T] [Rep T] (h : IsSource n T) {g : Abnf} (hg : ConstructorIs T g) :
    RunConstructorIs n g := fun max s hs => by
  rw [h.new max s hs]
  refine ⟨fun hm => ?_, fun hm => ?_⟩
  · obtain ⟨t, h1, h2⟩ := (hg s).1 hm
    rw [h1]
    show returns (.ok (val t)) = _
    rw [h.val_eq, h2]
  · rw [(hg s).2 hm]
    rfl

/-- C01: `LangTag::new`, by the text of the crate. -/
theorem C01_source : RunConstructorIs "LangTag" Grammar.languageTag := runConstructorIs LangTag.source C01_langTag
/-- C02: `NormalLangTag::new`, by the text of the crate. -/
theorem C02_source : RunConstructorIs "NormalLangTag" Grammar.langtag := runConstructorIs NormalLangTag.source C02_normalLangTag
/-- C03: the private use types, by the text of the crate. -/
theorem C03_source : RunConstructorIs "PrivateUse" Grammar.privateuse ∧ RunConstructorIs "PrivateUseSubtag" Grammar.privateuseSubtag :=
  ⟨runConstructorIs PrivateUse.source C03_privateUse, runConstructorIs PrivateUseSubtag.source C03_privateUseSubtag⟩
/-- C04: the language types, by the text of the crate. -/
theorem C04_source : RunConstructorIs "Language" Grammar.language ∧ RunConstructorIs "PrimaryLanguage" Grammar.primary ∧
    RunConstructorIs "LanguageExtension" Grammar.extlang ∧ RunConstructorIs "ExtendedLangTag" Grammar.extlangTag :=
  ⟨runConstructorIs Language.source C04_language, runConstructorIs PrimaryLanguage.source C04_primaryLanguage,
   runConstructorIs LanguageExtension.source C04_languageExtension, runConstructorIs ExtendedLangTag.source C04_extendedLangTag⟩
/-- C05: `Script::new` and `Region::new`, by the text of the crate. -/
theorem C05_source : RunConstructorIs "Script" Grammar.script ∧ RunConstructorIs "Region" Grammar.region :=
  ⟨runConstructorIs Script.source C05_script, runConstructorIs Region.source C05_region⟩
/-- C06: `Variant::new` and `Variants::new`, by the text of the crate. -/
theorem C06_source : RunConstructorIs "Variant" Grammar.variant ∧ RunConstructorIs "Variants" Grammar.variants :=
  ⟨runConstructorIs Variant.source C06_variant, runConstructorIs Variants.source C06_variants⟩
/-- C07: the extension types, by the text of the crate. -/
theorem C07_source : RunConstructorIs "Extension" Grammar.extension ∧ RunConstructorIs "ExtensionSubtag" Grammar.extensionSubtag ∧
    RunConstructorIs "Extensions" Grammar.extensions :=
  ⟨runConstructorIs Extension.source C07_extension, runConstructorIs ExtensionSubtag.source C07_extensionSubtag,
   runConstructorIs Extensions.source C07_extensions⟩

-- `run` on a text of 48 bytes, on a 64-bit machine
example : run (2 ^ 64 - 1) ["LangTag"] "new" [.str (ascii "zh-yue-Hant-HK-1abc-abcde-a-bbb-cc-b-dd-x-y-zzz")] =
    returns (.ok (tag "LangTag" (ascii "zh-yue-Hant-HK-1abc-abcde-a-bbb-cc-b-dd-x-y-zzz"))) :=
  (C01_source _ _ (by decide +kernel)).1 ((accepts_iff is_LangTag _).mp (accepts_of_isOk (by decide +kernel)))

-- `abc` is not a private use tag
example : run 100 ["PrivateUse"] "new" [.str (ascii "abc")] = returns (.err (.str (ascii "abc"))) :=
  (C03_source.1 _ _ (by decide +kernel)).2 fun h => absurd ((isPrivateUse_iff _).mpr h) (by decide +kernel)

/-! ## Kinds -/

/-- C10: `as_typed()` and `kind()`, by the text of the crate. -/
theorem C10_source (max : Nat) (s : Text) (h : s.length + 1 ≤ max) :
    (Grammar.langtag.Matches s →
      run max ["LangTag"] "as_typed" [tag "LangTag" s] = returns (.ctor ["TypedLangTag"] "Normal" [tag "NormalLangTag" s]) ∧
      run max ["LangTag"] "kind" [tag "LangTag" s] = returns (.ctor ["Kind"] "Normal" [])) ∧
    (Grammar.privateuse.Matches s →
      run max ["LangTag"] "as_typed" [tag "LangTag" s] = returns (.ctor ["TypedLangTag"] "PrivateUse" [tag "PrivateUse" s]) ∧
      run max ["LangTag"] "kind" [tag "LangTag" s] = returns (.ctor ["Kind"] "PrivateUse" [])) ∧
    (∀ g, CaseEq s (ascii (registered g)) → ¬ Grammar.langtag.Matches s →
      run max ["LangTag"] "as_typed" [tag "LangTag" s] =
        returns (.ctor ["TypedLangTag"] "Grandfathered" [.ctor ["GrandfatheredLangTag"] (variantName g) []]) ∧
      run max ["LangTag"] "kind" [tag "LangTag" s] = returns (.ctor ["Kind"] "Grandfathered" [])) := by
  have key := C69_langTag max ⟨s⟩ h
  have hk : run max ["LangTag"] "kind" [tag "LangTag" s] = gives (Model.LangTag.kind ⟨s⟩) := key.2.2.2.2.2.2.2.2.2.2.2.2.2.1
  have ht : run max ["LangTag"] "as_typed" [tag "LangTag" s] = gives (Model.LangTag.asTyped ⟨s⟩) := key.2.2.2.2.2.2.2.2.2.2.2.2.2.2
  rw [hk, ht]
  unfold Model.LangTag.kind
  refine ⟨fun hm => ?_, fun hm => ?_, fun g hg hn => ?_⟩
  · rw [asTyped_normal hm]; exact ⟨rfl, rfl⟩
  · rw [asTyped_privateUse hm]; exact ⟨rfl, rfl⟩
  · rw [← (C12_texts g).2] at hg
    have hl : g.language = none := by
      have := grandfathered_langtag hg.symm
      cases hl : g.language with
      | none => rfl
      | some l => exact absurd (this.mpr (by simp [hl])) hn
    rw [asTyped_grandfathered hg.symm hl]; exact ⟨rfl, rfl⟩

/-- C12: the grandfathered tags, by the text of the crate. -/
theorem C12_source (max : Nat) (s : Text) (g : GrandfatheredLangTag) :
    (CaseEq s (ascii (registered g)) →
      run max ["GrandfatheredLangTag"] "new" [.str s] = returns (.ok (.ctor ["GrandfatheredLangTag"] (variantName g) []))) ∧
    ((∀ g', ¬ CaseEq s (ascii (registered g'))) → run max ["GrandfatheredLangTag"] "new" [.str s] = returns (.err (.str s))) ∧
    run max ["GrandfatheredLangTag"] "as_str" [.ctor ["GrandfatheredLangTag"] (variantName g) []] = returns (.str (ascii (registered g))) ∧
    run max ["GrandfatheredLangTag"] "as_bytes" [.ctor ["GrandfatheredLangTag"] (variantName g) []] = returns (.bytes (ascii (registered g))) := by
  obtain ⟨k1, _, _, k4, k5, _⟩ := C69_grandfathered max g s Model.Formatter.default []
  refine ⟨fun h => ?_, fun h => ?_, ?_, ?_⟩
  · rw [k1, (C12_new_ok s g).mpr h]; rfl
  · rw [k1, C12_new_error s h]; rfl
  · rw [← (C12_texts g).1]; exact k5
  · rw [← (C12_texts g).2]; exact k4

/-- C14: the three predicates of `LangTag`, by the text of the crate. -/
theorem C14_source (max : Nat) (s : Text) (h : s.length + 1 ≤ max) :
    (Grammar.langtag.Matches s → run max ["LangTag"] "is_normal" [tag "LangTag" s] = returns (.bool true)) ∧
    (¬ Grammar.langtag.Matches s → run max ["LangTag"] "is_normal" [tag "LangTag" s] = returns (.bool false)) ∧
    (Grammar.privateuse.Matches s → run max ["LangTag"] "is_private_use" [tag "LangTag" s] = returns (.bool true)) ∧
    (¬ Grammar.privateuse.Matches s → run max ["LangTag"] "is_private_use" [tag "LangTag" s] = returns (.bool false)) ∧
    (Grammar.grandfathered.Matches s → run max ["LangTag"] "is_grandfathered" [tag "LangTag" s] = returns (.bool true)) ∧
    (¬ Grammar.grandfathered.Matches s → run max ["LangTag"] "is_grandfathered" [tag "LangTag" s] = returns (.bool false)) := by
  obtain ⟨_, _, _, _, _, _, _, k1, k2, k3, _⟩ := C69_langTag max ⟨s⟩ h
  have k1 : run max ["LangTag"] "is_normal" [tag "LangTag" s] = _ := k1
  have k2 : run max ["LangTag"] "is_private_use" [tag "LangTag" s] = _ := k2
  have k3 : run max ["LangTag"] "is_grandfathered" [tag "LangTag" s] = _ := k3
  rw [k1, k2, k3]
  refine ⟨fun hm => ?_, fun hm => ?_, fun hm => ?_, fun hm => ?_, fun hm => ?_, fun hm => ?_⟩
  · rw [(isNormal_iff s).mpr hm]; rfl
  · rw [eq_false_of_ne_true (mt (isNormal_iff s).mp hm)]; rfl
  · rw [(isPrivateUse_iff s).mpr hm]; rfl
  · rw [eq_false_of_ne_true (mt (isPrivateUse_iff s).mp hm)]; rfl
  · rw [(isGrandfathered_eq s).1 hm]; rfl
  · rw [(isGrandfathered_eq s).2 hm]; rfl

-- `zh-min` is a normal and a grandfathered tag
example : Grammar.langtag.Matches (ascii "zh-MIN") ∧ Grammar.grandfathered.Matches (ascii "zh-MIN") ∧ ¬ Grammar.privateuse.Matches (ascii "zh-MIN") :=
  ⟨(accepts_iff is_NormalLangTag _).mp (accepts_of_isOk (by decide +kernel)),
   (matches_grandfathered _).mpr ⟨.ZhMin, by unfold CaseEq; decide +kernel⟩,
   fun h => absurd ((isPrivateUse_iff _).mpr h) (by decide +kernel)⟩

example : run 100 ["LangTag"] "is_grandfathered" [tag "LangTag" (ascii "zh-MIN")] = returns (.bool true) :=
  (C14_source _ _ (by decide +kernel)).2.2.2.2.1 ((matches_grandfathered _).mpr ⟨.ZhMin, by unfold CaseEq; decide +kernel⟩)
example : run 100 ["LangTag"] "kind" [tag "LangTag" (ascii "zh-MIN")] = returns (.ctor ["Kind"] "Normal" []) :=
  ((C10_source _ _ (by decide +kernel)).1 ((accepts_iff is_NormalLangTag _).mp (accepts_of_isOk (by decide +kernel)))).2
example : run 100 ["LangTag"] "as_typed" [tag "LangTag" (ascii "I-Klingon")] =
    returns (.ctor ["TypedLangTag"] "Grandfathered" [.ctor ["GrandfatheredLangTag"] "IKlingon" []]) :=
  ((C10_source _ _ (by decide +kernel)).2.2 .IKlingon (by unfold CaseEq; decide +kernel)
    fun h => absurd ((isNormal_iff _).mpr h) (by decide +kernel)).1
example : run 100 ["GrandfatheredLangTag"] "new" [.str (ascii "I-Klingon")] = returns (.ok (.ctor ["GrandfatheredLangTag"] "IKlingon" [])) :=
  (C12_source _ _ .IKlingon).1 (by unfold CaseEq; decide +kernel)

/-! ## The parts of a normal tag -/

section
variable (max : Nat) (s : Text) (h : s.length + 1 ≤ max) (p : Parts) (hp : Decomposes s p)
include h hp

/-- C16: `language()`, by the text of the crate. -/
theorem C16_source : run max ["NormalLangTag"] "language" [tag "NormalLangTag" s] = returns (tag "Language" p.language) := by
  have := (C69_normalLangTag max ⟨s⟩ h).1
  rw [C16_language ⟨s⟩ p hp] at this
  exact this

/-- C17: `script()`, by the text of the crate.  It panics if nothing follows the language. -/
theorem C17_source_partial :
    (p.afterLanguage ≠ [] → run max ["NormalLangTag"] "script" [tag "NormalLangTag" s] = returns (optTag "Script" p.script)) ∧
    (p.afterLanguage = [] → run max ["NormalLangTag"] "script" [tag "NormalLangTag" s] = some (.panics .slice)) := by
  have k : run max ["NormalLangTag"] "script" [tag "NormalLangTag" s] = _ := (C69_normalLangTag max ⟨s⟩ h).2.1
  rw [k]
  refine ⟨fun ha => ?_, fun ha => ?_⟩
  · rw [(C17_script_partial ⟨s⟩ p hp).1 ha]
    exact congrArg returns (optTag_map (fun _ => rfl) p.script)
  · rw [(C17_script_partial ⟨s⟩ p hp).2 ha]; rfl

/-- C18: `region()`, by the text of the crate.  It panics if nothing follows the script. -/
theorem C18_source_partial :
    (p.afterScript ≠ [] → run max ["NormalLangTag"] "region" [tag "NormalLangTag" s] = returns (optTag "Region" p.region)) ∧
    (p.afterScript = [] → run max ["NormalLangTag"] "region" [tag "NormalLangTag" s] = some (.panics .slice)) := by
  have k : run max ["NormalLangTag"] "region" [tag "NormalLangTag" s] = _ := (C69_normalLangTag max ⟨s⟩ h).2.2.1
  rw [k]
  refine ⟨fun ha => ?_, fun ha => ?_⟩
  · rw [(C18_region_partial ⟨s⟩ p hp).1 ha]
    exact congrArg returns (optTag_map (fun _ => rfl) p.region)
  · rw [(C18_region_partial ⟨s⟩ p hp).2 ha]; rfl

/-- C19: `variants()`, by the text of the crate.  It panics if nothing follows the region. -/
theorem C19_source_partial :
    (p.afterRegion ≠ [] → run max ["NormalLangTag"] "variants" [tag "NormalLangTag" s] = returns (tag "Variants" (joinDash p.variants))) ∧
    (p.afterRegion = [] → run max ["NormalLangTag"] "variants" [tag "NormalLangTag" s] = some (.panics .slice)) := by
  have k : run max ["NormalLangTag"] "variants" [tag "NormalLangTag" s] = _ := (C69_normalLangTag max ⟨s⟩ h).2.2.2.1
  rw [k]
  refine ⟨fun ha => ?_, fun ha => ?_⟩
  · rw [(C19_variants_partial ⟨s⟩ p hp).1 ha]; rfl
  · rw [(C19_variants_partial ⟨s⟩ p hp).2 ha]; rfl

/-- C20: `extensions()`, by the text of the crate.  It panics if nothing follows the variants. -/
theorem C20_source_partial :
    (p.afterVariants ≠ [] → run max ["NormalLangTag"] "extensions" [tag "NormalLangTag" s] = returns (tag "Extensions" (joinDash p.extensions))) ∧
    (p.afterVariants = [] → run max ["NormalLangTag"] "extensions" [tag "NormalLangTag" s] = some (.panics .slice)) := by
  have k : run max ["NormalLangTag"] "extensions" [tag "NormalLangTag" s] = _ := (C69_normalLangTag max ⟨s⟩ h).2.2.2.2.1
  rw [k]
  refine ⟨fun ha => ?_, fun ha => ?_⟩
  · rw [(C20_extensions_partial ⟨s⟩ p hp).1 ha]; rfl
  · rw [(C20_extensions_partial ⟨s⟩ p hp).2 ha]; rfl

/-- C21: `private_use()`, by the text of the crate.  It is right if there are variants or a private use part but no extensions; with extensions it
starts at the first of them; it panics if nothing follows the region. -/
theorem C21_source_partial :
    (p.afterRegion ≠ [] → p.extensions = [] →
      run max ["NormalLangTag"] "private_use" [tag "NormalLangTag" s] = returns (optTag "PrivateUse" p.privateUse)) ∧
    (p.extensions ≠ [] → run max ["NormalLangTag"] "private_use" [tag "NormalLangTag" s] =
      returns (optTag "PrivateUse" (some (joinDash (p.extensions ++ p.privateUse.toList))))) ∧
    (p.afterRegion = [] → run max ["NormalLangTag"] "private_use" [tag "NormalLangTag" s] = some (.panics .slice)) := by
  have k : run max ["NormalLangTag"] "private_use" [tag "NormalLangTag" s] = _ := (C69_normalLangTag max ⟨s⟩ h).2.2.2.2.2.1
  rw [k]
  obtain ⟨k1, k2, k3⟩ := C21_privateUse_partial ⟨s⟩ p hp
  refine ⟨fun ha he => ?_, fun he => ?_, fun ha => ?_⟩
  · rw [k1 ha he]
    exact congrArg returns (optTag_map (fun _ => rfl) p.privateUse)
  · rw [k2 he]; rfl
  · rw [k3 ha]; rfl

/-- C16: on a normal tag the accessors of `LangTag` do what those of `NormalLangTag` do, by the text of the crate. -/
theorem C16_source_langTag :
    run max ["LangTag"] "language" [tag "LangTag" s] = returns (optTag "Language" (some p.language)) ∧
    ∀ f ∈ ["script", "region", "variants", "extensions", "private_use", "private_use_subtags"],
      run max ["LangTag"] f [tag "LangTag" s] = run max ["NormalLangTag"] f [tag "NormalLangTag" s] := by
  obtain ⟨k0, k1, k2, k3, k4, k5, k6, _⟩ := C69_langTag max ⟨s⟩ h
  obtain ⟨_, l1, l2, l3, l4, l5, l6⟩ := C69_normalLangTag max ⟨s⟩ h
  have ha : Accepts NormalLangTag s := (accepts_iff is_NormalLangTag s).mpr ((matches_langtag s).mpr ⟨p, hp⟩)
  obtain ⟨m0, m1, m2, m3, m4, m5, m6⟩ := C16_langTag ⟨s⟩ ha
  refine ⟨?_, ?_⟩
  · rw [m0, C16_language ⟨s⟩ p hp] at k0; exact k0
  · intro f hf
    simp only [List.mem_cons, List.not_mem_nil, or_false] at hf
    rcases hf with rfl | rfl | rfl | rfl | rfl | rfl
    · rw [m1, ← l1] at k1; exact k1
    · rw [m2, ← l2] at k2; exact k2
    · rw [m3, ← l3] at k3; exact k3
    · rw [m4, ← l4] at k4; exact k4
    · rw [m5, ← l5] at k5; exact k5
    · rw [m6, ← l6] at k6; exact k6

/-- C21: `private_use_subtags()`, by the text of the crate: the iterator has the subtags after the first of what `private_use()` returns. -/
theorem C21_source_subtags_partial (hr : p.afterRegion ≠ []) :
    RunIterates max "NormalLangTag" "private_use_subtags" [tag "NormalLangTag" s] "PrivateUseIter" "PrivateUseSubtag"
      ((p.extensions ++ p.privateUse.toList).flatMap subtags).tail := by
  have k : run max ["NormalLangTag"] "private_use_subtags" [tag "NormalLangTag" s] = _ := (C69_normalLangTag max ⟨s⟩ h).2.2.2.2.2.2
  obtain ⟨it, e1, e2⟩ := C21_privateUseSubtags_extensions ⟨s⟩ p hp hr
  rw [e1] at k
  refine ⟨_, k, privateUseIter_runs ?_ e2⟩
  unfold NormalLangTag.privateUseSubtags at e1
  cases hx : NormalLangTag.privateUse ⟨s⟩ with
  | error e => rw [hx] at e1; cases e1
  | ok x =>
    rw [hx] at e1
    cases x with
    | none => cases e1; exact Nat.le_trans (Nat.succ_le_succ (Nat.zero_le _)) h
    | some x =>
      cases e1
      have := (((C67_accessors ⟨s⟩ ((normal_has_parts _).mpr ⟨p, hp⟩)).2.2.2.2.2 x hx).2).length_le
      exact Nat.le_trans (Nat.succ_le_succ this) h

/-- The calls of the accessors that end without a panic. -/
theorem C22_source_partial :
    ((∃ v, run max ["NormalLangTag"] "script" [tag "NormalLangTag" s] = returns v) ↔ p.afterLanguage ≠ []) ∧
    ((∃ v, run max ["NormalLangTag"] "region" [tag "NormalLangTag" s] = returns v) ↔ p.afterScript ≠ []) ∧
    ((∃ v, run max ["NormalLangTag"] "variants" [tag "NormalLangTag" s] = returns v) ↔ p.afterRegion ≠ []) ∧
    ((∃ v, run max ["NormalLangTag"] "extensions" [tag "NormalLangTag" s] = returns v) ↔ p.afterVariants ≠ []) ∧
    ((∃ v, run max ["NormalLangTag"] "private_use" [tag "NormalLangTag" s] = returns v) ↔ p.afterRegion ≠ []) := by
  have key : ∀ {r : Option Outcome} {q : Prop} {v : Val}, (q → r = returns v) → (¬ q → r = some (.panics .slice)) →
      ((∃ v, r = returns v) ↔ q) := by
    intro r q v h1 h2
    refine ⟨fun ⟨w, hw⟩ => Classical.byContradiction fun hq => ?_, fun hq => ⟨_, h1 hq⟩⟩
    rw [h2 hq] at hw
    cases hw
  obtain ⟨a1, a2⟩ := C17_source_partial max s h p hp
  obtain ⟨b1, b2⟩ := C18_source_partial max s h p hp
  obtain ⟨c1, c2⟩ := C19_source_partial max s h p hp
  obtain ⟨d1, d2⟩ := C20_source_partial max s h p hp
  obtain ⟨e1, e2, e3⟩ := C21_source_partial max s h p hp
  refine ⟨key a1 fun hn => a2 (Classical.not_not.mp hn), key b1 fun hn => b2 (Classical.not_not.mp hn),
    key c1 fun hn => c2 (Classical.not_not.mp hn), key d1 fun hn => d2 (Classical.not_not.mp hn), ?_⟩
  by_cases he : p.extensions = []
  · exact key (fun ha => e1 ha he) fun hn => e3 (Classical.not_not.mp hn)
  · exact key (fun _ => e2 he) fun hn => e3 (Classical.not_not.mp hn)
end

/-- C15: a tag that is not normal has no parts, by the text of the crate. -/
theorem C15_source (max : Nat) (s : Text) (h : s.length + 1 ≤ max) (hn : ¬ Grammar.langtag.Matches s) :
    (∀ f ∈ ["language", "script", "region", "private_use"], run max ["LangTag"] f [tag "LangTag" s] = returns .none) ∧
    run max ["LangTag"] "variants" [tag "LangTag" s] = returns (tag "Variants" []) ∧
    run max ["LangTag"] "extensions" [tag "LangTag" s] = returns (tag "Extensions" []) ∧
    RunIterates max "LangTag" "private_use_subtags" [tag "LangTag" s] "PrivateUseIter" "PrivateUseSubtag" [] := by
  obtain ⟨k0, k1, k2, k3, k4, k5, k6, _⟩ := C69_langTag max ⟨s⟩ h
  have hx : LangTag.asNormal ⟨s⟩ = none := by unfold LangTag.asNormal; rw [normal_new.2 hn]; rfl
  have hp : LangTag.privateUse ⟨s⟩ = .ok none := by unfold LangTag.privateUse; rw [hx]; rfl
  have hl : LangTag.language ⟨s⟩ = .ok none := by
    unfold LangTag.language
    rw [normal_new.2 hn]
    by_cases hg : ∃ g : GrandfatheredLangTag, CaseEq g.asBytes s
    · obtain ⟨g, hg⟩ := hg
      have : g.language = none := by
        cases hl : g.language with
        | none => rfl
        | some l => exact absurd ((grandfathered_langtag hg).mpr (by simp [hl])) hn
      simp only [grandfathered_new_ok hg, bind, Except.bind, pure, Except.pure, this]
    · simp only [grandfathered_new_error fun g' hg' => hg ⟨g', hg'⟩, bind, Except.bind, pure, Except.pure]
  refine ⟨fun f hf => ?_, ?_, ?_, ?_⟩
  · simp only [List.mem_cons, List.not_mem_nil, or_false] at hf
    rcases hf with rfl | rfl | rfl | rfl
    · rw [hl] at k0; exact k0
    · unfold LangTag.script at k1; rw [hx] at k1; exact k1
    · unfold LangTag.region at k2; rw [hx] at k2; exact k2
    · rw [hp] at k5; exact k5
  · unfold LangTag.variants at k3; rw [hx] at k3; exact k3
  · unfold LangTag.extensions at k4; rw [hx] at k4; exact k4
  · unfold LangTag.privateUseSubtags at k6
    rw [hp] at k6
    exact ⟨_, k6, privateUseIter_runs (Nat.le_trans (Nat.succ_le_succ (Nat.zero_le _)) h) C27_empty.1⟩

-- `i-klingon` has no script
example : run 100 ["LangTag"] "script" [tag "LangTag" (ascii "i-klingon")] = returns .none :=
  (C15_source _ _ (by decide +kernel) fun h => absurd ((isNormal_iff _).mpr h) (by decide +kernel)).1 _ (by simp)

-- a tag with all six parts, and the tag `en`
example : run 100 ["NormalLangTag"] "region" [tag "NormalLangTag" (ascii "zh-yue-Hant-HK-1abc-abcde-a-bbb-cc-b-dd-x-y-zzz")] =
    returns (optTag "Region" (some (ascii "HK"))) := (C18_source_partial _ _ (by decide +kernel) _ decomposes_full).1 (by decide +kernel)
example : run 100 ["NormalLangTag"] "region" [tag "NormalLangTag" (ascii "en")] = some (.panics .slice) :=
  (C18_source_partial _ _ (by decide +kernel) _ decomposes_en).2 rfl

/-! ## The parts of the language -/

/-- C25: `primary()` and `extension()`, by the text of the crate. -/
theorem C25_source (max : Nat) (s : Text) (h : s.length + 1 ≤ max) (u : Text) (us : List Text) (hu : subtags s = u :: us) :
    run max ["Language"] "primary" [tag "Language" s] = returns (tag "PrimaryLanguage" u) ∧
    run max ["Language"] "extension" [tag "Language" s] =
      returns (optTag "LanguageExtension" (if us = [] then none else some (joinDash us))) := by
  obtain ⟨k1, k2, _⟩ := C69_parts max s ⟨0⟩ h
  obtain ⟨e1, e2⟩ := C25_split ⟨s⟩ u us hu
  refine ⟨?_, ?_⟩
  · rw [← e1]; exact k1
  · rw [← e2]
    refine Eq.trans k2 (congrArg returns ?_)
    cases Language.extension ⟨s⟩ <;> rfl

example : run 100 ["Language"] "extension" [tag "Language" (ascii "zh-gan-yue")] = returns (optTag "LanguageExtension" (some (ascii "gan-yue"))) :=
  (C25_source _ _ (by decide +kernel) (ascii "zh") [ascii "gan", ascii "yue"] (by decide +kernel)).2

/-! ## Iterators -/

theorem constructed_mk {T : Type} [StrNewtype T] {g : Abnf} (hg : ConstructorIs T g) {s : Text} (hm : g.Matches s) :
    ∃ t : T, Constructed t ∧ StrNewtype.str t = s := by
  obtain ⟨t, h1, h2⟩ := (hg s).1 hm
  exact ⟨t, ⟨s, h1⟩, h2⟩

/-- C25: `extension_subtags()`, by the text of the crate. -/
theorem C25_source_subtags (max : Nat) (s : Text) (h : s.length + 1 ≤ max) (hm : Grammar.language.Matches s) :
    RunIterates max "Language" "extension_subtags" [tag "Language" s] "LanguageExtensionIter" "ExtendedLangTag" (subtags s).tail := by
  obtain ⟨⟨t⟩, hc, rfl⟩ := constructed_mk C04_language hm
  refine ⟨_, (C69_parts max t ⟨0⟩ h).2.2.1, languageExtensionIter_runs ?_ (C25_extensionSubtags ⟨t⟩ hc)⟩
  have hr := C25_rejoin ⟨t⟩
  unfold Language.extensionSubtags
  cases he : Language.extension ⟨t⟩ with
  | none => exact Nat.le_trans (Nat.succ_le_succ (Nat.zero_le _)) h
  | some e =>
    rw [he] at hr
    have : t.length = (joinDash [(Language.primary ⟨t⟩).str, e.str]).length := congrArg List.length hr.symm
    have h : t.length + 1 ≤ max := h
    simp only [joinDash, List.length_append, List.length_cons] at this
    show e.str.length + 1 ≤ max
    omega

/-- C27: the iterators of the private use part, of an extension and of an extended language, by the text of the crate. -/
theorem C27_source (max : Nat) (s : Text) (h : s.length + 1 ≤ max) :
    (Grammar.privateuse.Matches s →
      RunIterates max "PrivateUse" "iter" [tag "PrivateUse" s] "PrivateUseIter" "PrivateUseSubtag" (subtags s).tail) ∧
    (Grammar.extension.Matches s →
      RunIterates max "Extension" "iter" [tag "Extension" s] "ExtensionIter" "ExtensionSubtag" (subtags s).tail) ∧
    (Grammar.extlang.Matches s →
      RunIterates max "LanguageExtension" "iter" [tag "LanguageExtension" s] "LanguageExtensionIter" "ExtendedLangTag" (subtags s)) := by
  refine ⟨fun hm => ?_, fun hm => ?_, fun hm => ?_⟩
  · obtain ⟨⟨t⟩, hc, rfl⟩ := constructed_mk C03_privateUse hm
    exact ⟨_, (C69_parts max t ⟨0⟩ h).2.2.2.2.2.2.2.2.2.2.2.2, privateUseIter_runs h (C27_privateUse ⟨t⟩ hc)⟩
  · obtain ⟨⟨t⟩, hc, rfl⟩ := constructed_mk C07_extension hm
    exact ⟨_, (C69_parts max t ⟨0⟩ h).2.2.2.2.2.2.2.2.1, extensionIter_runs h (C27_extension ⟨t⟩ hc)⟩
  · obtain ⟨⟨t⟩, hc, rfl⟩ := constructed_mk C04_languageExtension hm
    exact ⟨_, (C69_parts max t ⟨0⟩ h).2.2.2.1, languageExtensionIter_runs h (C27_languageExtension ⟨t⟩ hc)⟩

/-- C28: the variants, from both ends, by the text of the crate. -/
theorem C28_source (max : Nat) (s : Text) (h : s.length + 1 ≤ max) (hm : Grammar.variants.Matches s) :
    (∃ it, run max ["Variants"] "iter" [tag "Variants" s] = returns it ∧ RunEnumeratesBothEnds max "VariantsIter" it "Variant" (listItems s)) ∧
    run max ["Variants"] "first" [tag "Variants" s] = returns (optTag "Variant" (listItems s).head?) ∧
    run max ["Variants"] "last" [tag "Variants" s] = returns (optTag "Variant" (listItems s).getLast?) := by
  obtain ⟨⟨t⟩, hc, rfl⟩ := constructed_mk C06_variants hm
  obtain ⟨_, _, _, _, k1, k2, k3, _⟩ := C69_parts max t ⟨0⟩ h
  obtain ⟨e1, e2⟩ := C28_first_last ⟨t⟩ hc
  refine ⟨⟨_, k1, variantsIter_runs h (Nat.le_refl _) (C28_iter ⟨t⟩ hc)⟩, ?_, ?_⟩
  · rw [e1] at k2; exact k2.trans (congrArg returns (optTag_map (fun _ => rfl) _))
  · rw [e2] at k3; exact k3.trans (congrArg returns (optTag_map (fun _ => rfl) _))

/-- C29: the extensions, by the text of the crate. -/
theorem C29_source (max : Nat) (es : List Text) (hm : ∀ e ∈ es, Grammar.extension.Matches e) (h : (joinDash es).length + 1 ≤ max) :
    RunIterates max "Extensions" "iter" [tag "Extensions" (joinDash es)] "ExtensionsIter" "Extension" es :=
  ⟨_, (C69_parts max (joinDash es) ⟨0⟩ h).2.2.2.2.2.2.2.2.2.2.1, extensionsIter_runs h (C29_iter ⟨joinDash es⟩ es ⟨hm, rfl⟩)⟩

/-- C30: `get(singleton)` is the first extension that starts with that byte, by the text of the crate. -/
theorem C30_source (max : Nat) (es : List Text) (hm : ∀ e ∈ es, Grammar.extension.Matches e) (h : (joinDash es).length + 1 ≤ max) (b : UInt8) :
    run max ["Extensions"] "get" [tag "Extensions" (joinDash es), .ctor ["Singleton"] "Singleton" [.u8 b]] =
      returns (optTag "Extension" (es.find? fun e => e.head? = some b)) := by
  have k : run max ["Extensions"] "get" [tag "Extensions" (joinDash es), .ctor ["Singleton"] "Singleton" [.u8 b]] = _ :=
    (C69_parts max (joinDash es) ⟨b⟩ h).2.2.2.2.2.2.2.2.2.1
  rw [k, C30_get ⟨joinDash es⟩ es ⟨hm, rfl⟩]
  refine congrArg returns ?_
  rw [List.find?_map, optTag_map fun _ => rfl]
  congr 2
  funext e
  rcases e with _ | ⟨c, e⟩
  · rfl
  · simp [Function.comp, Extension.singleton, index, bind, Except.bind, pure, Except.pure]

theorem length_le_joinDash {e : Text} : ∀ {es : List Text}, e ∈ es → e.length ≤ (joinDash es).length
  | [x], h => by simp at h; subst h; exact Nat.le_refl _
  | x :: y :: es, h => by
    simp only [joinDash, List.length_append, List.length_cons]
    rcases List.mem_cons.mp h with rfl | h
    · omega
    · have := length_le_joinDash h
      omega

/-- C30: `iter_extension(singleton)` has the subtags of that extension, by the text of the crate. -/
theorem C30_source_iter (max : Nat) (es : List Text) (hm : ∀ e ∈ es, Grammar.extension.Matches e) (h : (joinDash es).length + 1 ≤ max) (b : UInt8) :
    RunIterates max "Extensions" "iter_extension" [tag "Extensions" (joinDash es), .ctor ["Singleton"] "Singleton" [.u8 b]]
      "ExtensionIter" "ExtensionSubtag"
      (match es.find? fun e => e.head? = some b with | some e => (subtags e).tail | none => []) := by
  have hf : (es.map Extension.mk).find? (fun e => decide (e.singleton = .ok ⟨b⟩)) = (es.find? fun e => e.head? = some b).map Extension.mk := by
    rw [List.find?_map]
    congr 2
    funext e
    rcases e with _ | ⟨c, e⟩
    · rfl
    · simp [Function.comp, Extension.singleton, index, bind, Except.bind, pure, Except.pure]
  have k : run max ["Extensions"] "iter_extension" [tag "Extensions" (joinDash es), .ctor ["Singleton"] "Singleton" [.u8 b]] = _ :=
    (C69_parts max (joinDash es) ⟨b⟩ h).2.2.2.2.2.2.2.2.2.2.2.1
  obtain ⟨it, e1, e2⟩ := C30_iterExtension ⟨joinDash es⟩ es ⟨hm, rfl⟩ ⟨b⟩
  rw [e1] at k
  refine ⟨_, k, extensionIter_runs ?_ ?_⟩
  · unfold Extensions.iterExtension at e1
    rw [C30_get ⟨joinDash es⟩ es ⟨hm, rfl⟩, hf] at e1
    cases hx : es.find? fun e => e.head? = some b with
    | none => rw [hx] at e1; cases e1; exact Nat.le_trans (Nat.succ_le_succ (Nat.zero_le _)) h
    | some e =>
      rw [hx] at e1
      cases e1
      exact Nat.le_trans (Nat.succ_le_succ (length_le_joinDash (List.mem_of_find?_eq_some hx))) h
  · rw [hf] at e2
    cases hx : es.find? fun e => e.head? = some b with
    | none => rw [hx] at e2; exact e2
    | some e => rw [hx] at e2; exact e2

-- each hypothesis is met by a text with several items
example : Grammar.language.Matches (ascii "zh-gan-yue") ∧ Grammar.privateuse.Matches (ascii "x-y-zzz") ∧
    Grammar.extension.Matches (ascii "a-bbb-cc") ∧ Grammar.extlang.Matches (ascii "gan-yue") ∧ Grammar.variants.Matches (ascii "1abc-abcde") :=
  ⟨(accepts_iff is_Language _).mp (accepts_of_isOk (by decide +kernel)), (accepts_iff is_PrivateUse _).mp (accepts_of_isOk (by decide +kernel)),
   (accepts_iff is_Extension _).mp (accepts_of_isOk (by decide +kernel)), (accepts_iff is_LanguageExtension _).mp (accepts_of_isOk (by decide +kernel)),
   (accepts_iff is_Variants _).mp (accepts_of_isOk (by decide +kernel))⟩
-- two extensions, the second of which is looked up
example : run 100 ["Extensions"] "get" [tag "Extensions" (ascii "a-bbb-cc-b-dd"), .ctor ["Singleton"] "Singleton" [.u8 98]] =
    returns (optTag "Extension" (some (ascii "b-dd"))) :=
  C30_source 100 [ascii "a-bbb-cc", ascii "b-dd"]
    (by simp only [List.mem_cons, List.not_mem_nil, or_false, forall_eq_or_imp, forall_eq]
        exact ⟨(accepts_iff is_Extension _).mp (accepts_of_isOk (by decide +kernel)),
          (accepts_iff is_Extension _).mp (accepts_of_isOk (by decide +kernel))⟩)
    (by decide +kernel) 98

/-! ## Singletons -/

/-- C32: `Singleton::new` and the conversions, by the text of the crate. -/
theorem C32_source (max : Nat) (b : UInt8) (c : Char) (s : Text) (hs : IsUtf8 s) :
    (∀ f ∈ ["new", "try_from"],
      (Grammar.singleton.Matches [b] → run max ["Singleton"] f [.u8 b] = returns (.ok (.ctor ["Singleton"] "Singleton" [.u8 b]))) ∧
      (¬ Grammar.singleton.Matches [b] → run max ["Singleton"] f [.u8 b] = returns (.err (.ctor ["InvalidSingleton"] "InvalidSingleton" [.u8 b])))) ∧
    (∀ b', encodeChar c = [b'] → Grammar.singleton.Matches [b'] →
      run max ["Singleton"] "try_from" [.char c] = returns (.ok (.ctor ["Singleton"] "Singleton" [.u8 b']))) ∧
    (¬ Grammar.singleton.Matches (encodeChar c) →
      run max ["Singleton"] "try_from" [.char c] = returns (.err (.ctor ["InvalidSingleton"] "InvalidSingleton" [.char c]))) ∧
    (∀ f ∈ ["from_string", "from_str"],
      (∀ b', s = [b'] → Grammar.singleton.Matches s →
        run max ["Singleton"] f [.str s] = returns (.ok (.ctor ["Singleton"] "Singleton" [.u8 b']))) ∧
      (¬ Grammar.singleton.Matches s → run max ["Singleton"] f [.str s] = returns (.err (.ctor ["InvalidSingleton"] "InvalidSingleton" [.str s])))) := by
  obtain ⟨k1, k2, k3, k4, k5, _⟩ := C69_singleton max ⟨b⟩ s b c Formatter.default []
  refine ⟨?_, fun b' hb hm => ?_, fun hm => ?_, ?_⟩
  · have e := C32_u8 b
    intro f hf
    simp only [List.mem_cons, List.not_mem_nil, or_false] at hf
    refine ⟨fun hm => ?_, fun hm => ?_⟩
    · obtain ⟨⟨g⟩, e1, e2, rfl⟩ := e.1 hm
      rcases hf with rfl | rfl
      · rw [e1] at k1; exact k1
      · rw [e2] at k2; exact k2
    · obtain ⟨e1, e2⟩ := e.2 hm
      rcases hf with rfl | rfl
      · rw [e1] at k1; exact k1
      · rw [e2] at k2; exact k2
  · obtain ⟨⟨g⟩, e1, e2⟩ := (C32_char c).1 (by rw [hb]; exact hm)
    rw [hb] at e2
    cases e2
    rw [e1] at k3; exact k3
  · rw [(C32_char c).2 hm] at k3; exact k3
  · have e := C32_string s hs
    intro f hf
    simp only [List.mem_cons, List.not_mem_nil, or_false] at hf
    refine ⟨fun b' hb hm => ?_, fun hm => ?_⟩
    · obtain ⟨⟨g⟩, e1, e2, e3⟩ := e.1 hm
      rw [hb] at e3
      cases e3
      rcases hf with rfl | rfl
      · rw [e1] at k4; exact k4
      · rw [e2] at k5; exact k5
    · obtain ⟨e1, e2⟩ := e.2 hm
      rcases hf with rfl | rfl
      · rw [e1] at k4; exact k4
      · rw [e2] at k5; exact k5

/-- C33: `singleton()`, by the text of the crate. -/
theorem C33_source (max : Nat) (s : Text) (h : s.length + 1 ≤ max) (hm : Grammar.extension.Matches s) :
    ∃ b, s.head? = some b ∧ run max ["Extension"] "singleton" [tag "Extension" s] = returns (.ctor ["Singleton"] "Singleton" [.u8 b]) ∧
      run max ["Singleton"] "new" [.u8 b] = returns (.ok (.ctor ["Singleton"] "Singleton" [.u8 b])) := by
  obtain ⟨⟨t⟩, hc, rfl⟩ := constructed_mk C07_extension hm
  obtain ⟨⟨g⟩, e1, e2, e3⟩ := C33_singleton ⟨t⟩ hc
  have k := (C69_parts max t ⟨0⟩ h).2.2.2.2.2.2.2.1
  have l := (C69_singleton max ⟨0⟩ [] g ' ' Formatter.default []).1
  rw [e1] at k
  refine ⟨g, e2, k, ?_⟩
  rw [l, show Model.Singleton.new g = .ok ⟨g⟩ from e3]
  rfl

example : ∃ b, (ascii "a-bbb-cc").head? = some b ∧
    run 100 ["Extension"] "singleton" [tag "Extension" (ascii "a-bbb-cc")] = returns (.ctor ["Singleton"] "Singleton" [.u8 b]) ∧
    run 100 ["Singleton"] "new" [.u8 b] = returns (.ok (.ctor ["Singleton"] "Singleton" [.u8 b])) :=
  C33_source _ _ (by decide +kernel) ((accepts_iff is_Extension _).mp (accepts_of_isOk (by decide +kernel)))

/-! ## Comparisons -/

theorem forEach_stringTypes {P : String → Prop}
    (h : ∀ (n : String) (T : Type) [StrNewtype T] [Compare T] [Rep T] [LawfulCompare T], IsSource n T → P n) : ∀ T ∈ stringTypes, P T := by
  intro T hT
  simp only [stringTypes, List.mem_cons, List.not_mem_nil, or_false] at hT
  rcases hT with rfl | rfl | rfl | rfl | rfl | rfl | rfl | rfl | rfl | rfl | rfl | rfl | rfl | rfl | rfl
  · exact h _ _ LangTag.source
  · exact h _ _ NormalLangTag.source
  · exact h _ _ Language.source
  · exact h _ _ PrimaryLanguage.source
  · exact h _ _ LanguageExtension.source
  · exact h _ _ ExtendedLangTag.source
  · exact h _ _ Script.source
  · exact h _ _ Region.source
  · exact h _ _ Variant.source
  · exact h _ _ Variants.source
  · exact h _ _ Extension.source
  · exact h _ _ Extensions.source
  · exact h _ _ ExtensionSubtag.source
  · exact h _ _ PrivateUse.source
  · exact h _ _ PrivateUseSubtag.source

/-- C34: `==` ignores ASCII case, by the text of the crate. -/
theorem C34_source : ∀ T ∈ stringTypes, ∀ (max : Nat) (s t : Text),
    (CaseEq s t → run max [T] "eq" [tag T s, tag T t] = returns (.bool true)) ∧
    (¬ CaseEq s t → run max [T] "eq" [tag T s, tag T t] = returns (.bool false)) :=
  forEach_stringTypes fun n T _ _ _ _ h max s t => by
    obtain ⟨a, rfl⟩ := h.ofText s
    obtain ⟨b, rfl⟩ := h.ofText t
    have k := h.eq max a b
    rw [h.val_eq, h.val_eq] at k
    rw [k]
    refine ⟨fun hc => ?_, fun hc => ?_⟩
    · rw [(eq_true_iff a b).mpr hc]; rfl
    · rw [(eq_false_iff a b).mpr hc]; rfl

/-- C36: `cmp` and `partial_cmp`, by the text of the crate. -/
theorem C36_source : ∀ T ∈ stringTypes, ∀ (max : Nat) (s t : Text), s.length + 1 ≤ max →
    ∀ o : Ordering, (match o with
      | .lt => Precedes (lowerText s) (lowerText t)
      | .gt => Precedes (lowerText t) (lowerText s)
      | .eq => lowerText s = lowerText t) →
    run max [T] "cmp" [tag T s, tag T t] = returns (.ordering o) ∧
    run max [T] "partial_cmp" [tag T s, tag T t] = returns (.some (.ordering o)) :=
  forEach_stringTypes fun n T _ _ _ _ h max s t hs o ho => by
    obtain ⟨a, rfl⟩ := h.ofText s
    obtain ⟨b, rfl⟩ := h.ofText t
    have k := h.cmp max a b hs
    have k' := h.partialCmp max a b hs
    rw [h.val_eq, h.val_eq] at k k'
    have e : Compare.cmp a b = .ok o := by
      rw [cmp_eq_cmpText]
      cases o with
      | lt => rw [(cmpText_lt_iff _ _).mpr ho]
      | gt => rw [(cmpText_gt_iff _ _).mpr ho]
      | eq => rw [(cmpText_eq_iff _ _).mpr ho]
    have e' : Compare.partialCmp a b = .ok (some o) := by
      rw [LawfulCompare.partialCmp, e]; rfl
    rw [k, k', e, e']
    exact ⟨rfl, rfl⟩

/-- C37: `hash` writes the text in lower case, byte by byte, by the text of the crate. -/
theorem C37_source : ∀ T ∈ stringTypes, ∀ (max : Nat) (s : Text) (w : List UInt8),
    run max [T] "hash" [tag T s, .hasher w] = some (.returns (.tuple []) [.hasher (w ++ lowerText s)]) :=
  forEach_stringTypes fun n T _ _ _ _ h max s w => by
    obtain ⟨a, rfl⟩ := h.ofText s
    have k := h.hash max a w
    rw [h.val_eq] at k
    have e : Compare.hash logHasher a w = .ok ((lowerText (StrNewtype.str a)).foldl logHasher.writeU8 w) := hash_eq_foldl logHasher a w
    rw [k, e]
    have this : ∀ (u w : List UInt8), u.foldl (fun w c => w ++ [c]) w = w ++ u := by
      intro u
      induction u with
      | nil => intro w; simp
      | cons b u ih => intro w; rw [List.foldl_cons, ih]; simp
    show some (Outcome.returns (.tuple []) [.hasher ((lowerText (StrNewtype.str a)).foldl (fun w c => w ++ [c]) w)]) = _
    rw [this]

example : run 100 ["Region"] "eq" [tag "Region" (ascii "us"), tag "Region" (ascii "US")] = returns (.bool true) :=
  (C34_source _ (by simp [stringTypes]) _ _ _).1 (by unfold CaseEq; decide +kernel)
example : run 100 ["Script"] "hash" [tag "Script" (ascii "Hant"), .hasher [1]] = some (.returns (.tuple []) [.hasher (1 :: ascii "hant")]) :=
  C37_source _ (by simp [stringTypes]) _ _ _
example : run 100 ["Script"] "cmp" [tag "Script" (ascii "hant"), tag "Script" (ascii "Hans")] = returns (.ordering .gt) :=
  (C36_source _ (by simp [stringTypes]) _ _ _ (by decide +kernel) .gt ((cmpText_gt_iff _ _).mp (by decide +kernel))).1

/-! ## The macro -/

/-- C50: `langtag!`, by the text of the crate. -/
theorem C50_source (max : Nat) (s : Text) (h : s.length + 1 ≤ max) :
    (Grammar.languageTag.Matches s → run max [] "langtag" [.str s] = returns (tag "LangTag" s)) ∧
    (¬ Grammar.languageTag.Matches s → run max [] "langtag" [.str s] = some (.panics .explicit)) := by
  rw [C69_macro max s h]
  refine ⟨fun hm => ?_, fun hm => ?_⟩
  · obtain ⟨⟨t⟩, e1, rfl⟩ := (C50_macro s).1 hm
    rw [e1]; rfl
  · rw [(C50_macro s).2 hm]; rfl

example : run 100 [] "langtag" [.str (ascii "en-Latn-US")] = returns (tag "LangTag" (ascii "en-Latn-US")) :=
  (C50_source _ _ (by decide +kernel)).1 ((accepts_iff is_LangTag _).mp (accepts_of_isOk (by decide +kernel)))

end Langtag.Props
