import Verif.Props.SourceMore
import Verif.Props.Types
import Verif.Props.Compose
import Verif.Props.Parser
import Verif.Props.Filter
import Verif.Props.Sorting

/-!
# The remaining properties, of the text of the crate

As in `Verif/Props/SourceSpec.lean`.
-/

set_option autoImplicit false

namespace Langtag.Props
open Langtag.Model hiding Singleton
open Langtag.Source Langtag.Spec Langtag.Proof

/-! ## Acceptance -/

theorem ok_ne_err {v w : Val} : returns (.ok v) ≠ returns (.err w) := by simp [Val.ok, Val.err]

theorem runAccepts_iff {T : String} {g : Abnf} (h : RunConstructorIs T g) {max : Nat} {s : Text} (hs : s.length + 1 ≤ max) :
    RunAccepts max T s ↔ g.Matches s := by
  refine ⟨fun ha => Classical.byContradiction fun hn => ?_, (h max s hs).1⟩
  have := (h max s hs).2 hn
  exact ok_ne_err (ha.symm.trans this)

theorem runAccepts_accepts {n : String} {T : Type} [StrNewtype T] [Compare T] [Rep T] (h : IsSource n T) {g : Abnf} (hg : ConstructorIs T g)
    {max : Nat} {s : Text} (hs : s.length + 1 ≤ max) : RunAccepts max n s ↔ Accepts T s := by
  rw [runAccepts_iff (runConstructorIs h hg) hs, accepts_iff hg]

/-- C08: what is accepted, by the text of the crate. -/
theorem C08_source (max : Nat) (s : Text) (hs : s.length + 1 ≤ max) (h : RunAccepts max "LangTag" s) :
    ∃ us : List Text, us ≠ [] ∧ s = joinDash us ∧ ∀ u ∈ us, 1 ≤ u.length ∧ u.length ≤ 8 ∧ ∀ b ∈ u, IsAlphanum b :=
  C08_subtags s ((runAccepts_accepts LangTag.source is_LangTag hs).mp h)

example : RunAccepts 100 "LangTag" (ascii "zh-Hant-HK") :=
  (runAccepts_accepts LangTag.source is_LangTag (by decide +kernel)).mpr (accepts_of_isOk (by decide +kernel))

theorem runIgnoresCase {n : String} {T : Type} [StrNewtype T] [Compare T] [Rep T] (h : IsSource n T) {g : Abnf} (hg : ConstructorIs T g)
    (hc : IgnoresCase T) (max : Nat) (u v : Text) (hu : u.length + 1 ≤ max) (hv : CaseEq u v) : RunAccepts max n u ↔ RunAccepts max n v := by
  have hl : u.length = v.length := by
    have := congrArg List.length hv
    simpa [lowerText] using this
  rw [runAccepts_accepts h hg hu, runAccepts_accepts h hg (hl ▸ hu)]
  exact hc u v hv

/-- C09: acceptance ignores case, by the text of the crate. -/
theorem C09_source : ∀ T ∈ stringTypes, ∀ (max : Nat) (u v : Text), u.length + 1 ≤ max → CaseEq u v →
    (RunAccepts max T u ↔ RunAccepts max T v) := by
  intro T hT
  obtain ⟨c1, c2, c3, c4, c5, c6, c7, c8, c9, c10, c11, c12, c13, c14, c15⟩ := C09_caseInsensitive
  simp only [stringTypes, List.mem_cons, List.not_mem_nil, or_false] at hT
  rcases hT with rfl | rfl | rfl | rfl | rfl | rfl | rfl | rfl | rfl | rfl | rfl | rfl | rfl | rfl | rfl
  · exact runIgnoresCase LangTag.source is_LangTag c1
  · exact runIgnoresCase NormalLangTag.source is_NormalLangTag c2
  · exact runIgnoresCase Language.source is_Language c3
  · exact runIgnoresCase PrimaryLanguage.source is_PrimaryLanguage c4
  · exact runIgnoresCase LanguageExtension.source is_LanguageExtension c5
  · exact runIgnoresCase ExtendedLangTag.source is_ExtendedLangTag c6
  · exact runIgnoresCase Script.source is_Script c7
  · exact runIgnoresCase Region.source is_Region c8
  · exact runIgnoresCase Variant.source is_Variant c9
  · exact runIgnoresCase Variants.source is_Variants c10
  · exact runIgnoresCase Extension.source is_Extension c11
  · exact runIgnoresCase Extensions.source is_Extensions c13
  · exact runIgnoresCase ExtensionSubtag.source is_ExtensionSubtag c12
  · exact runIgnoresCase PrivateUse.source is_PrivateUse c14
  · exact runIgnoresCase PrivateUseSubtag.source is_PrivateUseSubtag c15

example : CaseEq (ascii "zh-Hant-HK") (ascii "ZH-hANT-hk") := by unfold CaseEq; decide +kernel

/-- C11: no text is a normal and a private use tag, or a private use and a grandfathered tag, by the text of the crate. -/
theorem C11_source (max : Nat) (s : Text) (hs : s.length + 1 ≤ max) :
    ¬ (RunAccepts max "NormalLangTag" s ∧ RunAccepts max "PrivateUse" s) ∧
    ∀ g : Val, ¬ (RunAccepts max "PrivateUse" s ∧ run max ["GrandfatheredLangTag"] "new" [.str s] = returns (.ok g)) := by
  rw [runAccepts_accepts NormalLangTag.source is_NormalLangTag hs, runAccepts_accepts PrivateUse.source is_PrivateUse hs]
  refine ⟨C11_normal_privateUse s, fun v ⟨h1, h2⟩ => ?_⟩
  by_cases hg : ∃ g, CaseEq s (ascii (registered g))
  · obtain ⟨g, hg⟩ := hg
    exact C11_privateUse_grandfathered s g ⟨h1, (C12_new_ok s g).mpr hg⟩
  · exact ok_ne_err (h2.symm.trans ((C12_source max s .ArtLojban).2.1 fun g hg' => hg ⟨g, hg'⟩))

/-- C44: which types include which, by the text of the crate. -/
theorem C44_source (max : Nat) (w : Text) (h : w.length + 1 ≤ max) :
    (RunAccepts max "PrimaryLanguage" w → RunAccepts max "Language" w) ∧ (RunAccepts max "Language" w → RunAccepts max "NormalLangTag" w) ∧
    (RunAccepts max "NormalLangTag" w → RunAccepts max "LangTag" w) ∧ (RunAccepts max "PrivateUse" w → RunAccepts max "LangTag" w) ∧
    (RunAccepts max "ExtendedLangTag" w → RunAccepts max "LanguageExtension" w) ∧
    (RunAccepts max "Variant" w → RunAccepts max "Variants" w) ∧ (RunAccepts max "Extension" w → RunAccepts max "Extensions" w) ∧
    (RunAccepts max "ExtensionSubtag" w → RunAccepts max "PrivateUseSubtag" w) ∧
    (RunAccepts max "PrimaryLanguage" w ∨ RunAccepts max "ExtendedLangTag" w ∨ RunAccepts max "Script" w ∨ RunAccepts max "Region" w ∨
      RunAccepts max "Variant" w → RunAccepts max "ExtensionSubtag" w) := by
  rw [runAccepts_accepts PrimaryLanguage.source is_PrimaryLanguage h, runAccepts_accepts Language.source is_Language h,
    runAccepts_accepts NormalLangTag.source is_NormalLangTag h, runAccepts_accepts LangTag.source is_LangTag h,
    runAccepts_accepts PrivateUse.source is_PrivateUse h, runAccepts_accepts ExtendedLangTag.source is_ExtendedLangTag h,
    runAccepts_accepts LanguageExtension.source is_LanguageExtension h, runAccepts_accepts Variant.source is_Variant h,
    runAccepts_accepts Variants.source is_Variants h, runAccepts_accepts Extension.source is_Extension h,
    runAccepts_accepts Extensions.source is_Extensions h, runAccepts_accepts ExtensionSubtag.source is_ExtensionSubtag h,
    runAccepts_accepts PrivateUseSubtag.source is_PrivateUseSubtag h, runAccepts_accepts Script.source is_Script h,
    runAccepts_accepts Region.source is_Region h]
  exact C44_inclusions w

/-- C43: dropping subtags at the end of a tag leaves a tag, unless the last one left is a single character, by the text of the crate. -/
theorem C43_source (max : Nat) (w : Text) (hs : w.length + 1 ≤ max) (k : Nat) :
    (RunAccepts max "NormalLangTag" w → 1 ≤ k → (∀ u, ((subtags w).take k).getLast? = some u → u.length ≠ 1) →
      RunAccepts max "NormalLangTag" (joinDash ((subtags w).take k))) ∧
    (RunAccepts max "NormalLangTag" w → truncations k (subtags w) = [] ∨ RunAccepts max "NormalLangTag" (joinDash (truncations k (subtags w)))) ∧
    (RunAccepts max "PrivateUse" w → 2 ≤ k → RunAccepts max "PrivateUse" (joinDash ((subtags w).take k)) ∧
      RunAccepts max "LangTag" (joinDash ((subtags w).take k))) := by
  have hj : ∀ us : List Text, ∀ us', (joinDash us).length ≤ (joinDash (us ++ us')).length := by
    intro us us'
    induction us with
    | nil => exact Nat.zero_le _
    | cons u us ih =>
      cases us with
      | nil =>
        cases us' with
        | nil => exact Nat.le_refl _
        | cons v us' => simp only [List.cons_append, List.nil_append, joinDash, List.length_append, List.length_cons]; omega
      | cons v us =>
        simp only [List.cons_append, joinDash, List.length_append, List.length_cons] at ih ⊢
        omega
  have hk : ∀ k, (joinDash ((subtags w).take k)).length + 1 ≤ max := by
    intro k
    have := hj ((subtags w).take k) ((subtags w).drop k)
    rw [List.take_append_drop, joinDash_subtags] at this
    omega
  have ht : ∀ (k : Nat) (us : List Text), ∃ j, truncations k us = us.take j := by
    intro k
    induction k with
    | zero => exact fun us => ⟨us.length, by rw [truncations, List.take_length]⟩
    | succ k ih =>
      intro us
      obtain ⟨j, h1, _⟩ := truncate_take us
      obtain ⟨i, hi⟩ := ih (truncate us)
      exact ⟨min i j, by rw [truncations, hi, h1, List.take_take]⟩
  refine ⟨fun h h1 hl => ?_, fun h => ?_, fun h h2 => ?_⟩
  · rw [runAccepts_accepts NormalLangTag.source is_NormalLangTag (hk k)]
    exact C43_prefix w ((runAccepts_accepts NormalLangTag.source is_NormalLangTag hs).mp h) k h1 hl
  · obtain ⟨j, hj⟩ := ht k (subtags w)
    rw [runAccepts_accepts NormalLangTag.source is_NormalLangTag (hj ▸ hk j)]
    exact C43_lookup w ((runAccepts_accepts NormalLangTag.source is_NormalLangTag hs).mp h) k
  · rw [runAccepts_accepts PrivateUse.source is_PrivateUse (hk k), runAccepts_accepts LangTag.source is_LangTag (hk k)]
    exact C43_privateUse w ((runAccepts_accepts PrivateUse.source is_PrivateUse hs).mp h) k h2

/-- C51: the lengths of accepted texts, by the text of the crate. -/
theorem C51_source (max : Nat) (s : Text) (h : s.length + 1 ≤ max) :
    (RunAccepts max "PrimaryLanguage" s → 2 ≤ s.length ∧ s.length ≤ 3) ∧
    (RunAccepts max "ExtendedLangTag" s → s.length = 3) ∧
    (RunAccepts max "LanguageExtension" s → s.length ∈ [3, 7, 11]) ∧
    (RunAccepts max "Language" s → 2 ≤ s.length ∧ s.length ≤ 15) ∧
    (RunAccepts max "Script" s → s.length = 4) ∧
    (RunAccepts max "Region" s → 2 ≤ s.length ∧ s.length ≤ 3) ∧
    (RunAccepts max "Variant" s → 4 ≤ s.length ∧ s.length ≤ 8) ∧
    (RunAccepts max "ExtensionSubtag" s → 2 ≤ s.length ∧ s.length ≤ 8) ∧
    (RunAccepts max "PrivateUseSubtag" s → 1 ≤ s.length ∧ s.length ≤ 8) ∧
    (RunAccepts max "Extension" s → 4 ≤ s.length) ∧
    (RunAccepts max "PrivateUse" s → 3 ≤ s.length) ∧
    (RunAccepts max "LangTag" s → 2 ≤ s.length) := by
  have key : ∀ {T : Type} [StrNewtype T] {g : Abnf} (hg : ConstructorIs T g) {P : Text → Prop}, (∀ x : T, Constructed x → P (StrNewtype.str x)) →
      Accepts T s → P s := fun hg P hP ha => by
    obtain ⟨t, h1, h2⟩ := constructed_mk hg ((accepts_iff hg s).mp ha)
    exact h2 ▸ hP t h1
  obtain ⟨k1, k2, k3, k4, k5, k6, k7, k8, k9, k10, k11, k12⟩ := C51_lengths
  rw [runAccepts_accepts PrimaryLanguage.source is_PrimaryLanguage h, runAccepts_accepts Language.source is_Language h,
    runAccepts_accepts LangTag.source is_LangTag h,
    runAccepts_accepts PrivateUse.source is_PrivateUse h, runAccepts_accepts ExtendedLangTag.source is_ExtendedLangTag h,
    runAccepts_accepts LanguageExtension.source is_LanguageExtension h, runAccepts_accepts Variant.source is_Variant h,
    runAccepts_accepts Extension.source is_Extension h,
    runAccepts_accepts ExtensionSubtag.source is_ExtensionSubtag h,
    runAccepts_accepts PrivateUseSubtag.source is_PrivateUseSubtag h, runAccepts_accepts Script.source is_Script h,
    runAccepts_accepts Region.source is_Region h]
  exact ⟨key is_PrimaryLanguage (P := fun s => 2 ≤ s.length ∧ s.length ≤ 3) k1, key is_ExtendedLangTag (P := fun s => s.length = 3) k2,
    key is_LanguageExtension (P := fun s => s.length ∈ [3, 7, 11]) k3, key is_Language (P := fun s => 2 ≤ s.length ∧ s.length ≤ 15) k4,
    key is_Script (P := fun s => s.length = 4) k5, key is_Region (P := fun s => 2 ≤ s.length ∧ s.length ≤ 3) k6,
    key is_Variant (P := fun s => 4 ≤ s.length ∧ s.length ≤ 8) k7, key is_ExtensionSubtag (P := fun s => 2 ≤ s.length ∧ s.length ≤ 8) k8,
    key is_PrivateUseSubtag (P := fun s => 1 ≤ s.length ∧ s.length ≤ 8) k9, key is_Extension (P := fun s => 4 ≤ s.length) k10,
    key is_PrivateUse (P := fun s => 3 ≤ s.length) k11, key is_LangTag (P := fun s => 2 ≤ s.length) k12⟩

/-- C52: every constructor keeps the text, or gives it back, by the text of the crate. -/
theorem C52_source : ∀ T ∈ stringTypes, ∀ (max : Nat) (s : Text), s.length + 1 ≤ max →
    RunAccepts max T s ∨ run max [T] "new" [.str s] = returns (.err (.str s)) := by
  have key : ∀ {T : String} {g : Abnf}, RunConstructorIs T g → ∀ (max : Nat) (s : Text), s.length + 1 ≤ max →
      RunAccepts max T s ∨ run max [T] "new" [.str s] = returns (.err (.str s)) := fun {T g} h max s hs =>
    (Classical.em (g.Matches s)).imp (h max s hs).1 (h max s hs).2
  intro T hT
  simp only [stringTypes, List.mem_cons, List.not_mem_nil, or_false] at hT
  rcases hT with rfl | rfl | rfl | rfl | rfl | rfl | rfl | rfl | rfl | rfl | rfl | rfl | rfl | rfl | rfl
  · exact key C01_source
  · exact key C02_source
  · exact key C04_source.1
  · exact key C04_source.2.1
  · exact key C04_source.2.2.1
  · exact key C04_source.2.2.2
  · exact key C05_source.1
  · exact key C05_source.2
  · exact key C06_source.1
  · exact key C06_source.2
  · exact key C07_source.1
  · exact key C07_source.2.2
  · exact key C07_source.2.1
  · exact key C03_source.1
  · exact key C03_source.2

/-- C45: at most one role for a subtag, by the text of the crate. -/
theorem C45_source (max : Nat) (w : Text) (hs : w.length + 1 ≤ max) :
    (∀ T ∈ ["ExtendedLangTag", "Script", "Region", "Variant"], ∀ U ∈ ["ExtendedLangTag", "Script", "Region", "Variant"],
      RunAccepts max T w → RunAccepts max U w → T = U) ∧
    (w.length = 1 → ∀ T ∈ ["ExtendedLangTag", "Script", "Region", "Variant", "ExtensionSubtag"], ¬ RunAccepts max T w) := by
  obtain ⟨h1, h2, h3, h4, h5, h6, h7⟩ := C45_disjoint w
  rw [← runAccepts_accepts ExtendedLangTag.source is_ExtendedLangTag hs, ← runAccepts_accepts Script.source is_Script hs] at h1
  rw [← runAccepts_accepts ExtendedLangTag.source is_ExtendedLangTag hs, ← runAccepts_accepts Region.source is_Region hs] at h2
  rw [← runAccepts_accepts ExtendedLangTag.source is_ExtendedLangTag hs, ← runAccepts_accepts Variant.source is_Variant hs] at h3
  rw [← runAccepts_accepts Script.source is_Script hs, ← runAccepts_accepts Region.source is_Region hs] at h4
  rw [← runAccepts_accepts Script.source is_Script hs, ← runAccepts_accepts Variant.source is_Variant hs] at h5
  rw [← runAccepts_accepts Region.source is_Region hs, ← runAccepts_accepts Variant.source is_Variant hs] at h6
  rw [← runAccepts_accepts ExtendedLangTag.source is_ExtendedLangTag hs, ← runAccepts_accepts Script.source is_Script hs,
    ← runAccepts_accepts Region.source is_Region hs, ← runAccepts_accepts Variant.source is_Variant hs,
    ← runAccepts_accepts ExtensionSubtag.source is_ExtensionSubtag hs] at h7
  refine ⟨fun T hT U hU a b => ?_, fun hl T hT => ?_⟩
  · simp only [List.mem_cons, List.not_mem_nil, or_false] at hT hU
    rcases hT with rfl | rfl | rfl | rfl <;> rcases hU with rfl | rfl | rfl | rfl <;>
      first
        | rfl
        | exact absurd (And.intro a b) (by assumption)
        | exact absurd (And.intro b a) (by assumption)
  · obtain ⟨g1, g2, g3, g4, g5⟩ := h7 hl
    simp only [List.mem_cons, List.not_mem_nil, or_false] at hT
    rcases hT with rfl | rfl | rfl | rfl | rfl <;> assumption

example : RunAccepts 100 "Region" (ascii "419") :=
  (runAccepts_accepts Region.source is_Region (by decide +kernel)).mpr (accepts_of_isOk (by decide +kernel))

end Langtag.Props
