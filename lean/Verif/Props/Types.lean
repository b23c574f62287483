import Verif.Props.Compose

/-! # C44, C45, C50–C52: what the types have to do with each other -/

set_option autoImplicit false

namespace Langtag.Props
open Langtag.Spec Langtag.Model Langtag.Proof

/-! ## C44 -/

/-- C44: every text of the one type is a text of the other. -/
theorem C44_inclusions (w : Text) :
    (Accepts PrimaryLanguage w → Accepts Language w) ∧ (Accepts Language w → Accepts NormalLangTag w) ∧
    (Accepts NormalLangTag w → Accepts LangTag w) ∧ (Accepts PrivateUse w → Accepts LangTag w) ∧
    (Accepts ExtendedLangTag w → Accepts LanguageExtension w) ∧
    (Accepts Variant w → Accepts Variants w) ∧ (Accepts Extension w → Accepts Extensions w) ∧
    (Accepts ExtensionSubtag w → Accepts PrivateUseSubtag w) ∧
    (Accepts PrimaryLanguage w ∨ Accepts ExtendedLangTag w ∨ Accepts Script w ∨ Accepts Region w ∨ Accepts Variant w →
      Accepts ExtensionSubtag w) := by
  refine ⟨?_, ?_, langTag_of_normal, ?_, ?_, ?_, ?_, ?_, ?_⟩
  · rw [accepts_iff is_PrimaryLanguage, accepts_iff is_Language]
    exact fun h => (matches_language w).mpr (Or.inl ⟨w, [], rfl, by simp, h, by simp⟩)
  · rw [accepts_iff is_Language]
    intro h
    exact accepts_of_decomposes (p := { language := w }) ⟨⟨h, by simp, by simp, by simp, by simp, by simp⟩, rfl⟩
  · rw [accepts_iff is_PrivateUse, accepts_iff is_LangTag]
    exact fun h => Or.inl (Or.inr h)
  · rw [accepts_iff is_ExtendedLangTag, accepts_iff is_LanguageExtension]
    exact fun h => (matches_extlang w).mpr ⟨[w], by simp, by simp, rfl, by simpa using h⟩
  · rw [accepts_iff is_Variant, accepts_iff is_Variants]
    exact fun h => (matches_variants w).mpr ⟨[w], rfl, by simpa using h⟩
  · rw [accepts_iff is_Extension, accepts_iff is_Extensions]
    exact fun h => (matches_extensions w).mpr ⟨[w], rfl, by simpa using h⟩
  · rw [accepts_iff is_ExtensionSubtag, accepts_iff is_PrivateUseSubtag, matches_extensionSubtag, matches_privateuseSubtag]
    rintro ⟨h1, h2⟩
    exact ⟨by omega, h2⟩
  · rw [accepts_iff is_PrimaryLanguage, accepts_iff is_ExtendedLangTag, accepts_iff is_Script, accepts_iff is_Region,
      accepts_iff is_Variant, accepts_iff is_ExtensionSubtag, matches_extensionSubtag]
    rintro (h | h | h | h | h)
    · obtain ⟨h1, h2, h3⟩ := (matches_primary w).mp h
      exact ⟨h1, by omega, fun b hb => Or.inl (h3 b hb)⟩
    · obtain ⟨h1, h3⟩ := (matches_extlangTag w).mp h
      exact ⟨by omega, by omega, fun b hb => Or.inl (h3 b hb)⟩
    · obtain ⟨h1, h3⟩ := (matches_script w).mp h
      exact ⟨by omega, by omega, fun b hb => Or.inl (h3 b hb)⟩
    · have := length_region h
      exact ⟨by omega, by omega, alphanum_region h⟩
    · have := length_variant h
      exact ⟨by omega, by omega, alphanum_variant h⟩

example : Accepts PrimaryLanguage (ascii "en") ∧ Accepts PrivateUse (ascii "x-a") ∧ Accepts Extension (ascii "a-bb") ∧
    Accepts ExtendedLangTag (ascii "yue") ∧ Accepts Variant (ascii "1abc") ∧ Accepts ExtensionSubtag (ascii "ab") :=
  ⟨accepts_of_isOk (by decide +kernel), accepts_of_isOk (by decide +kernel), accepts_of_isOk (by decide +kernel),
    accepts_of_isOk (by decide +kernel), accepts_of_isOk (by decide +kernel), accepts_of_isOk (by decide +kernel)⟩

/-! ## C45 -/

/-- C45: a subtag can have at most one of these roles, whatever its case: extended language subtag, script, region,
variant, singleton or private use introducer (one character). -/
theorem C45_disjoint (w : Text) :
    ¬ (Accepts ExtendedLangTag w ∧ Accepts Script w) ∧ ¬ (Accepts ExtendedLangTag w ∧ Accepts Region w) ∧
    ¬ (Accepts ExtendedLangTag w ∧ Accepts Variant w) ∧ ¬ (Accepts Script w ∧ Accepts Region w) ∧
    ¬ (Accepts Script w ∧ Accepts Variant w) ∧ ¬ (Accepts Region w ∧ Accepts Variant w) ∧
    (w.length = 1 → ¬ Accepts ExtendedLangTag w ∧ ¬ Accepts Script w ∧ ¬ Accepts Region w ∧ ¬ Accepts Variant w ∧
      ¬ Accepts ExtensionSubtag w) := by
  rw [accepts_iff is_ExtendedLangTag, accepts_iff is_Script, accepts_iff is_Region, accepts_iff is_Variant,
    accepts_iff is_ExtensionSubtag]
  have l1 : Grammar.extlangTag.Matches w → w.length = 3 := fun h => ((matches_extlangTag w).mp h).1
  have l2 : Grammar.script.Matches w → w.length = 4 := fun h => ((matches_script w).mp h).1
  have l3 : Grammar.region.Matches w → 2 ≤ w.length ∧ w.length ≤ 3 := length_region
  have l4 : Grammar.variant.Matches w → 4 ≤ w.length ∧ w.length ≤ 8 := length_variant
  have l5 : Grammar.extensionSubtag.Matches w → 2 ≤ w.length := fun h => ((matches_extensionSubtag w).mp h).1
  refine ⟨?_, ?_, ?_, ?_, ?_, ?_, fun h => ⟨?_, ?_, ?_, ?_, ?_⟩⟩
  · rintro ⟨h1, h2⟩; have := l1 h1; have := l2 h2; omega
  · rintro ⟨h1, h2⟩
    obtain ⟨e3, ha⟩ := (matches_extlangTag w).mp h1
    rcases (matches_region w).mp h2 with ⟨h2, _⟩ | ⟨_, hd⟩
    · omega
    · cases w with
      | nil => simp at e3
      | cons b w => exact not_digit_of_alpha (ha b (by simp)) (hd b (by simp))
  · rintro ⟨h1, h2⟩; have := l1 h1; have := l4 h2; omega
  · rintro ⟨h1, h2⟩; have := l2 h1; have := l3 h2; omega
  · rintro ⟨h1, h2⟩; exact variant_not_script h2 h1
  · rintro ⟨h1, h2⟩; have := l3 h1; have := l4 h2; omega
  · intro h'; have := l1 h'; omega
  · intro h'; have := l2 h'; omega
  · intro h'; have := l3 h'; omega
  · intro h'; have := l4 h'; omega
  · intro h'; have := l5 h'; omega

-- the bounds are tight: each role is taken
example : Accepts ExtendedLangTag (ascii "abc") ∧ Accepts Region (ascii "123") ∧ Accepts Script (ascii "abcd") ∧
    Accepts Variant (ascii "1bcd") :=
  ⟨accepts_of_isOk (by decide +kernel), accepts_of_isOk (by decide +kernel), accepts_of_isOk (by decide +kernel),
    accepts_of_isOk (by decide +kernel)⟩

/-! ## C50 -/

/-- C50: `langtag!(v)` is the tag with the text `v` if `v` is a language tag, and panics otherwise. -/
theorem C50_macro (v : Text) :
    (Grammar.languageTag.Matches v → ∃ t, LangTag.langtag! v = .ok t ∧ t.str = v) ∧
    (¬ Grammar.languageTag.Matches v → LangTag.langtag! v = .error .explicit) := by
  unfold LangTag.langtag!
  refine ⟨fun h => ?_, fun h => ?_⟩
  · obtain ⟨t, ht, hs⟩ := (is_LangTag v).1 h
    exact ⟨t, by rw [ht], hs⟩
  · rw [(is_LangTag v).2 h]

example : LangTag.langtag! (ascii "en-US") = .ok ⟨ascii "en-US"⟩ := by decide +kernel
example : LangTag.langtag! (ascii "en_US") = .error .explicit := by decide +kernel

/-! ## C51 -/

theorem length_joinDash_const {n : Nat} {us : List Text} (h : ∀ u ∈ us, u.length = n) (hne : us ≠ []) :
    (joinDash us).length = (n + 1) * us.length - 1 := by
  cases us with
  | nil => exact absurd rfl hne
  | cons u us =>
    rw [joinDash_cons, List.length_append, h u (by simp)]
    rw [List.forall_mem_cons] at h
    have : (us.flatMap (dash :: ·)).length = (n + 1) * us.length := by
      clear hne
      replace h := h.2
      induction us with
      | nil => simp
      | cons v us ih =>
        rw [List.forall_mem_cons] at h
        simp only [List.flatMap_cons, List.length_append, List.length_cons, ih h.2, h.1, Nat.mul_add]
        omega
    rw [this, List.length_cons, Nat.mul_add]
    omega

/-- C51: how many bytes the text of a value can have. -/
theorem C51_lengths :
    (∀ x : PrimaryLanguage, Constructed x → 2 ≤ x.str.length ∧ x.str.length ≤ 3) ∧
    (∀ x : ExtendedLangTag, Constructed x → x.str.length = 3) ∧
    (∀ x : LanguageExtension, Constructed x → x.str.length ∈ [3, 7, 11]) ∧
    (∀ x : Language, Constructed x → 2 ≤ x.str.length ∧ x.str.length ≤ 15) ∧
    (∀ x : Script, Constructed x → x.str.length = 4) ∧
    (∀ x : Region, Constructed x → 2 ≤ x.str.length ∧ x.str.length ≤ 3) ∧
    (∀ x : Variant, Constructed x → 4 ≤ x.str.length ∧ x.str.length ≤ 8) ∧
    (∀ x : ExtensionSubtag, Constructed x → 2 ≤ x.str.length ∧ x.str.length ≤ 8) ∧
    (∀ x : PrivateUseSubtag, Constructed x → 1 ≤ x.str.length ∧ x.str.length ≤ 8) ∧
    (∀ x : Extension, Constructed x → 4 ≤ x.str.length) ∧
    (∀ x : PrivateUse, Constructed x → 3 ≤ x.str.length) ∧
    (∀ x : LangTag, Constructed x → 2 ≤ x.str.length) := by
  have hext : ∀ us : List Text, us ≠ [] → us.length ≤ 3 → (∀ u ∈ us, Grammar.extlangTag.Matches u) →
      (joinDash us).length ∈ [3, 7, 11] := by
    intro us hne hl hus
    rw [length_joinDash_const (fun u hu => ((matches_extlangTag u).mp (hus u hu)).1) hne]
    have := List.length_pos_iff.mpr hne
    have : us.length = 1 ∨ us.length = 2 ∨ us.length = 3 := by omega
    rcases this with h | h | h <;> rw [h] <;> simp
  have hlang : ∀ w : Text, Grammar.language.Matches w → 2 ≤ w.length ∧ w.length ≤ 15 := by
    intro w h
    rcases (matches_language w).mp h with ⟨v, us, rfl, hl, hv, hus⟩ | ⟨h1, h2, _⟩
    · have h1 := (matches_primary v).mp hv
      by_cases hne : us = []
      · subst hne; simp only [joinDash]; omega
      · have := hext us hne hl hus
        rw [joinDash_cons_of_ne_nil v hne, List.length_append, List.length_cons]
        simp only [List.mem_cons, List.not_mem_nil, or_false] at this
        omega
    · omega
  have hhead : ∀ (b : UInt8) (us : List Text) (n : Nat), us ≠ [] → (∀ u ∈ us, n ≤ u.length) →
      2 + n ≤ (joinDash ([b] :: us)).length := by
    intro b us n hne h
    cases us with
    | nil => exact absurd rfl hne
    | cons u us =>
      rw [joinDash_cons_of_ne_nil _ hne, joinDash_cons]
      have := h u (by simp)
      simp only [List.length_append, List.length_cons, List.length_nil]
      omega
  have hpu : ∀ w : Text, Grammar.privateuse.Matches w → 3 ≤ w.length := by
    intro w h
    obtain ⟨b, us, rfl, hne, _, hus⟩ := (matches_privateuse w).mp h
    exact hhead b us 1 hne fun u hu => ((matches_privateuseSubtag u).mp (hus u hu)).1
  refine ⟨fun x h => ?_, fun x h => ?_, fun x h => ?_, fun x h => hlang _ (matches_of_constructed is_Language h), fun x h => ?_,
    fun x h => length_region (matches_of_constructed is_Region h), fun x h => length_variant (matches_of_constructed is_Variant h),
    fun x h => ?_, fun x h => ?_, fun x h => ?_, fun x h => hpu _ (matches_of_constructed is_PrivateUse h), fun x h => ?_⟩
  · have := (matches_primary _).mp (matches_of_constructed is_PrimaryLanguage h); exact ⟨this.1, this.2.1⟩
  · exact ((matches_extlangTag _).mp (matches_of_constructed is_ExtendedLangTag h)).1
  · obtain ⟨us, h1, h2, h3, h4⟩ := (matches_extlang _).mp (matches_of_constructed is_LanguageExtension h)
    rw [show x.str = _ from h3]
    exact hext us h1 h2 h4
  · exact ((matches_script _).mp (matches_of_constructed is_Script h)).1
  · have := (matches_extensionSubtag _).mp (matches_of_constructed is_ExtensionSubtag h); exact ⟨this.1, this.2.1⟩
  · have := (matches_privateuseSubtag _).mp (matches_of_constructed is_PrivateUseSubtag h); exact ⟨this.1, this.2.1⟩
  · obtain ⟨b, us, e, hne, _, hus⟩ := (matches_extension _).mp (matches_of_constructed is_Extension h)
    rw [show x.str = _ from e]
    exact hhead b us 2 hne fun u hu => ((matches_extensionSubtag u).mp (hus u hu)).1
  · rcases languageTag_cases (matches_of_constructed is_LangTag h) with h | h | ⟨g, _, hc⟩
    · obtain ⟨p, hp⟩ := (matches_langtag _).mp h
      rw [show x.str = _ from hp.2.symm, Parts.render, joinDash_cons_tail, List.length_append]
      have := (hlang _ hp.1.language).1
      omega
    · exact Nat.le_of_succ_le (hpu _ h)
    · have : g.asBytes.length = x.str.length := by
        have hc : lowerText g.asBytes = lowerText x.str := hc
        have := congrArg List.length hc
        simpa [lowerText] using this
      rw [← this]
      cases g <;> decide +kernel

-- the bounds on languages are reached
example : Constructed (Language.mk (ascii "abc-def-ghi-jkl")) ∧ (ascii "abc-def-ghi-jkl").length = 15 ∧
    Constructed (Language.mk (ascii "ab")) :=
  ⟨⟨ascii "abc-def-ghi-jkl", by decide +kernel⟩, by decide +kernel, ⟨ascii "ab", by decide +kernel⟩⟩

/-! ## C52 -/

/-- C52 for one type. -/
def KeepsText (T : Type) [StrNewtype T] : Prop :=
  (∀ (s : Text) (t : T), StrNewtype.new T s = .ok t → StrNewtype.str t = s) ∧
  (∀ s e : Text, StrNewtype.new T s = .error e → e = s) ∧
  (∀ t : T, Constructed t ↔ StrNewtype.new T (StrNewtype.str t) = .ok t) ∧
  (∀ t t' : T, StrNewtype.str t = StrNewtype.str t' → t = t')

theorem keepsText_of {T : Type} [StrNewtype T] {g : Abnf} (h : ConstructorIs T g)
    (heta : ∀ t t' : T, StrNewtype.str t = StrNewtype.str t' → t = t') : KeepsText T := by
  have h1 : ∀ (s : Text) (t : T), StrNewtype.new T s = .ok t → StrNewtype.str t = s := by
    intro s t ht
    obtain ⟨t', ht', hs⟩ := (h s).1 ((accepts_iff h s).mp ⟨t, ht⟩)
    rw [ht] at ht'
    obtain rfl := Except.ok.inj ht'
    exact hs
  refine ⟨h1, fun s e he => ?_, fun t => ⟨fun ⟨s, hs⟩ => ?_, fun ht => ⟨_, ht⟩⟩, heta⟩
  · have : ¬ g.Matches s := by
      intro hm
      obtain ⟨t, ht, _⟩ := (h s).1 hm
      rw [ht] at he
      cases he
    rw [(h s).2 this] at he
    exact (Except.error.inj he).symm
  · rw [h1 s t hs]; exact hs

/-- C52: for each type, the text of a value is the text it was made from, a rejected text is given back in the error,
parsing the text of a value gives the value, and a value is determined by its text. -/
theorem C52_keepsText : ForEachType fun T => KeepsText T :=
  ⟨keepsText_of is_LangTag fun ⟨_⟩ ⟨_⟩ h => congrArg LangTag.mk h,
    keepsText_of is_NormalLangTag fun ⟨_⟩ ⟨_⟩ h => congrArg NormalLangTag.mk h,
    keepsText_of is_Language fun ⟨_⟩ ⟨_⟩ h => congrArg Language.mk h,
    keepsText_of is_PrimaryLanguage fun ⟨_⟩ ⟨_⟩ h => congrArg PrimaryLanguage.mk h,
    keepsText_of is_LanguageExtension fun ⟨_⟩ ⟨_⟩ h => congrArg LanguageExtension.mk h,
    keepsText_of is_ExtendedLangTag fun ⟨_⟩ ⟨_⟩ h => congrArg ExtendedLangTag.mk h,
    keepsText_of is_Script fun ⟨_⟩ ⟨_⟩ h => congrArg Script.mk h,
    keepsText_of is_Region fun ⟨_⟩ ⟨_⟩ h => congrArg Region.mk h,
    keepsText_of is_Variant fun ⟨_⟩ ⟨_⟩ h => congrArg Variant.mk h,
    keepsText_of is_Variants fun ⟨_⟩ ⟨_⟩ h => congrArg Variants.mk h,
    keepsText_of is_Extension fun ⟨_⟩ ⟨_⟩ h => congrArg Extension.mk h,
    keepsText_of is_Extensions fun ⟨_⟩ ⟨_⟩ h => congrArg Extensions.mk h,
    keepsText_of is_ExtensionSubtag fun ⟨_⟩ ⟨_⟩ h => congrArg ExtensionSubtag.mk h,
    keepsText_of is_PrivateUse fun ⟨_⟩ ⟨_⟩ h => congrArg PrivateUse.mk h,
    keepsText_of is_PrivateUseSubtag fun ⟨_⟩ ⟨_⟩ h => congrArg PrivateUseSubtag.mk h⟩

example : StrNewtype.new Script (ascii "Latn") = .ok ⟨ascii "Latn"⟩ := by decide +kernel
example : StrNewtype.new Script (ascii "Lat") = .error (ascii "Lat") := by decide +kernel

end Langtag.Props
