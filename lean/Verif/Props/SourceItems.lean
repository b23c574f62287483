import Verif.Props.SourceWalk
import Verif.Source.Client

/-!
# The remaining properties, of the text of the crate: iterators, sorting, filtering, slices
-/

set_option autoImplicit false

namespace Langtag.Props
open Langtag.Model hiding Singleton
open Langtag.Source Langtag.Spec Langtag.Proof

/-- The items are determined by the calls. -/
theorem runEnumerates_unique {max : Nat} {I T : String} {it : Val} {us vs : List Text} (h : RunEnumerates max I it T us)
    (h' : RunEnumerates max I it T vs) : us = vs := by
  refine List.ext_getElem? fun k => optTag_inj (n := T) ?_
  have e := Option.some.inj ((h (k + 1)).symm.trans (h' (k + 1)))
  have := congrArg (·[k]?) e
  simpa [List.getElem?_range] using this

theorem runIterates_unique {max : Nat} {T f I U : String} {args : List Val} {us vs : List Text} (h : RunIterates max T f args I U us)
    (h' : RunIterates max T f args I U vs) : us = vs := by
  obtain ⟨it, e, h⟩ := h
  obtain ⟨it', e', h'⟩ := h'
  obtain rfl := returns_inj (e.symm.trans e')
  exact runEnumerates_unique h h'

/-! ## C26, C42: walking into the parts -/

/-- C26: the language extensions of a language, by the text of the crate. -/
theorem C26_source (max : Nat) (s e : Text) (hs : s.length + 1 ≤ max) (hm : RunAccepts max "Language" s)
    (he : run max ["Language"] "extension" [tag "Language" s] = returns (optTag "LanguageExtension" (some e))) :
    ∃ (u : Text) (us : List Text),
      run max ["Language"] "primary" [tag "Language" s] = returns (tag "PrimaryLanguage" u) ∧
      2 ≤ u.length ∧ u.length ≤ 3 ∧ (∀ b ∈ u, IsAlpha b) ∧
      1 ≤ us.length ∧ us.length ≤ 3 ∧ (∀ u ∈ us, u.length = 3 ∧ ∀ b ∈ u, IsAlpha b) ∧ e = joinDash us ∧
      RunIterates max "Language" "extension_subtags" [tag "Language" s] "LanguageExtensionIter" "ExtendedLangTag" us := by
  have hm := (runAccepts_iff C04_source.1 hs).mp hm
  have hc : Constructed (Language.mk s) := constructed_of_matches is_Language (fun ⟨_⟩ ⟨_⟩ h => congrArg Language.mk h) hm
  obtain ⟨k1, k2, _⟩ := C69_parts max s ⟨0⟩ hs
  obtain ⟨⟨e'⟩, q, rfl⟩ := gives_some LanguageExtension.source (k2.symm.trans he)
  obtain ⟨⟨h1, h2, h3⟩, us, h4, h5, h6, h7, h8⟩ := C26_extension ⟨s⟩ hc ⟨e'⟩ (Except.ok.inj q)
  refine ⟨_, us, k1, h1, h2, h3, h4, h5, h6, h7, ?_⟩
  refine (?_ : us = (subtags s).tail) ▸ C25_source_subtags max s hs hm
  have hx := C25_extensionSubtags ⟨s⟩ hc
  have : us.map ExtendedLangTag.mk = (subtags s).tail.map ExtendedLangTag.mk := enumerates_unique h8 hx
  have := congrArg (List.map (·.str)) this
  simpa [Function.comp_def] using this

example : RunAccepts 100 "Language" (ascii "zh-gan-yue") :=
  (runAccepts_accepts Language.source is_Language (by decide +kernel)).mpr (accepts_of_isOk (by decide +kernel))

/-- C42: what is found by walking from a tag into its parts, by the text of the crate. -/
theorem C42_source (max : Nat) (s : Text) (hs : s.length + 1 ≤ max) (p : Parts) (hp : Decomposes s p) :
    (∃ l, run max ["NormalLangTag"] "language" [tag "NormalLangTag" s] = returns (tag "Language" l) ∧
      (∃ u, (subtags s).head? = some u ∧ run max ["Language"] "primary" [tag "Language" l] = returns (tag "PrimaryLanguage" u)) ∧
      RunIterates max "Language" "extension_subtags" [tag "Language" l] "LanguageExtensionIter" "ExtendedLangTag" (subtags p.language).tail) ∧
    (∀ v, run max ["NormalLangTag"] "variants" [tag "NormalLangTag" s] = returns (tag "Variants" v) →
      (∃ it, run max ["Variants"] "iter" [tag "Variants" v] = returns it ∧ RunEnumeratesBothEnds max "VariantsIter" it "Variant" p.variants) ∧
      run max ["Variants"] "first" [tag "Variants" v] = returns (optTag "Variant" p.variants.head?) ∧
      run max ["Variants"] "last" [tag "Variants" v] = returns (optTag "Variant" p.variants.getLast?)) ∧
    (∀ e, run max ["NormalLangTag"] "extensions" [tag "NormalLangTag" s] = returns (tag "Extensions" e) →
      RunIterates max "Extensions" "iter" [tag "Extensions" e] "ExtensionsIter" "Extension" p.extensions ∧
      ∀ b : UInt8,
        run max ["Extensions"] "get" [tag "Extensions" e, .ctor ["Singleton"] "Singleton" [.u8 b]] =
          returns (optTag "Extension" (p.extensions.find? fun e => e.head? = some b)) ∧
        RunIterates max "Extensions" "iter_extension" [tag "Extensions" e, .ctor ["Singleton"] "Singleton" [.u8 b]]
          "ExtensionIter" "ExtensionSubtag"
          (match p.extensions.find? fun e => e.head? = some b with | some e => (subtags e).tail | none => [])) := by
  have hlen : ∀ u : Text, RunOf u s → u.length + 1 ≤ max := fun u hu => Nat.le_trans (Nat.succ_le_succ (Client.RunOf.length_le hu)) hs
  have hc : Constructed (NormalLangTag.mk s) := (normal_has_parts _).mpr ⟨p, hp⟩
  obtain ⟨r1, r2, r3, r4, r5, r6⟩ := C67_accessors ⟨s⟩ hc
  refine ⟨⟨p.language, C16_source max s hs p hp, ?_⟩, fun v hv => ?_, fun e he => ?_⟩
  · have hl := hlen _ (r1 ⟨p.language⟩ (C16_language ⟨s⟩ p hp)).1
    refine ⟨?_, C25_source_subtags max _ hl hp.1.language⟩
    obtain ⟨h1, _⟩ := C42_language ⟨s⟩ p hp ⟨p.language⟩ (C16_language ⟨s⟩ p hp)
    exact ⟨_, h1, (C69_parts max p.language ⟨0⟩ hl).1⟩
  · have n4 : p.afterRegion ≠ [] := (C22_source_partial max s hs p hp).2.2.1.mp ⟨_, hv⟩
    obtain rfl := tag_inj (returns_inj (hv.symm.trans ((C19_source_partial max s hs p hp).1 n4)))
    have hl := hlen _ (r4 _ ((C19_variants_partial ⟨s⟩ p hp).1 n4))
    have := C28_source max _ hl ((matches_variants _).mpr ⟨p.variants, rfl, hp.1.variants⟩)
    rwa [items_variants hp.1] at this
  · have n5 : p.afterVariants ≠ [] := (C22_source_partial max s hs p hp).2.2.2.1.mp ⟨_, he⟩
    obtain rfl := tag_inj (returns_inj (he.symm.trans ((C20_source_partial max s hs p hp).1 n5)))
    have hl := hlen _ (r5 _ ((C20_extensions_partial ⟨s⟩ p hp).1 n5))
    exact ⟨C29_source max _ hp.1.extensions hl, fun b => ⟨C30_source max _ hp.1.extensions hl b, C30_source_iter max _ hp.1.extensions hl b⟩⟩

example : Decomposes (ascii "zh-yue-Hant-HK-1abc-abcde-a-bbb-cc-b-dd-x-y-zzz") exampleParts := decomposes_full

/-! ## C49: items of equal values -/

/-- C49: equal values have equally many items, equal in their order; and equal languages have equal primary languages and extensions.  By the text of
the crate. -/
theorem C49_source (max : Nat) : ∀ q ∈ [("PrivateUse", "iter", "PrivateUseIter", "PrivateUseSubtag"), ("Extension", "iter", "ExtensionIter", "ExtensionSubtag"),
      ("LanguageExtension", "iter", "LanguageExtensionIter", "ExtendedLangTag"),
      ("Language", "extension_subtags", "LanguageExtensionIter", "ExtendedLangTag"), ("Extensions", "iter", "ExtensionsIter", "Extension")],
    ∀ s t : Text, s.length + 1 ≤ max → RunAccepts max q.1 s → run max [q.1] "eq" [tag q.1 s, tag q.1 t] = returns (.bool true) →
    ∃ us vs, RunIterates max q.1 q.2.1 [tag q.1 s] q.2.2.1 q.2.2.2 us ∧ RunIterates max q.1 q.2.1 [tag q.1 t] q.2.2.1 q.2.2.2 vs ∧
      us.length = vs.length ∧ ∀ (k : Nat) u v, us[k]? = some u → vs[k]? = some v →
        run max [q.2.2.2] "eq" [tag q.2.2.2 u, tag q.2.2.2 v] = returns (.bool true) := by
  have items : ∀ {U : String} (_ : U ∈ stringTypes) {us vs : List Text}, us.map lowerText = vs.map lowerText → us.length = vs.length ∧
      ∀ (k : Nat) u v, us[k]? = some u → vs[k]? = some v → run max [U] "eq" [tag U u, tag U v] = returns (.bool true) := by
    intro U hU us vs h
    refine ⟨by simpa using congrArg List.length h, fun k u v hu hv => ?_⟩
    have := congrArg (·[k]?) h
    simp only [List.getElem?_map, hu, hv, Option.map_some, Option.some.injEq] at this
    exact (C34_source U hU max u v).1 this
  intro q hq s t hs ha he
  have hT : q.1 ∈ stringTypes := by
    simp only [List.mem_cons, List.not_mem_nil, or_false] at hq
    rcases hq with rfl | rfl | rfl | rfl | rfl <;> simp [stringTypes]
  have hc := caseEq_of_run hT he
  have ht : t.length + 1 ≤ max := by
    have := congrArg List.length hc
    simp only [lowerText, List.length_map] at this
    omega
  have hb := (C09_source q.1 hT max s t hs hc).mp ha
  simp only [List.mem_cons, List.not_mem_nil, or_false] at hq
  rcases hq with rfl | rfl | rfl | rfl | rfl
  · exact ⟨_, _, (C27_source max s hs).1 ((runAccepts_iff C03_source.1 hs).mp ha), (C27_source max t ht).1 ((runAccepts_iff C03_source.1 ht).mp hb),
      items (by simp [stringTypes]) (lower_tail (lower_subtags hc))⟩
  · exact ⟨_, _, (C27_source max s hs).2.1 ((runAccepts_iff C07_source.1 hs).mp ha), (C27_source max t ht).2.1 ((runAccepts_iff C07_source.1 ht).mp hb),
      items (by simp [stringTypes]) (lower_tail (lower_subtags hc))⟩
  · exact ⟨_, _, (C27_source max s hs).2.2 ((runAccepts_iff C04_source.2.2.1 hs).mp ha),
      (C27_source max t ht).2.2 ((runAccepts_iff C04_source.2.2.1 ht).mp hb), items (by simp [stringTypes]) (lower_subtags hc)⟩
  · exact ⟨_, _, C25_source_subtags max s hs ((runAccepts_iff C04_source.1 hs).mp ha), C25_source_subtags max t ht ((runAccepts_iff C04_source.1 ht).mp hb),
      items (by simp [stringTypes]) (lower_tail (lower_subtags hc))⟩
  · have c1 : Constructed (Extensions.mk s) := constructed_of_matches is_Extensions (fun ⟨_⟩ ⟨_⟩ h => congrArg Extensions.mk h)
      ((runAccepts_iff C07_source.2.2 hs).mp ha)
    have c2 : Constructed (Extensions.mk t) := constructed_of_matches is_Extensions (fun ⟨_⟩ ⟨_⟩ h => congrArg Extensions.mk h)
      ((runAccepts_iff C07_source.2.2 ht).mp hb)
    obtain ⟨us, h1, e1⟩ := C29_exists _ c1
    obtain ⟨vs, h2, e2⟩ := C29_exists _ c2
    have e1 : s = joinDash us := e1
    have e2 : t = joinDash vs := e2
    obtain ⟨xs, ys, k1, k2, k3, k4⟩ := C49_items.2.2.2.2.2 _ _ c1 c2 ((eq_true_iff _ _).mpr hc)
    obtain rfl := enumerates_unique k1 (C29_iter _ _ ⟨h1, e1⟩)
    obtain rfl := enumerates_unique k2 (C29_iter _ _ ⟨h2, e2⟩)
    subst e1 e2
    refine ⟨us, vs, C29_source max us h1 hs, C29_source max vs h2 ht, by simpa using k3, fun k u v hu hv => ?_⟩
    have := k4 k ⟨u⟩ ⟨v⟩ (by simp [hu]) (by simp [hv])
    exact (C34_source "Extension" (by simp [stringTypes]) max u v).1 ((eq_true_iff _ _).mp this)

/-- C49: the same of variants, from both ends. -/
theorem C49_source_variants (max : Nat) (s t : Text) (hs : s.length + 1 ≤ max) (ha : RunAccepts max "Variants" s)
    (he : run max ["Variants"] "eq" [tag "Variants" s, tag "Variants" t] = returns (.bool true)) :
    ∃ us vs, (∃ it, run max ["Variants"] "iter" [tag "Variants" s] = returns it ∧ RunEnumeratesBothEnds max "VariantsIter" it "Variant" us) ∧
      (∃ it, run max ["Variants"] "iter" [tag "Variants" t] = returns it ∧ RunEnumeratesBothEnds max "VariantsIter" it "Variant" vs) ∧
      us.length = vs.length ∧ ∀ (k : Nat) u v, us[k]? = some u → vs[k]? = some v →
        run max ["Variant"] "eq" [tag "Variant" u, tag "Variant" v] = returns (.bool true) := by
  have hc := caseEq_of_run (by simp [stringTypes]) he
  have ht : t.length + 1 ≤ max := by
    have := congrArg List.length hc
    simp only [lowerText, List.length_map] at this
    omega
  have hb := (C09_source "Variants" (by simp [stringTypes]) max s t hs hc).mp ha
  have h := lower_listItems hc
  refine ⟨_, _, (C28_source max s hs ((runAccepts_iff C06_source.2 hs).mp ha)).1, (C28_source max t ht ((runAccepts_iff C06_source.2 ht).mp hb)).1,
    by simpa using congrArg List.length h, fun k u v hu hv => ?_⟩
  have := congrArg (·[k]?) h
  simp only [List.getElem?_map, hu, hv, Option.map_some, Option.some.injEq] at this
  exact (C34_source "Variant" (by simp [stringTypes]) max u v).1 this

example : RunAccepts 100 "Extensions" (ascii "a-bbb-cc-b-dd") ∧
    run 100 ["Extensions"] "eq" [tag "Extensions" (ascii "a-bbb-cc-b-dd"), tag "Extensions" (ascii "A-bBb-cc-B-Dd")] = returns (.bool true) :=
  ⟨(runAccepts_accepts Extensions.source is_Extensions (by decide +kernel)).mpr (accepts_of_isOk (by decide +kernel)),
   (C34_source _ (by simp [stringTypes]) _ _ _).1 (by unfold CaseEq; decide +kernel)⟩

/-! ## C58: how many items -/

/-- C58: the numbers of items, by the text of the crate. -/
theorem C58_source (max : Nat) (s : Text) (hs : s.length + 1 ≤ max) :
    (RunAccepts max "PrivateUse" s → ∃ us, RunIterates max "PrivateUse" "iter" [tag "PrivateUse" s] "PrivateUseIter" "PrivateUseSubtag" us ∧
      us.length = s.count dash ∧ 1 ≤ us.length) ∧
    (RunAccepts max "Extension" s → ∃ us, RunIterates max "Extension" "iter" [tag "Extension" s] "ExtensionIter" "ExtensionSubtag" us ∧
      us.length = s.count dash ∧ 1 ≤ us.length) ∧
    (RunAccepts max "LanguageExtension" s → ∃ us,
      RunIterates max "LanguageExtension" "iter" [tag "LanguageExtension" s] "LanguageExtensionIter" "ExtendedLangTag" us ∧
      us.length = s.count dash + 1 ∧ us.length ≤ 3) ∧
    (RunAccepts max "Variants" s → ∃ us,
      (∃ it, run max ["Variants"] "iter" [tag "Variants" s] = returns it ∧ RunEnumeratesBothEnds max "VariantsIter" it "Variant" us) ∧
      us.length = if s = [] then 0 else s.count dash + 1) ∧
    (RunAccepts max "Extensions" s → ∃ us, RunIterates max "Extensions" "iter" [tag "Extensions" s] "ExtensionsIter" "Extension" us ∧
      us.length = ((subtags s).filter (·.length = 1)).length ∧ 5 * us.length ≤ s.length + 1) := by
  have hl : (subtags s).length = s.count dash + 1 := length_subtags s
  refine ⟨fun ha => ?_, fun ha => ?_, fun ha => ?_, fun ha => ?_, fun ha => ?_⟩
  · have hm := (runAccepts_iff C03_source.1 hs).mp ha
    refine ⟨_, (C27_source max s hs).1 hm, by rw [List.length_tail, hl]; rfl, ?_⟩
    rw [List.length_tail, hl]
    exact (C58_subtags.1 ⟨s⟩ (constructed_of_matches is_PrivateUse (fun ⟨_⟩ ⟨_⟩ h => congrArg PrivateUse.mk h) hm)).2
  · have hm := (runAccepts_iff C07_source.1 hs).mp ha
    refine ⟨_, (C27_source max s hs).2.1 hm, by rw [List.length_tail, hl]; rfl, ?_⟩
    rw [List.length_tail, hl]
    exact (C58_subtags.2 ⟨s⟩ (constructed_of_matches is_Extension (fun ⟨_⟩ ⟨_⟩ h => congrArg Extension.mk h) hm)).2
  · have hm := (runAccepts_iff C04_source.2.2.1 hs).mp ha
    refine ⟨_, (C27_source max s hs).2.2 hm, hl, ?_⟩
    rw [hl]
    exact (C58_extlang ⟨s⟩ (constructed_of_matches is_LanguageExtension (fun ⟨_⟩ ⟨_⟩ h => congrArg LanguageExtension.mk h) hm)).2
  · refine ⟨_, (C28_source max s hs ((runAccepts_iff C06_source.2 hs).mp ha)).1, ?_⟩
    unfold listItems
    split
    · rfl
    · exact hl
  · have c1 : Constructed (Extensions.mk s) := constructed_of_matches is_Extensions (fun ⟨_⟩ ⟨_⟩ h => congrArg Extensions.mk h)
      ((runAccepts_iff C07_source.2.2 hs).mp ha)
    obtain ⟨us, h1, e1⟩ := C29_exists _ c1
    have e1 : s = joinDash us := e1
    subst e1
    refine ⟨us, C29_source max us h1 hs, ?_, length_extensions h1⟩
    rw [← length_oneByte h1]
    cases us with
    | nil => rfl
    | cons e es => rw [subtags_joinDash (by simp)]

example : RunAccepts 100 "PrivateUse" (ascii "x-foo-b") :=
  (runAccepts_accepts PrivateUse.source is_PrivateUse (by decide +kernel)).mpr (accepts_of_isOk (by decide +kernel))

/-! ## C59: tags of one language in a sorted list -/

theorem run_cmp {T : String} (hT : T ∈ stringTypes) {max : Nat} {s : Text} (t : Text) (hs : s.length + 1 ≤ max) :
    run max [T] "cmp" [tag T s, tag T t] = returns (.ordering (cmpText (lowerText s) (lowerText t))) := by
  refine (C36_source T hT max s t hs _ ?_).1
  cases h : cmpText (lowerText s) (lowerText t) with
  | lt => exact (cmpText_lt_iff _ _).mp h
  | eq => exact (cmpText_eq_iff _ _).mp h
  | gt => exact (cmpText_gt_iff _ _).mp h

theorem run_cmp_ne {T : String} (hT : T ∈ stringTypes) {max : Nat} {s t : Text} (hs : s.length + 1 ≤ max)
    (h : run max [T] "cmp" [tag T s, tag T t] ≠ returns (.ordering .gt)) : cmpText (lowerText s) (lowerText t) ≠ .gt :=
  fun e => h (by rw [run_cmp hT t hs, e])

/-- C59 is false: `en-us` < `eng` < `en`, by the text of the crate. -/
theorem C59_source_violated :
    ¬ ∀ a b c la lb lc pa pb pc : Text, RunAccepts 100 "NormalLangTag" a → RunAccepts 100 "NormalLangTag" b → RunAccepts 100 "NormalLangTag" c →
      run 100 ["NormalLangTag"] "language" [tag "NormalLangTag" a] = returns (tag "Language" la) →
      run 100 ["NormalLangTag"] "language" [tag "NormalLangTag" b] = returns (tag "Language" lb) →
      run 100 ["NormalLangTag"] "language" [tag "NormalLangTag" c] = returns (tag "Language" lc) →
      run 100 ["Language"] "primary" [tag "Language" la] = returns (tag "PrimaryLanguage" pa) →
      run 100 ["Language"] "primary" [tag "Language" lb] = returns (tag "PrimaryLanguage" pb) →
      run 100 ["Language"] "primary" [tag "Language" lc] = returns (tag "PrimaryLanguage" pc) →
      run 100 ["NormalLangTag"] "cmp" [tag "NormalLangTag" a, tag "NormalLangTag" b] = returns (.ordering .lt) →
      run 100 ["NormalLangTag"] "cmp" [tag "NormalLangTag" b, tag "NormalLangTag" c] = returns (.ordering .lt) →
      run 100 ["PrimaryLanguage"] "eq" [tag "PrimaryLanguage" pa, tag "PrimaryLanguage" pc] = returns (.bool true) →
      run 100 ["PrimaryLanguage"] "eq" [tag "PrimaryLanguage" pa, tag "PrimaryLanguage" pb] = returns (.bool true) := by
  intro h
  have acc : ∀ s : Text, s.length + 1 ≤ 100 → StrNewtype.isOk NormalLangTag s = true → RunAccepts 100 "NormalLangTag" s := fun s hs h =>
    (runAccepts_accepts NormalLangTag.source is_NormalLangTag hs).mpr (accepts_of_isOk h)
  have lang : ∀ (s l : Text), s.length + 1 ≤ 100 → NormalLangTag.language ⟨s⟩ = .ok ⟨l⟩ →
      run 100 ["NormalLangTag"] "language" [tag "NormalLangTag" s] = returns (tag "Language" l) := fun s l hs e =>
    (C69_normalLangTag 100 ⟨s⟩ hs).1.trans (by rw [e]; rfl)
  have prim : ∀ (l u : Text), l.length + 1 ≤ 100 → Language.primary ⟨l⟩ = ⟨u⟩ →
      run 100 ["Language"] "primary" [tag "Language" l] = returns (tag "PrimaryLanguage" u) := fun l u hs e =>
    (C69_parts 100 l ⟨0⟩ hs).1.trans (by rw [e]; rfl)
  have cmp : ∀ (s t : Text), s.length + 1 ≤ 100 → cmpText (lowerText s) (lowerText t) = .lt →
      run 100 ["NormalLangTag"] "cmp" [tag "NormalLangTag" s, tag "NormalLangTag" t] = returns (.ordering .lt) := fun s t hs e => by
    rw [run_cmp (by simp [stringTypes]) t hs, e]
  have := h (ascii "en-us") (ascii "eng") (ascii "en") (ascii "en") (ascii "eng") (ascii "en") (ascii "en") (ascii "eng") (ascii "en")
    (acc _ (by decide +kernel) (by decide +kernel)) (acc _ (by decide +kernel) (by decide +kernel)) (acc _ (by decide +kernel) (by decide +kernel))
    (lang _ _ (by decide +kernel) (by decide +kernel)) (lang _ _ (by decide +kernel) (by decide +kernel)) (lang _ _ (by decide +kernel) (by decide +kernel))
    (prim _ _ (by decide +kernel) (by decide +kernel)) (prim _ _ (by decide +kernel) (by decide +kernel)) (prim _ _ (by decide +kernel) (by decide +kernel))
    (cmp _ _ (by decide +kernel) (by decide +kernel)) (cmp _ _ (by decide +kernel) (by decide +kernel))
    ((C34_source _ (by simp [stringTypes]) _ _ _).1 rfl)
  have := caseEq_of_run (by simp [stringTypes]) this
  revert this
  unfold CaseEq
  decide +kernel

/-- C59, what holds: between two values whose texts start with `p`, up to letter case, there are only values whose texts start with `p`, by the text of the
crate. -/
theorem C59_source_prefix_partial : ∀ T ∈ stringTypes, ∀ (max : Nat) (p a b c : Text), a.length + 1 ≤ max → b.length + 1 ≤ max →
    lowerText p <+: lowerText a → lowerText p <+: lowerText c →
    run max [T] "cmp" [tag T a, tag T b] ≠ returns (.ordering .gt) → run max [T] "cmp" [tag T b, tag T c] ≠ returns (.ordering .gt) →
    lowerText p <+: lowerText b := fun _ hT _ _ _ _ _ ha hb h1 h2 h3 h4 =>
  prefix_between h1 h2 (run_cmp_ne hT ha h3) (run_cmp_ne hT hb h4)

/-- C59, what holds: between two tags with the same primary language there are only tags whose primary language starts with it; it is the same if it is
equally long.  By the text of the crate. -/
theorem C59_source_partial (max : Nat) (a b c la lb lc pa pb pc : Text) (sa : a.length + 1 ≤ max) (sb : b.length + 1 ≤ max) (sc : c.length + 1 ≤ max)
    (ha : RunAccepts max "NormalLangTag" a) (hb : RunAccepts max "NormalLangTag" b) (hc : RunAccepts max "NormalLangTag" c)
    (h1 : run max ["NormalLangTag"] "language" [tag "NormalLangTag" a] = returns (tag "Language" la))
    (h2 : run max ["NormalLangTag"] "language" [tag "NormalLangTag" b] = returns (tag "Language" lb))
    (h3 : run max ["NormalLangTag"] "language" [tag "NormalLangTag" c] = returns (tag "Language" lc))
    (h4 : run max ["Language"] "primary" [tag "Language" la] = returns (tag "PrimaryLanguage" pa))
    (h5 : run max ["Language"] "primary" [tag "Language" lb] = returns (tag "PrimaryLanguage" pb))
    (h6 : run max ["Language"] "primary" [tag "Language" lc] = returns (tag "PrimaryLanguage" pc))
    (hab : run max ["NormalLangTag"] "cmp" [tag "NormalLangTag" a, tag "NormalLangTag" b] ≠ returns (.ordering .gt))
    (hbc : run max ["NormalLangTag"] "cmp" [tag "NormalLangTag" b, tag "NormalLangTag" c] ≠ returns (.ordering .gt))
    (hac : run max ["PrimaryLanguage"] "eq" [tag "PrimaryLanguage" pa, tag "PrimaryLanguage" pc] = returns (.bool true)) :
    lowerText pa <+: lowerText pb ∧
    (pb.length = pa.length → run max ["PrimaryLanguage"] "eq" [tag "PrimaryLanguage" pa, tag "PrimaryLanguage" pb] = returns (.bool true)) := by
  have key : ∀ {s l u : Text}, s.length + 1 ≤ max → RunAccepts max "NormalLangTag" s →
      run max ["NormalLangTag"] "language" [tag "NormalLangTag" s] = returns (tag "Language" l) →
      run max ["Language"] "primary" [tag "Language" l] = returns (tag "PrimaryLanguage" u) →
      Constructed (NormalLangTag.mk s) ∧ NormalLangTag.language ⟨s⟩ = .ok ⟨l⟩ ∧ (Language.primary ⟨l⟩).str = u := by
    intro s l u hs h e1 e2
    have hc : Constructed (NormalLangTag.mk s) := constructed_of_matches is_NormalLangTag (fun ⟨_⟩ ⟨_⟩ h => congrArg NormalLangTag.mk h)
      ((runAccepts_iff C02_source hs).mp h)
    obtain ⟨⟨l'⟩, q, e⟩ := gives_text Language.source ((C69_normalLangTag max ⟨s⟩ hs).1.symm.trans e1)
    obtain rfl : l' = l := e
    have hl := Nat.le_trans (Nat.succ_le_succ (Client.RunOf.length_le ((C67_accessors ⟨s⟩ hc).1 _ q).1)) hs
    obtain ⟨u', q', e'⟩ := gives_text PrimaryLanguage.source ((C69_parts max l' ⟨0⟩ hl).1.symm.trans e2)
    exact ⟨hc, q, Except.ok.inj q' ▸ e'⟩
  obtain ⟨ca, qa, rfl⟩ := key sa ha h1 h4
  obtain ⟨cb, qb, rfl⟩ := key sb hb h2 h5
  obtain ⟨cc, qc, rfl⟩ := key sc hc h3 h6
  obtain ⟨k1, k2⟩ := C59_primary_partial ⟨a⟩ ⟨b⟩ ⟨c⟩ ⟨la⟩ ⟨lb⟩ ⟨lc⟩ ca cb cc qa qb qc
    (by rw [cmp_eq_cmpText]; exact fun e => run_cmp_ne (by simp [stringTypes]) sa hab (Except.ok.inj e))
    (by rw [cmp_eq_cmpText]; exact fun e => run_cmp_ne (by simp [stringTypes]) sb hbc (Except.ok.inj e))
    ((eq_true_iff _ _).mpr (caseEq_of_run (by simp [stringTypes]) hac))
  exact ⟨k1, fun e => (C34_source _ (by simp [stringTypes]) _ _ _).1 ((eq_true_iff _ _).mp (k2 e))⟩

example : run 100 ["NormalLangTag"] "cmp" [tag "NormalLangTag" (ascii "en-us"), tag "NormalLangTag" (ascii "en-gb")] = returns (.ordering .gt) := by
  rw [run_cmp (by simp [stringTypes]) _ (by decide +kernel)]
  exact congrArg (fun o => returns (.ordering o)) (by decide +kernel)

/-! ## C63: filtering -/

/-- C63: what a range that matches a tag says of the parts of the tag, by the text of the crate. -/
theorem C63_source (max : Nat) (a b : Text) (sa : a.length + 1 ≤ max) (sb : b.length + 1 ≤ max) (ha : RunAccepts max "NormalLangTag" a)
    (hb : RunAccepts max "NormalLangTag" b) (h : BasicMatches a b) :
    (∃ l l' u u', run max ["NormalLangTag"] "language" [tag "NormalLangTag" a] = returns (tag "Language" l) ∧
      run max ["NormalLangTag"] "language" [tag "NormalLangTag" b] = returns (tag "Language" l') ∧ BasicMatches l l' ∧
      run max ["Language"] "primary" [tag "Language" l] = returns (tag "PrimaryLanguage" u) ∧
      run max ["Language"] "primary" [tag "Language" l'] = returns (tag "PrimaryLanguage" u') ∧
      run max ["PrimaryLanguage"] "eq" [tag "PrimaryLanguage" u, tag "PrimaryLanguage" u'] = returns (.bool true)) ∧
    (∀ s, run max ["NormalLangTag"] "script" [tag "NormalLangTag" a] = returns (optTag "Script" (some s)) →
      (∃ s', run max ["NormalLangTag"] "script" [tag "NormalLangTag" b] = returns (optTag "Script" (some s')) ∧ CaseEq s s') ∧
      SameOutcome "Language" (run max ["NormalLangTag"] "language" [tag "NormalLangTag" a]) (run max ["NormalLangTag"] "language" [tag "NormalLangTag" b])) ∧
    (∀ r, run max ["NormalLangTag"] "region" [tag "NormalLangTag" a] = returns (optTag "Region" (some r)) →
      (∃ r', run max ["NormalLangTag"] "region" [tag "NormalLangTag" b] = returns (optTag "Region" (some r')) ∧ CaseEq r r') ∧
      SameOutcome "Script" (run max ["NormalLangTag"] "script" [tag "NormalLangTag" a]) (run max ["NormalLangTag"] "script" [tag "NormalLangTag" b]) ∧
      SameOutcome "Language" (run max ["NormalLangTag"] "language" [tag "NormalLangTag" a]) (run max ["NormalLangTag"] "language" [tag "NormalLangTag" b])) ∧
    (∀ v, run max ["NormalLangTag"] "variants" [tag "NormalLangTag" a] = returns (tag "Variants" v) → v ≠ [] →
      (∃ v', run max ["NormalLangTag"] "variants" [tag "NormalLangTag" b] = returns (tag "Variants" v') ∧ BasicMatches v v') ∧
      SameOutcome "Region" (run max ["NormalLangTag"] "region" [tag "NormalLangTag" a]) (run max ["NormalLangTag"] "region" [tag "NormalLangTag" b])) ∧
    (∀ e, run max ["NormalLangTag"] "extensions" [tag "NormalLangTag" a] = returns (tag "Extensions" e) → e ≠ [] →
      (∃ e', run max ["NormalLangTag"] "extensions" [tag "NormalLangTag" b] = returns (tag "Extensions" e') ∧ BasicMatches e e') ∧
      SameOutcome "Variants" (run max ["NormalLangTag"] "variants" [tag "NormalLangTag" a])
        (run max ["NormalLangTag"] "variants" [tag "NormalLangTag" b])) ∧
    (∀ x, run max ["NormalLangTag"] "private_use" [tag "NormalLangTag" a] = returns (optTag "PrivateUse" (some x)) →
      ∃ x', run max ["NormalLangTag"] "private_use" [tag "NormalLangTag" b] = returns (optTag "PrivateUse" (some x')) ∧ BasicMatches x x') := by
  have ca : Constructed (NormalLangTag.mk a) := constructed_of_matches is_NormalLangTag (fun ⟨_⟩ ⟨_⟩ h => congrArg NormalLangTag.mk h)
    ((runAccepts_iff C02_source sa).mp ha)
  have cb : Constructed (NormalLangTag.mk b) := constructed_of_matches is_NormalLangTag (fun ⟨_⟩ ⟨_⟩ h => congrArg NormalLangTag.mk h)
    ((runAccepts_iff C02_source sb).mp hb)
  obtain ⟨a1, a2, a3, a4, a5, a6, _⟩ := C69_normalLangTag max ⟨a⟩ sa
  obtain ⟨b1, b2, b3, b4, b5, b6, _⟩ := C69_normalLangTag max ⟨b⟩ sb
  obtain ⟨⟨l, l', q1, q2, q3, q4⟩, k2, k3, k4, k5, k6⟩ := C63_filter ⟨a⟩ ⟨b⟩ ca cb h
  have hl := Nat.le_trans (Nat.succ_le_succ (Client.RunOf.length_le ((C67_accessors ⟨a⟩ ca).1 _ q1).1)) sa
  have hl' := Nat.le_trans (Nat.succ_le_succ (Client.RunOf.length_le ((C67_accessors ⟨b⟩ cb).1 _ q2).1)) sb
  refine ⟨⟨l.str, l'.str, l.primary.str, l'.primary.str, ?_, ?_, q4, (C69_parts max l.str ⟨0⟩ hl).1, (C69_parts max l'.str ⟨0⟩ hl').1,
    (C34_source _ (by simp [stringTypes]) _ _ _).1 ((eq_true_iff _ _).mp q3)⟩, ?_, ?_, ?_, ?_, ?_⟩
  · exact a1.trans (q1 ▸ rfl)
  · exact b1.trans (q2 ▸ rfl)
  · intro s hs
    obtain ⟨⟨s⟩, e, rfl⟩ := gives_some Script.source (a2.symm.trans hs)
    obtain ⟨⟨s', e', r⟩, k⟩ := k2 _ e
    exact ⟨⟨s'.str, b2.trans (e' ▸ rfl), (eq_true_iff _ _).mp r⟩, a1 ▸ b1 ▸ sameOutcome_text Language.source k⟩
  · intro s hs
    obtain ⟨⟨s⟩, e, rfl⟩ := gives_some Region.source (a3.symm.trans hs)
    obtain ⟨⟨s', e', r⟩, k, k'⟩ := k3 _ e
    exact ⟨⟨s'.str, b3.trans (e' ▸ rfl), (eq_true_iff _ _).mp r⟩, a2 ▸ b2 ▸ sameOutcome_option Script.source k,
      a1 ▸ b1 ▸ sameOutcome_text Language.source k'⟩
  · intro s hs hn
    obtain ⟨⟨s⟩, e, rfl⟩ := gives_text Variants.source (a4.symm.trans hs)
    obtain ⟨⟨s', e', r⟩, k⟩ := k4 _ e hn
    exact ⟨⟨s'.str, b4.trans (e' ▸ rfl), r⟩, a3 ▸ b3 ▸ sameOutcome_option Region.source k⟩
  · intro s hs hn
    obtain ⟨⟨s⟩, e, rfl⟩ := gives_text Extensions.source (a5.symm.trans hs)
    obtain ⟨⟨s', e', r⟩, k⟩ := k5 _ e hn
    exact ⟨⟨s'.str, b5.trans (e' ▸ rfl), r⟩, a4 ▸ b4 ▸ sameOutcome_text Variants.source k⟩
  · intro s hs
    obtain ⟨⟨s⟩, e, rfl⟩ := gives_some PrivateUse.source (a6.symm.trans hs)
    obtain ⟨s', e', r⟩ := k6 _ e
    exact ⟨s'.str, b6.trans (e' ▸ rfl), r⟩

example : RunAccepts 100 "NormalLangTag" (ascii "de-DE-1996") ∧ BasicMatches (ascii "de-de") (ascii "de-DE-1996") :=
  ⟨(runAccepts_accepts NormalLangTag.source is_NormalLangTag (by decide +kernel)).mpr (accepts_of_isOk (by decide +kernel)),
   Or.inr ⟨ascii "1996", by unfold CaseEq; decide +kernel⟩⟩

/-! ## C67: what is returned is a run of subtags of the tag -/

/-- C67: the texts the accessors of a tag return, by the text of the crate. -/
theorem C67_source (max : Nat) (s : Text) (hs : s.length + 1 ≤ max) :
    (RunAccepts max "NormalLangTag" s →
      (∀ u, run max ["NormalLangTag"] "language" [tag "NormalLangTag" s] = returns (tag "Language" u) → RunOf u s ∧ u <+: s) ∧
      (∀ u, run max ["NormalLangTag"] "script" [tag "NormalLangTag" s] = returns (optTag "Script" (some u)) → RunOf u s) ∧
      (∀ u, run max ["NormalLangTag"] "region" [tag "NormalLangTag" s] = returns (optTag "Region" (some u)) → RunOf u s) ∧
      (∀ u, run max ["NormalLangTag"] "variants" [tag "NormalLangTag" s] = returns (tag "Variants" u) → RunOf u s) ∧
      (∀ u, run max ["NormalLangTag"] "extensions" [tag "NormalLangTag" s] = returns (tag "Extensions" u) → RunOf u s) ∧
      (∀ u, run max ["NormalLangTag"] "private_use" [tag "NormalLangTag" s] = returns (optTag "PrivateUse" (some u)) → RunOf u s ∧ u <:+ s)) ∧
    (RunAccepts max "LangTag" s →
      (∀ u, run max ["LangTag"] "language" [tag "LangTag" s] = returns (optTag "Language" (some u)) → RunOf u s ∧ u <+: s) ∧
      (∀ u, run max ["LangTag"] "script" [tag "LangTag" s] = returns (optTag "Script" (some u)) → RunOf u s) ∧
      (∀ u, run max ["LangTag"] "region" [tag "LangTag" s] = returns (optTag "Region" (some u)) → RunOf u s) ∧
      (∀ u, run max ["LangTag"] "variants" [tag "LangTag" s] = returns (tag "Variants" u) → RunOf u s) ∧
      (∀ u, run max ["LangTag"] "extensions" [tag "LangTag" s] = returns (tag "Extensions" u) → RunOf u s) ∧
      (∀ u, run max ["LangTag"] "private_use" [tag "LangTag" s] = returns (optTag "PrivateUse" (some u)) → RunOf u s ∧ u <:+ s)) := by
  refine ⟨fun ha => ?_, fun ha => ?_⟩
  · have ca : Constructed (NormalLangTag.mk s) := constructed_of_matches is_NormalLangTag (fun ⟨_⟩ ⟨_⟩ h => congrArg NormalLangTag.mk h)
      ((runAccepts_iff C02_source hs).mp ha)
    obtain ⟨a1, a2, a3, a4, a5, a6, _⟩ := C69_normalLangTag max ⟨s⟩ hs
    obtain ⟨k1, k2, k3, k4, k5, k6⟩ := C67_accessors ⟨s⟩ ca
    refine ⟨fun u hu => ?_, fun u hu => ?_, fun u hu => ?_, fun u hu => ?_, fun u hu => ?_, fun u hu => ?_⟩
    · obtain ⟨_, e, rfl⟩ := gives_text Language.source (a1.symm.trans hu); exact k1 _ e
    · obtain ⟨_, e, rfl⟩ := gives_some Script.source (a2.symm.trans hu); exact k2 _ e
    · obtain ⟨_, e, rfl⟩ := gives_some Region.source (a3.symm.trans hu); exact k3 _ e
    · obtain ⟨_, e, rfl⟩ := gives_text Variants.source (a4.symm.trans hu); exact k4 _ e
    · obtain ⟨_, e, rfl⟩ := gives_text Extensions.source (a5.symm.trans hu); exact k5 _ e
    · obtain ⟨_, e, rfl⟩ := gives_some PrivateUse.source (a6.symm.trans hu); exact k6 _ e
  · have ca : Constructed (LangTag.mk s) := constructed_of_matches is_LangTag (fun ⟨_⟩ ⟨_⟩ h => congrArg LangTag.mk h)
      ((runAccepts_iff C01_source hs).mp ha)
    obtain ⟨a1, a2, a3, a4, a5, a6, _⟩ := C69_langTag max ⟨s⟩ hs
    obtain ⟨k1, k2, k3, k4, k5, k6⟩ := C67_langTag ⟨s⟩ ca
    refine ⟨fun u hu => ?_, fun u hu => ?_, fun u hu => ?_, fun u hu => ?_, fun u hu => ?_, fun u hu => ?_⟩
    · obtain ⟨_, e, rfl⟩ := gives_some Language.source (a1.symm.trans hu); exact k1 _ e
    · obtain ⟨_, e, rfl⟩ := gives_some Script.source (a2.symm.trans hu); exact k2 _ e
    · obtain ⟨_, e, rfl⟩ := gives_some Region.source (a3.symm.trans hu); exact k3 _ e
    · obtain ⟨_, e, rfl⟩ := gives_text Variants.source (a4.symm.trans hu); exact k4 _ e
    · obtain ⟨_, e, rfl⟩ := gives_text Extensions.source (a5.symm.trans hu); exact k5 _ e
    · obtain ⟨_, e, rfl⟩ := gives_some PrivateUse.source (a6.symm.trans hu); exact k6 _ e

example : RunOf (ascii "Hant") (ascii "zh-yue-Hant-HK-1abc-abcde-a-bbb-cc-b-dd-x-y-zzz") :=
  ((C67_source 100 _ (by decide +kernel)).1 ((runAccepts_accepts NormalLangTag.source is_NormalLangTag (by decide +kernel)).mpr
    (accepts_of_isOk (by decide +kernel)))).2.1 _ ((C17_source_partial 100 _ (by decide +kernel) _ decomposes_full).1 (by decide +kernel))

/-- C67: the items of the iterators, and the parts of languages and lists of extensions, by the text of the crate. -/
theorem C67_source_items (max : Nat) (s : Text) (hs : s.length + 1 ≤ max) :
    (∀ q ∈ [("PrivateUse", "iter", "PrivateUseIter", "PrivateUseSubtag"), ("Extension", "iter", "ExtensionIter", "ExtensionSubtag"),
        ("LanguageExtension", "iter", "LanguageExtensionIter", "ExtendedLangTag"),
        ("Language", "extension_subtags", "LanguageExtensionIter", "ExtendedLangTag"), ("Extensions", "iter", "ExtensionsIter", "Extension")],
      RunAccepts max q.1 s → ∀ us, RunIterates max q.1 q.2.1 [tag q.1 s] q.2.2.1 q.2.2.2 us → ∀ u ∈ us, RunOf u s) ∧
    (RunAccepts max "Variants" s → ∀ us it, run max ["Variants"] "iter" [tag "Variants" s] = returns it →
      RunEnumeratesBothEnds max "VariantsIter" it "Variant" us → ∀ u ∈ us, RunOf u s) ∧
    (∀ u, run max ["Language"] "primary" [tag "Language" s] = returns (tag "PrimaryLanguage" u) → RunOf u s) ∧
    (∀ u, run max ["Language"] "extension" [tag "Language" s] = returns (optTag "LanguageExtension" (some u)) → RunOf u s) ∧
    (RunAccepts max "Extensions" s → ∀ (b : UInt8) u,
      run max ["Extensions"] "get" [tag "Extensions" s, .ctor ["Singleton"] "Singleton" [.u8 b]] = returns (optTag "Extension" (some u)) →
      RunOf u s) := by
  refine ⟨fun q hq ha us hi u hu => ?_, fun ha us it hi he u hu => ?_, fun u hu => ?_, fun u hu => ?_, fun ha b u hu => ?_⟩
  · simp only [List.mem_cons, List.not_mem_nil, or_false] at hq
    rcases hq with rfl | rfl | rfl | rfl | rfl
    · obtain rfl := runIterates_unique hi ((C27_source max s hs).1 ((runAccepts_iff C03_source.1 hs).mp ha))
      exact runOf_subtags (List.mem_of_mem_tail hu)
    · obtain rfl := runIterates_unique hi ((C27_source max s hs).2.1 ((runAccepts_iff C07_source.1 hs).mp ha))
      exact runOf_subtags (List.mem_of_mem_tail hu)
    · obtain rfl := runIterates_unique hi ((C27_source max s hs).2.2 ((runAccepts_iff C04_source.2.2.1 hs).mp ha))
      exact runOf_subtags hu
    · obtain rfl := runIterates_unique hi (C25_source_subtags max s hs ((runAccepts_iff C04_source.1 hs).mp ha))
      exact runOf_subtags (List.mem_of_mem_tail hu)
    · have c1 : Constructed (Extensions.mk s) := constructed_of_matches is_Extensions (fun ⟨_⟩ ⟨_⟩ h => congrArg Extensions.mk h)
        ((runAccepts_iff C07_source.2.2 hs).mp ha)
      obtain ⟨vs, h1, e1⟩ := C29_exists _ c1
      have e1 : s = joinDash vs := e1
      subst e1
      obtain rfl := runIterates_unique hi (C29_source max vs h1 hs)
      obtain ⟨x, y, rfl⟩ := List.append_of_mem hu
      have := runOf_one x u y
      simpa using this
  · obtain ⟨⟨it', e', h'⟩, _⟩ := C28_source max s hs ((runAccepts_iff C06_source.2 hs).mp ha)
    obtain rfl := returns_inj (hi.symm.trans e')
    have : us = listItems s := by
      refine List.ext_getElem? fun k => optTag_inj (n := "Variant") ?_
      have e := Option.some.inj ((he (List.replicate (k + 1) .front)).symm.trans (h' (List.replicate (k + 1) .front)))
      have := congrArg (·[k]?) e
      rw [takeSides_front, takeSides_front] at this
      simpa [List.getElem?_range] using this
    subst this
    unfold listItems at hu
    split at hu
    · cases hu
    · exact runOf_subtags hu
  · obtain ⟨_, e, rfl⟩ := gives_text PrimaryLanguage.source ((C69_parts max s ⟨0⟩ hs).1.symm.trans hu)
    exact Except.ok.inj e ▸ (C67_parts.1 ⟨s⟩).1
  · obtain ⟨_, e, rfl⟩ := gives_some LanguageExtension.source ((C69_parts max s ⟨0⟩ hs).2.1.symm.trans hu)
    exact (C67_parts.1 ⟨s⟩).2 _ (Except.ok.inj e)
  · have c1 : Constructed (Extensions.mk s) := constructed_of_matches is_Extensions (fun ⟨_⟩ ⟨_⟩ h => congrArg Extensions.mk h)
      ((runAccepts_iff C07_source.2.2 hs).mp ha)
    obtain ⟨_, e, rfl⟩ := gives_some Extension.source ((C69_parts max s ⟨b⟩ hs).2.2.2.2.2.2.2.2.2.1.symm.trans hu)
    exact C67_parts.2 ⟨s⟩ ⟨b⟩ c1 _ e

example : RunOf (ascii "b") (ascii "x-foo-b") :=
  (C67_source_items 100 (ascii "x-foo-b") (by decide +kernel)).1 ("PrivateUse", "iter", "PrivateUseIter", "PrivateUseSubtag") List.mem_cons_self
    ((runAccepts_accepts PrivateUse.source is_PrivateUse (by decide +kernel)).mpr (accepts_of_isOk (by decide +kernel))) _
    ((C27_source 100 (ascii "x-foo-b") (by decide +kernel)).1 ((isOk_PrivateUse _).mp (by decide +kernel))) _ (by decide +kernel)

end Langtag.Props
