import Verif.Props.Source
import Verif.Props.SourceSpec
import Verif.Props.Equal
import Verif.Props.Print

/-!
# More of the properties, of the text of the crate

As in `Verif/Props/SourceSpec.lean`.  The theorems named `…_source_violated` show calls, executed from the text of the crate, that contradict the property.
-/

set_option autoImplicit false

namespace Langtag.Props
open Langtag.Model hiding Singleton
open Langtag.Source Langtag.Spec Langtag.Proof

/-- The value `GrandfatheredLangTag::X`. -/
abbrev variantVal (g : GrandfatheredLangTag) : Val := .ctor ["GrandfatheredLangTag"] (variantName g) []

/-- The value of a singleton with this byte. -/
abbrev singletonVal (b : UInt8) : Val := .ctor ["Singleton"] "Singleton" [.u8 b]

theorem ordering_inj {o o' : Ordering} (e : returns (.ordering o) = returns (.ordering o')) : o = o' := by
  cases o <;> cases o' <;> first | rfl | (simp [Val.ordering] at e)

/-! ## Grandfathered tags -/

/-- C13: the registered texts are language tags, and `language()` of a grandfathered tag is the first subtag of its text if it is regular, and
`None` if it is irregular, by the text of the crate. -/
theorem C13_source (max : Nat) (g : GrandfatheredLangTag) (h : 12 ≤ max) :
    run max ["LangTag"] "new" [.str (ascii (registered g))] = returns (.ok (tag "LangTag" (ascii (registered g)))) ∧
    (Grammar.regular.Matches (ascii (registered g)) →
      run max ["GrandfatheredLangTag"] "language" [variantVal g] = returns (optTag "Language" (subtags (ascii (registered g))).head?)) ∧
    (Grammar.irregular.Matches (ascii (registered g)) → run max ["GrandfatheredLangTag"] "language" [variantVal g] = returns .none) := by
  obtain ⟨_, _, k, _⟩ := C69_grandfathered max g [] Formatter.default []
  have k : run max ["GrandfatheredLangTag"] "language" [variantVal g] = _ := k
  obtain ⟨e1, e2⟩ := C13_language g
  rw [(C12_texts g).1] at e1 e2
  refine ⟨?_, fun hm => ?_, fun hm => ?_⟩
  · refine (C01_source max _ (Nat.le_trans ?_ h)).1 ?_
    · cases g <;> decide +kernel
    · exact (accepts_iff is_LangTag _).mp (C13_langTag _ g ((C12_new_ok _ g).mpr rfl))
  · obtain ⟨⟨l⟩, h1, h2, _⟩ := e1 hm
    rw [k, h1, h2]; rfl
  · rw [k, e2 hm]; rfl

example : run 100 ["GrandfatheredLangTag"] "language" [variantVal .CelGaulish] = returns (optTag "Language" (some (ascii "cel"))) :=
  (C13_source 100 .CelGaulish (by decide)).2.1 ((matches_regular _).mpr ⟨.CelGaulish, by decide +kernel, by unfold CaseEq; decide +kernel⟩)

/-- C14 is false: `zh-min` is both, by the text of the crate. -/
theorem C14_source_violated :
    ¬ ∀ s : Text, Grammar.languageTag.Matches s → run 100 ["LangTag"] "is_normal" [tag "LangTag" s] = returns (.bool true) →
      run 100 ["LangTag"] "is_grandfathered" [tag "LangTag" s] = returns (.bool false) := by
  intro h
  have hs : (ascii "zh-min").length + 1 ≤ 100 := by decide +kernel
  have hg : Grammar.grandfathered.Matches (ascii "zh-min") := (matches_grandfathered _).mpr ⟨.ZhMin, by unfold CaseEq; decide +kernel⟩
  have hn : Grammar.langtag.Matches (ascii "zh-min") := (accepts_iff is_NormalLangTag _).mp (accepts_of_isOk (by decide +kernel))
  have hl : Grammar.languageTag.Matches (ascii "zh-min") := (accepts_iff is_LangTag _).mp (accepts_of_isOk (by decide +kernel))
  obtain ⟨k1, _, _, _, k2, _⟩ := C14_source 100 (ascii "zh-min") hs
  have := h _ hl (k1 hn)
  rw [k2 hg] at this
  cases this

/-- C47 is false: `no-bok` has the language `no-bok` as a tag and `no` as a grandfathered tag, by the text of the crate. -/
theorem C47_source_violated :
    run 100 ["LangTag"] "language" [tag "LangTag" (ascii "no-bok")] = returns (optTag "Language" (some (ascii "no-bok"))) ∧
    run 100 ["GrandfatheredLangTag"] "new" [.str (ascii "no-bok")] = returns (.ok (variantVal .NoBok)) ∧
    run 100 ["GrandfatheredLangTag"] "language" [variantVal .NoBok] = returns (optTag "Language" (some (ascii "no"))) := by
  refine ⟨?_, (C12_source 100 (ascii "no-bok") .NoBok).1 (by unfold CaseEq; decide +kernel), ?_⟩
  · refine (C16_source_langTag 100 (ascii "no-bok") (by decide +kernel) ⟨ascii "no-bok", none, none, [], [], none⟩
      (decomposes_of_isOk (by decide +kernel) (by decide +kernel))).1
  · exact (C13_source 100 .NoBok (by decide)).2.1 ((matches_regular _).mpr ⟨.NoBok, by decide +kernel, by unfold CaseEq; decide +kernel⟩)

/-! ## Accessors of normal tags -/

/-- C22 is false: `NormalLangTag::new("en")` succeeds, and every accessor but `language()` panics on its result, by the text of the crate. -/
theorem C22_source_violated :
    run 100 ["NormalLangTag"] "new" [.str (ascii "en")] = returns (.ok (tag "NormalLangTag" (ascii "en"))) ∧
    ∀ f ∈ ["script", "region", "variants", "extensions", "private_use"],
      run 100 ["NormalLangTag"] f [tag "NormalLangTag" (ascii "en")] = some (.panics .slice) := by
  have hs : (ascii "en").length + 1 ≤ 100 := by decide +kernel
  refine ⟨(C02_source 100 _ hs).1 ((matches_langtag _).mpr ⟨_, decomposes_en⟩), fun f hf => ?_⟩
  simp only [List.mem_cons, List.not_mem_nil, or_false] at hf
  rcases hf with rfl | rfl | rfl | rfl | rfl
  · exact (C17_source_partial 100 _ hs _ decomposes_en).2 rfl
  · exact (C18_source_partial 100 _ hs _ decomposes_en).2 rfl
  · exact (C19_source_partial 100 _ hs _ decomposes_en).2 rfl
  · exact (C20_source_partial 100 _ hs _ decomposes_en).2 rfl
  · exact (C21_source_partial 100 _ hs _ decomposes_en).2.2 rfl

/-- C21 and C24 are false: `private_use()` of `en-a-bbb-x-foo` is `Some("a-bbb-x-foo")`, a text that `PrivateUse::new` rejects, by the text of the
crate. -/
theorem C24_source_violated :
    run 100 ["NormalLangTag"] "new" [.str (ascii "en-a-bbb-x-foo")] = returns (.ok (tag "NormalLangTag" (ascii "en-a-bbb-x-foo"))) ∧
    run 100 ["NormalLangTag"] "private_use" [tag "NormalLangTag" (ascii "en-a-bbb-x-foo")] =
      returns (optTag "PrivateUse" (some (ascii "a-bbb-x-foo"))) ∧
    run 100 ["PrivateUse"] "new" [.str (ascii "a-bbb-x-foo")] = returns (.err (.str (ascii "a-bbb-x-foo"))) := by
  have hs : (ascii "en-a-bbb-x-foo").length + 1 ≤ 100 := by decide +kernel
  refine ⟨(C02_source 100 _ hs).1 ((matches_langtag _).mpr ⟨_, decomposes_en_a_x⟩),
    (C21_source_partial 100 _ hs _ decomposes_en_a_x).2.1 (by decide +kernel), ?_⟩
  exact (C03_source.1 100 _ (by decide +kernel)).2 fun h => absurd ((isPrivateUse_iff _).mpr h) (by decide +kernel)

/-! ## Extensions -/

theorem extension_a_bb : ∀ e ∈ [ascii "a-bb"], Grammar.extension.Matches e := by
  simp only [List.mem_cons, List.not_mem_nil, or_false, forall_eq]
  exact (accepts_iff is_Extension _).mp (accepts_of_isOk (by decide +kernel))

theorem extension_A_bb : ∀ e ∈ [ascii "A-bb"], Grammar.extension.Matches e := by
  simp only [List.mem_cons, List.not_mem_nil, or_false, forall_eq]
  exact (accepts_iff is_Extension _).mp (accepts_of_isOk (by decide +kernel))

/-- C31 is false: `a-bb` and `A-bb` are equal `Extensions`; `get('a')` finds an extension in the first only, by the text of the crate. -/
theorem C31_source_violated :
    (∀ s ∈ [ascii "a-bb", ascii "A-bb"], run 100 ["Extensions"] "new" [.str s] = returns (.ok (tag "Extensions" s))) ∧
    run 100 ["Extensions"] "eq" [tag "Extensions" (ascii "a-bb"), tag "Extensions" (ascii "A-bb")] = returns (.bool true) ∧
    run 100 ["Extensions"] "get" [tag "Extensions" (ascii "a-bb"), singletonVal 97] = returns (optTag "Extension" (some (ascii "a-bb"))) ∧
    run 100 ["Extensions"] "get" [tag "Extensions" (ascii "A-bb"), singletonVal 97] = returns (optTag "Extension" none) := by
  refine ⟨?_, (C34_source _ (by simp [stringTypes]) _ _ _).1 (by unfold CaseEq; decide +kernel),
    C30_source 100 [ascii "a-bb"] extension_a_bb (by decide +kernel) 97, C30_source 100 [ascii "A-bb"] extension_A_bb (by decide +kernel) 97⟩
  intro s hs
  simp only [List.mem_cons, List.not_mem_nil, or_false] at hs
  rcases hs with rfl | rfl <;>
    exact (C07_source.2.2 100 _ (by decide +kernel)).1 ((accepts_iff is_Extensions _).mp (accepts_of_isOk (by decide +kernel)))

/-- C31, what holds, by the text of the crate: `get` of two equal `Extensions` finds equal extensions or none, if their singletons are written in the
same case.  Missing: singletons written in different cases. -/
theorem C31_source_partial (max : Nat) (es fs : List Text) (he : ∀ e ∈ es, Grammar.extension.Matches e) (hf : ∀ f ∈ fs, Grammar.extension.Matches f)
    (h : (joinDash es).length + 1 ≤ max) (h' : (joinDash fs).length + 1 ≤ max)
    (hc : run max ["Extensions"] "eq" [tag "Extensions" (joinDash es), tag "Extensions" (joinDash fs)] = returns (.bool true))
    (hh : es.map List.head? = fs.map List.head?) (b : UInt8) :
    ∃ r s : Option Text,
      run max ["Extensions"] "get" [tag "Extensions" (joinDash es), singletonVal b] = returns (optTag "Extension" r) ∧
      run max ["Extensions"] "get" [tag "Extensions" (joinDash fs), singletonVal b] = returns (optTag "Extension" s) ∧
      r.isSome = s.isSome ∧ ∀ e ∈ r, ∀ f ∈ s, run max ["Extension"] "eq" [tag "Extension" e, tag "Extension" f] = returns (.bool true) := by
  have k1 : run max ["Extensions"] "get" [tag "Extensions" (joinDash es), singletonVal b] = _ :=
    (C69_parts max (joinDash es) ⟨b⟩ h).2.2.2.2.2.2.2.2.2.1
  have k2 : run max ["Extensions"] "get" [tag "Extensions" (joinDash fs), singletonVal b] = _ :=
    (C69_parts max (joinDash fs) ⟨b⟩ h').2.2.2.2.2.2.2.2.2.1
  have hc' : CaseEq (joinDash es) (joinDash fs) := by
    refine Classical.byContradiction fun hn => ?_
    rw [(C34_source "Extensions" (by simp [stringTypes]) max _ _).2 hn] at hc
    cases hc
  obtain ⟨r, s, e1, e2, e3, e4⟩ := C31_get_partial ⟨joinDash es⟩ ⟨joinDash fs⟩ es fs ⟨he, rfl⟩ ⟨hf, rfl⟩
    ((eq_true_iff (Extensions.mk (joinDash es)) ⟨joinDash fs⟩).mpr hc') hh ⟨b⟩
  rw [e1] at k1
  rw [e2] at k2
  refine ⟨r.map (·.str), s.map (·.str), k1.trans ?_, k2.trans ?_, by simpa using e3, ?_⟩
  · cases r <;> rfl
  · cases s <;> rfl
  · intro e hr f hs
    obtain ⟨⟨x⟩, hx, rfl⟩ := Option.map_eq_some_iff.mp hr
    obtain ⟨⟨y⟩, hy, rfl⟩ := Option.map_eq_some_iff.mp hs
    exact (C34_source "Extension" (by simp [stringTypes]) max _ _).1 ((eq_true_iff (Extension.mk x) ⟨y⟩).mp (e4 _ hx _ hy))

-- equal lists whose singletons are written in the same case
example : ∃ r s : Option Text,
    run 100 ["Extensions"] "get" [tag "Extensions" (ascii "a-bb"), singletonVal 97] = returns (optTag "Extension" r) ∧
    run 100 ["Extensions"] "get" [tag "Extensions" (ascii "a-BB"), singletonVal 97] = returns (optTag "Extension" s) ∧
    r.isSome = s.isSome ∧ ∀ e ∈ r, ∀ f ∈ s, run 100 ["Extension"] "eq" [tag "Extension" e, tag "Extension" f] = returns (.bool true) :=
  C31_source_partial 100 [ascii "a-bb"] [ascii "a-BB"] extension_a_bb
    (by simp only [List.mem_cons, List.not_mem_nil, or_false, forall_eq]; exact (isOk_Extension _).mp (by decide +kernel))
    (by decide +kernel) (by decide +kernel) ((C34_source _ (by simp [stringTypes]) _ _ _).1 (by unfold CaseEq; decide +kernel)) (by decide +kernel) 97

/-- C48 is false: `a-bb` and `A-bb` are equal extensions and their singletons are not equal, by the text of the crate. -/
theorem C48_source_violated :
    run 100 ["Extension"] "eq" [tag "Extension" (ascii "a-bb"), tag "Extension" (ascii "A-bb")] = returns (.bool true) ∧
    run 100 ["Extension"] "singleton" [tag "Extension" (ascii "a-bb")] = returns (singletonVal 97) ∧
    run 100 ["Extension"] "singleton" [tag "Extension" (ascii "A-bb")] = returns (singletonVal 65) ∧
    runDerivedEq 100 "Singleton" (singletonVal 97) (singletonVal 65) = some false := by
  refine ⟨(C34_source _ (by simp [stringTypes]) _ _ _).1 (by unfold CaseEq; decide +kernel), ?_, ?_, ?_⟩
  · obtain ⟨b, h1, h2, _⟩ := C33_source 100 (ascii "a-bb") (by decide +kernel) (extension_a_bb _ (by simp))
    have : b = 97 := by
      have e : (ascii "a-bb").head? = some 97 := by decide +kernel
      rw [e] at h1; exact (Option.some.inj h1).symm
    rw [← this]; exact h2
  · obtain ⟨b, h1, h2, _⟩ := C33_source 100 (ascii "A-bb") (by decide +kernel) (extension_A_bb _ (by simp))
    have : b = 65 := by
      have e : (ascii "A-bb").head? = some 65 := by decide +kernel
      rw [e] at h1; exact (Option.some.inj h1).symm
    rw [← this]; exact h2
  · exact ((C69_derived 100).2.2 ⟨97⟩ ⟨65⟩).1

/-- C64 is false: `a-bbb-a-ccc` has the extensions `a-bbb` and `a-ccc`; both have the singleton `a`, and `get` of it finds the first, by the text of the
crate. -/
theorem C64_source_violated :
    run 100 ["Extensions"] "new" [.str (ascii "a-bbb-a-ccc")] = returns (.ok (tag "Extensions" (ascii "a-bbb-a-ccc"))) ∧
    RunIterates 100 "Extensions" "iter" [tag "Extensions" (ascii "a-bbb-a-ccc")] "ExtensionsIter" "Extension" [ascii "a-bbb", ascii "a-ccc"] ∧
    run 100 ["Extension"] "singleton" [tag "Extension" (ascii "a-ccc")] = returns (singletonVal 97) ∧
    run 100 ["Extensions"] "get" [tag "Extensions" (ascii "a-bbb-a-ccc"), singletonVal 97] = returns (optTag "Extension" (some (ascii "a-bbb"))) := by
  have hm : ∀ e ∈ [ascii "a-bbb", ascii "a-ccc"], Grammar.extension.Matches e := by
    simp only [List.mem_cons, List.not_mem_nil, or_false, forall_eq_or_imp, forall_eq]
    exact ⟨(accepts_iff is_Extension _).mp (accepts_of_isOk (by decide +kernel)),
      (accepts_iff is_Extension _).mp (accepts_of_isOk (by decide +kernel))⟩
  have hj : joinDash [ascii "a-bbb", ascii "a-ccc"] = ascii "a-bbb-a-ccc" := by decide +kernel
  have hl : (joinDash [ascii "a-bbb", ascii "a-ccc"]).length + 1 ≤ 100 := by decide +kernel
  have k1 := C29_source 100 _ hm hl
  have k2 := C30_source 100 _ hm hl 97
  rw [hj] at k1 k2
  refine ⟨(C07_source.2.2 100 _ (by decide +kernel)).1 ((accepts_iff is_Extensions _).mp (accepts_of_isOk (by decide +kernel))), k1, ?_, k2⟩
  obtain ⟨b, h1, h2, _⟩ := C33_source 100 (ascii "a-ccc") (by decide +kernel) (hm _ (by simp))
  have : b = 97 := by
    have e : (ascii "a-ccc").head? = some 97 := by decide +kernel
    rw [e] at h1; exact (Option.some.inj h1).symm
  rw [← this]; exact h2

/-! ## Comparisons -/

/-- C35: `cmp` is a total order, with `==` as its equality, and `partial_cmp` is `Some` of it, by the text of the crate. -/
theorem C35_source : ∀ T ∈ stringTypes, ∀ (max : Nat) (s t u : Text), s.length + 1 ≤ max → t.length + 1 ≤ max → u.length + 1 ≤ max →
    ∃ o : Ordering, run max [T] "cmp" [tag T s, tag T t] = returns (.ordering o) ∧
      run max [T] "partial_cmp" [tag T s, tag T t] = returns (.some (.ordering o)) ∧
      run max [T] "cmp" [tag T t, tag T s] = returns (.ordering o.swap) ∧
      run max [T] "eq" [tag T s, tag T t] = returns (.bool (o == .eq)) ∧
      (run max [T] "cmp" [tag T t, tag T u] = returns (.ordering o) → run max [T] "cmp" [tag T s, tag T u] = returns (.ordering o)) ∧
      (o = .eq → run max [T] "cmp" [tag T s, tag T u] = run max [T] "cmp" [tag T t, tag T u]) :=
  forEach_stringTypes fun n T _ _ _ _ h max s t u hs ht hu => by
    obtain ⟨a, rfl⟩ := h.ofText s
    obtain ⟨b, rfl⟩ := h.ofText t
    obtain ⟨c, rfl⟩ := h.ofText u
    have key : ∀ a b : T, (StrNewtype.str a).length + 1 ≤ max → run max [n] "cmp" [tag n (StrNewtype.str a), tag n (StrNewtype.str b)] =
        returns (.ordering (cmpText (lowerText (StrNewtype.str a)) (lowerText (StrNewtype.str b)))) := fun a b ha => by
      have k := h.cmp max a b ha
      rw [h.val_eq, h.val_eq, cmp_eq_cmpText] at k
      exact k
    have k' := h.partialCmp max a b hs
    have k'' := h.eq max a b
    rw [h.val_eq, h.val_eq] at k' k''
    rw [LawfulCompare.partialCmp, cmp_eq_cmpText] at k'
    rw [key a b hs, key b a ht, key b c ht, key a c hs]
    refine ⟨_, rfl, k', by rw [cmpText_swap], ?_, fun e => ?_, fun e => ?_⟩
    · rw [k'']
      by_cases hc : CaseEq (StrNewtype.str a) (StrNewtype.str b)
      · rw [(eq_true_iff a b).mpr hc, (cmpText_eq_iff _ _).mpr hc]; rfl
      · rw [(eq_false_iff a b).mpr hc]
        have : cmpText (lowerText (StrNewtype.str a)) (lowerText (StrNewtype.str b)) ≠ .eq := fun e => hc ((cmpText_eq_iff _ _).mp e)
        show returns (.bool false) = _
        cases hx : cmpText (lowerText (StrNewtype.str a)) (lowerText (StrNewtype.str b)) with
        | eq => exact absurd hx this
        | lt => rfl
        | gt => rfl
    · have e := ordering_inj e
      refine congrArg (fun o => returns (.ordering o)) ?_
      cases hx : cmpText (lowerText (StrNewtype.str a)) (lowerText (StrNewtype.str b)) with
      | lt => rw [hx] at e; rw [cmpText_lt_iff] at *; exact precedes_trans hx e
      | eq => rw [hx] at e; rw [cmpText_eq_iff] at *; exact hx.trans e
      | gt => rw [hx] at e; rw [cmpText_gt_iff] at *; exact precedes_trans e hx
    · rw [(cmpText_eq_iff _ _).mp e]

example : ∃ o : Ordering, run 100 ["Region"] "cmp" [tag "Region" (ascii "us"), tag "Region" (ascii "FR")] = returns (.ordering o) :=
  (C35_source "Region" (by simp [stringTypes]) 100 (ascii "us") (ascii "FR") [] (by decide +kernel) (by decide +kernel) (by decide +kernel)).imp
    fun _ h => h.1

/-- C46 is false: what `en` writes to a hasher is a proper prefix of what `en-US` writes, by the text of the crate. -/
theorem C46_source_violated :
    run 100 ["LangTag"] "hash" [tag "LangTag" (ascii "en"), .hasher []] = some (.returns (.tuple []) [.hasher (ascii "en")]) ∧
    run 100 ["LangTag"] "hash" [tag "LangTag" (ascii "en-US"), .hasher []] = some (.returns (.tuple []) [.hasher (ascii "en" ++ ascii "-us")]) ∧
    run 100 ["LangTag"] "eq" [tag "LangTag" (ascii "en"), tag "LangTag" (ascii "en-US")] = returns (.bool false) ∧
    ∀ s ∈ [ascii "en", ascii "en-US"], run 100 ["LangTag"] "new" [.str s] = returns (.ok (tag "LangTag" s)) := by
  refine ⟨C37_source _ (by simp [stringTypes]) _ _ _, C37_source _ (by simp [stringTypes]) _ _ _,
    (C34_source _ (by simp [stringTypes]) _ _ _).2 (by unfold CaseEq; decide +kernel), fun s hs => ?_⟩
  simp only [List.mem_cons, List.not_mem_nil, or_false] at hs
  rcases hs with rfl | rfl <;>
    exact (C01_source 100 _ (by decide +kernel)).1 ((accepts_iff is_LangTag _).mp (accepts_of_isOk (by decide +kernel)))

/-- C53: the comparisons derived for `GrandfatheredLangTag`, by the declaration in the text: equal iff they are the same tag; ordered first those that
are not normal tags, then alphabetically; `partial_cmp` is `Some` of `cmp`; the hashes of different tags differ. -/
theorem C53_source_grandfathered (max : Nat) (g g' : GrandfatheredLangTag) :
    runDerivedEq max "GrandfatheredLangTag" (variantVal g) (variantVal g') = some (decide (g = g')) ∧
    (∃ o, runDerivedCmp max "GrandfatheredLangTag" (variantVal g) (variantVal g') = some o ∧
      runDerivedPartialCmp max "GrandfatheredLangTag" (variantVal g) (variantVal g') = some (some o) ∧ (o = .eq ↔ g = g') ∧
      (o = .lt ↔ (¬ Grammar.langtag.Matches (ascii (registered g)) ∧ Grammar.langtag.Matches (ascii (registered g'))) ∨
        ((Grammar.langtag.Matches (ascii (registered g)) ↔ Grammar.langtag.Matches (ascii (registered g'))) ∧
          lowerText (ascii (registered g)) < lowerText (ascii (registered g'))))) ∧
    (runDerivedHash max "GrandfatheredLangTag" (variantVal g) = runDerivedHash max "GrandfatheredLangTag" (variantVal g') ↔ g = g') := by
  obtain ⟨e1, e2, e3, e4⟩ := (C69_derived max).2.1 g g'
  have e5 := ((C69_derived max).2.1 g' g).2.2.2
  have o := C53_orders.1
  have asc := C53_ascending.2.2.2 g g'
  rw [(C12_texts g).1, (C12_texts g').1] at asc
  simp only [accepts_iff is_NormalLangTag] at asc
  refine ⟨?_, ⟨_, e2, e3, ?_, asc⟩, ?_⟩
  · refine e1.trans (congrArg some ?_)
    rw [Bool.eq_iff_iff, o.1, decide_eq_true_iff]
  · exact o.2.1 g g'
  · have e4 : runDerivedHash max "GrandfatheredLangTag" (variantVal g) = _ := e4
    have e5 : runDerivedHash max "GrandfatheredLangTag" (variantVal g') = _ := e5
    rw [e4, e5]
    refine ⟨fun e => ?_, fun e => e ▸ rfl⟩
    have e : [HashWrite.isize g.discriminant] = [HashWrite.isize g'.discriminant] := Option.some.inj e
    rw [← o.1]
    have : g.discriminant = g'.discriminant := by simpa using e
    show (g.discriminant == g'.discriminant) = true
    rw [this]; simp

/-- C53: the comparisons derived for `Kind`, by the declaration in the text: `Normal < PrivateUse < Grandfathered`, and `==` and the hash tell the three
apart. -/
theorem C53_source_kind (max : Nat) (i j : Nat) (x y : String) (hx : ["Normal", "PrivateUse", "Grandfathered"][i]? = some x)
    (hy : ["Normal", "PrivateUse", "Grandfathered"][j]? = some y) :
    runDerivedEq max "Kind" (.ctor ["Kind"] x []) (.ctor ["Kind"] y []) = some (decide (i = j)) ∧
    runDerivedCmp max "Kind" (.ctor ["Kind"] x []) (.ctor ["Kind"] y []) = some (compare i j) ∧
    runDerivedPartialCmp max "Kind" (.ctor ["Kind"] x []) (.ctor ["Kind"] y []) = some (some (compare i j)) ∧
    (runDerivedHash max "Kind" (.ctor ["Kind"] x []) = runDerivedHash max "Kind" (.ctor ["Kind"] y []) ↔ i = j) ∧
    runDerivedDebug max "Kind" (.ctor ["Kind"] x []) = some x.toList := by
  have name : ∀ (i : Nat) (x : String), ["Normal", "PrivateUse", "Grandfathered"][i]? = some x →
      ∃ k : Kind, k.discriminant = i ∧ val k = .ctor ["Kind"] x [] ∧ k.fmtDebug Formatter.default = x.toList := by
    intro i x h
    match i, h with
    | 0, h => cases h; exact ⟨.Normal, rfl, rfl, by decide +kernel⟩
    | 1, h => cases h; exact ⟨.PrivateUse, rfl, rfl, by decide +kernel⟩
    | 2, h => cases h; exact ⟨.Grandfathered, rfl, rfl, by decide +kernel⟩
    | n + 3, h => simp at h
  obtain ⟨k, rfl, hk, hd⟩ := name i x hx
  obtain ⟨k', rfl, hk', -⟩ := name j y hy
  rw [← hk, ← hk']
  obtain ⟨e1, e2, e3, e4, e5⟩ := (C69_derived max).1 k k' Formatter.default
  obtain ⟨-, -, -, e6, -⟩ := (C69_derived max).1 k' k Formatter.default
  refine ⟨e1.trans (congrArg some ?_), e2, e3, ?_, by rw [e5, hd]⟩
  · show (k.discriminant == k'.discriminant) = _
    rw [Bool.eq_iff_iff, beq_iff_eq, decide_eq_true_iff]
  · rw [e4, e6]
    refine ⟨fun e => ?_, fun e => ?_⟩
    · have e : [HashWrite.isize k.discriminant] = [HashWrite.isize k'.discriminant] := Option.some.inj e
      simpa using e
    · show some [HashWrite.isize k.discriminant] = some [HashWrite.isize k'.discriminant]
      rw [e]

example : runDerivedCmp 100 "Kind" (.ctor ["Kind"] "PrivateUse" []) (.ctor ["Kind"] "Grandfathered" []) = some .lt :=
  (C53_source_kind 100 1 2 _ _ rfl rfl).2.1

/-- C53: the comparisons derived for `Singleton`, by the declaration in the text: those of its byte. -/
theorem C53_source_singleton (max : Nat) (b c : UInt8) :
    runDerivedEq max "Singleton" (singletonVal b) (singletonVal c) = some (decide (b = c)) ∧
    runDerivedCmp max "Singleton" (singletonVal b) (singletonVal c) = some (compare b c) ∧
    runDerivedPartialCmp max "Singleton" (singletonVal b) (singletonVal c) = some (some (compare b c)) ∧
    runDerivedHash max "Singleton" (singletonVal b) = some [.u8 b] := by
  obtain ⟨e1, e2, e3, e4⟩ := (C69_derived max).2.2 ⟨b⟩ ⟨c⟩
  refine ⟨e1.trans (congrArg some ?_), e2, e3, e4⟩
  show (b == c) = _
  rw [Bool.eq_iff_iff, beq_iff_eq, decide_eq_true_iff]

/-- C60 is false: as grandfathered tags `i-ami` comes before `art-lojban`, and as tags after it, by the text of the crate. -/
theorem C60_source_violated :
    runDerivedCmp 100 "GrandfatheredLangTag" (variantVal .IAmi) (variantVal .ArtLojban) = some .lt ∧
    run 100 ["LangTag"] "cmp" [tag "LangTag" (ascii (registered .IAmi)), tag "LangTag" (ascii (registered .ArtLojban))] =
      returns (.ordering .gt) := by
  refine ⟨((C69_derived 100).2.1 .IAmi .ArtLojban).2.1, ?_⟩
  exact (C36_source "LangTag" (by simp [stringTypes]) 100 _ _ (by decide +kernel) .gt ((cmpText_gt_iff _ _).mp (by decide +kernel))).1

/-- C60, what holds, exactly, by the text of the crate: the two orders agree on tags that are both normal tags or both not, except on `zh-min` and
`zh-min-nan`; on a normal and another one they agree iff the other one comes first alphabetically.  Missing: they disagree on the rest. -/
theorem C60_source_partial (max : Nat) (h : 12 ≤ max) (g g' : GrandfatheredLangTag) :
    (∃ o, runDerivedCmp max "GrandfatheredLangTag" (variantVal g) (variantVal g') = some o ∧
      run max ["LangTag"] "cmp" [tag "LangTag" (ascii (registered g)), tag "LangTag" (ascii (registered g'))] = returns (.ordering o)) ↔
    ((Grammar.langtag.Matches (ascii (registered g)) ↔ Grammar.langtag.Matches (ascii (registered g'))) ∧
        ¬ (g = .ZhMin ∧ g' = .ZhMinNan) ∧ ¬ (g = .ZhMinNan ∧ g' = .ZhMin)) ∨
      (¬ Grammar.langtag.Matches (ascii (registered g)) ∧ Grammar.langtag.Matches (ascii (registered g')) ∧
        lowerText (ascii (registered g)) < lowerText (ascii (registered g'))) ∨
      (Grammar.langtag.Matches (ascii (registered g)) ∧ ¬ Grammar.langtag.Matches (ascii (registered g')) ∧
        lowerText (ascii (registered g')) < lowerText (ascii (registered g))) := by
  have e := C60_order_partial g g'
  rw [(C12_texts g).1, (C12_texts g').1] at e
  simp only [accepts_iff is_NormalLangTag] at e
  rw [← e]
  have k1 : runDerivedCmp max "GrandfatheredLangTag" (variantVal g) (variantVal g') = _ := ((C69_derived max).2.1 g g').2.1
  have hl : (ascii (registered g)).length + 1 ≤ max := Nat.le_trans (by cases g <;> decide +kernel) h
  have k2 : run max ["LangTag"] "cmp" [tag "LangTag" (ascii (registered g)), tag "LangTag" (ascii (registered g'))] = _ :=
    LangTag.source.cmp max ⟨ascii (registered g)⟩ ⟨ascii (registered g')⟩ hl
  rw [k1, k2]
  generalize Compare.cmp (LangTag.mk (ascii (registered g))) ⟨ascii (registered g')⟩ = r
  cases r with
  | error p =>
    refine ⟨?_, fun h => by cases h⟩
    rintro ⟨o, -, h⟩
    cases h
  | ok o =>
    refine ⟨?_, fun h => ⟨_, rfl, by cases h; rfl⟩⟩
    rintro ⟨o', h1, h2⟩
    cases h1
    have : o = g.cmp g' := ordering_inj h2
    rw [this]

-- two regular ones on which the orders agree
example : ∃ o, runDerivedCmp 100 "GrandfatheredLangTag" (variantVal .ArtLojban) (variantVal .ZhXiang) = some o ∧
    run 100 ["LangTag"] "cmp" [tag "LangTag" (ascii "art-lojban"), tag "LangTag" (ascii "zh-xiang")] = returns (.ordering o) :=
  (C60_source_partial 100 (by decide) .ArtLojban .ZhXiang).mpr (.inl ⟨
    ⟨fun _ => (isOk_NormalLangTag _).mp (by decide +kernel), fun _ => (isOk_NormalLangTag _).mp (by decide +kernel)⟩, by decide, by decide⟩)

/-! ## Printing -/

/-- C66: `format!("{}")` of a grandfathered tag, by the text of the crate: it is the registered text, which reads back as the same tag; with options
and no precision, the text between fill characters up to the width. -/
theorem C66_source_grandfathered (max : Nat) (g : GrandfatheredLangTag) (f : Formatter) (out : List Char) :
    run max ["GrandfatheredLangTag"] "fmt" [variantVal g, .formatter .default out] =
      some (.returns (.ok (.tuple [])) [.formatter .default (out ++ (registered g).toList)]) ∧
    (f.precision = none → ∃ before after text, PaddedBy f.fill before after (registered g).toList text ∧
      before + after = f.width.getD 0 - (registered g).toList.length ∧
      (f.align = none ∨ f.align = some .Left → before = 0) ∧ (f.align = some .Right → after = 0) ∧
      (f.align = some .Center → before ≤ after ∧ after ≤ before + 1) ∧
      run max ["GrandfatheredLangTag"] "fmt" [variantVal g, .formatter f out] =
        some (.returns (.ok (.tuple [])) [.formatter f (out ++ text)])) ∧
    (∀ p, f.precision = some p → f.width = none →
      run max ["GrandfatheredLangTag"] "fmt" [variantVal g, .formatter f out] =
        some (.returns (.ok (.tuple [])) [.formatter f (out ++ (registered g).toList.take p)])) ∧
    run max ["GrandfatheredLangTag"] "new" [.str (utf8 (registered g).toList)] = returns (.ok (variantVal g)) := by
  have e : ∀ g : GrandfatheredLangTag, g.fmt .default = (registered g).toList := by intro g; cases g <;> decide +kernel
  have k : ∀ f, run max ["GrandfatheredLangTag"] "fmt" [variantVal g, .formatter f out] = _ :=
    fun f => (C69_grandfathered max g [] f out).2.2.2.2.2
  refine ⟨by rw [k, e], fun hp => ?_, fun p hp hw => ?_, ?_⟩
  · obtain ⟨⟨a, b, h1, h2, h3, h4, h5⟩, _⟩ := C66_width g f hp
    rw [e] at h1 h2
    exact ⟨a, b, _, h1, h2, h3, h4, h5, k f⟩
  · rw [k, C66_precision g f p hp hw, e]
  · refine (C12_source max _ g).1 ?_
    rw [← e, (C66_grandfathered g).1]; rfl

/-- C66: `format!("{}")` of a singleton, by the text of the crate: its byte, which reads back as the same singleton; with options and no precision, the
byte between fill characters up to the width.  `{:?}` puts it between single quotes. -/
theorem C66_source_singleton (max : Nat) (b : UInt8) (hb : Grammar.singleton.Matches [b]) (f : Formatter) (out : List Char) :
    (∃ c : Char, encodeChar c = [b] ∧
      run max ["Singleton"] "fmt" [singletonVal b, .formatter .default out] =
        some (.returns (.ok (.tuple [])) [.formatter .default (out ++ [c])]) ∧
      runAs max "Debug" "Singleton" "fmt" [singletonVal b, .formatter f out] =
        some (.returns (.ok (.tuple [])) [.formatter f (out ++ ['\'', c, '\''])]) ∧
      (f.precision = none → ∃ before after text, PaddedBy f.fill before after [c] text ∧ before + after = f.width.getD 0 - 1 ∧
        (f.align = none ∨ f.align = some .Left → before = 0) ∧ (f.align = some .Right → after = 0) ∧
        (f.align = some .Center → before ≤ after ∧ after ≤ before + 1) ∧
        run max ["Singleton"] "fmt" [singletonVal b, .formatter f out] =
          some (.returns (.ok (.tuple [])) [.formatter f (out ++ text)]))) ∧
    run max ["Singleton"] "from_string" [.str [b]] = returns (.ok (singletonVal b)) := by
  obtain ⟨⟨g⟩, e1, _, hg⟩ := (C32_u8 b).1 hb
  have hg : g = b := hg
  subst hg
  obtain ⟨h1, h2, _, h4⟩ := C66_singleton g ⟨g⟩ e1
  have hd : encodeChar (Char.ofNat g.toNat) = [g] := by
    simpa [Model.Singleton.fmt, pad_default, utf8, Model.Singleton.display] using h1
  have ha : (Char.ofNat g.toNat).isAlphanum = true := by
    have hn : isAsciiAlphanumeric g = true := by
      unfold Model.Singleton.new at e1
      split at e1
      · exact (by assumption : _ ∧ _ ∧ _).2.2
      · cases e1
    have key : ∀ n : Fin 256, isAsciiAlphanumeric (UInt8.ofNat n) = true → (Char.ofNat n).isAlphanum = true := by decide +kernel
    have := key ⟨g.toNat, g.toNat_lt⟩
    rw [show UInt8.ofNat ((⟨g.toNat, g.toNat_lt⟩ : Fin 256) : Nat) = g from by simp] at this
    exact this hn
  have k : ∀ f, run max ["Singleton"] "fmt" [singletonVal g, .formatter f out] = _ :=
    fun f => (C69_singleton max ⟨g⟩ [] 0 ' ' f out).2.2.2.2.2.2.2.2.1
  refine ⟨⟨Char.ofNat g.toNat, hd, ?_, (C69_singleton max ⟨g⟩ [] 0 ' ' f out).2.2.2.2.2.2.2.2.2 ha, fun hf => ?_⟩, ?_⟩
  · rw [k]; simp [Model.Singleton.fmt, pad_default, Model.Singleton.display]
  · obtain ⟨a, b, h⟩ := h4 f hf
    refine ⟨a, b, _, ?_, h.2.1, h.2.2.1, h.2.2.2.1, h.2.2.2.2, k f⟩
    have := h.1
    rwa [show (Model.Singleton.mk g).fmt .default = [Char.ofNat g.toNat] by simp [Model.Singleton.fmt, pad_default, Model.Singleton.display]] at this
  · have k := (C69_singleton max ⟨g⟩ [g] 0 ' ' f out).2.2.2.1
    rw [h1] at h2
    rw [h2] at k
    exact k

example : ∃ c, encodeChar c = [85] ∧ runAs 100 "Debug" "Singleton" "fmt" [singletonVal 85, .formatter .default []] =
    some (.returns (.ok (.tuple [])) [.formatter .default ['\'', c, '\'']]) :=
  (C66_source_singleton 100 85 (Classical.byContradiction fun hn => absurd ((C32_u8 85).2 hn).1 (by decide +kernel)) .default []).1.imp fun _ h => ⟨h.1, h.2.2.1⟩

end Langtag.Props
