import Verif.Props.Components
import Verif.Props.Language
import Verif.Props.Iterators
import Verif.Props.Kinds

/-! # C24: values built without validation are valid -/

set_option autoImplicit false

namespace Langtag.Props
open Langtag.Spec Langtag.Model Langtag.Proof

theorem mem_of_yields {σ α : Type} {next : σ → Rust (Option α × σ)} {it : σ} {items : List α} {x : α}
    (h : Enumerates next it items) (hx : Yields next it x) : x ∈ items := by
  obtain ⟨n, xs, h1, h2⟩ := hx
  rw [h n] at h1
  obtain rfl := Except.ok.inj h1
  obtain ⟨k, _, hk⟩ := List.mem_map.mp h2
  exact List.mem_of_getElem? hk

theorem yields_of_mem {σ α : Type} {next : σ → Rust (Option α × σ)} {it : σ} {items : List α} {x : α}
    (h : Enumerates next it items) (hx : x ∈ items) : Yields next it x := by
  obtain ⟨k, hk, rfl⟩ := List.mem_iff_getElem.mp hx
  refine ⟨k + 1, _, h (k + 1), List.mem_map.mpr ⟨k, by simp, ?_⟩⟩
  exact List.getElem?_eq_getElem hk

/-- C24 is false for `Language::primary()`: `abcde` is a language whose primary language is not a valid
`PrimaryLanguage` (2 or 3 letters). -/
theorem C24_primary_violated : ¬ ∀ l : Language, Constructed l → Accepts PrimaryLanguage l.primary.str := by
  intro h
  obtain ⟨t, ht⟩ := h ⟨ascii "abcde"⟩ ⟨ascii "abcde", by decide +kernel⟩
  have : StrNewtype.new PrimaryLanguage (Language.mk (ascii "abcde")).primary.str = .error (ascii "abcde") := by
    decide +kernel
  rw [this] at ht
  cases ht

/-- C24 is false for `private_use()`: on `en-a-bbb` it returns `a-bbb`, which is not a valid `PrivateUse`. -/
theorem C24_privateUse_violated :
    ¬ ∀ (t : NormalLangTag) x, Constructed t → t.privateUse = .ok (some x) → Accepts PrivateUse x.str := by
  intro h
  obtain ⟨t, ht⟩ := h ⟨ascii "en-a-bbb"⟩ ⟨ascii "a-bbb"⟩ ((normal_has_parts _).mpr ⟨_, decomposes_en_a⟩)
    (by decide +kernel)
  have : StrNewtype.new PrivateUse (ascii "a-bbb") = .error (ascii "a-bbb") := by decide +kernel
  rw [this] at ht
  cases ht

/-- C24, what holds for the components: `language()`, `script()`, `region()`, `variants()` and `extensions()` are
valid whenever they are returned.  `private_use()` is valid iff the tag has no extensions.
Missing: `private_use()` with extensions. -/
theorem C24_components_partial (t : NormalLangTag) (p : Parts) (h : Decomposes t.str p) :
    (∀ x, t.language = .ok x → Accepts Language x.str) ∧
    (∀ x, t.script = .ok (some x) → Accepts Script x.str) ∧
    (∀ x, t.region = .ok (some x) → Accepts Region x.str) ∧
    (∀ x, t.variants = .ok x → Accepts Variants x.str) ∧
    (∀ x, t.extensions = .ok x → Accepts Extensions x.str) ∧
    (∀ x, t.privateUse = .ok (some x) → (Accepts PrivateUse x.str ↔ p.extensions = [])) := by
  simp only [accepts_iff is_Language, accepts_iff is_Script, accepts_iff is_Region, accepts_iff is_Variants,
    accepts_iff is_Extensions, accepts_iff is_PrivateUse]
  obtain ⟨_, h2, h3, h4, h5, h6, _⟩ := C22_noPanic_partial t p h
  refine ⟨fun x hx => ?_, fun x hx => ?_, fun x hx => ?_, fun x hx => ?_, fun x hx => ?_, fun x hx => ?_⟩
  · rw [C16_language t p h] at hx
    obtain rfl := Except.ok.inj hx
    exact h.1.language
  · rw [(C17_script_partial t p h).1 (h2.mp ⟨_, hx⟩)] at hx
    obtain ⟨s, hs, rfl⟩ := Option.map_eq_some_iff.mp (Except.ok.inj hx)
    exact h.1.script s hs
  · rw [(C18_region_partial t p h).1 (h3.mp ⟨_, hx⟩)] at hx
    obtain ⟨s, hs, rfl⟩ := Option.map_eq_some_iff.mp (Except.ok.inj hx)
    exact h.1.region s hs
  · rw [(C19_variants_partial t p h).1 (h4.mp ⟨_, hx⟩)] at hx
    obtain rfl := Except.ok.inj hx
    exact (matches_variants _).mpr ⟨p.variants, rfl, h.1.variants⟩
  · rw [(C20_extensions_partial t p h).1 (h5.mp ⟨_, hx⟩)] at hx
    obtain rfl := Except.ok.inj hx
    exact (matches_extensions _).mpr ⟨p.extensions, rfl, h.1.extensions⟩
  · by_cases he : p.extensions = []
    · rw [(C21_privateUse_partial t p h).1 (h6.mp ⟨_, hx⟩) he] at hx
      obtain ⟨s, hs, rfl⟩ := Option.map_eq_some_iff.mp (Except.ok.inj hx)
      exact iff_of_true (h.1.privateUse s hs) he
    · rw [(C21_privateUse_partial t p h).2.1 he] at hx
      obtain rfl := Option.some.inj (Except.ok.inj hx)
      refine iff_of_false (fun hm => ?_) he
      cases hE : p.extensions with
      | nil => exact he hE
      | cons e es =>
        obtain ⟨b, us, rfl, _, hb, _⟩ := (matches_extension e).mp (h.1.extensions e (by simp [hE]))
        obtain ⟨c, vs, e', _, hc, _⟩ := (matches_privateuse _).mp hm
        rw [hE] at e'
        have := congrArg List.head? e'
        rw [List.cons_append, joinDash_cons_tail, joinDash_cons_tail, joinDash_cons_tail] at this
        simp only [List.cons_append, List.head?_cons, Option.some.injEq] at this
        rcases hc with hc | hc
        · exact hb.2.1 (this.trans hc)
        · exact hb.2.2 (this.trans hc)

/-- C24, what holds for languages: `extension()` is valid; `primary()` is valid iff it has at most three letters.
Missing: `primary()` of a language of 4 to 8 letters. -/
theorem C24_language_partial (l : Language) (h : Constructed l) :
    (∀ e, l.extension = some e → Accepts LanguageExtension e.str) ∧
    (Accepts PrimaryLanguage l.primary.str ↔ l.primary.str.length ≤ 3) ∧
    (l.extension ≠ none → Accepts PrimaryLanguage l.primary.str) := by
  have hm : Grammar.language.Matches l.str := matches_of_constructed is_Language h
  obtain ⟨u, us, hs, hl, hus, ha, hp⟩ := language_shape hm
  obtain ⟨h1, h2⟩ := C25_split l u us hs
  have hprim : Accepts PrimaryLanguage l.primary.str ↔ l.primary.str.length ≤ 3 := by
    rw [accepts_iff is_PrimaryLanguage, h1]
    constructor
    · exact fun h => ((matches_primary u).mp h).2.1
    · intro h3
      rcases hp with hp | ⟨_, h4, _⟩
      · exact hp
      · omega
  refine ⟨fun e he => ?_, hprim, fun he => ?_⟩
  · obtain ⟨_, vs, v1, v2, v3, v4, _⟩ := C26_extension l h e he
    rw [accepts_iff is_LanguageExtension, v4]
    refine (matches_extlang _).mpr ⟨vs, List.length_pos_iff.mp v1, v2, rfl, fun u hu => ?_⟩
    exact (matches_extlangTag u).mpr (v3 u hu)
  · obtain ⟨e, he⟩ := Option.ne_none_iff_exists'.mp he
    exact hprim.mpr (C26_extension l h e he).1.2.1

/-- C24: the two `EMPTY` constants are valid, and are the empty lists. -/
theorem C24_empty :
    Accepts Variants Variants.EMPTY.str ∧ Accepts Extensions Extensions.EMPTY.str ∧
    (∀ v, ¬ Yields VariantsIter.next Variants.EMPTY.iter v ∧ ¬ Yields VariantsIter.nextBack Variants.EMPTY.iter v) ∧
    (∀ e, ¬ Yields ExtensionsIter.next Extensions.EMPTY.iter e) ∧
    (∀ g, Extensions.EMPTY.get g = .ok none) := by
  have hv : Constructed Variants.EMPTY := ⟨[], by decide +kernel⟩
  have hl : IsListOf Extensions.EMPTY [] := ⟨by simp, rfl⟩
  refine ⟨⟨Variants.EMPTY, by decide +kernel⟩, ⟨Extensions.EMPTY, by decide +kernel⟩, fun v => ⟨fun h => ?_, fun h => ?_⟩, fun e h => ?_, fun g => ?_⟩
  · simpa [listItems, Variants.EMPTY] using mem_of_yields (C28_oneEnd _ hv).1 h
  · simpa [listItems, Variants.EMPTY] using mem_of_yields (C28_oneEnd _ hv).2 h
  · simpa using mem_of_yields (C29_iter Extensions.EMPTY [] hl) h
  · simpa using C30_get Extensions.EMPTY [] hl g

/-- C24: every item of every iterator is valid. -/
theorem C24_items :
    (∀ p : PrivateUse, Constructed p → ∀ u, Yields PrivateUseIter.next p.iter u → Accepts PrivateUseSubtag u.str) ∧
    (∀ e : Extension, Constructed e → ∀ u, Yields ExtensionIter.next e.iter u → Accepts ExtensionSubtag u.str) ∧
    (∀ e : LanguageExtension, Constructed e → ∀ u, Yields LanguageExtensionIter.next e.iter u →
      Accepts ExtendedLangTag u.str) ∧
    (∀ l : Language, Constructed l → ∀ u, Yields LanguageExtensionIter.next l.extensionSubtags u →
      Accepts ExtendedLangTag u.str) ∧
    (∀ v : Variants, Constructed v → ∀ u,
      Yields VariantsIter.next v.iter u ∨ Yields VariantsIter.nextBack v.iter u → Accepts Variant u.str) ∧
    (∀ x : Extensions, Constructed x → ∀ e, Yields ExtensionsIter.next x.iter e → Accepts Extension e.str) ∧
    (∀ x : Extensions, Constructed x → ∀ g e, x.get g = .ok (some e) → Accepts Extension e.str) := by
  refine ⟨?_, ?_, ?_, ?_, ?_, ?_, ?_⟩
  · intro p h u hu
    obtain ⟨w, hw, rfl⟩ := List.mem_map.mp (mem_of_yields (C27_privateUse p h) hu)
    obtain ⟨b, us, e, _, _, hus⟩ := subtags_privateuse (matches_of_constructed is_PrivateUse h)
    rw [show subtags p.str = _ from e] at hw
    exact (accepts_iff is_PrivateUseSubtag _).mpr (hus w hw)
  · intro p h u hu
    obtain ⟨w, hw, rfl⟩ := List.mem_map.mp (mem_of_yields (C27_extension p h) hu)
    obtain ⟨b, us, e, _, _, hus⟩ := subtags_extension (matches_of_constructed is_Extension h)
    rw [show subtags p.str = _ from e] at hw
    exact (accepts_iff is_ExtensionSubtag _).mpr (hus w hw)
  · intro p h u hu
    obtain ⟨w, hw, rfl⟩ := List.mem_map.mp (mem_of_yields (C27_languageExtension p h) hu)
    obtain ⟨us, hne, _, e, hus⟩ := (matches_extlang _).mp (matches_of_constructed is_LanguageExtension h)
    rw [show p.str = _ from e, subtags_joinDash_of_dashFree hne] at hw
    · exact (accepts_iff is_ExtendedLangTag _).mpr (hus w hw)
    · intro u hu
      exact dashFree_of_alphanum fun b hb => Or.inl (((matches_extlangTag u).mp (hus u hu)).2 b hb)
  · intro l h u hu
    obtain ⟨w, hw, rfl⟩ := List.mem_map.mp (mem_of_yields (C25_extensionSubtags l h) hu)
    obtain ⟨v, us, hs, _, hus, _, _⟩ := language_shape (matches_of_constructed is_Language h)
    rw [show subtags l.str = _ from hs] at hw
    exact (accepts_iff is_ExtendedLangTag _).mpr (hus w hw)
  · intro v h u hu
    have hu : u ∈ (listItems v.str).map Variant.mk := by
      rcases hu with hu | hu
      · exact mem_of_yields (C28_oneEnd v h).1 hu
      · exact List.mem_reverse.mp (mem_of_yields (C28_oneEnd v h).2 hu)
    obtain ⟨w, hw, rfl⟩ := List.mem_map.mp hu
    rw [accepts_iff is_Variant]
    obtain ⟨vs, e, hvs⟩ := (matches_variants _).mp (matches_of_constructed is_Variants h)
    unfold listItems at hw
    rw [show v.str = joinDash vs from e] at hw
    cases vs with
    | nil => simp [joinDash] at hw
    | cons x xs =>
      split at hw
      · simp at hw
      · rw [subtags_joinDash_of_dashFree (by simp) fun u hu => dashFree_variant (hvs u hu)] at hw
        exact hvs w hw
  · intro x h e he
    obtain ⟨es, hes⟩ := C29_exists x h
    obtain ⟨w, hw, rfl⟩ := List.mem_map.mp (mem_of_yields (C29_iter x es hes) he)
    exact (accepts_iff is_Extension _).mpr (hes.1 w hw)
  · intro x h g e he
    obtain ⟨es, hes⟩ := C29_exists x h
    rw [C30_get x es hes] at he
    obtain ⟨w, hw, rfl⟩ := List.mem_map.mp (List.mem_of_find?_eq_some (Except.ok.inj he))
    exact (accepts_iff is_Extension _).mpr (hes.1 w hw)

/-- C24: every item of `private_use_subtags()` is valid, also on a tag with extensions, where the items are not those of the
private use part (C21). -/
theorem C24_privateUseSubtags :
    (∀ (t : NormalLangTag) it u, Constructed t → t.privateUseSubtags = .ok it → Yields PrivateUseIter.next it u →
      Accepts PrivateUseSubtag u.str) ∧
    (∀ (t : LangTag) it u, t.privateUseSubtags = .ok it → Yields PrivateUseIter.next it u →
      Accepts PrivateUseSubtag u.str) := by
  have key : ∀ (t : NormalLangTag) it u, Constructed t → t.privateUseSubtags = .ok it → Yields PrivateUseIter.next it u →
      Accepts PrivateUseSubtag u.str := by
    intro t it u h hit hu
    obtain ⟨p, hp⟩ := (normal_has_parts t).mp h
    have hr := (C22_noPanic_partial t p hp).2.2.2.2.2.2.mp ⟨it, hit⟩
    obtain ⟨it', hit', hen⟩ := C21_privateUseSubtags_extensions t p hp hr
    rw [hit] at hit'
    obtain rfl := Except.ok.inj hit'
    obtain ⟨w, hw, rfl⟩ := List.mem_map.mp (mem_of_yields hen hu)
    obtain ⟨e, he, hwe⟩ := List.mem_flatMap.mp (List.mem_of_mem_tail hw)
    rw [accepts_iff is_PrivateUseSubtag]
    refine (matches_privateuseSubtag w).mpr ?_
    rcases List.mem_append.mp he with he | he
    · obtain ⟨b, us, e', _, hb, hus⟩ := subtags_extension (hp.1.extensions e he)
      rw [e'] at hwe
      rcases List.mem_cons.mp hwe with rfl | hwu
      · exact ⟨by simp, by simp, by simpa using hb.1⟩
      · obtain ⟨h1, h2, h3⟩ := (matches_extensionSubtag w).mp (hus w hwu)
        exact ⟨by omega, h2, h3⟩
    · obtain ⟨b, us, e', _, hb, hus⟩ := subtags_privateuse (hp.1.privateUse e (by simpa using he))
      rw [e'] at hwe
      rcases List.mem_cons.mp hwe with rfl | hwu
      · refine ⟨by simp, by simp, ?_⟩
        intro c hc
        obtain rfl := List.mem_singleton.mp hc
        rcases hb with rfl | rfl <;> simp [IsAlphanum, IsAlpha, IsDigit]
      · exact (matches_privateuseSubtag w).mp (hus w hwu)
  refine ⟨key, fun t it u hit hu => ?_⟩
  by_cases hn : Accepts NormalLangTag t.str
  · rw [(C16_langTag t hn).2.2.2.2.2.2] at hit
    exact key ⟨t.str⟩ it u ((normal_has_parts _).mpr ((matches_langtag _).mp ((accepts_iff is_NormalLangTag _).mp hn))) hit hu
  · obtain ⟨_, _, _, _, _, it', h6, h7⟩ := C40_noComponents t hn
    rw [hit] at h6
    obtain rfl := Except.ok.inj h6
    simpa using mem_of_yields h7 hu

example : Yields PrivateUseIter.next (PrivateUseIter.new (ascii "a-bbb-x-foo")) ⟨ascii "foo"⟩ ∧
    (LangTag.mk (ascii "en-a-bbb-x-foo")).privateUseSubtags = .ok (PrivateUseIter.new (ascii "a-bbb-x-foo")) :=
  ⟨⟨3, [some ⟨ascii "bbb"⟩, some ⟨ascii "x"⟩, some ⟨ascii "foo"⟩], by decide +kernel, by decide +kernel⟩, by decide +kernel⟩

/-- C24 for grandfathered tags: the language is valid. -/
theorem C24_grandfathered (g : GrandfatheredLangTag) (l : Language) (h : g.language = some l) : Accepts Language l.str := by
  refine accepts_of_isOk ?_
  revert l
  cases g <;> intro l h <;> simp only [GrandfatheredLangTag.language, Option.some.injEq, reduceCtorEq] at h <;>
    (obtain rfl := h; decide +kernel)

example : GrandfatheredLangTag.language .CelGaulish = some ⟨ascii "cel"⟩ := by decide +kernel

/-- C24 on `LangTag`, normal or not: every component is valid whenever it is returned, but `private_use()`, which is valid iff the
tag has no extensions.  Missing: `private_use()` with extensions. -/
theorem C24_langTag_partial (t : LangTag) :
    (∀ x, t.language = .ok (some x) → Accepts Language x.str) ∧
    (∀ x, t.script = .ok (some x) → Accepts Script x.str) ∧
    (∀ x, t.region = .ok (some x) → Accepts Region x.str) ∧
    (∀ x, t.variants = .ok x → Accepts Variants x.str) ∧
    (∀ x, t.extensions = .ok x → Accepts Extensions x.str) ∧
    (∀ x, t.privateUse = .ok (some x) →
      ∃ p, Decomposes t.str p ∧ (Accepts PrivateUse x.str ↔ p.extensions = [])) := by
  by_cases hn : Accepts NormalLangTag t.str
  · obtain ⟨l, s, r, v, e, x, _⟩ := C16_langTag t hn
    obtain ⟨p, hp⟩ := (matches_langtag _).mp ((accepts_iff is_NormalLangTag _).mp hn)
    obtain ⟨h1, h2, h3, h4, h5, h6⟩ := C24_components_partial ⟨t.str⟩ p hp
    rw [l, s, r, v, e, x]
    refine ⟨fun y hy => ?_, h2, h3, h4, h5, fun y hy => ⟨p, hp, h6 y hy⟩⟩
    cases hl : (NormalLangTag.mk t.str).language with
    | error e => rw [hl] at hy; cases hy
    | ok z =>
      rw [hl] at hy
      obtain rfl : z = y := Option.some.inj (Except.ok.inj hy)
      exact h1 z hl
  · obtain ⟨h1, h2, h3, h4, h5, _⟩ := C40_noComponents t hn
    rw [h1, h2, h3, h4, h5]
    refine ⟨fun y hy => ?_, fun y hy => ?_, fun y hy => ?_, fun y hy => ?_, fun y hy => ?_, fun y hy => ?_⟩
    · have hnew := normal_new.2 (mt (accepts_iff is_NormalLangTag _).mpr hn)
      unfold LangTag.language at hy
      rw [hnew] at hy
      simp only [bind, Except.bind] at hy
      split at hy
      · cases hy
      · split at hy
        · rename_i g _
          exact C24_grandfathered g y (Except.ok.inj hy)
        · cases hy
    · cases hy
    · cases hy
    · obtain rfl := Except.ok.inj hy
      exact accepts_of_isOk (by decide +kernel)
    · obtain rfl := Except.ok.inj hy
      exact accepts_of_isOk (by decide +kernel)
    · cases hy

-- each case occurs: a normal tag with all components, and a tag that is not normal
example : Constructed (LangTag.mk (ascii "zh-yue-Hant-HK-abcde-x-foo")) ∧ Constructed (LangTag.mk (ascii "i-lux")) :=
  ⟨⟨ascii "zh-yue-Hant-HK-abcde-x-foo", by decide +kernel⟩, ⟨ascii "i-lux", by decide +kernel⟩⟩

-- a case of each hypothesis: a variant does come out of each end
example : Yields VariantsIter.next (Variants.mk (ascii "1abc-abcde")).iter ⟨ascii "abcde"⟩ :=
  ⟨2, [some ⟨ascii "1abc"⟩, some ⟨ascii "abcde"⟩], by decide +kernel, by decide +kernel⟩
example : Yields VariantsIter.nextBack (Variants.mk (ascii "1abc-abcde")).iter ⟨ascii "1abc"⟩ :=
  ⟨2, [some ⟨ascii "abcde"⟩, some ⟨ascii "1abc"⟩], by decide +kernel, by decide +kernel⟩
example : Yields ExtensionsIter.next (Extensions.mk (ascii "a-bbb-cc-b-dd")).iter ⟨ascii "b-dd"⟩ :=
  ⟨2, [some ⟨ascii "a-bbb-cc"⟩, some ⟨ascii "b-dd"⟩], by decide +kernel, by decide +kernel⟩
example : Constructed (Language.mk (ascii "zh-yue")) ∧ (Language.mk (ascii "zh-yue")).extension ≠ none :=
  ⟨⟨ascii "zh-yue", by decide +kernel⟩, by decide +kernel⟩

end Langtag.Props
