import Verif.Props.Compose
import Verif.Props.Order
import Verif.Props.Kinds
import Verif.Props.Types
import Verif.Props.Iterators

/-! # C56, C58: what returns -/

set_option autoImplicit false

namespace Langtag.Props
open Langtag.Spec Langtag.Model Langtag.Proof

/-- The call returns: it does not panic. -/
def Returns {α : Type} (x : Rust α) : Prop := ∃ r, x = .ok r

theorem Returns.bind {α β : Type} {x : Rust α} {f : α → Rust β} (hx : Returns x) (hf : ∀ a, Returns (f a)) :
    Returns (x >>= f) := by
  obtain ⟨a, rfl⟩ := hx
  exact hf a

/-! ## C56 -/

/-- C56: `==`, `cmp`, `partial_cmp` and `hash` return, on any texts whatever. -/
theorem C56_compare : ForEachType fun T => ∀ (a b : T) (H : Hasher) (st : H.State),
    Returns (Compare.eq a b) ∧ Returns (Compare.cmp a b) ∧ Returns (Compare.partialCmp a b) ∧ Returns (Compare.hash H a st) := by
  refine forEachType_of fun _ => fun a b H st => ⟨?_, ⟨_, cmp_eq_cmpText a b⟩, ?_, ⟨_, hash_eq_foldl H a st⟩⟩
  · exact ⟨_, by rw [LawfulCompare.eq, caseInsensitiveEq_eq]⟩
  · exact ⟨_, by rw [LawfulCompare.partialCmp, cmp_eq_cmpText]; rfl⟩

/-- C56: `GrandfatheredLangTag::new` and `try_from` return on every text. -/
theorem C56_grandfathered (s : Text) : Returns (GrandfatheredLangTag.new s) ∧ Returns (GrandfatheredLangTag.tryFrom s) := by
  have h : Returns (GrandfatheredLangTag.new s) := by
    by_cases hg : ∃ g : GrandfatheredLangTag, CaseEq g.asBytes s
    · obtain ⟨g, hg⟩ := hg
      exact ⟨_, grandfathered_new_ok hg⟩
    · exact ⟨_, grandfathered_new_error fun g hh => hg ⟨g, hh⟩⟩
  exact ⟨h, C12_tryFrom s ▸ h⟩

/-- C56: on every tag `kind`, `as_typed`, `language`, `is_grandfathered` and `as_grandfathered` return, and so does
`language` of the typed view. -/
theorem C56_langTag (t : LangTag) (h : Constructed t) :
    Returns t.kind ∧ Returns t.language ∧ Returns t.isGrandfathered ∧ Returns t.asGrandfathered ∧
    ∃ ty, t.asTyped = .ok ty ∧ Returns ty.language := by
  obtain ⟨ty, r, h1, h2, h3, _⟩ := C15_language t h
  obtain ⟨ty', _, h5, _⟩ := C10_asTyped t h
  have hg : Returns t.asGrandfathered := (C56_grandfathered t.str).1.bind fun _ => ⟨_, rfl⟩
  exact ⟨⟨_, h5⟩, ⟨_, h2⟩, hg.bind fun _ => ⟨_, rfl⟩, hg, ty, h1, ⟨_, h3⟩⟩

/-- C56: `Singleton::from_string` and `from_str` return on every string. -/
theorem C56_singleton (s : Text) (hs : IsUtf8 s) : Returns (Singleton.fromString s) ∧ Returns (Singleton.fromStr s) := by
  by_cases h : Grammar.singleton.Matches s
  · obtain ⟨g, h1, h2, _⟩ := (C32_string s hs).1 h
    exact ⟨⟨_, h1⟩, ⟨_, h2⟩⟩
  · obtain ⟨h1, h2⟩ := (C32_string s hs).2 h
    exact ⟨⟨_, h1⟩, ⟨_, h2⟩⟩

/-- C56: `first` and `last` of variants, `singleton` of an extension, `get` and `iter_extension` of extensions return. -/
theorem C56_parts :
    (∀ v : Variants, Constructed v → Returns v.first ∧ Returns v.last) ∧
    (∀ e : Extension, Constructed e → Returns e.singleton) ∧
    (∀ x : Extensions, Constructed x → ∀ g, Returns (x.get g) ∧ Returns (x.iterExtension g)) := by
  refine ⟨fun v h => ?_, fun e h => ?_, fun x h g => ?_⟩
  · exact ⟨⟨_, (C28_first_last v h).1⟩, ⟨_, (C28_first_last v h).2⟩⟩
  · obtain ⟨g, h, _⟩ := C33_singleton e h
    exact ⟨_, h⟩
  · obtain ⟨es, hes⟩ := C29_exists x h
    obtain ⟨it, h1, _⟩ := C30_iterExtension x es hes g
    exact ⟨⟨_, C30_get x es hes g⟩, ⟨_, h1⟩⟩

/-- C56: no history of calls makes an iterator panic. -/
theorem C56_iterators :
    (∀ p : PrivateUse, Constructed p → ∀ n, Returns (collect PrivateUseIter.next n p.iter)) ∧
    (∀ e : Extension, Constructed e → ∀ n, Returns (collect ExtensionIter.next n e.iter)) ∧
    (∀ e : LanguageExtension, Constructed e → ∀ n, Returns (collect LanguageExtensionIter.next n e.iter)) ∧
    (∀ l : Language, Constructed l → ∀ n, Returns (collect LanguageExtensionIter.next n l.extensionSubtags)) ∧
    (∀ v : Variants, Constructed v → ∀ history,
      Returns (collectSides VariantsIter.next VariantsIter.nextBack history v.iter)) ∧
    (∀ x : Extensions, Constructed x → ∀ n, Returns (collect ExtensionsIter.next n x.iter)) ∧
    (∀ x : Extensions, Constructed x → ∀ g n, ∃ it, x.iterExtension g = .ok it ∧ Returns (collect ExtensionIter.next n it)) := by
  refine ⟨fun p h n => ⟨_, C27_privateUse p h n⟩, fun p h n => ⟨_, C27_extension p h n⟩,
    fun p h n => ⟨_, C27_languageExtension p h n⟩, fun p h n => ⟨_, C25_extensionSubtags p h n⟩,
    fun p h hi => ⟨_, C28_iter p h hi⟩, fun x h n => ?_, fun x h g n => ?_⟩
  · obtain ⟨es, hes⟩ := C29_exists x h
    exact ⟨_, C29_iter x es hes n⟩
  · obtain ⟨es, hes⟩ := C29_exists x h
    obtain ⟨it, h1, h2⟩ := C30_iterExtension x es hes g
    exact ⟨it, h1, _, h2 n⟩

-- C56 applies to
example : Constructed (LangTag.mk (ascii "i-klingon")) := ⟨ascii "i-klingon", by decide +kernel⟩
example : Constructed (Variants.mk (ascii "1abc-abcde")) := ⟨ascii "1abc-abcde", by decide +kernel⟩
example : Constructed (Extensions.mk (ascii "a-bbb-cc-b-dd")) := ⟨ascii "a-bbb-cc-b-dd", by decide +kernel⟩
example : IsUtf8 [0xC3, 0xA9] := ⟨['é'], by decide +kernel⟩

/-! ## C22 on `LangTag` -/

/-- C22, what holds for `LangTag`, exactly: `language()` always returns; the others return iff the tag is not normal or goes
on after the part that precedes the one looked for.  Missing: otherwise they panic. -/
theorem C22_langTag_partial (t : LangTag) (h : Constructed t) :
    Returns t.language ∧
    (¬ Accepts NormalLangTag t.str → Returns t.script ∧ Returns t.region ∧ Returns t.variants ∧ Returns t.extensions ∧
      Returns t.privateUse ∧ Returns t.privateUseSubtags) ∧
    ∀ p, Decomposes t.str p →
      (Returns t.script ↔ p.afterLanguage ≠ []) ∧ (Returns t.region ↔ p.afterScript ≠ []) ∧
      (Returns t.variants ↔ p.afterRegion ≠ []) ∧ (Returns t.extensions ↔ p.afterVariants ≠ []) ∧
      (Returns t.privateUse ↔ p.afterRegion ≠ []) ∧ (Returns t.privateUseSubtags ↔ p.afterRegion ≠ []) := by
  refine ⟨(C56_langTag t h).2.1, fun hn => ?_, fun p hp => ?_⟩
  · obtain ⟨h1, h2, h3, h4, h5, it, h6, _⟩ := C40_noComponents t hn
    exact ⟨⟨_, h1⟩, ⟨_, h2⟩, ⟨_, h3⟩, ⟨_, h4⟩, ⟨_, h5⟩, ⟨_, h6⟩⟩
  · obtain ⟨_, h2, h3, h4, h5, h6, h7⟩ := C16_langTag t (accepts_of_decomposes hp)
    rw [h2, h3, h4, h5, h6, h7]
    exact (C22_noPanic_partial ⟨t.str⟩ p hp).2

example : Constructed (LangTag.mk (ascii "en")) := ⟨ascii "en", by decide +kernel⟩

/-! ## C58 -/

/-- Calls of `next` find exactly `k` items: the first `k` calls return an item and all others `None`. -/
def Drains {σ α : Type} (next : σ → Rust (Option α × σ)) (it : σ) (k : Nat) : Prop :=
  ∀ n, ∃ xs, collect next n it = .ok xs ∧ xs.length = n ∧ ∀ i (hi : i < xs.length), (xs[i]).isSome ↔ i < k

theorem drains_of_enumerates {σ α : Type} {next : σ → Rust (Option α × σ)} {it : σ} {items : List α}
    (h : Enumerates next it items) : Drains next it items.length := by
  intro n
  refine ⟨_, h n, by simp, fun i hi => ?_⟩
  simp

theorem length_subtags (w : Text) : (subtags w).length = w.count dash + 1 := by
  induction w with
  | nil => rfl
  | cons b w ih =>
    simp only [subtags]
    split <;> rename_i h
    · subst h; simp [ih]
    · have hc : (b :: w).count dash = w.count dash := by simp [h]
      split <;> rename_i h'
      · exact absurd h' (subtags_ne_nil w)
      · rw [hc, ← ih, h']; simp

/-- C58: the iterators of a private use part and of an extension stop after as many items as the text has `-`. -/
theorem C58_subtags :
    (∀ p : PrivateUse, Constructed p → Drains PrivateUseIter.next p.iter (p.str.count dash) ∧ 1 ≤ p.str.count dash) ∧
    (∀ e : Extension, Constructed e → Drains ExtensionIter.next e.iter (e.str.count dash) ∧ 1 ≤ e.str.count dash) := by
  constructor
  · intro p h
    have hd := drains_of_enumerates (C27_privateUse p h)
    obtain ⟨b, us, e, hne, _⟩ := subtags_privateuse (matches_of_constructed is_PrivateUse h)
    have hl : (subtags p.str).length = _ := length_subtags p.str
    rw [List.length_map, List.length_tail, hl] at hd
    refine ⟨hd, ?_⟩
    rw [show subtags p.str = [b] :: us from e, List.length_cons] at hl
    have := List.length_pos_iff.mpr hne
    omega
  · intro p h
    have hd := drains_of_enumerates (C27_extension p h)
    obtain ⟨b, us, e, hne, _⟩ := subtags_extension (matches_of_constructed is_Extension h)
    have hl : (subtags p.str).length = _ := length_subtags p.str
    rw [List.length_map, List.length_tail, hl] at hd
    refine ⟨hd, ?_⟩
    rw [show subtags p.str = [b] :: us from e, List.length_cons] at hl
    have := List.length_pos_iff.mpr hne
    omega

/-- C58: that of a language extension stops after one to three items, one more than it has `-`. -/
theorem C58_extlang (e : LanguageExtension) (h : Constructed e) :
    Drains LanguageExtensionIter.next e.iter (e.str.count dash + 1) ∧ e.str.count dash + 1 ≤ 3 := by
  have hd := drains_of_enumerates (C27_languageExtension e h)
  rw [List.length_map, length_subtags] at hd
  refine ⟨hd, ?_⟩
  obtain ⟨us, hne, h3, e1, hus⟩ := (matches_extlang _).mp (matches_of_constructed is_LanguageExtension h)
  have e1 : e.str = joinDash us := e1
  rw [← length_subtags, e1, subtags_joinDash_of_dashFree hne]
  · exact h3
  · intro u hu
    exact dashFree_of_alpha ((matches_extlangTag u).mp (hus u hu)).2

/-- C58: that of variants stops, from either end: at once if there is none, otherwise after one more item than the text has `-`. -/
theorem C58_variants (v : Variants) (h : Constructed v) :
    (v.str = [] → Drains VariantsIter.next v.iter 0 ∧ Drains VariantsIter.nextBack v.iter 0) ∧
    (v.str ≠ [] → Drains VariantsIter.next v.iter (v.str.count dash + 1) ∧
      Drains VariantsIter.nextBack v.iter (v.str.count dash + 1)) := by
  have h1 := drains_of_enumerates (C28_oneEnd v h).1
  have h2 := drains_of_enumerates (C28_oneEnd v h).2
  rw [List.length_map] at h1
  rw [List.length_reverse, List.length_map] at h2
  constructor
  · intro he
    rw [he] at h1 h2
    exact ⟨h1, h2⟩
  · intro hne
    rw [listItems, if_neg hne, length_subtags] at h1 h2
    exact ⟨h1, h2⟩

theorem length_oneByte {es : List Text} (h : ∀ e ∈ es, Grammar.extension.Matches e) :
    ((es.flatMap subtags).filter (·.length = 1)).length = es.length := by
  induction es with
  | nil => rfl
  | cons e es ih =>
    rw [List.forall_mem_cons] at h
    obtain ⟨b, us, hu, _, _, hus⟩ := subtags_extension h.1
    have : us.filter (·.length = 1) = [] := by
      rw [List.filter_eq_nil_iff]
      intro u hu
      have := ((matches_extensionSubtag u).mp (hus u hu)).1
      simp; omega
    rw [List.flatMap_cons, List.filter_append, List.length_append, ih h.2, hu, List.filter_cons, this]
    simp; omega

theorem length_extension {e : Text} (h : Grammar.extension.Matches e) : 4 ≤ e.length := by
  obtain ⟨b, us, rfl, hne, _, hus⟩ := (matches_extension e).mp h
  obtain ⟨u, us, rfl⟩ := List.exists_cons_of_ne_nil hne
  rw [List.forall_mem_cons] at hus
  have := ((matches_extensionSubtag u).mp hus.1).1
  simp [joinDash_cons]; omega

theorem length_extensions {es : List Text} (h : ∀ e ∈ es, Grammar.extension.Matches e) :
    5 * es.length ≤ (joinDash es).length + 1 := by
  cases es with
  | nil => simp
  | cons e es =>
    rw [joinDash_cons]
    have h2 : ∀ us : List Text, (∀ u ∈ us, Grammar.extension.Matches u) → 5 * us.length ≤ (us.flatMap (dash :: ·)).length := by
      intro us
      induction us with
      | nil => simp
      | cons v vs ih =>
        intro hv
        rw [List.forall_mem_cons] at hv
        have := ih hv.2
        have := length_extension hv.1
        simp only [List.flatMap_cons, List.length_cons, List.length_append]
        omega
    rw [List.forall_mem_cons] at h
    have := h2 es h.2
    have := length_extension h.1
    simp only [List.length_cons, List.length_append]
    omega

/-- C58: that of extensions stops after as many items as there are subtags of one character,
at most one for five bytes. -/
theorem C58_extensions (x : Extensions) (h : Constructed x) :
    ∃ k, Drains ExtensionsIter.next x.iter k ∧ k = ((subtags x.str).filter (·.length = 1)).length ∧ 5 * k ≤ x.str.length + 1 := by
  obtain ⟨es, hes⟩ := C29_exists x h
  refine ⟨_, drains_of_enumerates (C29_iter x es hes), ?_, ?_⟩
  · rw [List.length_map, hes.2, ← length_oneByte hes.1]
    cases es with
    | nil => rfl
    | cons e es => rw [subtags_joinDash (by simp)]
  · rw [List.length_map, hes.2]
    exact length_extensions hes.1

example : Constructed (PrivateUse.mk (ascii "x-foo-b")) := ⟨ascii "x-foo-b", by decide +kernel⟩
example : Constructed (LanguageExtension.mk (ascii "yue-abc")) := ⟨ascii "yue-abc", by decide +kernel⟩

end Langtag.Props
