import Verif.Props.Validity
import Verif.Props.Order
import Verif.Props.Iterators
import Verif.Props.Language

/-! # C67: what the accessors and iterators return is a run of subtags of the text -/

set_option autoImplicit false

namespace Langtag.Props
open Langtag.Spec Langtag.Model Langtag.Proof

theorem runOf_nil (w : Text) : RunOf [] w := ⟨subtags w, [], by simp [listItems]⟩

theorem listItems_of_ne_nil {u : Text} (h : u ≠ []) : listItems u = subtags u := if_neg h

theorem runOf_join (a b c : List Text) : RunOf (joinDash b) (joinDash (a ++ b ++ c)) := by
  by_cases h : joinDash b = []
  · rw [h]; exact runOf_nil _
  · have hb : b ≠ [] := by rintro rfl; exact h rfl
    refine ⟨a.flatMap subtags, c.flatMap subtags, ?_⟩
    rw [listItems_of_ne_nil h, subtags_joinDash (by simp [hb]), subtags_joinDash hb]
    simp

theorem runOf_one (a : List Text) (u : Text) (c : List Text) : RunOf u (joinDash (a ++ [u] ++ c)) := runOf_join a [u] c

theorem runOf_mem {u w : Text} (h : u ∈ listItems w) : RunOf u w := by
  have hw : w ≠ [] := by rintro rfl; simp [listItems] at h
  rw [listItems_of_ne_nil hw] at h
  obtain ⟨a, c, e⟩ := List.append_of_mem h
  rw [← joinDash_subtags w, e]
  simpa using runOf_one a u c

theorem runOf_subtags {u w : Text} (h : u ∈ subtags w) : RunOf u w := by
  obtain ⟨a, c, e⟩ := List.append_of_mem h
  rw [← joinDash_subtags w, e]
  simpa using runOf_one a u c

/-- C67: a run of a run is a run. -/
theorem C67_trans (u v w : Text) (h : RunOf u v) (h' : RunOf v w) : RunOf u w := by
  by_cases hu : u = []
  · subst hu; exact runOf_nil _
  obtain ⟨a, b, e⟩ := h
  obtain ⟨c, d, e'⟩ := h'
  have hv : v ≠ [] := by
    rintro rfl
    rw [listItems_of_ne_nil hu] at e
    have hl := congrArg List.length e
    have h1 : (subtags u).length = 1 := by
      have := subtags_ne_nil u
      have h2 : (subtags u).length ≠ 0 := by simpa using this
      simp only [subtags, List.length_append, List.length_cons, List.length_nil] at hl
      omega
    have ha : a = [] := by
      apply List.eq_nil_of_length_eq_zero
      simp only [subtags, List.length_append, List.length_cons, List.length_nil] at hl
      omega
    subst ha
    cases hs : subtags u with
    | nil => exact subtags_ne_nil u hs
    | cons x xs =>
      rw [hs] at e h1
      have hxs : xs = [] := by simpa using h1
      subst hxs
      simp only [subtags, List.nil_append, List.cons_append, List.cons.injEq] at e
      apply hu
      rw [← joinDash_subtags u, hs, ← e.1]
      rfl
  refine ⟨c ++ a, b ++ d, ?_⟩
  rw [e', listItems_of_ne_nil hv, e]
  simp

example : RunOf (ascii "1994") (ascii "sl-rozaj-1994-biske") :=
  C67_trans _ (ascii "rozaj-1994") _ ⟨[ascii "rozaj"], [], by decide +kernel⟩ ⟨[ascii "sl"], [ascii "biske"], by decide +kernel⟩

/-- C67: the accessors of a normal tag, whether or not they return the right component (C17–C22): what they return is a run of
subtags of the tag. -/
theorem C67_accessors (t : NormalLangTag) (h : Constructed t) :
    (∀ l, t.language = .ok l → RunOf l.str t.str ∧ l.str <+: t.str) ∧ (∀ s, t.script = .ok (some s) → RunOf s.str t.str) ∧
    (∀ r, t.region = .ok (some r) → RunOf r.str t.str) ∧ (∀ v, t.variants = .ok v → RunOf v.str t.str) ∧
    (∀ e, t.extensions = .ok e → RunOf e.str t.str) ∧
    (∀ x, t.privateUse = .ok (some x) → RunOf x.str t.str ∧ x.str <:+ t.str) := by
  obtain ⟨p, hp⟩ := (normal_has_parts t).mp h
  have hr : t.str = joinDash (p.language :: p.afterLanguage) := hp.2.symm
  refine ⟨fun l hl => ?_, fun s hs => ?_, fun r hrg => ?_, fun v hv => ?_, fun e he => ?_, fun x hx => ?_⟩
  · rw [C16_language t p hp] at hl
    cases hl
    rw [hr]
    refine ⟨runOf_one [] _ _, ?_⟩
    rw [joinDash_cons_tail]
    exact List.prefix_append _ _
  · have hq := C17_script_partial t p hp
    by_cases hc : p.afterLanguage = []
    · rw [hq.2 hc] at hs; cases hs
    · rw [hq.1 hc] at hs
      cases hps : p.script with
      | none => rw [hps] at hs; cases hs
      | some u =>
        rw [hps] at hs; cases hs
        rw [hr, Parts.afterLanguage, hps]
        exact runOf_one [p.language] u p.afterScript
  · have hq := C18_region_partial t p hp
    by_cases hc : p.afterScript = []
    · rw [hq.2 hc] at hrg; cases hrg
    · rw [hq.1 hc] at hrg
      cases hps : p.region with
      | none => rw [hps] at hrg; cases hrg
      | some u =>
        rw [hps] at hrg; cases hrg
        rw [hr, Parts.afterLanguage, Parts.afterScript, hps]
        simpa using runOf_one (p.language :: p.script.toList) u p.afterRegion
  · have hq := C19_variants_partial t p hp
    by_cases hc : p.afterRegion = []
    · rw [hq.2 hc] at hv; cases hv
    · rw [hq.1 hc] at hv
      cases hv
      rw [hr, Parts.afterLanguage, Parts.afterScript, Parts.afterRegion]
      simpa using runOf_join (p.language :: (p.script.toList ++ p.region.toList)) p.variants p.afterVariants
  · have hq := C20_extensions_partial t p hp
    by_cases hc : p.afterVariants = []
    · rw [hq.2 hc] at he; cases he
    · rw [hq.1 hc] at he
      cases he
      rw [hr, Parts.afterLanguage, Parts.afterScript, Parts.afterRegion, Parts.afterVariants]
      simpa using runOf_join (p.language :: (p.script.toList ++ p.region.toList ++ p.variants)) p.extensions p.privateUse.toList
  · have hq := C21_privateUse_partial t p hp
    have key : x.str = joinDash p.afterVariants ∧ p.afterVariants ≠ [] := by
      by_cases he : p.extensions = []
      · by_cases hc : p.afterRegion = []
        · rw [hq.2.2 hc] at hx; cases hx
        · rw [hq.1 hc he] at hx
          cases hps : p.privateUse with
          | none => rw [hps] at hx; cases hx
          | some u =>
            rw [hps] at hx; cases hx
            simp [Parts.afterVariants, he, hps, joinDash]
      · rw [hq.2.1 he] at hx
        cases hx
        exact ⟨rfl, by simp [Parts.afterVariants, he]⟩
    have e : p.language :: p.afterLanguage = (p.language :: (p.script.toList ++ p.region.toList ++ p.variants)) ++ p.afterVariants := by
      simp [Parts.afterLanguage, Parts.afterScript, Parts.afterRegion]
    rw [hr, key.1, e]
    refine ⟨by simpa using runOf_join (p.language :: (p.script.toList ++ p.region.toList ++ p.variants)) p.afterVariants [], ?_⟩
    rw [List.cons_append, joinDash_cons_tail, tail_append, tail_eq_of_ne_nil key.2]
    exact ⟨p.language ++ tail (p.script.toList ++ p.region.toList ++ p.variants) ++ [dash], by simp⟩

example : (⟨ascii "en-Latn-US-rozaj-a-bbb"⟩ : NormalLangTag).variants = .ok ⟨ascii "rozaj"⟩ ∧
    Constructed (⟨ascii "en-Latn-US-rozaj-a-bbb"⟩ : NormalLangTag) :=
  ⟨by decide +kernel, ⟨ascii "en-Latn-US-rozaj-a-bbb", by decide +kernel⟩⟩

theorem mem_takeSides {α : Type} (history : List Side) (items : List α) (x : α) (h : some x ∈ takeSides history items) : x ∈ items := by
  induction history generalizing items with
  | nil => simp [takeSides] at h
  | cons side history ih =>
    cases side with
    | front =>
      simp only [takeSides, List.mem_cons] at h
      rcases h with h | h
      · exact List.mem_of_head? h.symm
      · exact List.mem_of_mem_tail (ih _ h)
    | back =>
      simp only [takeSides, List.mem_cons] at h
      rcases h with h | h
      · exact List.mem_of_getLast? h.symm
      · exact List.dropLast_subset _ (ih _ h)

/-- C67: the items of the iterators over constructed values. -/
theorem C67_items :
    (∀ p : PrivateUse, Constructed p → ∀ x, Yields PrivateUseIter.next p.iter x → RunOf x.str p.str) ∧
    (∀ e : Extension, Constructed e → ∀ x, Yields ExtensionIter.next e.iter x → RunOf x.str e.str) ∧
    (∀ l : LanguageExtension, Constructed l → ∀ x, Yields LanguageExtensionIter.next l.iter x → RunOf x.str l.str) ∧
    (∀ l : Language, Constructed l → ∀ x, Yields LanguageExtensionIter.next l.extensionSubtags x → RunOf x.str l.str) ∧
    (∀ v : Variants, Constructed v → ∀ history xs x, collectSides VariantsIter.next VariantsIter.nextBack history v.iter = .ok xs →
      some x ∈ xs → RunOf x.str v.str) ∧
    (∀ e : Extensions, Constructed e → ∀ x, Yields ExtensionsIter.next e.iter x → RunOf x.str e.str) := by
  refine ⟨fun p h x hx => ?_, fun e h x hx => ?_, fun l h x hx => ?_, fun l h x hx => ?_, fun v h history xs x hh hx => ?_, fun e h x hx => ?_⟩
  · obtain ⟨u, hu, rfl⟩ := List.mem_map.mp (mem_of_yields (C27_privateUse p h) hx)
    exact runOf_subtags (List.mem_of_mem_tail hu)
  · obtain ⟨u, hu, rfl⟩ := List.mem_map.mp (mem_of_yields (C27_extension e h) hx)
    exact runOf_subtags (List.mem_of_mem_tail hu)
  · obtain ⟨u, hu, rfl⟩ := List.mem_map.mp (mem_of_yields (C27_languageExtension l h) hx)
    exact runOf_subtags hu
  · obtain ⟨u, hu, rfl⟩ := List.mem_map.mp (mem_of_yields (C25_extensionSubtags l h) hx)
    exact runOf_subtags (List.mem_of_mem_tail hu)
  · rw [C28_iter v h history] at hh
    cases hh
    obtain ⟨u, hu, rfl⟩ := List.mem_map.mp (mem_takeSides _ _ _ hx)
    exact runOf_mem hu
  · obtain ⟨es, he⟩ := C29_exists e h
    obtain ⟨u, hu, rfl⟩ := List.mem_map.mp (mem_of_yields (C29_iter e es he) hx)
    obtain ⟨a, c, ea⟩ := List.append_of_mem hu
    rw [he.2, ea]
    simpa using runOf_one a u c

example : Yields ExtensionsIter.next (Extensions.iter ⟨ascii "a-bbb-cc-b-dd"⟩) ⟨ascii "b-dd"⟩ :=
  ⟨2, [some ⟨ascii "a-bbb-cc"⟩, some ⟨ascii "b-dd"⟩], by decide +kernel, by simp⟩

/-- C67: the parts of a language and the extension found by `get`. -/
theorem C67_parts :
    (∀ l : Language, RunOf l.primary.str l.str ∧ ∀ x, l.extension = some x → RunOf x.str l.str) ∧
    (∀ (e : Extensions) (g : Model.Singleton), Constructed e → ∀ x, e.get g = .ok (some x) → RunOf x.str e.str) := by
  refine ⟨fun l => ?_, fun e g h x hx => ?_⟩
  · have hj := C25_rejoin l
    refine ⟨?_, fun x hx => ?_⟩
    · have := runOf_one [] l.primary.str (l.extension.map (·.str)).toList
      simp only [List.nil_append, List.singleton_append] at this
      rwa [hj] at this
    · rw [hx] at hj
      have := runOf_one [l.primary.str] x.str []
      simp only [List.append_nil, List.singleton_append] at this
      rwa [show joinDash [l.primary.str, x.str] = l.str from hj] at this
  · obtain ⟨es, he⟩ := C29_exists e h
    rw [C30_get e es he g] at hx
    obtain ⟨u, hu, rfl⟩ := List.mem_map.mp (List.mem_of_find?_eq_some (Except.ok.inj hx))
    obtain ⟨a, c, ea⟩ := List.append_of_mem hu
    rw [he.2, ea]
    simpa using runOf_one a u c

example : (⟨ascii "zh-yue"⟩ : Language).extension = some ⟨ascii "yue"⟩ := by decide +kernel

/-- C67: the accessors of any constructed tag. -/
theorem C67_langTag (t : LangTag) (h : Constructed t) :
    (∀ l, t.language = .ok (some l) → RunOf l.str t.str ∧ l.str <+: t.str) ∧ (∀ s, t.script = .ok (some s) → RunOf s.str t.str) ∧
    (∀ r, t.region = .ok (some r) → RunOf r.str t.str) ∧ (∀ v, t.variants = .ok v → RunOf v.str t.str) ∧
    (∀ e, t.extensions = .ok e → RunOf e.str t.str) ∧
    (∀ x, t.privateUse = .ok (some x) → RunOf x.str t.str ∧ x.str <:+ t.str) := by
  by_cases hn : Accepts NormalLangTag t.str
  · have hc : Constructed (⟨t.str⟩ : NormalLangTag) := constructed_normal ((accepts_iff is_NormalLangTag _).mp hn)
    obtain ⟨h1, h2, h3, h4, h5, h6⟩ := C67_accessors ⟨t.str⟩ hc
    obtain ⟨g1, g2, g3, g4, g5, g6, _⟩ := C16_langTag t hn
    rw [g1, g2, g3, g4, g5, g6]
    refine ⟨fun l hl => h1 l ?_, h2, h3, h4, h5, h6⟩
    cases hr : (⟨t.str⟩ : NormalLangTag).language with
    | error => rw [hr] at hl; cases hl
    | ok m => rw [hr] at hl; cases hl; rfl
  · obtain ⟨h2, h3, h4, h5, h6, _⟩ := C40_noComponents t hn
    obtain ⟨_, r, _, hl, _, hr, _⟩ := C15_language t h
    rw [h2, h3, h4, h5, h6, hl]
    refine ⟨fun l e => ?_, nofun, nofun, fun v e => ?_, fun v e => ?_, nofun⟩
    · cases e
      exact absurd (hr.mp rfl) hn
    · cases e; exact runOf_nil _
    · cases e; exact runOf_nil _

example : Constructed (⟨ascii "zh-min-nan"⟩ : LangTag) ∧ (⟨ascii "zh-min-nan"⟩ : LangTag).language = .ok (some ⟨ascii "zh-min-nan"⟩) :=
  ⟨⟨ascii "zh-min-nan", by decide +kernel⟩, by decide +kernel⟩

/-- C67: the items of `private_use_subtags` of a normal tag, also where they are not the private use subtags (C21). -/
theorem C67_privateUseSubtags (t : NormalLangTag) (h : Constructed t) (it : PrivateUseIter) (ht : t.privateUseSubtags = .ok it)
    (x : PrivateUseSubtag) (hx : Yields PrivateUseIter.next it x) : RunOf x.str t.str := by
  obtain ⟨p, hp⟩ := (normal_has_parts t).mp h
  by_cases hc : p.afterRegion = []
  · have := (C22_noPanic_partial t p hp).2.2.2.2.2.2.mp ⟨it, ht⟩
    exact absurd hc this
  · obtain ⟨it', h1, h2⟩ := C21_privateUseSubtags_extensions t p hp hc
    rw [ht] at h1
    cases h1
    obtain ⟨u, hu, rfl⟩ := List.mem_map.mp (mem_of_yields h2 hx)
    obtain ⟨w, hw, hu⟩ := List.mem_flatMap.mp (List.mem_of_mem_tail hu)
    refine runOf_subtags ?_
    rw [← hp.2, Parts.render, subtags_joinDash (by simp)]
    refine List.mem_flatMap.mpr ⟨w, ?_, hu⟩
    simp only [Parts.afterLanguage, Parts.afterScript, Parts.afterRegion, Parts.afterVariants, List.mem_cons, List.mem_append] at hw ⊢
    exact Or.inr (Or.inr (Or.inr (Or.inr hw)))

example : (⟨ascii "en-a-bbb-x-foo"⟩ : NormalLangTag).privateUseSubtags = .ok (PrivateUseIter.new (ascii "a-bbb-x-foo")) ∧
    Yields PrivateUseIter.next (PrivateUseIter.new (ascii "a-bbb-x-foo")) ⟨ascii "bbb"⟩ :=
  ⟨by decide +kernel, ⟨1, [some ⟨ascii "bbb"⟩], by decide +kernel, by decide +kernel⟩⟩

end Langtag.Props
