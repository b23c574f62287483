import Verif.Proof.Constructors
import Verif.Proof.Iter

/-! # C25, C26: languages -/

set_option autoImplicit false

namespace Langtag.Props
open Langtag.Spec Langtag.Model Langtag.Proof

theorem splitOnceDash_eq (w : Text) {u : Text} {us : List Text} (h : subtags w = u :: us) :
    splitOnceDash w = if us = [] then none else some (u, joinDash us) := by
  induction w generalizing u us with
  | nil =>
    simp only [subtags, List.cons.injEq] at h
    obtain ⟨rfl, rfl⟩ := h
    rfl
  | cons b w ih =>
    unfold subtags at h
    unfold splitOnceDash
    by_cases hb : b = dash
    · rw [if_pos hb] at h
      rw [if_pos (show b = 45 from hb)]
      simp only [List.cons.injEq] at h
      obtain ⟨rfl, rfl⟩ := h
      rw [if_neg (subtags_ne_nil w), joinDash_subtags]
    · rw [if_neg hb] at h
      rw [if_neg (show ¬ b = 45 from hb)]
      cases hs : subtags w with
      | nil => exact absurd hs (subtags_ne_nil w)
      | cons x xs =>
        rw [hs] at h
        simp only [List.cons.injEq] at h
        obtain ⟨rfl, rfl⟩ := h
        rw [ih hs]
        split <;> rfl

/-! ## C25 -/

/-- C25: `primary()` is the first subtag; `extension()` is the rest, `None` if there is nothing more. -/
theorem C25_split (l : Language) (u : Text) (us : List Text) (h : subtags l.str = u :: us) :
    l.primary.str = u ∧ l.extension.map (·.str) = if us = [] then none else some (joinDash us) := by
  unfold Language.primary Language.extension
  rw [splitOnceDash_eq l.str h]
  by_cases hn : us = []
  · subst hn
    refine ⟨?_, rfl⟩
    rw [if_pos rfl]
    change l.str = u
    rw [← joinDash_subtags l.str, h]
    rfl
  · rw [if_neg hn, if_neg hn]
    exact ⟨rfl, rfl⟩

/-- C25: `primary()` and `extension()` rejoin to the language. -/
theorem C25_rejoin (l : Language) : joinDash (l.primary.str :: (l.extension.map (·.str)).toList) = l.str := by
  cases hs : subtags l.str with
  | nil => exact absurd hs (subtags_ne_nil _)
  | cons u us =>
    obtain ⟨h1, h2⟩ := C25_split l u us hs
    rw [h1, h2, ← joinDash_subtags l.str, hs]
    split
    · next h => rw [h]; rfl
    · next h => rw [joinDash_cons_of_ne_nil _ h]; rfl

example : subtags (ascii "zh-yue-abc") = [ascii "zh", ascii "yue", ascii "abc"] := by decide +kernel

/-- The shape of a language. -/
theorem language_shape {w : Text} (h : Grammar.language.Matches w) :
    ∃ (u : Text) (us : List Text), subtags w = u :: us ∧ us.length ≤ 3 ∧ (∀ x ∈ us, Grammar.extlangTag.Matches x) ∧
      (∀ b ∈ u, IsAlpha b) ∧ ((Grammar.primary.Matches u) ∨ us = [] ∧ 4 ≤ u.length ∧ u.length ≤ 8) := by
  rcases (matches_language w).mp h with ⟨v, us, rfl, hl, hv, hus⟩ | ⟨h4, h8, ha⟩
  · refine ⟨v, us, subtags_joinDash_of_dashFree (by simp) ?_, hl, hus, ((matches_primary v).mp hv).2.2, Or.inl hv⟩
    rw [List.forall_mem_cons]
    refine ⟨dashFree_of_alphanum fun b hb => Or.inl (((matches_primary v).mp hv).2.2 b hb), fun u hu => ?_⟩
    exact dashFree_of_alphanum fun b hb => Or.inl (((matches_extlangTag u).mp (hus u hu)).2 b hb)
  · exact ⟨w, [], subtags_of_dashFree (dashFree_of_alphanum fun b hb => Or.inl (ha b hb)), by simp, by simp, ha,
      Or.inr ⟨rfl, h4, h8⟩⟩

/-- C25: `extension_subtags()` enumerates the subtags after the first. -/
theorem C25_extensionSubtags (l : Language) (h : Constructed l) :
    Enumerates LanguageExtensionIter.next l.extensionSubtags ((subtags l.str).tail.map ExtendedLangTag.mk) := by
  have hm : Grammar.language.Matches l.str := matches_of_constructed is_Language h
  obtain ⟨u, us, hs, _, hus, _, _⟩ := language_shape hm
  obtain ⟨_, h2⟩ := C25_split l u us hs
  unfold Language.extensionSubtags
  cases he : l.extension with
  | none =>
    rw [he] at h2
    have : us = [] := by
      by_cases hn : us = []
      · exact hn
      · rw [if_neg hn] at h2; cases h2
    rw [hs, this]
    exact languageExtensionIter_enumerates (items := []) ⟨by simp [Ascii], Or.inl ⟨rfl, by simp⟩⟩
  | some e =>
    rw [he] at h2
    have hn : us ≠ [] := by
      rintro rfl
      cases h2
    rw [if_neg hn] at h2
    have he' : e.str = joinDash us := Option.some.inj h2
    have ha : Ascii l.str := ascii_of_matches okRe_language hm
    have ha' : Ascii (joinDash us) := by
      intro b hb
      apply ha
      rw [← joinDash_subtags l.str, hs, joinDash_cons_of_ne_nil _ hn]
      simp [hb]
    simp only [Option.map_some, Option.getD_some, LanguageExtension.iter, LanguageExtensionIter.new, he', hs,
      List.tail_cons]
    refine languageExtensionIter_enumerates (segInv_start (pre := []) ha' fun x hx => ?_)
    obtain ⟨hl, hal⟩ := (matches_extlangTag x).mp (hus x hx)
    refine ⟨dashFree_of_alphanum fun b hb => Or.inl (hal b hb), ?_⟩
    rintro rfl; simp at hl

example : Constructed (Language.mk (ascii "zh-yue-abc")) := ⟨ascii "zh-yue-abc", by decide +kernel⟩
-- four calls of `next()`
example : collect LanguageExtensionIter.next 4 (Language.mk (ascii "zh-yue-abc")).extensionSubtags =
    .ok [some ⟨ascii "yue"⟩, some ⟨ascii "abc"⟩, none, none] :=
  C25_extensionSubtags ⟨ascii "zh-yue-abc"⟩ ⟨ascii "zh-yue-abc", by decide +kernel⟩ 4

/-! ## C26 -/

/-- C26: if `extension()` is not `None` then the primary language has two or three letters, and the extension consists
of one to three subtags of three letters each, which `extension_subtags()` enumerates. -/
theorem C26_extension (l : Language) (h : Constructed l) (e : LanguageExtension) (he : l.extension = some e) :
    (2 ≤ l.primary.str.length ∧ l.primary.str.length ≤ 3 ∧ ∀ b ∈ l.primary.str, IsAlpha b) ∧
    ∃ us : List Text, 1 ≤ us.length ∧ us.length ≤ 3 ∧ (∀ u ∈ us, u.length = 3 ∧ ∀ b ∈ u, IsAlpha b) ∧
      e.str = joinDash us ∧ Enumerates LanguageExtensionIter.next l.extensionSubtags (us.map ExtendedLangTag.mk) := by
  have hm : Grammar.language.Matches l.str := matches_of_constructed is_Language h
  obtain ⟨u, us, hs, hl, hus, _, hp⟩ := language_shape hm
  obtain ⟨h1, h2⟩ := C25_split l u us hs
  rw [he] at h2
  have hn : us ≠ [] := by
    rintro rfl
    cases h2
  rw [if_neg hn] at h2
  have hprim : Grammar.primary.Matches u := by
    rcases hp with hp | ⟨h, _⟩
    · exact hp
    · exact absurd h hn
  rw [h1]
  refine ⟨(matches_primary u).mp hprim, us, List.length_pos_iff.mpr hn, hl, fun x hx => (matches_extlangTag x).mp (hus x hx),
    Option.some.inj h2, ?_⟩
  have := C25_extensionSubtags l h
  rwa [hs] at this

example : (Language.mk (ascii "zh-yue-abc")).extension = some ⟨ascii "yue-abc"⟩ := by decide +kernel

end Langtag.Props
