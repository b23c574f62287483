import Verif.Proof.Prefix

/-! # The parts of a tag and of a tag that starts with it -/

set_option autoImplicit false

namespace Langtag.Proof
open Langtag.Spec Langtag.Model

/-- Two lists split where `P` ends; the second list continues the first. -/
theorem span_extend {α : Type} {P : α → Prop} {as bs as' bs' R : List α} (h : as' ++ bs' = as ++ (bs ++ R))
    (ha : ∀ a ∈ as, P a) (hb : ∀ b ∈ bs.head?, ¬ P b) (ha' : ∀ a ∈ as', P a) (hb' : ∀ b ∈ bs'.head?, ¬ P b) :
    (as' = as ∧ bs' = bs ++ R) ∨ (bs = [] ∧ as <+: as') := by
  cases bs with
  | cons b bs =>
    left
    exact span_unique h ha' hb' ha (by simpa using hb)
  | nil =>
    right
    refine ⟨rfl, ?_⟩
    induction as generalizing as' with
    | nil => exact List.nil_prefix
    | cons a as ih =>
      cases as' with
      | nil =>
        simp only [List.nil_append] at h
        subst h
        exact absurd (ha a (by simp)) (hb' a rfl)
      | cons x xs =>
        simp only [List.cons_append, List.cons.injEq] at h
        obtain ⟨rfl, h⟩ := h
        rw [List.forall_mem_cons] at ha ha'
        exact List.cons_prefix_cons.mpr ⟨rfl, ih ha.2 ha'.2 h⟩

theorem option_extend {α : Type} {P : α → Prop} {o o' : Option α} {bs bs' R : List α}
    (h : o'.toList ++ bs' = o.toList ++ (bs ++ R)) (ho : ∀ a, o = some a → P a) (ho' : ∀ a, o' = some a → P a)
    (hb : ∀ b ∈ bs.head?, ¬ P b) (hb' : ∀ b ∈ bs'.head?, ¬ P b) :
    (o' = o ∧ bs' = bs ++ R) ∨ (bs = [] ∧ (o = none ∨ o' = o)) := by
  rcases span_extend h (by simpa using ho) hb (by simpa using ho') hb' with ⟨h1, h2⟩ | ⟨h1, h2⟩
  · left
    refine ⟨?_, h2⟩
    cases o <;> cases o' <;> simp_all
  · right
    refine ⟨h1, ?_⟩
    cases o with
    | none => exact Or.inl rfl
    | some a =>
      right
      cases o' with
      | none => simp at h2
      | some b => simp at h2; simp [h2]

/-- What the parts of a tag have to do with those of a tag that continues it. -/
structure Extends (a b : Parts) : Prop where
  /-- the language is continued -/
  language : subtags a.language <+: subtags b.language
  /-- if anything follows the language in the shorter tag, the languages are the same -/
  languageEq : a.afterLanguage ≠ [] → b.language = a.language
  script : a.script ≠ none ∨ a.afterScript ≠ [] → b.script = a.script
  region : a.region ≠ none ∨ a.afterRegion ≠ [] → b.region = a.region
  variants : a.variants <+: b.variants
  variantsEq : a.afterVariants ≠ [] → b.variants = a.variants
  extensions : a.extensions.flatMap subtags <+: b.extensions.flatMap subtags
  extensionsEq : a.privateUse ≠ none → b.extensions = a.extensions
  afterVariants : a.afterVariants.flatMap subtags <+: b.afterVariants.flatMap subtags

theorem extends_of_subtags {a b : Parts} (ha : a.WF) (hb : b.WF) {R : List Text}
    (h : subtags b.render = subtags a.render ++ R) : Extends a b := by
  rw [subtags_render ha, subtags_render hb, List.append_assoc] at h
  obtain ⟨v, us, e, _, _, _, _, _, hus⟩ := subtags_language ha.language
  obtain ⟨v', us', e', _, _, _, _, _, hus'⟩ := subtags_language hb.language
  have h0 := h
  rw [e, e'] at h0
  simp only [List.cons_append, List.cons.injEq] at h0
  obtain ⟨rfl, h0⟩ := h0
  have nil1 (h : segs1 a = []) : a.script = none ∧ a.region = none ∧ a.variants = [] ∧ a.extensions = [] ∧ a.privateUse = none := by
    rw [segs1_eq_nil] at h
    simpa [Parts.afterLanguage, Parts.afterScript, Parts.afterRegion, Parts.afterVariants] using h
  have nil2 (h : segs2 a = []) : a.region = none ∧ a.variants = [] ∧ a.extensions = [] ∧ a.privateUse = none := by
    rw [segs2_eq_nil] at h
    simpa [Parts.afterScript, Parts.afterRegion, Parts.afterVariants] using h
  have nil3 (h : segs3 a = []) : a.variants = [] ∧ a.extensions = [] ∧ a.privateUse = none := by
    rw [segs3_eq_nil] at h
    simpa [Parts.afterRegion, Parts.afterVariants] using h
  have nil4 (h : segs4 a = []) : a.extensions = [] ∧ a.privateUse = none := by
    rw [segs4_eq_nil] at h
    simpa [Parts.afterVariants] using h
  rcases span_extend h0 hus (head1_not_extlang ha) hus' (head1_not_extlang hb) with ⟨rfl, h1⟩ | ⟨h1, h2⟩
  · have hl : b.language = a.language := subtags_inj (e'.trans e.symm)
    have hl' : subtags a.language <+: subtags b.language := by rw [hl]; exact List.prefix_rfl
    rw [segs1, segs1, List.append_assoc] at h1
    rcases option_extend h1 ha.script hb.script (head2_not_script ha) (head2_not_script hb) with ⟨hs, h2⟩ | ⟨h2, hs⟩
    · rw [segs2, segs2, List.append_assoc] at h2
      rcases option_extend h2 ha.region hb.region (head3_not_region ha) (head3_not_region hb) with ⟨hr, h3⟩ | ⟨h3, hr⟩
      · rw [segs3, segs3, List.append_assoc] at h3
        rcases span_extend h3 ha.variants (head4_not_variant ha) hb.variants (head4_not_variant hb) with ⟨hv, h4⟩ | ⟨h4, hv⟩
        · have ext : a.extensions.flatMap subtags <+: b.extensions.flatMap subtags ∧
              (a.privateUse ≠ none → b.extensions = a.extensions) := by
            have h5 := h4
            simp only [segs4, Parts.afterVariants, List.flatMap_append, List.append_assoc] at h5
            have hP : ∀ {es : List Text}, (∀ e ∈ es, Grammar.extension.Matches e) → ∀ u ∈ es.flatMap subtags, u ≠ [120] ∧ u ≠ [88] := by
              intro es hes u hu
              obtain ⟨e, he, hu⟩ := List.mem_flatMap.mp hu
              obtain ⟨c, vs, e1, _, hc, hvs⟩ := subtags_extension (hes e he)
              rw [e1] at hu
              rcases List.mem_cons.mp hu with rfl | hu
              · exact ⟨by simpa using hc.2.1, by simpa using hc.2.2⟩
              · have := ((matches_extensionSubtag u).mp (hvs u hu)).1
                constructor <;> rintro rfl <;> simp at this
            have hQ : ∀ {o : Option Text}, (∀ s, o = some s → Grammar.privateuse.Matches s) →
                ∀ u ∈ (o.toList.flatMap subtags).head?, ¬ (u ≠ [120] ∧ u ≠ [88]) := by
              intro o ho u hu
              cases o with
              | none => simp at hu
              | some s =>
                obtain ⟨c, vs, e1, _, hc, _⟩ := subtags_privateuse (ho s rfl)
                simp only [Option.toList_some, List.flatMap_cons, List.flatMap_nil, List.append_nil, e1, List.head?_cons,
                  Option.mem_def, Option.some.injEq] at hu
                subst hu
                rcases hc with rfl | rfl <;> simp
            rcases span_extend h5 (hP ha.extensions) (hQ ha.privateUse) (hP hb.extensions) (hQ hb.privateUse) with ⟨h6, _⟩ | ⟨h6, h7⟩
            · rw [extensions_unique hb.extensions ha.extensions h6]
              exact ⟨List.prefix_rfl, fun _ => rfl⟩
            · refine ⟨h7, fun hp => absurd ?_ hp⟩
              cases hx : a.privateUse with
              | none => rfl
              | some x =>
                rw [hx] at h6
                exact absurd (flatMap_subtags_eq_nil.mp h6) (by simp)
          exact ⟨hl', fun _ => hl, fun _ => hs, fun _ => hr, by rw [hv]; exact List.prefix_rfl, fun _ => hv, ext.1, ext.2, ⟨R, h4.symm⟩⟩
        · obtain ⟨n1, n2⟩ := nil4 h4
          refine ⟨hl', fun _ => hl, fun _ => hs, fun _ => hr, hv, ?_, ?_, ?_, ?_⟩ <;> simp [Parts.afterVariants, n1, n2]
      · obtain ⟨n1, n2, n3⟩ := nil3 h3
        refine ⟨hl', fun _ => hl, fun _ => hs, fun hh => ?_, ?_, ?_, ?_, ?_, ?_⟩
        · rcases hr with hr | hr
          · simp [hr, Parts.afterRegion, Parts.afterVariants, n1, n2, n3] at hh
          · exact hr
        all_goals simp [Parts.afterVariants, n1, n2, n3]
    · obtain ⟨n1, n2, n3, n4⟩ := nil2 h2
      refine ⟨hl', fun _ => hl, fun hh => ?_, fun hh => ?_, ?_, ?_, ?_, ?_, ?_⟩
      · rcases hs with hs | hs
        · simp [hs, Parts.afterScript, Parts.afterRegion, Parts.afterVariants, n1, n2, n3, n4] at hh
        · exact hs
      · simp [Parts.afterRegion, Parts.afterVariants, n1, n2, n3, n4] at hh
      all_goals simp [Parts.afterVariants, n2, n3, n4]
  · obtain ⟨n0, n1, n2, n3, n4⟩ := nil1 h1
    refine ⟨?_, ?_, fun hh => ?_, fun hh => ?_, ?_, ?_, ?_, ?_, ?_⟩
    · rw [e, e']; exact List.cons_prefix_cons.mpr ⟨rfl, h2⟩
    · simp [Parts.afterLanguage, Parts.afterScript, Parts.afterRegion, Parts.afterVariants, n0, n1, n2, n3, n4]
    · simp [Parts.afterScript, Parts.afterRegion, Parts.afterVariants, n0, n1, n2, n3, n4] at hh
    · simp [Parts.afterRegion, Parts.afterVariants, n1, n2, n3, n4] at hh
    all_goals simp [Parts.afterVariants, n2, n3, n4]

end Langtag.Proof
