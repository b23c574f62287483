import Verif.Props.Order

/-! # C59: sorted tags and their languages -/

set_option autoImplicit false

namespace Langtag.Props
open Langtag.Spec Langtag.Model Langtag.Proof

/-- C59 is false: `en-us` < `eng` < `en`, so the tags of the language `en` are not next to each other in sorted order. -/
theorem C59_violated :
    ¬ ∀ (a b c : NormalLangTag) (la lb lc : Language), Constructed a → Constructed b → Constructed c →
      a.language = .ok la → b.language = .ok lb → c.language = .ok lc →
      Compare.cmp a b = .ok .lt → Compare.cmp b c = .ok .lt →
      Compare.eq la.primary lc.primary = .ok true → Compare.eq la.primary lb.primary = .ok true := by
  intro h
  have := h ⟨ascii "en-us"⟩ ⟨ascii "eng"⟩ ⟨ascii "en"⟩ ⟨ascii "en"⟩ ⟨ascii "eng"⟩ ⟨ascii "en"⟩
    ⟨ascii "en-us", by decide +kernel⟩ ⟨ascii "eng", by decide +kernel⟩ ⟨ascii "en", by decide +kernel⟩
    (by decide +kernel) (by decide +kernel) (by decide +kernel) (by decide +kernel) (by decide +kernel) (by decide +kernel)
  revert this
  decide +kernel

theorem prefix_between {p u v w : Text} (hu : p <+: u) (hw : p <+: w) (h1 : cmpText u v ≠ .gt) (h2 : cmpText v w ≠ .gt) :
    p <+: v := by
  rw [ne_eq, cmpText_gt_iff] at h1 h2
  induction p generalizing u v w with
  | nil => exact List.nil_prefix
  | cons x p ih =>
    obtain ⟨u', rfl⟩ := hu
    obtain ⟨w', rfl⟩ := hw
    cases v with
    | nil => exact absurd (Or.inr ⟨x, p ++ w', rfl⟩) h2
    | cons y v =>
      simp only [List.cons_append, precedes_cons, not_or] at h1 h2
      have hxy : x = y := UInt8.le_antisymm (UInt8.not_lt.mp h1.1) (UInt8.not_lt.mp h2.1)
      subst hxy
      rw [List.cons_prefix_cons]
      exact ⟨rfl, ih (List.prefix_append p u') (List.prefix_append p w') (fun h => h1.2 ⟨rfl, h⟩) (fun h => h2.2 ⟨rfl, h⟩)⟩

/-- C59, what holds for each type: the values whose text starts with a given text, ignoring case, are next to each other in
sorted order: a value between two of them is one of them. -/
theorem C59_prefix_partial : ForEachType fun T => ∀ (p : Text) (a b c : T),
    lowerText p <+: lowerText (StrNewtype.str a) → lowerText p <+: lowerText (StrNewtype.str c) →
    Compare.cmp a b ≠ .ok .gt → Compare.cmp b c ≠ .ok .gt → lowerText p <+: lowerText (StrNewtype.str b) := by
  refine forEachType_of fun _ => fun p a b c ha hc h1 h2 => ?_
  rw [cmp_eq_cmpText, ne_eq, Except.ok.injEq] at h1 h2
  exact prefix_between ha hc h1 h2

theorem primary_first {t : NormalLangTag} (h : Constructed t) {l : Language} (hl : t.language = .ok l) :
    ∃ us, subtags t.str = l.primary.str :: us := by
  obtain ⟨p, hp⟩ := (normal_has_parts t).mp h
  rw [C16_language t p hp] at hl
  obtain rfl := Except.ok.inj hl
  cases hs : subtags p.language with
  | nil => exact absurd hs (subtags_ne_nil _)
  | cons u us =>
    rw [(C25_split ⟨p.language⟩ u us hs).1]
    rw [← hp.2, Parts.render, subtags_joinDash (by simp), List.flatMap_cons, hs]
    exact ⟨_, rfl⟩

theorem first_prefix {w u : Text} {us : List Text} (h : subtags w = u :: us) : u <+: w := by
  rw [← joinDash_subtags w, h, joinDash_cons]
  exact List.prefix_append _ _

/-- A text without `-` that starts a text, starts its first subtag. -/
theorem prefix_first {p w u : Text} {us : List Text} (h : subtags w = u :: us) (hp : dash ∉ p) (hpw : p <+: w) : p <+: u := by
  by_cases hlen : p.length ≤ u.length
  · exact List.prefix_of_prefix_length_le hpw (first_prefix h) hlen
  · exfalso
    have hup : u <+: p := List.prefix_of_prefix_length_le (first_prefix h) hpw (by omega)
    rw [← joinDash_subtags w, h, joinDash_cons] at hpw
    obtain ⟨q, rfl⟩ := hup
    rw [List.prefix_append_right_inj] at hpw
    cases q with
    | nil => simp at hlen
    | cons y q =>
      cases us with
      | nil => simp at hpw
      | cons v us =>
        simp only [List.flatMap_cons, List.cons_append, List.cons_prefix_cons] at hpw
        exact hp (by simp [hpw.1])

theorem lower_eq_dash {b : UInt8} : lower b = dash ↔ b = dash := by
  unfold lower dash
  grind

/-- C59, what holds of languages: the primary language of a tag between two tags of one primary language starts with that
language, so it is the same if it has as many letters.  Missing: the tags in between whose primary language is longer. -/
theorem C59_primary_partial (a b c : NormalLangTag) (la lb lc : Language) (ha : Constructed a) (hb : Constructed b)
    (hc : Constructed c) (h1 : a.language = .ok la) (h2 : b.language = .ok lb) (h3 : c.language = .ok lc)
    (hab : Compare.cmp a b ≠ .ok .gt) (hbc : Compare.cmp b c ≠ .ok .gt) (hac : Compare.eq la.primary lc.primary = .ok true) :
    lowerText la.primary.str <+: lowerText lb.primary.str ∧
    (lb.primary.str.length = la.primary.str.length → Compare.eq la.primary lb.primary = .ok true) := by
  rw [eq_true_iff] at hac
  obtain ⟨ua, pa⟩ := primary_first ha h1
  obtain ⟨ub, pb⟩ := primary_first hb h2
  obtain ⟨uc, pc⟩ := primary_first hc h3
  have mono : ∀ {u v : Text}, u <+: v → lowerText u <+: lowerText v := fun h => List.IsPrefix.map _ h
  have key : lowerText la.primary.str <+: lowerText b.str := by
    rw [cmp_eq_cmpText, ne_eq, Except.ok.injEq] at hab hbc
    refine prefix_between (mono (first_prefix pa)) ?_ hab hbc
    rw [show lowerText la.primary.str = lowerText lc.primary.str from hac]
    exact mono (first_prefix pc)
  have hd : dash ∉ lowerText la.primary.str := by
    intro h
    obtain ⟨x, hx, hxd⟩ := List.mem_map.mp h
    rw [lower_eq_dash] at hxd
    exact subtags_dashFree a.str _ (by rw [pa]; simp) (hxd ▸ hx)
  have hpre := prefix_first (by rw [subtags_lowerText, pb]; rfl) hd key
  refine ⟨hpre, fun hlen => ?_⟩
  rw [eq_true_iff]
  exact List.IsPrefix.eq_of_length hpre (by simp only [lowerText, List.length_map]; exact hlen.symm)

-- `de-at` < `de-ch` < `de`, all of one language; `en` is not between `de-at` and `de`
example : Compare.cmp (NormalLangTag.mk (ascii "de-AT")) ⟨ascii "DE-ch"⟩ = .ok .lt ∧
    Compare.cmp (NormalLangTag.mk (ascii "DE-ch")) ⟨ascii "de"⟩ = .ok .lt ∧
    Compare.cmp (NormalLangTag.mk (ascii "en")) ⟨ascii "de"⟩ = .ok .gt := by decide +kernel

end Langtag.Props
