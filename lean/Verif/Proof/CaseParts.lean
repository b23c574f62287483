import Verif.Proof.Unique
import Verif.Proof.Classify

/-! # Letter case and the parts of a tag; the shape of subtags -/

set_option autoImplicit false

namespace Langtag.Proof
open Langtag.Spec Langtag.Model

/-! ## Lower-casing -/

theorem lower_lower (b : UInt8) : lower (lower b) = lower b := by
  apply UInt8.toNat_inj.mp
  rw [lower_toNat, lower_toNat]
  unfold lowerCode
  split <;> (try split) <;> omega

theorem lowerText_lowerText (w : Text) : lowerText (lowerText w) = lowerText w := by
  simp [lowerText, lower_lower]

theorem caseEq_lowerText (w : Text) : CaseEq w (lowerText w) := (lowerText_lowerText w).symm

theorem lowerText_append (u v : Text) : lowerText (u ++ v) = lowerText u ++ lowerText v := List.map_append

theorem lowerText_tail (ws : List Text) : lowerText (tail ws) = tail (ws.map lowerText) := by
  induction ws with
  | nil => rfl
  | cons u ws ih =>
    have e : tail (u :: ws) = dash :: u ++ tail ws := rfl
    rw [e, lowerText_append, ih]
    rfl

theorem lowerText_joinDash (ws : List Text) : lowerText (joinDash ws) = joinDash (ws.map lowerText) := by
  cases ws with
  | nil => rfl
  | cons u ws => rw [List.map_cons, joinDash_cons_tail, joinDash_cons_tail, lowerText_append, lowerText_tail]

/-- The parts in lower case. -/
def lowerParts (p : Parts) : Parts where
  language := lowerText p.language
  script := p.script.map lowerText
  region := p.region.map lowerText
  variants := p.variants.map lowerText
  extensions := p.extensions.map lowerText
  privateUse := p.privateUse.map lowerText

theorem lowerParts_afterVariants (p : Parts) : (lowerParts p).afterVariants = p.afterVariants.map lowerText := by
  cases h : p.privateUse <;> simp [Parts.afterVariants, lowerParts, h]

theorem lowerParts_afterRegion (p : Parts) : (lowerParts p).afterRegion = p.afterRegion.map lowerText := by
  simp [Parts.afterRegion, lowerParts_afterVariants]; rfl

theorem lowerParts_afterScript (p : Parts) : (lowerParts p).afterScript = p.afterScript.map lowerText := by
  cases h : p.region <;> simp [Parts.afterScript, lowerParts_afterRegion, h] <;> simp [lowerParts, h]

theorem lowerParts_afterLanguage (p : Parts) : (lowerParts p).afterLanguage = p.afterLanguage.map lowerText := by
  cases h : p.script <;> simp [Parts.afterLanguage, lowerParts_afterScript, h] <;> simp [lowerParts, h]

theorem lowerParts_render (p : Parts) : (lowerParts p).render = lowerText p.render := by
  rw [Parts.render, Parts.render, lowerText_joinDash, lowerParts_afterLanguage]; rfl

theorem okRe_language : (Re.ofAbnf Grammar.language).okRe = true := by decide +kernel
theorem okRe_script : (Re.ofAbnf Grammar.script).okRe = true := by decide +kernel
theorem okRe_region : (Re.ofAbnf Grammar.region).okRe = true := by decide +kernel
theorem okRe_variant : (Re.ofAbnf Grammar.variant).okRe = true := by decide +kernel
theorem okRe_extension : (Re.ofAbnf Grammar.extension).okRe = true := by decide +kernel
theorem okRe_privateuse : (Re.ofAbnf Grammar.privateuse).okRe = true := by decide +kernel

theorem lowerParts_wf {p : Parts} (h : p.WF) : (lowerParts p).WF where
  language := (matches_caseEq okRe_language (caseEq_lowerText _)).mp h.language
  script := by
    intro s hs
    obtain ⟨u, hu, rfl⟩ := Option.map_eq_some_iff.mp hs
    exact (matches_caseEq okRe_script (caseEq_lowerText _)).mp (h.script u hu)
  region := by
    intro s hs
    obtain ⟨u, hu, rfl⟩ := Option.map_eq_some_iff.mp hs
    exact (matches_caseEq okRe_region (caseEq_lowerText _)).mp (h.region u hu)
  variants := by
    intro s hs
    obtain ⟨u, hu, rfl⟩ := List.mem_map.mp hs
    exact (matches_caseEq okRe_variant (caseEq_lowerText _)).mp (h.variants u hu)
  extensions := by
    intro s hs
    obtain ⟨u, hu, rfl⟩ := List.mem_map.mp hs
    exact (matches_caseEq okRe_extension (caseEq_lowerText _)).mp (h.extensions u hu)
  privateUse := by
    intro s hs
    obtain ⟨u, hu, rfl⟩ := Option.map_eq_some_iff.mp hs
    exact (matches_caseEq okRe_privateuse (caseEq_lowerText _)).mp (h.privateUse u hu)

theorem lowerParts_eq {u v : Text} {p q : Parts} (hp : Decomposes u p) (hq : Decomposes v q) (h : CaseEq u v) :
    lowerParts p = lowerParts q := by
  refine decomposes_unique (w := lowerText u) ⟨lowerParts_wf hp.1, ?_⟩ ⟨lowerParts_wf hq.1, ?_⟩
  · rw [lowerParts_render, hp.2]
  · rw [lowerParts_render, hq.2]; exact h.symm

/-! ## The shape of subtags -/

/-- Pieces of one to eight letters or digits. -/
def Good (w : Text) : Prop := ∀ u ∈ subtags w, 1 ≤ u.length ∧ u.length ≤ 8 ∧ ∀ b ∈ u, IsAlphanum b

theorem good_joinDash {ws : List Text} (hne : ws ≠ []) (h : ∀ u ∈ ws, Good u) : Good (joinDash ws) := by
  intro u hu
  rw [subtags_joinDash hne] at hu
  obtain ⟨v, hv, hu⟩ := List.mem_flatMap.mp hu
  exact h v hv u hu

theorem good_of_alphanum {u : Text} (h1 : 1 ≤ u.length) (h8 : u.length ≤ 8) (ha : ∀ b ∈ u, IsAlphanum b) : Good u := by
  intro v hv
  rw [subtags_of_dashFree (dashFree_of_alphanum ha)] at hv
  simp only [List.mem_singleton] at hv
  subst hv
  exact ⟨h1, h8, ha⟩

theorem good_language {w : Text} (h : Grammar.language.Matches w) : Good w := by
  intro u hu
  obtain ⟨v, us, e, _, _, h2, h8, hv, hus⟩ := subtags_language h
  rw [e] at hu
  rcases List.mem_cons.mp hu with rfl | hu
  · exact ⟨by omega, h8, fun b hb => Or.inl (hv b hb)⟩
  · obtain ⟨h3, ha⟩ := (matches_extlangTag u).mp (hus u hu)
    exact ⟨by omega, by omega, fun b hb => Or.inl (ha b hb)⟩

theorem good_extension {w : Text} (h : Grammar.extension.Matches w) : Good w := by
  intro u hu
  obtain ⟨b, us, e, _, hb, hus⟩ := subtags_extension h
  rw [e] at hu
  rcases List.mem_cons.mp hu with rfl | hu
  · exact ⟨by simp, by simp, by simpa using hb.1⟩
  · obtain ⟨h3, h8, ha⟩ := (matches_extensionSubtag u).mp (hus u hu)
    exact ⟨by omega, h8, ha⟩

theorem good_privateuse {w : Text} (h : Grammar.privateuse.Matches w) : Good w := by
  intro u hu
  obtain ⟨b, us, e, _, hb, hus⟩ := subtags_privateuse h
  rw [e] at hu
  rcases List.mem_cons.mp hu with rfl | hu
  · exact ⟨by simp, by simp, by simpa using isAlphanum_x hb⟩
  · exact (matches_privateuseSubtag u).mp (hus u hu)

theorem good_render {p : Parts} (h : p.WF) : Good p.render := by
  refine good_joinDash (by simp) ?_
  intro u hu
  simp only [Parts.afterLanguage, Parts.afterScript, Parts.afterRegion, Parts.afterVariants, List.mem_cons,
    List.mem_append, Option.mem_toList] at hu
  rcases hu with rfl | hu | hu | hu | hu | hu
  · exact good_language h.language
  · obtain ⟨h4, ha⟩ := (matches_script u).mp (h.script u hu)
    exact good_of_alphanum (by omega) (by omega) fun b hb => Or.inl (ha b hb)
  · have hr := h.region u hu
    have := length_region hr
    exact good_of_alphanum (by omega) (by omega) (alphanum_region hr)
  · have hv := h.variants u hu
    have := length_variant hv
    exact good_of_alphanum (by omega) (by omega) (alphanum_variant hv)
  · exact good_extension (h.extensions u hu)
  · exact good_privateuse (h.privateUse u hu)

theorem isAlphanum_lower {b : UInt8} (h : IsAlphanum (lower b)) : IsAlphanum b := by
  simp only [IsAlphanum, IsAlpha, IsDigit, UInt8.le_iff_toNat_le, UInt8.reduceToNat, lower_toNat] at *
  unfold lowerCode at h
  split at h <;> omega

theorem good_of_lowerText {w : Text} (h : Good (lowerText w)) : Good w := by
  intro u hu
  have := h (lowerText u) (by rw [subtags_lowerText]; exact List.mem_map_of_mem hu)
  obtain ⟨h1, h8, ha⟩ := this
  simp only [lowerText, List.length_map] at h1 h8
  refine ⟨h1, h8, fun b hb => isAlphanum_lower (ha _ (List.mem_map_of_mem hb))⟩

theorem good_lowerText {w : Text} (h : Good w) : Good (lowerText w) := by
  intro u hu
  rw [subtags_lowerText] at hu
  obtain ⟨v, hv, rfl⟩ := List.mem_map.mp hu
  obtain ⟨h1, h8, ha⟩ := h v hv
  refine ⟨by simpa [lowerText] using h1, by simpa [lowerText] using h8, ?_⟩
  intro b hb
  obtain ⟨c, hc, rfl⟩ := List.mem_map.mp hb
  have := ha c hc
  simp only [IsAlphanum, IsAlpha, IsDigit, UInt8.le_iff_toNat_le, UInt8.reduceToNat, lower_toNat] at *
  unfold lowerCode
  split <;> omega

theorem good_grandfathered {w : Text} (h : Grammar.grandfathered.Matches w) : Good w := by
  obtain ⟨g, hg⟩ := (matches_grandfathered w).mp h
  have key : ∀ g ∈ GRANDFATHERED, ∀ u ∈ subtags g.asBytes,
      1 ≤ u.length ∧ u.length ≤ 8 ∧ ∀ b ∈ u, isAsciiAlphanumeric b = true := by decide +kernel
  have hgood : Good g.asBytes := by
    intro u hu
    obtain ⟨h1, h8, ha⟩ := key g (mem_GRANDFATHERED g) u hu
    exact ⟨h1, h8, fun b hb => (isAsciiAlphanumeric_iff b).mp (ha b hb)⟩
  have := good_lowerText hgood
  rw [show lowerText g.asBytes = lowerText w from hg] at this
  exact good_of_lowerText this

theorem good_languageTag {w : Text} (h : Grammar.languageTag.Matches w) : Good w := by
  rcases h with (h | h) | h
  · obtain ⟨p, hp, rfl⟩ := (matches_langtag w).mp h
    exact good_render hp
  · exact good_privateuse h
  · exact good_grandfathered h

end Langtag.Proof
