import Verif.Model.LangTag
import Verif.Proof.Utils
import Verif.Proof.Accessors

/-! # Grandfathered tags and the three kinds -/

set_option autoImplicit false

namespace Langtag.Proof
open Langtag.Spec Langtag.Model

/-! ## Literals -/

theorem lowerCode_toNat (b : UInt8) : lowerCode b.toNat = (lower b).toNat := (lower_toNat b).symm

theorem matches_str {s : String} (h : ∀ c ∈ s.toList, c.toNat < 256) (w : Text) :
    (Abnf.str s).Matches w ↔ CaseEq (ascii s) w := by
  have key : ∀ (cs : List Char), (∀ c ∈ cs, c.toNat < 256) → ∀ w : Text,
      w.map (fun b => lowerCode b.toNat) = cs.map (fun c => lowerCode c.toNat) ↔
        (cs.map fun c => UInt8.ofNat c.toNat).map lower = w.map lower := by
    intro cs
    induction cs with
    | nil => intro _ w; cases w <;> simp
    | cons c cs ih =>
      intro hc w
      rw [List.forall_mem_cons] at hc
      cases w with
      | nil => simp
      | cons b w =>
        simp only [List.map_cons, List.cons.injEq, ih hc.2]
        refine and_congr ?_ Iff.rfl
        have e : (UInt8.ofNat c.toNat).toNat = c.toNat := by
          rw [UInt8.toNat_ofNat']; exact Nat.mod_eq_of_lt hc.1
        have e2 : lowerCode c.toNat = (lower (UInt8.ofNat c.toNat)).toNat := by rw [lower_toNat, e]
        rw [lowerCode_toNat, e2, UInt8.toNat_inj]
        exact eq_comm
  exact key s.toList h w

theorem matches_irregular (w : Text) :
    Grammar.irregular.Matches w ↔ ∃ g : GrandfatheredLangTag, g.language = none ∧ CaseEq g.asBytes w := by
  have hs : ∀ s : String, (s.toList.all fun c => c.toNat < 256) = true →
      ((Abnf.str s).Matches w ↔ CaseEq (ascii s) w) := by
    intro s h
    refine matches_str ?_ w
    simpa using h
  unfold Grammar.irregular
  simp only [Abnf.Matches.eq_3]
  repeat rw [hs _ (by decide +kernel)]
  constructor
  · rintro ((((((((((((((((h | h) | h) | h) | h) | h) | h) | h) | h) | h) | h) | h) | h) | h) | h) | h) | h)
    · exact ⟨.EnGbOed, rfl, h⟩
    · exact ⟨.IAmi, rfl, h⟩
    · exact ⟨.IBnn, rfl, h⟩
    · exact ⟨.IDefault, rfl, h⟩
    · exact ⟨.IEnochian, rfl, h⟩
    · exact ⟨.IHak, rfl, h⟩
    · exact ⟨.IKlingon, rfl, h⟩
    · exact ⟨.ILux, rfl, h⟩
    · exact ⟨.IMingo, rfl, h⟩
    · exact ⟨.INavajo, rfl, h⟩
    · exact ⟨.IPwn, rfl, h⟩
    · exact ⟨.ITao, rfl, h⟩
    · exact ⟨.ITay, rfl, h⟩
    · exact ⟨.ITsu, rfl, h⟩
    · exact ⟨.SgnBeFr, rfl, h⟩
    · exact ⟨.SgnBeNl, rfl, h⟩
    · exact ⟨.SgnChDe, rfl, h⟩
  · rintro ⟨g, hg, h⟩
    cases g <;> first
      | (exact absurd hg (by decide))
      | (simp only [GrandfatheredLangTag.asBytes, show lit = ascii from rfl] at h; simp [h])

theorem matches_regular (w : Text) :
    Grammar.regular.Matches w ↔ ∃ g : GrandfatheredLangTag, g.language ≠ none ∧ CaseEq g.asBytes w := by
  have hs : ∀ s : String, (s.toList.all fun c => c.toNat < 256) = true →
      ((Abnf.str s).Matches w ↔ CaseEq (ascii s) w) := by
    intro s h
    refine matches_str ?_ w
    simpa using h
  unfold Grammar.regular
  simp only [Abnf.Matches.eq_3]
  repeat rw [hs _ (by decide +kernel)]
  constructor
  · rintro ((((((((h | h) | h) | h) | h) | h) | h) | h) | h)
    · exact ⟨.ArtLojban, by decide, h⟩
    · exact ⟨.CelGaulish, by decide, h⟩
    · exact ⟨.NoBok, by decide, h⟩
    · exact ⟨.NoNyn, by decide, h⟩
    · exact ⟨.ZhGuoyu, by decide, h⟩
    · exact ⟨.ZhHakka, by decide, h⟩
    · exact ⟨.ZhMin, by decide, h⟩
    · exact ⟨.ZhMinNan, by decide, h⟩
    · exact ⟨.ZhXiang, by decide, h⟩
  · rintro ⟨g, hg, h⟩
    cases g <;> first
      | (exact absurd rfl hg)
      | (simp only [GrandfatheredLangTag.asBytes, show lit = ascii from rfl] at h; simp [h])

theorem matches_grandfathered (w : Text) :
    Grammar.grandfathered.Matches w ↔ ∃ g : GrandfatheredLangTag, CaseEq g.asBytes w := by
  unfold Grammar.grandfathered
  simp only [Abnf.Matches.eq_3, matches_irregular, matches_regular]
  constructor
  · rintro (⟨g, _, h⟩ | ⟨g, _, h⟩) <;> exact ⟨g, h⟩
  · rintro ⟨g, h⟩
    by_cases hg : g.language = none
    · exact Or.inl ⟨g, hg, h⟩
    · exact Or.inr ⟨g, hg, h⟩

/-! ## `GrandfatheredLangTag::new` -/

theorem mem_GRANDFATHERED (g : GrandfatheredLangTag) : g ∈ GRANDFATHERED := by
  cases g <;> decide

theorem asBytes_inj {g h : GrandfatheredLangTag} (e : CaseEq g.asBytes h.asBytes) : g = h := by
  have key : ∀ g ∈ GRANDFATHERED, ∀ h ∈ GRANDFATHERED, CaseEq g.asBytes h.asBytes → g = h := by decide +kernel
  exact key g (mem_GRANDFATHERED g) h (mem_GRANDFATHERED h) e

theorem tryFromLoop_eq (s : Text) (gs : List GrandfatheredLangTag) :
    GrandfatheredLangTag.tryFromLoop s gs = .ok (match gs.find? fun g => decide (CaseEq g.asBytes s) with
      | some g => .ok g
      | none => .error s) := by
  induction gs with
  | nil => rfl
  | cons g gs ih =>
    simp only [GrandfatheredLangTag.tryFromLoop, caseInsensitiveEq_eq, bind, Except.bind, List.find?_cons, ih]
    by_cases h : CaseEq g.asBytes s
    · simp [h, pure, Except.pure]
    · simp [h]

theorem grandfathered_new_ok {g : GrandfatheredLangTag} {s : Text} (h : CaseEq g.asBytes s) :
    GrandfatheredLangTag.new s = .ok (.ok g) := by
  unfold GrandfatheredLangTag.new GrandfatheredLangTag.tryFrom
  rw [tryFromLoop_eq]
  cases hf : GRANDFATHERED.find? fun g => decide (CaseEq g.asBytes s) with
  | none =>
    have := List.find?_eq_none.mp hf g (mem_GRANDFATHERED g)
    simp [h] at this
  | some g' =>
    have h' := List.find?_some hf
    simp only [decide_eq_true_eq] at h'
    rw [asBytes_inj (h.trans h'.symm)]
    rfl

theorem grandfathered_new_error {s : Text} (h : ∀ g : GrandfatheredLangTag, ¬ CaseEq g.asBytes s) :
    GrandfatheredLangTag.new s = .ok (.error s) := by
  unfold GrandfatheredLangTag.new GrandfatheredLangTag.tryFrom
  rw [tryFromLoop_eq]
  have hf : (GRANDFATHERED.find? fun g => decide (CaseEq g.asBytes s)) = none := by
    rw [List.find?_eq_none]
    intro g _
    simpa using h g
  rw [hf]
  rfl

/-! ## The kinds -/

theorem head_langtag {w : Text} (h : Grammar.langtag.Matches w) :
    ∃ (v : Text) (us : List Text), subtags w = v :: us ∧ 2 ≤ v.length := by
  obtain ⟨p, hp, rfl⟩ := (matches_langtag w).mp h
  obtain ⟨v, us, e, _, _, h2, _⟩ := subtags_language hp.language
  refine ⟨v, us ++ p.afterLanguage.flatMap subtags, ?_, h2⟩
  rw [Parts.render, subtags_joinDash (by simp), List.flatMap_cons, e]
  rfl

theorem langtag_not_privateuse {w : Text} (h : Grammar.langtag.Matches w) : ¬ Grammar.privateuse.Matches w := by
  intro hp
  obtain ⟨v, us, e, h2⟩ := head_langtag h
  obtain ⟨b, us', e', _⟩ := subtags_privateuse hp
  rw [e] at e'
  simp only [List.cons.injEq] at e'
  rw [e'.1] at h2
  simp at h2

theorem subtags_lowerText (w : Text) : subtags (lowerText w) = (subtags w).map lowerText := by
  have hl : ∀ b : UInt8, lower b = dash ↔ b = dash := by
    intro b
    constructor
    · intro h
      have h2 := lower_toNat b
      rw [h] at h2
      unfold lowerCode at h2
      have : (dash : UInt8).toNat = 45 := rfl
      apply UInt8.toNat_inj.mp
      rw [this] at h2 ⊢
      split at h2 <;> omega
    · rintro rfl; decide
  induction w with
  | nil => rfl
  | cons b w ih =>
    simp only [lowerText, List.map_cons] at *
    simp only [subtags, hl]
    rw [ih]
    split
    · rfl
    · cases subtags w <;> rfl

theorem grandfathered_not_privateuse {w : Text} (h : Grammar.grandfathered.Matches w) :
    ¬ Grammar.privateuse.Matches w := by
  intro hp
  obtain ⟨g, hg⟩ := (matches_grandfathered w).mp h
  obtain ⟨b, us, e, _, hb, _⟩ := subtags_privateuse hp
  have h1 : (subtags w).head? = some [b] := by rw [e]; rfl
  have h2 : (subtags (lowerText w)).head? = some [120] := by
    rw [subtags_lowerText, List.head?_map, h1]
    rcases hb with rfl | rfl <;> rfl
  rw [← show lowerText g.asBytes = lowerText w from hg] at h2
  revert h2
  have key : ∀ g ∈ GRANDFATHERED, (subtags (lowerText g.asBytes)).head? ≠ some [120] := by decide +kernel
  exact key g (mem_GRANDFATHERED g)

theorem okRe_languageTag : (Re.ofAbnf Grammar.languageTag).okRe = true := by decide +kernel

theorem regular_isOk : ∀ g ∈ GRANDFATHERED,
    StrNewtype.isOk NormalLangTag g.asBytes = (g.language.isSome) := by decide +kernel

theorem grandfathered_langtag {g : GrandfatheredLangTag} {w : Text} (h : CaseEq g.asBytes w) :
    Grammar.langtag.Matches w ↔ g.language ≠ none := by
  rw [← matches_caseEq okRe_langtag h, ← isOk_NormalLangTag, regular_isOk g (mem_GRANDFATHERED g)]
  cases g.language <;> simp

theorem matches_languageTag (w : Text) :
    Grammar.languageTag.Matches w ↔
      Grammar.langtag.Matches w ∨ Grammar.privateuse.Matches w ∨ Grammar.irregular.Matches w := by
  unfold Grammar.languageTag
  simp only [Abnf.Matches.eq_3]
  constructor
  · rintro ((h | h) | h)
    · exact Or.inl h
    · exact Or.inr (Or.inl h)
    · rcases h with h | h
      · exact Or.inr (Or.inr h)
      · obtain ⟨g, hg, h⟩ := (matches_regular w).mp h
        exact Or.inl ((grandfathered_langtag h).mpr hg)
  · rintro (h | h | h)
    · exact Or.inl (Or.inl h)
    · exact Or.inl (Or.inr h)
    · exact Or.inr (Or.inl h)

theorem irregular_not_langtag {w : Text} (h : Grammar.irregular.Matches w) : ¬ Grammar.langtag.Matches w := by
  obtain ⟨g, hg, h⟩ := (matches_irregular w).mp h
  rw [grandfathered_langtag h]
  simp [hg]

theorem irregular_grandfathered {w : Text} (h : Grammar.irregular.Matches w) : Grammar.grandfathered.Matches w :=
  Or.inl h

theorem grandfathered_of_not_langtag {w : Text} (h : Grammar.grandfathered.Matches w) (hn : ¬ Grammar.langtag.Matches w) :
    Grammar.irregular.Matches w := by
  obtain ⟨g, hg⟩ := (matches_grandfathered w).mp h
  refine (matches_irregular w).mpr ⟨g, ?_, hg⟩
  rw [grandfathered_langtag hg] at hn
  simpa using hn

/-! ## The constructors inside `LangTag` -/

theorem normal_new {w : Text} :
    (Grammar.langtag.Matches w → StrNewtype.new NormalLangTag w = .ok ⟨w⟩) ∧
    (¬ Grammar.langtag.Matches w → StrNewtype.new NormalLangTag w = .error w) :=
  ⟨fun h => new_eq_of_isOk ((isOk_NormalLangTag w).mpr h),
   fun h => new_eq_of_not_isOk (isOk_false (isOk_NormalLangTag w) h)⟩

theorem privateUse_new {w : Text} :
    (Grammar.privateuse.Matches w → StrNewtype.new PrivateUse w = .ok ⟨w⟩) ∧
    (¬ Grammar.privateuse.Matches w → StrNewtype.new PrivateUse w = .error w) :=
  ⟨fun h => new_eq_of_isOk ((isOk_PrivateUse w).mpr h),
   fun h => new_eq_of_not_isOk (isOk_false (isOk_PrivateUse w) h)⟩

theorem asTyped_normal {w : Text} (h : Grammar.langtag.Matches w) : (LangTag.mk w).asTyped = .ok (.Normal ⟨w⟩) := by
  unfold LangTag.asTyped
  rw [normal_new.1 h]; rfl

theorem asTyped_privateUse {w : Text} (h : Grammar.privateuse.Matches w) :
    (LangTag.mk w).asTyped = .ok (.PrivateUse ⟨w⟩) := by
  unfold LangTag.asTyped
  rw [normal_new.2 fun hn => langtag_not_privateuse hn h, privateUse_new.1 h]; rfl

theorem asTyped_grandfathered {w : Text} {g : GrandfatheredLangTag} (h : CaseEq g.asBytes w) (hg : g.language = none) :
    (LangTag.mk w).asTyped = .ok (.Grandfathered g) := by
  have hi : Grammar.irregular.Matches w := (matches_irregular w).mpr ⟨g, hg, h⟩
  unfold LangTag.asTyped
  rw [normal_new.2 (irregular_not_langtag hi), privateUse_new.2 (grandfathered_not_privateuse (Or.inl hi)),
    grandfathered_new_ok h]
  rfl

/-- Every accepted tag is of one of the three kinds. -/
theorem languageTag_cases {w : Text} (h : Grammar.languageTag.Matches w) :
    Grammar.langtag.Matches w ∨ Grammar.privateuse.Matches w ∨
      ∃ g : GrandfatheredLangTag, g.language = none ∧ CaseEq g.asBytes w := by
  rw [← matches_irregular]
  exact (matches_languageTag w).mp h

end Langtag.Proof
