import Verif.Spec.Order
import Verif.Props.Components
import Verif.Props.Kinds
import Verif.Props.Language
import Verif.Proof.Compare

/-! # C34–C38: equality, order, hashing -/

set_option autoImplicit false

namespace Langtag.Props
open Langtag.Spec Langtag.Model Langtag.Proof

/-! ## Any type whose comparisons are those of `utils.rs` -/

section
variable {T : Type} [StrNewtype T] [Compare T] [LawfulCompare T]

theorem eq_true_iff (a b : T) : Compare.eq a b = .ok true ↔ CaseEq (StrNewtype.str a) (StrNewtype.str b) := by
  rw [LawfulCompare.eq, caseInsensitiveEq_eq]
  simp

theorem eq_false_iff (a b : T) : Compare.eq a b = .ok false ↔ ¬ CaseEq (StrNewtype.str a) (StrNewtype.str b) := by
  rw [LawfulCompare.eq, caseInsensitiveEq_eq]
  simp

theorem eq_comm' (a b : T) : Compare.eq a b = Compare.eq b a := by
  rw [LawfulCompare.eq, LawfulCompare.eq, caseInsensitiveEq_eq, caseInsensitiveEq_eq]
  congr 1
  rw [decide_eq_decide]
  exact ⟨CaseEq.symm, CaseEq.symm⟩

theorem cmp_eq_cmpText (a b : T) :
    Compare.cmp a b = .ok (cmpText (lowerText (StrNewtype.str a)) (lowerText (StrNewtype.str b))) := by
  rw [LawfulCompare.cmp, caseInsensitiveCmp_eq]

theorem hash_eq_foldl (H : Hasher) (a : T) (st : H.State) :
    Compare.hash H a st = .ok ((lowerText (StrNewtype.str a)).foldl H.writeU8 st) := by
  rw [LawfulCompare.hash, Proof.hash_eq]

end

/-! ## C34 -/

/-- C34: `==` returns, and is equality of the texts ignoring ASCII case. -/
theorem C34_eq : ForEachType fun T => ∀ a b : T,
    (Compare.eq a b = .ok true ↔ CaseEq (StrNewtype.str a) (StrNewtype.str b)) ∧
    (Compare.eq a b = .ok false ↔ ¬ CaseEq (StrNewtype.str a) (StrNewtype.str b)) :=
  forEachType_of fun _ => fun a b => ⟨eq_true_iff a b, eq_false_iff a b⟩

/-- C34: `==` is an equivalence relation. -/
theorem C34_equivalence : ForEachType fun T =>
    (∀ a : T, Compare.eq a a = .ok true) ∧
    (∀ a b : T, Compare.eq a b = Compare.eq b a) ∧
    (∀ a b c : T, Compare.eq a b = .ok true → Compare.eq b c = .ok true → Compare.eq a c = .ok true) := by
  refine forEachType_of fun _ => ⟨fun a => (eq_true_iff a a).mpr rfl, eq_comm', fun a b c hab hbc => ?_⟩
  rw [eq_true_iff] at hab hbc ⊢
  exact hab.trans hbc

/-! ## C36 -/

/-- C36: `cmp` returns; `Less` means that the first text comes before the second (`Spec.Precedes`, on the
lower-cased texts), `Greater` the converse, `Equal` that they are the same. -/
theorem C36_cmp : ForEachType fun T => ∀ a b : T,
    (Compare.cmp a b = .ok .lt ↔ Precedes (lowerText (StrNewtype.str a)) (lowerText (StrNewtype.str b))) ∧
    (Compare.cmp a b = .ok .gt ↔ Precedes (lowerText (StrNewtype.str b)) (lowerText (StrNewtype.str a))) ∧
    (Compare.cmp a b = .ok .eq ↔ lowerText (StrNewtype.str a) = lowerText (StrNewtype.str b)) := by
  refine forEachType_of fun _ => fun a b => ?_
  rw [cmp_eq_cmpText]
  simp only [Except.ok.injEq]
  exact ⟨cmpText_lt_iff _ _, cmpText_gt_iff _ _, cmpText_eq_iff _ _⟩

/-- C36: a text is less than its proper prefixes. -/
theorem C36_prefix : ForEachType fun T => ∀ (a b : T) (x : UInt8) (u : Text),
    lowerText (StrNewtype.str b) = lowerText (StrNewtype.str a) ++ x :: u →
    Compare.cmp a b = .ok .gt ∧ Compare.cmp b a = .ok .lt := by
  refine forEachType_of fun _ => fun a b x u h => ?_
  rw [cmp_eq_cmpText, cmp_eq_cmpText, (cmpText_gt_iff _ _).mpr (Or.inr ⟨x, u, h⟩),
    (cmpText_lt_iff _ _).mpr (Or.inr ⟨x, u, h⟩)]
  exact ⟨rfl, rfl⟩

/-! ## C35 -/

/-- C35: `cmp` never panics, `partial_cmp` is `Some` of it, swapping the arguments swaps the answer, and it is `Equal`
iff `==`. -/
theorem C35_total : ForEachType fun T => ∀ a b : T,
    ∃ o, Compare.cmp a b = .ok o ∧ Compare.partialCmp a b = .ok (some o) ∧
      Compare.cmp b a = .ok o.swap ∧ (o = .eq ↔ Compare.eq a b = .ok true) := by
  refine forEachType_of fun _ => fun a b => ?_
  refine ⟨cmpText (lowerText (StrNewtype.str a)) (lowerText (StrNewtype.str b)), cmp_eq_cmpText a b, ?_, ?_, ?_⟩
  · rw [LawfulCompare.partialCmp, cmp_eq_cmpText]; rfl
  · rw [cmp_eq_cmpText, cmpText_swap]
  · rw [cmpText_eq_iff, eq_true_iff]; rfl

/-- C35: `cmp` is transitive, also through `==`. -/
theorem C35_trans : ForEachType fun T => ∀ (a b c : T) (o : Ordering),
    (Compare.cmp a b = .ok o → Compare.cmp b c = .ok o → Compare.cmp a c = .ok o) ∧
    (Compare.eq a b = .ok true → Compare.cmp a c = Compare.cmp b c ∧ Compare.cmp c a = Compare.cmp c b) := by
  refine forEachType_of fun _ => fun a b c o => ⟨?_, fun h => ?_⟩
  · simp only [cmp_eq_cmpText, Except.ok.injEq]
    intro h1 h2
    cases o with
    | lt => rw [cmpText_lt_iff] at *; exact precedes_trans h1 h2
    | eq => rw [cmpText_eq_iff] at *; exact h1.trans h2
    | gt => rw [cmpText_gt_iff] at *; exact precedes_trans h2 h1
  · have h : lowerText (StrNewtype.str a) = lowerText (StrNewtype.str b) := (eq_true_iff a b).mp h
    simp only [cmp_eq_cmpText, h, and_self]

/-! ## C37 -/

/-- C37: equal values give any hasher the same input, from any state. -/
theorem C37_hash : ForEachType fun T => ∀ a b : T, Compare.eq a b = .ok true →
    ∀ (H : Hasher) (st : H.State), ∃ r, Compare.hash H a st = .ok r ∧ Compare.hash H b st = .ok r := by
  refine forEachType_of fun _ => fun a b h H st => ?_
  have h : lowerText (StrNewtype.str a) = lowerText (StrNewtype.str b) := (eq_true_iff a b).mp h
  rw [hash_eq_foldl, hash_eq_foldl, h]
  exact ⟨_, rfl, rfl⟩

/-- The hasher that records what it is given. -/
abbrev recorder : Hasher := { State := List UInt8, writeU8 := fun st b => st ++ [b] }

theorem recorder_foldl (w st : List UInt8) : w.foldl recorder.writeU8 st = st ++ w := by
  induction w generalizing st with
  | nil => exact (List.append_nil st).symm
  | cons x w ih =>
    refine (ih (st ++ [x])).trans ?_
    simp

/-- C37: any hasher, from any state, is given the bytes of the lower-cased text, one by one and nothing else. -/
theorem C37_writes : ForEachType fun T => ∀ (a : T) (H : Hasher) (st : H.State),
    Compare.hash H a st = .ok ((lowerText (StrNewtype.str a)).foldl H.writeU8 st) :=
  forEachType_of fun _ => fun a H st => hash_eq_foldl H a st

/-- C37: what a hasher is given is the lower-cased text, byte by byte; so values that give it the same bytes are
equal. -/
theorem C37_bytes : ForEachType fun T => ∀ a b : T,
    Compare.hash recorder a [] = .ok (lowerText (StrNewtype.str a)) ∧
    (Compare.hash recorder a [] = Compare.hash recorder b [] → Compare.eq a b = .ok true) := by
  refine forEachType_of fun _ => fun a b => ?_
  rw [hash_eq_foldl, hash_eq_foldl, recorder_foldl, recorder_foldl, eq_true_iff]
  exact ⟨rfl, fun h => by simpa [CaseEq] using Except.ok.inj h⟩

example : Compare.eq (LangTag.mk (ascii "en-US")) ⟨ascii "EN-us"⟩ = .ok true := by decide +kernel
example : Compare.eq (LangTag.mk (ascii "en-US")) ⟨ascii "en-UK"⟩ = .ok false := by decide +kernel
example : Compare.cmp (LangTag.mk (ascii "en-US")) ⟨ascii "en"⟩ = .ok .lt := by decide +kernel
example : Compare.cmp (LangTag.mk (ascii "en-US")) ⟨ascii "EN-UK"⟩ = .ok .gt := by decide +kernel
example : lowerText (ascii "EN-us") = lowerText (ascii "en") ++ 45 :: ascii "us" := by decide +kernel
example : Compare.hash recorder (LangTag.mk (ascii "en-US")) [] = .ok (ascii "en-us") := by decide +kernel

/-! ## C38 -/

/-- `a == b`. -/
def Same {T : Type} [Compare T] (a b : T) : Prop := Compare.eq a b = .ok true

/-- Both `None`, or both `Some` of equal values. -/
def SameOption {T : Type} [Compare T] : Option T → Option T → Prop
  | none, none => True
  | some a, some b => Same a b
  | _, _ => False

/-- Both calls return related results, or both panic. -/
def SameResult {α : Type} (R : α → α → Prop) : Rust α → Rust α → Prop
  | .ok a, .ok b => R a b
  | .error _, .error _ => True
  | _, _ => False

theorem same_of_lower {T : Type} [StrNewtype T] [Compare T] [LawfulCompare T] {a b : T}
    (h : lowerText (StrNewtype.str a) = lowerText (StrNewtype.str b)) : Same a b := (eq_true_iff a b).mpr h

theorem sameOption_of_lower {T : Type} [StrNewtype T] [Compare T] [LawfulCompare T] {mk : Text → T} (hmk : ∀ w, StrNewtype.str (mk w) = w)
    {a b : Option Text} (h : a.map lowerText = b.map lowerText) : SameOption (a.map mk) (b.map mk) := by
  cases a with
  | none =>
    cases b with
    | none => trivial
    | some b => simp at h
  | some a =>
    cases b with
    | none => simp at h
    | some b =>
      refine same_of_lower ?_
      rw [hmk, hmk]
      exact Option.some.inj h

/-- C38: equal languages have equal primary languages and extensions. -/
theorem C38_language (a b : Language) (h : Same a b) :
    Same a.primary b.primary ∧ SameOption a.extension b.extension := by
  have hc : CaseEq a.str b.str := (eq_true_iff a b).mp h
  have hs : (subtags a.str).map lowerText = (subtags b.str).map lowerText := by
    rw [← subtags_lowerText, ← subtags_lowerText, hc]
  cases ha : subtags a.str with
  | nil => exact absurd ha (subtags_ne_nil _)
  | cons u us =>
    cases hb : subtags b.str with
    | nil => exact absurd hb (subtags_ne_nil _)
    | cons v vs =>
      rw [ha, hb] at hs
      simp only [List.map_cons, List.cons.injEq] at hs
      obtain ⟨a1, a2⟩ := C25_split a u us ha
      obtain ⟨b1, b2⟩ := C25_split b v vs hb
      refine ⟨same_of_lower ?_, ?_⟩
      · change lowerText a.primary.str = lowerText b.primary.str
        rw [a1, b1]; exact hs.1
      · have e1 : a.extension = (a.extension.map (·.str)).map LanguageExtension.mk := by cases a.extension <;> rfl
        have e2 : b.extension = (b.extension.map (·.str)).map LanguageExtension.mk := by cases b.extension <;> rfl
        rw [e1, e2, a2, b2]
        refine sameOption_of_lower (fun _ => rfl) ?_
        have hn : us = [] ↔ vs = [] := by
          have := congrArg List.length hs.2
          simp only [List.length_map] at this
          rw [← List.length_eq_zero_iff, ← List.length_eq_zero_iff, this]
        by_cases hu : us = []
        · rw [if_pos hu, if_pos (hn.mp hu)]
        · rw [if_neg hu, if_neg (fun h => hu (hn.mpr h))]
          simp only [Option.map_some, lowerText_joinDash, hs.2]

/-- C38, for normal tags. -/
theorem C38_normal (a b : NormalLangTag) (ha : Constructed a) (hb : Constructed b) (h : Same a b) :
    SameResult Same a.language b.language ∧ SameResult SameOption a.script b.script ∧
    SameResult SameOption a.region b.region ∧ SameResult Same a.variants b.variants ∧
    SameResult Same a.extensions b.extensions ∧ SameResult SameOption a.privateUse b.privateUse := by
  have hc : CaseEq a.str b.str := (eq_true_iff a b).mp h
  obtain ⟨p, hp⟩ := (normal_has_parts a).mp ha
  obtain ⟨q, hq⟩ := (normal_has_parts b).mp hb
  have e := lowerParts_eq hp hq hc
  have nil : ∀ {us vs : List Text}, us.map lowerText = vs.map lowerText → (us = [] ↔ vs = []) := by
    intro us vs h
    have := congrArg List.length h
    simp only [List.length_map] at this
    rw [← List.length_eq_zero_iff, ← List.length_eq_zero_iff, this]
  have a1 := nil (by rw [← lowerParts_afterLanguage, ← lowerParts_afterLanguage, e] :
    p.afterLanguage.map lowerText = q.afterLanguage.map lowerText)
  have a2 := nil (by rw [← lowerParts_afterScript, ← lowerParts_afterScript, e] :
    p.afterScript.map lowerText = q.afterScript.map lowerText)
  have a3 := nil (by rw [← lowerParts_afterRegion, ← lowerParts_afterRegion, e] :
    p.afterRegion.map lowerText = q.afterRegion.map lowerText)
  have e4 : p.afterVariants.map lowerText = q.afterVariants.map lowerText := by
    rw [← lowerParts_afterVariants, ← lowerParts_afterVariants, e]
  have a4 := nil e4
  rw [eq_mk hp, eq_mk hq, language_eq hp.1, language_eq hq.1, script_eq hp.1, script_eq hq.1, region_eq hp.1,
    region_eq hq.1, variants_eq hp.1, variants_eq hq.1, extensions_eq hp.1, extensions_eq hq.1, privateUse_eq hp.1,
    privateUse_eq hq.1]
  simp only [a1, a2, a3, a4]
  refine ⟨?_, ?_, ?_, ?_, ?_, ?_⟩
  · exact same_of_lower (congrArg Parts.language e)
  · split
    · trivial
    · exact sameOption_of_lower (fun _ => rfl) (congrArg Parts.script e)
  · split
    · trivial
    · exact sameOption_of_lower (fun _ => rfl) (congrArg Parts.region e)
  · split
    · trivial
    · refine same_of_lower ?_
      change lowerText (joinDash p.variants) = lowerText (joinDash q.variants)
      rw [lowerText_joinDash, lowerText_joinDash]
      exact congrArg joinDash (congrArg Parts.variants e)
  · split
    · trivial
    · refine same_of_lower ?_
      change lowerText (joinDash p.extensions) = lowerText (joinDash q.extensions)
      rw [lowerText_joinDash, lowerText_joinDash]
      exact congrArg joinDash (congrArg Parts.extensions e)
  · split
    · trivial
    · split
      · trivial
      · refine same_of_lower ?_
        change lowerText (joinDash p.afterVariants) = lowerText (joinDash q.afterVariants)
        rw [lowerText_joinDash, lowerText_joinDash, e4]

theorem okRe_langtag : (Re.ofAbnf Grammar.langtag).okRe = true := by decide +kernel

theorem constructed_normal {w : Text} (h : Grammar.langtag.Matches w) : Constructed (NormalLangTag.mk w) :=
  (normal_has_parts _).mpr ((matches_langtag _).mp h)

/-- C38: equal tags have the same kind, and each accessor gives equal results on both, or panics on both. -/
theorem C38_langTag (a b : LangTag) (ha : Constructed a) (h : Same a b) :
    a.kind = b.kind ∧
    SameResult SameOption a.language b.language ∧ SameResult SameOption a.script b.script ∧
    SameResult SameOption a.region b.region ∧ SameResult Same a.variants b.variants ∧
    SameResult Same a.extensions b.extensions ∧ SameResult SameOption a.privateUse b.privateUse := by
  have hc : CaseEq a.str b.str := (eq_true_iff a b).mp h
  by_cases hn : Grammar.langtag.Matches a.str
  · have hn' := (matches_caseEq okRe_langtag hc).mp hn
    obtain ⟨l, s, r, v, e, x, _⟩ := C16_langTag a ((accepts_iff is_NormalLangTag _).mpr hn)
    obtain ⟨l', s', r', v', e', x', _⟩ := C16_langTag b ((accepts_iff is_NormalLangTag _).mpr hn')
    obtain ⟨h1, h2⟩ := C38_normal ⟨a.str⟩ ⟨b.str⟩ (constructed_normal hn) (constructed_normal hn')
      ((eq_true_iff (NormalLangTag.mk a.str) ⟨b.str⟩).mpr hc)
    rw [l, s, r, v, e, x, l', s', r', v', e', x']
    refine ⟨?_, ?_, h2⟩
    · unfold LangTag.kind
      rw [asTyped_normal hn, asTyped_normal hn']; rfl
    · revert h1
      cases (NormalLangTag.mk a.str).language <;> cases (NormalLangTag.mk b.str).language <;> exact id
  · have hn' : ¬ Grammar.langtag.Matches b.str := fun h => hn ((matches_caseEq okRe_langtag hc).mpr h)
    have na : a.asNormal = none := by unfold LangTag.asNormal; rw [normal_new.2 hn]; rfl
    have nb : b.asNormal = none := by unfold LangTag.asNormal; rw [normal_new.2 hn']; rfl
    have hrest : SameResult SameOption a.script b.script ∧ SameResult SameOption a.region b.region ∧
        SameResult Same a.variants b.variants ∧ SameResult Same a.extensions b.extensions ∧
        SameResult SameOption a.privateUse b.privateUse := by
      unfold LangTag.script LangTag.region LangTag.variants LangTag.extensions LangTag.privateUse
      rw [na, nb]
      exact ⟨trivial, trivial, same_of_lower rfl, same_of_lower rfl, trivial⟩
    have hg : ∀ g, GrandfatheredLangTag.new a.str = .ok (.ok g) ↔ GrandfatheredLangTag.new b.str = .ok (.ok g) := by
      intro g
      rw [C12_new_ok, C12_new_ok]
      exact ⟨fun h => hc.symm.trans h, fun h => hc.trans h⟩
    have hlang : SameResult SameOption a.language b.language := by
      unfold LangTag.language
      rw [normal_new.2 hn, normal_new.2 hn']
      simp only
      by_cases hex : ∃ g, GrandfatheredLangTag.new a.str = .ok (.ok g)
      · obtain ⟨g, hg1⟩ := hex
        rw [hg1, (hg g).mp hg1]
        change SameOption g.language g.language
        cases g.language with
        | none => trivial
        | some l => exact same_of_lower rfl
      · have e1 := C12_new_error a.str fun g h => hex ⟨g, (C12_new_ok _ _).mpr h⟩
        have e2 := C12_new_error b.str fun g h => hex ⟨g, (hg g).mpr ((C12_new_ok _ _).mpr h)⟩
        rw [e1, e2]
        trivial
    refine ⟨?_, hlang, hrest⟩
    unfold LangTag.kind
    rcases languageTag_cases (languageTag_of_constructed ha) with h | h | ⟨g, hg, h⟩
    · exact absurd h hn
    · rw [asTyped_privateUse h, asTyped_privateUse ((matches_caseEq okRe_privateuse hc).mp h)]; rfl
    · rw [asTyped_grandfathered h hg, asTyped_grandfathered (h.trans hc) hg]

example : Constructed (LangTag.mk (ascii "en-Latn-x-foo")) ∧ Constructed (LangTag.mk (ascii "EN-lATN-X-fOO")) ∧
    Same (LangTag.mk (ascii "en-Latn-x-foo")) ⟨ascii "EN-lATN-X-fOO"⟩ :=
  ⟨⟨ascii "en-Latn-x-foo", by decide +kernel⟩, ⟨ascii "EN-lATN-X-fOO", by decide +kernel⟩, by unfold Same; decide +kernel⟩

end Langtag.Props
