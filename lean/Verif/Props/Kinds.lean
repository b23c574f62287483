import Verif.Spec.Registered
import Verif.Proof.Constructors
import Verif.Proof.Iter
import Verif.Proof.Unique

/-!
# C10–C15, C40: the kinds of tags
-/

set_option autoImplicit false

namespace Langtag.Props
open Langtag.Spec Langtag.Model Langtag.Proof

theorem languageTag_of_constructed {t : LangTag} (h : Constructed t) : Grammar.languageTag.Matches t.str :=
  matches_of_constructed is_LangTag h

/-! ## C10 -/

/-- The typed view holds the text: unchanged, or up to letter case for a grandfathered tag. -/
def Holds (ty : TypedLangTag) (w : Text) : Prop :=
  match ty with
  | .Normal n => n.str = w ∧ Accepts NormalLangTag w
  | .PrivateUse p => p.str = w ∧ Accepts PrivateUse w
  | .Grandfathered g => CaseEq g.asStr w

/-- C10: `as_typed()` and `kind()` return normally on every accepted tag, and the view holds the tag. -/
theorem C10_asTyped (t : LangTag) (h : Constructed t) :
    ∃ ty, t.asTyped = .ok ty ∧ t.kind = .ok ty.kind ∧ Holds ty t.str := by
  rcases languageTag_cases (languageTag_of_constructed h) with h | h | ⟨g, hg, h⟩
  · refine ⟨_, asTyped_normal h, ?_, rfl, (accepts_iff is_NormalLangTag _).mpr h⟩
    unfold LangTag.kind
    rw [asTyped_normal h]; rfl
  · refine ⟨_, asTyped_privateUse h, ?_, rfl, (accepts_iff is_PrivateUse _).mpr h⟩
    unfold LangTag.kind
    rw [asTyped_privateUse h]; rfl
  · refine ⟨_, asTyped_grandfathered h hg, ?_, h⟩
    unfold LangTag.kind
    rw [asTyped_grandfathered h hg]; rfl

example : Constructed (LangTag.mk (ascii "I-Klingon")) := ⟨ascii "I-Klingon", by decide +kernel⟩
example : (LangTag.mk (ascii "I-Klingon")).asTyped = .ok (.Grandfathered .IKlingon) := by decide +kernel
example : (LangTag.mk (ascii "x-foo")).kind = .ok .PrivateUse := by decide +kernel
example : (LangTag.mk (ascii "en-US")).kind = .ok .Normal := by decide +kernel

/-! ## C11 -/

/-- C11: no text is both a normal and a private use tag. -/
theorem C11_normal_privateUse (s : Text) : ¬ (Accepts NormalLangTag s ∧ Accepts PrivateUse s) := by
  rw [accepts_iff is_NormalLangTag, accepts_iff is_PrivateUse]
  exact fun ⟨h1, h2⟩ => langtag_not_privateuse h1 h2

/-- C11: no text is both a private use and a grandfathered tag. -/
theorem C11_privateUse_grandfathered (s : Text) (g : GrandfatheredLangTag) :
    ¬ (Accepts PrivateUse s ∧ GrandfatheredLangTag.new s = .ok (.ok g)) := by
  rw [accepts_iff is_PrivateUse]
  rintro ⟨h1, h2⟩
  by_cases hg : ∃ g' : GrandfatheredLangTag, CaseEq g'.asBytes s
  · exact grandfathered_not_privateuse ((matches_grandfathered s).mpr hg) h1
  · rw [grandfathered_new_error fun g' hg' => hg ⟨g', hg'⟩] at h2
    simp at h2

theorem isNormal_iff (w : Text) : (LangTag.mk w).isNormal = true ↔ Grammar.langtag.Matches w := by
  unfold LangTag.isNormal LangTag.asNormal
  by_cases h : Grammar.langtag.Matches w
  · simp [normal_new.1 h, h, okOf]
  · simp [normal_new.2 h, h, okOf]

theorem isPrivateUse_iff (w : Text) : (LangTag.mk w).isPrivateUse = true ↔ Grammar.privateuse.Matches w := by
  unfold LangTag.isPrivateUse LangTag.asPrivateUse
  by_cases h : Grammar.privateuse.Matches w
  · simp [privateUse_new.1 h, h, okOf]
  · simp [privateUse_new.2 h, h, okOf]

theorem isGrandfathered_eq (w : Text) :
    (Grammar.grandfathered.Matches w → (LangTag.mk w).isGrandfathered = .ok true) ∧
    (¬ Grammar.grandfathered.Matches w → (LangTag.mk w).isGrandfathered = .ok false) := by
  unfold LangTag.isGrandfathered LangTag.asGrandfathered
  rw [matches_grandfathered]
  constructor
  · rintro ⟨g, hg⟩
    rw [grandfathered_new_ok hg]; rfl
  · intro h
    rw [grandfathered_new_error fun g' hg' => h ⟨g', hg'⟩]; rfl

/-- C11: `kind()` is `Normal` iff `is_normal()`, `PrivateUse` iff `is_private_use()`, and `Grandfathered` iff
`is_grandfathered()` and not `is_normal()`. -/
theorem C11_kind (t : LangTag) (h : Constructed t) :
    (t.kind = .ok .Normal ↔ t.isNormal = true) ∧ (t.kind = .ok .PrivateUse ↔ t.isPrivateUse = true) ∧
    (t.kind = .ok .Grandfathered ↔ t.isGrandfathered = .ok true ∧ t.isNormal = false) := by
  rw [← Bool.not_eq_true, isNormal_iff, isPrivateUse_iff]
  unfold LangTag.kind
  rcases languageTag_cases (languageTag_of_constructed h) with h | h | ⟨g, hg, h⟩
  · rw [asTyped_normal h]
    simp [h, langtag_not_privateuse h, bind, Except.bind, pure, Except.pure, TypedLangTag.kind]
  · have hn : ¬ Grammar.langtag.Matches t.str := fun hn => langtag_not_privateuse hn h
    have hg : ¬ Grammar.grandfathered.Matches t.str := fun hn => grandfathered_not_privateuse hn h
    rw [asTyped_privateUse h]
    simp [h, hn, (isGrandfathered_eq _).2 hg, bind, Except.bind, pure, Except.pure, TypedLangTag.kind]
  · have hi : Grammar.irregular.Matches t.str := (matches_irregular _).mpr ⟨g, hg, h⟩
    have hn := irregular_not_langtag hi
    have hp := grandfathered_not_privateuse (irregular_grandfathered hi)
    rw [asTyped_grandfathered h hg]
    simp [hn, hp, (isGrandfathered_eq _).1 (irregular_grandfathered hi), bind, Except.bind, pure, Except.pure,
      TypedLangTag.kind]

-- grandfathered and normal do overlap
example : Accepts NormalLangTag (ascii "zh-min") ∧ GrandfatheredLangTag.new (ascii "zh-min") = .ok (.ok .ZhMin) :=
  ⟨accepts_of_isOk (by decide +kernel), by decide +kernel⟩

/-! ## C12 -/

/-- C12: each variant of the enumeration has the text registered for it. -/
theorem C12_texts (g : GrandfatheredLangTag) :
    g.asStr = ascii (registered g) ∧ g.asBytes = ascii (registered g) := by
  cases g <;> exact ⟨rfl, rfl⟩

/-- C12: parsing gives `g` iff the text is the registered text of `g`, ignoring case. -/
theorem C12_new_ok (s : Text) (g : GrandfatheredLangTag) :
    GrandfatheredLangTag.new s = .ok (.ok g) ↔ CaseEq s (ascii (registered g)) := by
  rw [← (C12_texts g).2]
  constructor
  · intro h
    by_cases hg : ∃ g' : GrandfatheredLangTag, CaseEq g'.asBytes s
    · obtain ⟨g', hg'⟩ := hg
      rw [grandfathered_new_ok hg'] at h
      have e : g' = g := by simpa using h
      rw [← e]; exact hg'.symm
    · rw [grandfathered_new_error fun g' hg' => hg ⟨g', hg'⟩] at h
      simp at h
  · exact fun h => grandfathered_new_ok h.symm

/-- C12: every other text is given back as an error; there is no panic. -/
theorem C12_new_error (s : Text) (h : ∀ g, ¬ CaseEq s (ascii (registered g))) :
    GrandfatheredLangTag.new s = .ok (.error s) :=
  grandfathered_new_error fun g hg => h g (by rw [← (C12_texts g).2]; exact hg.symm)

/-- C12: what is accepted is exactly the `grandfathered` production. -/
theorem C12_grammar (s : Text) :
    (∃ g, GrandfatheredLangTag.new s = .ok (.ok g)) ↔ Grammar.grandfathered.Matches s := by
  rw [matches_grandfathered]
  refine exists_congr fun g => ?_
  rw [C12_new_ok, ← (C12_texts g).2]
  exact ⟨CaseEq.symm, CaseEq.symm⟩

/-- C12: parsing any case variation of the text of a tag gives the tag back. -/
theorem C12_inverse (g : GrandfatheredLangTag) (s : Text) (h : CaseEq s g.asStr) :
    GrandfatheredLangTag.new s = .ok (.ok g) := by
  rw [C12_new_ok, ← (C12_texts g).1]; exact h

/-- C12: the byte-slice conversion and `new` agree. -/
theorem C12_tryFrom (s : Text) : GrandfatheredLangTag.tryFrom s = GrandfatheredLangTag.new s := by
  unfold GrandfatheredLangTag.new GrandfatheredLangTag.tryFrom
  rw [tryFromLoop_eq]
  cases List.find? (fun g => decide (CaseEq g.asBytes s)) GRANDFATHERED <;> rfl

/-- C12: the public list `GRANDFATHERED` holds every grandfathered tag exactly once. -/
theorem C12_list : (∀ g, g ∈ GRANDFATHERED) ∧ GRANDFATHERED.Nodup ∧ GRANDFATHERED.length = 26 :=
  ⟨mem_GRANDFATHERED, by decide +kernel, rfl⟩

example : CaseEq (ascii "SGN-be-fr") (ascii (registered .SgnBeFr)) := by decide +kernel
example : ∀ g, ¬ CaseEq (ascii "i-vulcan") (ascii (registered g)) := by
  intro g; cases g <;> decide +kernel

/-! ## C13 -/

/-- C13: every grandfathered tag is a language tag. -/
theorem C13_langTag (s : Text) (g : GrandfatheredLangTag) (h : GrandfatheredLangTag.new s = .ok (.ok g)) :
    Accepts LangTag s := by
  rw [accepts_iff is_LangTag]
  exact Or.inr ((C12_grammar s).mp ⟨g, h⟩)

/-- C13: it is a normal tag iff it is one of the nine regular ones, iff `language()` is `Some`. -/
theorem C13_regular (s : Text) (g : GrandfatheredLangTag) (h : GrandfatheredLangTag.new s = .ok (.ok g)) :
    (Accepts NormalLangTag s ↔ Grammar.regular.Matches s) ∧ (Accepts NormalLangTag s ↔ g.language ≠ none) := by
  have hg : CaseEq g.asBytes s := by
    rw [C12_new_ok, ← (C12_texts g).2] at h; exact h.symm
  rw [accepts_iff is_NormalLangTag, grandfathered_langtag hg, matches_regular]
  refine ⟨⟨fun h => ⟨g, h, hg⟩, ?_⟩, Iff.rfl⟩
  rintro ⟨g', h1, h2⟩
  rw [asBytes_inj (hg.trans h2.symm)]
  exact h1

/-- C13: `language()` of a grandfathered tag is its first subtag, and a valid language, when the tag is regular;
`None` when it is irregular. -/
theorem C13_language (g : GrandfatheredLangTag) :
    (Grammar.regular.Matches g.asStr → ∃ l, g.language = some l ∧ (subtags g.asStr).head? = some l.str ∧
      Accepts Language l.str) ∧
    (Grammar.irregular.Matches g.asStr → g.language = none) := by
  constructor
  · intro h
    obtain ⟨g', h1, h2⟩ := (matches_regular _).mp h
    obtain rfl := asBytes_inj h2
    have key : ∀ g ∈ GRANDFATHERED, ∀ l ∈ g.language,
        (subtags g.asStr).head? = some l.str ∧ StrNewtype.isOk Language l.str = true := by decide +kernel
    obtain ⟨l, hl⟩ := Option.ne_none_iff_exists'.mp h1
    obtain ⟨h3, h4⟩ := key g' (mem_GRANDFATHERED g') l hl
    exact ⟨l, hl, h3, accepts_of_isOk h4⟩
  · intro h
    obtain ⟨g', h1, h2⟩ := (matches_irregular _).mp h
    obtain rfl := asBytes_inj h2
    exact h1

example : GrandfatheredLangTag.new (ascii "zh-MIN-nan") = .ok (.ok .ZhMinNan) := by decide +kernel
example : GrandfatheredLangTag.language .ZhMinNan = some ⟨ascii "zh"⟩ := by decide +kernel
example : Grammar.regular.Matches (GrandfatheredLangTag.asStr .ZhMinNan) :=
  (matches_regular _).mpr ⟨.ZhMinNan, by decide, rfl⟩
example : Grammar.irregular.Matches (GrandfatheredLangTag.asStr .IKlingon) :=
  (matches_irregular _).mpr ⟨.IKlingon, rfl, rfl⟩

/-! ## C14 -/

/-- The predicates and `as_*` accessors of a tag agree with those of its typed view and of its kind. -/
def PredicatesAgree (t : LangTag) : Prop :=
  ∃ ty k, t.asTyped = .ok ty ∧ t.kind = .ok k ∧
    t.isNormal = ty.isNormal ∧ t.isNormal = k.isNormal ∧ t.asNormal = ty.asNormal ∧
    t.isPrivateUse = ty.isPrivateUse ∧ t.isPrivateUse = k.isPrivateUse ∧ t.asPrivateUse = ty.asPrivateUse ∧
    t.isGrandfathered = .ok ty.isGrandfathered ∧ t.isGrandfathered = .ok k.isGrandfathered ∧
    t.asGrandfathered = .ok ty.asGrandfathered

/-- C14 is false: `zh-min` is grandfathered according to the tag, but not according to its typed view. -/
theorem C14_violated : ¬ ∀ t : LangTag, Constructed t → PredicatesAgree t := by
  intro h
  obtain ⟨ty, k, h1, _, _, _, _, _, _, _, h9, _⟩ := h ⟨ascii "zh-min"⟩ ⟨ascii "zh-min", by decide +kernel⟩
  have e1 : (LangTag.mk (ascii "zh-min")).asTyped = .ok (.Normal ⟨ascii "zh-min"⟩) := by decide +kernel
  have e2 : (LangTag.mk (ascii "zh-min")).isGrandfathered = .ok true := by decide +kernel
  rw [e1] at h1
  have : ty = .Normal ⟨ascii "zh-min"⟩ := by simpa using h1.symm
  rw [e2, this] at h9
  simp [TypedLangTag.isGrandfathered] at h9

/-- C14, what holds: everything agrees on an accepted tag iff the tag is not one of the nine regular grandfathered
ones.  Missing: on those nine (in any letter case) `is_grandfathered()` and `as_grandfathered()` of the tag say yes
and those of the typed view and of the kind say no. -/
theorem C14_predicates_partial (t : LangTag) (h : Constructed t) :
    PredicatesAgree t ↔ ¬ Grammar.regular.Matches t.str := by
  rcases languageTag_cases (languageTag_of_constructed h) with h | h | ⟨g, hg, h⟩
  · have e1 := asTyped_normal h
    have hp := langtag_not_privateuse h
    have hk : t.kind = .ok .Normal := by unfold LangTag.kind; rw [e1]; rfl
    have hn : t.asNormal = some ⟨t.str⟩ := by unfold LangTag.asNormal; rw [normal_new.1 h]; rfl
    have hpu : t.asPrivateUse = none := by unfold LangTag.asPrivateUse; rw [privateUse_new.2 hp]; rfl
    by_cases hg : ∃ g : GrandfatheredLangTag, CaseEq g.asBytes t.str
    · obtain ⟨g, hg⟩ := hg
      have hr : Grammar.regular.Matches t.str :=
        (matches_regular _).mpr ⟨g, (grandfathered_langtag hg).mp h, hg⟩
      have hig := (isGrandfathered_eq t.str).1 ((matches_grandfathered _).mpr ⟨g, hg⟩)
      simp only [hr, not_true_eq_false, iff_false]
      rintro ⟨ty, k, h1, _, _, _, _, _, _, _, h9, _⟩
      rw [e1] at h1
      have : ty = .Normal ⟨t.str⟩ := by simpa using h1.symm
      rw [this] at h9
      rw [show t.isGrandfathered = .ok true from hig] at h9
      simp [TypedLangTag.isGrandfathered] at h9
    · have hr : ¬ Grammar.regular.Matches t.str := by
        intro hr
        obtain ⟨g, _, h2⟩ := (matches_regular _).mp hr
        exact hg ⟨g, h2⟩
      have hag : t.asGrandfathered = .ok none := by
        unfold LangTag.asGrandfathered
        rw [grandfathered_new_error fun g' hg' => hg ⟨g', hg'⟩]; rfl
      simp only [hr, not_false_eq_true, iff_true]
      refine ⟨_, _, e1, hk, ?_⟩
      simp [LangTag.isNormal, LangTag.isPrivateUse, LangTag.isGrandfathered, hn, hpu, hag, TypedLangTag.isNormal,
        TypedLangTag.asNormal, TypedLangTag.isPrivateUse, TypedLangTag.asPrivateUse, TypedLangTag.isGrandfathered,
        TypedLangTag.asGrandfathered, Kind.isNormal, Kind.isPrivateUse, Kind.isGrandfathered, bind, Except.bind, pure,
        Except.pure]
  · have e1 := asTyped_privateUse h
    have hl : ¬ Grammar.langtag.Matches t.str := fun hn => langtag_not_privateuse hn h
    have hgf : ¬ Grammar.grandfathered.Matches t.str := fun hn => grandfathered_not_privateuse hn h
    have hk : t.kind = .ok .PrivateUse := by unfold LangTag.kind; rw [e1]; rfl
    have hn : t.asNormal = none := by unfold LangTag.asNormal; rw [normal_new.2 hl]; rfl
    have hpu : t.asPrivateUse = some ⟨t.str⟩ := by unfold LangTag.asPrivateUse; rw [privateUse_new.1 h]; rfl
    have hag : t.asGrandfathered = .ok none := by
      unfold LangTag.asGrandfathered
      rw [grandfathered_new_error fun g' hg' => hgf ((matches_grandfathered _).mpr ⟨g', hg'⟩)]; rfl
    have hr : ¬ Grammar.regular.Matches t.str := fun hr => hgf (Or.inr hr)
    simp only [hr, not_false_eq_true, iff_true]
    refine ⟨_, _, e1, hk, ?_⟩
    simp [LangTag.isNormal, LangTag.isPrivateUse, LangTag.isGrandfathered, hn, hpu, hag, TypedLangTag.isNormal,
      TypedLangTag.asNormal, TypedLangTag.isPrivateUse, TypedLangTag.asPrivateUse, TypedLangTag.isGrandfathered,
      TypedLangTag.asGrandfathered, Kind.isNormal, Kind.isPrivateUse, Kind.isGrandfathered, bind, Except.bind, pure,
      Except.pure]
  · have e1 := asTyped_grandfathered h hg
    have hi : Grammar.irregular.Matches t.str := (matches_irregular _).mpr ⟨g, hg, h⟩
    have hl := irregular_not_langtag hi
    have hp := grandfathered_not_privateuse (irregular_grandfathered hi)
    have hk : t.kind = .ok .Grandfathered := by unfold LangTag.kind; rw [e1]; rfl
    have hn : t.asNormal = none := by unfold LangTag.asNormal; rw [normal_new.2 hl]; rfl
    have hpu : t.asPrivateUse = none := by unfold LangTag.asPrivateUse; rw [privateUse_new.2 hp]; rfl
    have hag : t.asGrandfathered = .ok (some g) := by
      unfold LangTag.asGrandfathered
      rw [grandfathered_new_ok h]; rfl
    have hr : ¬ Grammar.regular.Matches t.str := by
      intro hr
      obtain ⟨g', h1, h2⟩ := (matches_regular _).mp hr
      rw [asBytes_inj (h2.trans h.symm)] at h1
      exact h1 hg
    simp only [hr, not_false_eq_true, iff_true]
    refine ⟨_, _, e1, hk, ?_⟩
    simp [LangTag.isNormal, LangTag.isPrivateUse, LangTag.isGrandfathered, hn, hpu, hag, TypedLangTag.isNormal,
      TypedLangTag.asNormal, TypedLangTag.isPrivateUse, TypedLangTag.asPrivateUse, TypedLangTag.isGrandfathered,
      TypedLangTag.asGrandfathered, Kind.isNormal, Kind.isPrivateUse, Kind.isGrandfathered, bind, Except.bind, pure,
      Except.pure]

/-- C14, the answers: `is_*` says whether, and `as_*` returns the tag as, a normal tag, a private use tag or a grandfathered
tag exactly when the constructor of that type accepts the text. -/
theorem C14_answers (t : LangTag) :
    (t.isNormal = true ↔ Accepts NormalLangTag t.str) ∧ (∀ n, t.asNormal = some n ↔ StrNewtype.new NormalLangTag t.str = .ok n) ∧
    (t.isPrivateUse = true ↔ Accepts PrivateUse t.str) ∧ (∀ p, t.asPrivateUse = some p ↔ StrNewtype.new PrivateUse t.str = .ok p) ∧
    (t.isGrandfathered = .ok true ↔ ∃ g, GrandfatheredLangTag.new t.str = .ok (.ok g)) ∧
    (∀ g, t.asGrandfathered = .ok (some g) ↔ GrandfatheredLangTag.new t.str = .ok (.ok g)) := by
  have hok : ∀ {ε α : Type} (x : Except ε α) (a : α), okOf x = some a ↔ x = .ok a := by
    intro ε α x a; cases x <;> simp [okOf]
  have hg : ∀ g, t.asGrandfathered = .ok (some g) ↔ GrandfatheredLangTag.new t.str = .ok (.ok g) := by
    intro g
    unfold LangTag.asGrandfathered
    cases GrandfatheredLangTag.new t.str with
    | error e => simp [bind, Except.bind]
    | ok r => simp [bind, Except.bind, pure, Except.pure, hok]
  refine ⟨?_, fun n => hok _ _, ?_, fun p => hok _ _, ?_, hg⟩
  · rw [LangTag.isNormal, Option.isSome_iff_exists]
    exact exists_congr fun n => hok _ _
  · rw [LangTag.isPrivateUse, Option.isSome_iff_exists]
    exact exists_congr fun n => hok _ _
  · rw [← exists_congr hg, LangTag.isGrandfathered]
    cases t.asGrandfathered with
    | error e => simp [bind, Except.bind]
    | ok r => cases r <;> simp [bind, Except.bind, pure, Except.pure]

/-- C14, the typed view and the kind: their predicates tell the three kinds apart. -/
theorem C14_typed (ty : TypedLangTag) :
    (ty.isNormal = true ↔ ty.kind = .Normal) ∧ (ty.isPrivateUse = true ↔ ty.kind = .PrivateUse) ∧
    (ty.isGrandfathered = true ↔ ty.kind = .Grandfathered) ∧
    (ty.isNormal = ty.kind.isNormal ∧ ty.isPrivateUse = ty.kind.isPrivateUse ∧ ty.isGrandfathered = ty.kind.isGrandfathered) ∧
    (∀ n, ty.asNormal = some n ↔ ty = .Normal n) ∧ (∀ p, ty.asPrivateUse = some p ↔ ty = .PrivateUse p) ∧
    (∀ g, ty.asGrandfathered = some g ↔ ty = .Grandfathered g) := by
  cases ty <;> simp [TypedLangTag.isNormal, TypedLangTag.isPrivateUse, TypedLangTag.isGrandfathered, TypedLangTag.kind,
    Kind.isNormal, Kind.isPrivateUse, Kind.isGrandfathered, TypedLangTag.asNormal, TypedLangTag.asPrivateUse,
    TypedLangTag.asGrandfathered]

/-- C14, what holds of all tags: on the normal tags and on the private use tags, the tag, its typed view and its kind agree; and
the typed view is grandfathered iff the tag is and is not normal. -/
theorem C14_always_partial (t : LangTag) (h : Constructed t) :
    ∃ ty k, t.asTyped = .ok ty ∧ t.kind = .ok k ∧
      t.isNormal = ty.isNormal ∧ t.isNormal = k.isNormal ∧ t.asNormal = ty.asNormal ∧
      t.isPrivateUse = ty.isPrivateUse ∧ t.isPrivateUse = k.isPrivateUse ∧ t.asPrivateUse = ty.asPrivateUse ∧
      (ty.isGrandfathered = true ↔ t.isGrandfathered = .ok true ∧ t.isNormal = false) ∧
      ∀ g, ty.asGrandfathered = some g ↔ t.asGrandfathered = .ok (some g) ∧ t.isNormal = false := by
  rcases languageTag_cases (languageTag_of_constructed h) with h | h | ⟨g, hg, h⟩
  · have e1 := asTyped_normal h
    have hk : t.kind = .ok .Normal := by unfold LangTag.kind; rw [e1]; rfl
    have hn : t.asNormal = some ⟨t.str⟩ := by unfold LangTag.asNormal; rw [normal_new.1 h]; rfl
    have hpu : t.asPrivateUse = none := by
      unfold LangTag.asPrivateUse; rw [privateUse_new.2 (langtag_not_privateuse h)]; rfl
    refine ⟨_, _, e1, hk, ?_⟩
    simp [LangTag.isNormal, LangTag.isPrivateUse, LangTag.isGrandfathered, hn, hpu, TypedLangTag.isNormal,
      TypedLangTag.asNormal, TypedLangTag.isPrivateUse, TypedLangTag.asPrivateUse, TypedLangTag.isGrandfathered,
      TypedLangTag.asGrandfathered, Kind.isNormal, Kind.isPrivateUse, bind, Except.bind, pure, Except.pure]
  · have e1 := asTyped_privateUse h
    have hl : ¬ Grammar.langtag.Matches t.str := fun hn => langtag_not_privateuse hn h
    have hgf : ¬ Grammar.grandfathered.Matches t.str := fun hn => grandfathered_not_privateuse hn h
    have hk : t.kind = .ok .PrivateUse := by unfold LangTag.kind; rw [e1]; rfl
    have hn : t.asNormal = none := by unfold LangTag.asNormal; rw [normal_new.2 hl]; rfl
    have hpu : t.asPrivateUse = some ⟨t.str⟩ := by unfold LangTag.asPrivateUse; rw [privateUse_new.1 h]; rfl
    have hag : t.asGrandfathered = .ok none := by
      unfold LangTag.asGrandfathered
      rw [grandfathered_new_error fun g' hg' => hgf ((matches_grandfathered _).mpr ⟨g', hg'⟩)]; rfl
    refine ⟨_, _, e1, hk, ?_⟩
    simp [LangTag.isNormal, LangTag.isPrivateUse, LangTag.isGrandfathered, hn, hpu, hag, TypedLangTag.isNormal,
      TypedLangTag.asNormal, TypedLangTag.isPrivateUse, TypedLangTag.asPrivateUse, TypedLangTag.isGrandfathered,
      TypedLangTag.asGrandfathered, Kind.isNormal, Kind.isPrivateUse, bind, Except.bind, pure, Except.pure]
  · have e1 := asTyped_grandfathered h hg
    have hi : Grammar.irregular.Matches t.str := (matches_irregular _).mpr ⟨g, hg, h⟩
    have hp := grandfathered_not_privateuse (irregular_grandfathered hi)
    have hk : t.kind = .ok .Grandfathered := by unfold LangTag.kind; rw [e1]; rfl
    have hn : t.asNormal = none := by unfold LangTag.asNormal; rw [normal_new.2 (irregular_not_langtag hi)]; rfl
    have hpu : t.asPrivateUse = none := by unfold LangTag.asPrivateUse; rw [privateUse_new.2 hp]; rfl
    have hag : t.asGrandfathered = .ok (some g) := by
      unfold LangTag.asGrandfathered
      rw [grandfathered_new_ok h]; rfl
    refine ⟨_, _, e1, hk, ?_⟩
    simp [LangTag.isNormal, LangTag.isPrivateUse, LangTag.isGrandfathered, hn, hpu, hag, TypedLangTag.isNormal,
      TypedLangTag.asNormal, TypedLangTag.isPrivateUse, TypedLangTag.asPrivateUse, TypedLangTag.isGrandfathered,
      TypedLangTag.asGrandfathered, Kind.isNormal, Kind.isPrivateUse, bind, Except.bind, pure, Except.pure]

example : Constructed (LangTag.mk (ascii "en-US")) := ⟨ascii "en-US", by decide +kernel⟩
example : ¬ Grammar.regular.Matches (ascii "en-US") := by
  rw [matches_regular]
  rintro ⟨g, _, h⟩
  revert h
  cases g <;> decide +kernel

/-! ## C15 -/

/-- C15: on every accepted tag `language()` returns normally, what it returns is what the typed view returns, it is
`Some` iff the tag is normal (regular grandfathered tags are, by C13), and then it is the language of the tag. -/
theorem C15_language (t : LangTag) (h : Constructed t) :
    ∃ ty r, t.asTyped = .ok ty ∧ t.language = .ok r ∧ ty.language = .ok r ∧
      (r.isSome ↔ Accepts NormalLangTag t.str) ∧ ∀ p, Decomposes t.str p → r = some ⟨p.language⟩ := by
  rw [accepts_iff is_NormalLangTag]
  rcases languageTag_cases (languageTag_of_constructed h) with h | h | ⟨g, hg, h⟩
  · obtain ⟨p, hp⟩ := (matches_langtag _).mp h
    have hl : (NormalLangTag.mk t.str).language = .ok ⟨p.language⟩ := by rw [← hp.2]; exact language_eq hp.1
    refine ⟨_, some ⟨p.language⟩, asTyped_normal h, ?_, ?_, by simp [h], ?_⟩
    · unfold LangTag.language
      rw [normal_new.1 h]
      simp only [hl]; rfl
    · simp only [TypedLangTag.language, hl]; rfl
    · intro q hq
      rw [decomposes_unique hp hq]
  · have hn : ¬ Grammar.langtag.Matches t.str := fun hn => langtag_not_privateuse hn h
    have hgf : ¬ Grammar.grandfathered.Matches t.str := fun hn => grandfathered_not_privateuse hn h
    refine ⟨_, none, asTyped_privateUse h, ?_, rfl, by simp [hn], ?_⟩
    · unfold LangTag.language
      rw [normal_new.2 hn, grandfathered_new_error fun g' hg' => hgf ((matches_grandfathered _).mpr ⟨g', hg'⟩)]; rfl
    · exact fun q hq => absurd ((matches_langtag _).mpr ⟨q, hq⟩) hn
  · have hi : Grammar.irregular.Matches t.str := (matches_irregular _).mpr ⟨g, hg, h⟩
    have hn := irregular_not_langtag hi
    refine ⟨_, none, asTyped_grandfathered h hg, ?_, ?_, by simp [hn], ?_⟩
    · unfold LangTag.language
      rw [normal_new.2 hn, grandfathered_new_ok h, ← hg]; rfl
    · rw [← hg]; rfl
    · exact fun q hq => absurd ((matches_langtag _).mpr ⟨q, hq⟩) hn

example : (LangTag.mk (ascii "zh-hakka")).language = .ok (some ⟨ascii "zh"⟩) := by decide +kernel
example : (LangTag.mk (ascii "i-klingon")).language = .ok none := by decide +kernel
example : (LangTag.mk (ascii "x-fr")).language = .ok none := by decide +kernel

/-! ## C40 -/

/-- C40: a tag that is not normal exposes no components, and no accessor panics on it. -/
theorem C40_noComponents (t : LangTag) (h : ¬ Accepts NormalLangTag t.str) :
    t.script = .ok none ∧ t.region = .ok none ∧ t.variants = .ok ⟨[]⟩ ∧ t.extensions = .ok ⟨[]⟩ ∧
    t.privateUse = .ok none ∧ ∃ it, t.privateUseSubtags = .ok it ∧ Enumerates PrivateUseIter.next it [] := by
  rw [accepts_iff is_NormalLangTag] at h
  have hn : t.asNormal = none := by unfold LangTag.asNormal; rw [normal_new.2 h]; rfl
  have hp : t.privateUse = .ok none := by unfold LangTag.privateUse; rw [hn]; rfl
  refine ⟨?_, ?_, ?_, ?_, hp, .empty, ?_, ?_⟩
  · unfold LangTag.script; rw [hn]; rfl
  · unfold LangTag.region; rw [hn]; rfl
  · unfold LangTag.variants; rw [hn]; rfl
  · unfold LangTag.extensions; rw [hn]; rfl
  · unfold LangTag.privateUseSubtags; rw [hp]; rfl
  · exact privateUseIter_enumerates (items := []) ⟨by simp [Ascii], Or.inl ⟨rfl, by simp⟩⟩

-- it applies to the tags that are not normal
example : Constructed (LangTag.mk (ascii "x-foo-bar")) ∧ ¬ Accepts NormalLangTag (ascii "x-foo-bar") :=
  ⟨⟨ascii "x-foo-bar", by decide +kernel⟩, by
    rw [accepts_iff is_NormalLangTag, ← isOk_NormalLangTag]; decide +kernel⟩

end Langtag.Props
