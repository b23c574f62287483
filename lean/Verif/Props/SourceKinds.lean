import Verif.Props.SourceItems
import Verif.Props.SourceMore
import Verif.Props.SourceRest
import Verif.Props.Total

/-!
# The kinds of a tag, and grandfathered tags, of the text of the crate

What `Verif/Props/SourceSpec.lean`, `Verif/Props/SourceMore.lean` and `Verif/Props/SourceRest.lean` leave out of C09, C11, C12, C13, C14, C15, C22 and C47.
-/

set_option autoImplicit false

namespace Langtag.Props
open Langtag.Model hiding Singleton
open Langtag.Source Langtag.Spec Langtag.Proof

theorem ok_inj {v w : Val} (h : returns (.ok v) = returns (.ok w)) : v = w := by simpa [Val.ok] using h

theorem variantVal_inj {g g' : GrandfatheredLangTag} (h : variantVal g = variantVal g') : g = g' := by
  have : variantName g = variantName g' := by simpa using h
  revert this
  cases g <;> cases g' <;> first | (intro _; rfl) | (intro h; exact absurd h (by decide +kernel))

/-- `GrandfatheredLangTag::new`, the other way round. -/
theorem run_grandfathered_new {max : Nat} {s : Text} {v : Val} :
    run max ["GrandfatheredLangTag"] "new" [.str s] = returns (.ok v) ↔ ∃ g, v = variantVal g ∧ CaseEq s (ascii (registered g)) := by
  constructor
  · intro h
    by_cases hg : ∃ g, CaseEq s (ascii (registered g))
    · obtain ⟨g, hg⟩ := hg
      exact ⟨g, ok_inj (h.symm.trans ((C12_source max s g).1 hg)), hg⟩
    · exact absurd (h.symm.trans ((C12_source max s .ArtLojban).2.1 fun g hg' => hg ⟨g, hg'⟩)) ok_ne_err
  · rintro ⟨g, rfl, hg⟩
    exact (C12_source max s g).1 hg

/-- `Singleton::new`, the other way round. -/
theorem run_singleton_new {max : Nat} {b : UInt8} {v : Val} :
    run max ["Singleton"] "new" [.u8 b] = returns (.ok v) ↔ Grammar.singleton.Matches [b] ∧ v = singletonVal b := by
  obtain ⟨h1, h2⟩ := (C32_source max b 'a' [] ⟨[], rfl⟩).1 "new" (by simp)
  constructor
  · intro h
    by_cases hb : Grammar.singleton.Matches [b]
    · exact ⟨hb, ok_inj (h.symm.trans (h1 hb))⟩
    · exact absurd (h.symm.trans (h2 hb)) ok_ne_err
  · rintro ⟨hb, rfl⟩
    exact h1 hb

theorem gives_kind {r : Rust Kind} {k : Kind} : gives r = returns (val k) ↔ r = .ok k := by
  rcases r with _ | r
  · exact ⟨fun h => by simp [gives, givesBy] at h, fun h => by cases h⟩
  · cases r <;> cases k <;> simp [gives, givesBy, val]

theorem gives_returns {α : Type} [Rep α] {r : Rust α} : (∃ v, gives r = returns v) ↔ Returns r := by
  cases r with
  | error p => exact ⟨fun ⟨v, h⟩ => by simp [gives, givesBy] at h, fun ⟨_, h⟩ => by cases h⟩
  | ok a => exact ⟨fun _ => ⟨a, rfl⟩, fun _ => ⟨_, rfl⟩⟩

/-! ## C09 -/

/-- C09 for the two constructors that are not among those of the string types, by the text of the crate. -/
theorem C09_source_others (max : Nat) (u v : Text) (b c : UInt8) :
    (CaseEq u v → ∀ g, run max ["GrandfatheredLangTag"] "new" [.str u] = returns (.ok g) ↔
      run max ["GrandfatheredLangTag"] "new" [.str v] = returns (.ok g)) ∧
    (lower b = lower c → ((∃ x, run max ["Singleton"] "new" [.u8 b] = returns (.ok x)) ↔ ∃ x, run max ["Singleton"] "new" [.u8 c] = returns (.ok x))) := by
  refine ⟨fun h g => ?_, fun h => ?_⟩
  · simp only [run_grandfathered_new]
    exact ⟨fun ⟨x, e, hx⟩ => ⟨x, e, h.symm.trans hx⟩, fun ⟨x, e, hx⟩ => ⟨x, e, h.trans hx⟩⟩
  · have key : ∀ b : UInt8, (∃ v, run max ["Singleton"] "new" [.u8 b] = returns (.ok v)) ↔ ∃ x, Singleton.new b = .ok x := by
      intro b
      simp only [run_singleton_new]
      by_cases hb : Grammar.singleton.Matches [b]
      · obtain ⟨g, hg, _⟩ := (C32_u8 b).1 hb
        exact ⟨fun _ => ⟨g, hg⟩, fun _ => ⟨_, hb, rfl⟩⟩
      · have := ((C32_u8 b).2 hb).1
        exact ⟨fun ⟨_, h, _⟩ => absurd h hb, fun ⟨_, h⟩ => by rw [this] at h; cases h⟩
    rw [key, key]
    exact C09_singleton b c h

example : CaseEq (ascii "I-Klingon") (ascii "i-KLINGON") ∧ lower 97 = lower 65 := ⟨by unfold CaseEq; decide +kernel, by decide +kernel⟩

/-! ## C11 -/

/-- C11: which kind an accepted tag has is decided by `is_normal` and `is_private_use`, by the text of the crate. -/
theorem C11_source_kind (max : Nat) (s : Text) (hs : s.length + 1 ≤ max) (h : RunAccepts max "LangTag" s) :
    (run max ["LangTag"] "kind" [tag "LangTag" s] = returns (.ctor ["Kind"] "Normal" []) ↔
      run max ["LangTag"] "is_normal" [tag "LangTag" s] = returns (.bool true)) ∧
    (run max ["LangTag"] "kind" [tag "LangTag" s] = returns (.ctor ["Kind"] "PrivateUse" []) ↔
      run max ["LangTag"] "is_private_use" [tag "LangTag" s] = returns (.bool true)) ∧
    (run max ["LangTag"] "kind" [tag "LangTag" s] = returns (.ctor ["Kind"] "Grandfathered" []) ↔
      run max ["LangTag"] "is_normal" [tag "LangTag" s] = returns (.bool false) ∧
      run max ["LangTag"] "is_private_use" [tag "LangTag" s] = returns (.bool false)) := by
  obtain ⟨i1, i2, i3, i4, _⟩ := C14_source max s hs
  obtain ⟨k1, k2, k3⟩ := C10_source max s hs
  rcases languageTag_cases ((runAccepts_iff C01_source hs).mp h) with hm | hm | ⟨g, hg, hn⟩
  · have hp := langtag_not_privateuse hm
    simp [k1 hm, i1 hm, i4 hp]
  · have hn : ¬ Grammar.langtag.Matches s := fun hn => langtag_not_privateuse hn hm
    simp [k2 hm, i2 hn, i3 hm]
  · have hi : Grammar.irregular.Matches s := (matches_irregular s).mpr ⟨g, hg, hn⟩
    have hl := irregular_not_langtag hi
    have hp := grandfathered_not_privateuse (Or.inl hi)
    have hc : CaseEq s (ascii (registered g)) := by rw [← (C12_texts g).2]; exact hn.symm
    simp [k3 g hc hl, i2 hl, i4 hp]

example : RunAccepts 100 "LangTag" (ascii "x-foo") :=
  (runAccepts_iff C01_source (by decide +kernel)).mpr ((accepts_iff is_LangTag _).mp (accepts_of_isOk (by decide +kernel)))

/-! ## C12 -/

/-- C12: `try_from` of bytes does what `new` does of the text, by the text of the crate. -/
theorem C12_source_tryFrom (max : Nat) (s : Text) (g : GrandfatheredLangTag) :
    (CaseEq s (ascii (registered g)) → run max ["GrandfatheredLangTag"] "try_from" [.bytes s] = returns (.ok (variantVal g))) ∧
    ((∀ g', ¬ CaseEq s (ascii (registered g'))) → run max ["GrandfatheredLangTag"] "try_from" [.bytes s] =
      returns (.err (.ctor ["InvalidGrandfatheredTag"] "InvalidGrandfatheredTag" [.bytes s]))) := by
  obtain ⟨_, k, _⟩ := C69_grandfathered max g s Model.Formatter.default []
  rw [C12_tryFrom] at k
  refine ⟨fun h => ?_, fun h => ?_⟩
  · rw [k, (C12_new_ok s g).mpr h]; rfl
  · rw [k, C12_new_error s h]; rfl

example : run 100 ["GrandfatheredLangTag"] "try_from" [.bytes (ascii "I-klingon")] = returns (.ok (variantVal .IKlingon)) :=
  (C12_source_tryFrom 100 _ .IKlingon).1 (by unfold CaseEq; decide +kernel)

/-! ## C13 -/

/-- C13: a text that names a grandfathered tag, in any letter case, is a tag; it is a normal tag iff it is regular, and iff the grandfathered tag has a
language, by the text of the crate. -/
theorem C13_source_anyCase (max : Nat) (s : Text) (hs : s.length + 1 ≤ max) (g : Val)
    (h : run max ["GrandfatheredLangTag"] "new" [.str s] = returns (.ok g)) :
    RunAccepts max "LangTag" s ∧
    (RunAccepts max "NormalLangTag" s ↔ Grammar.regular.Matches s) ∧
    (RunAccepts max "NormalLangTag" s ↔ ∃ l, run max ["GrandfatheredLangTag"] "language" [g] = returns (optTag "Language" (some l))) := by
  obtain ⟨g, rfl, hg⟩ := run_grandfathered_new.mp h
  have hn := (C12_new_ok s g).mpr hg
  obtain ⟨_, _, k, _⟩ := C69_grandfathered max g s Model.Formatter.default []
  rw [runAccepts_accepts LangTag.source is_LangTag hs, runAccepts_accepts NormalLangTag.source is_NormalLangTag hs]
  obtain ⟨e1, e2⟩ := C13_regular s g hn
  refine ⟨C13_langTag s g hn, e1, e2.trans ?_⟩
  rw [show run max ["GrandfatheredLangTag"] "language" [variantVal g] = _ from k]
  cases hl : g.language with
  | none => simp [gives, givesBy, val, optTag, Val.some]
  | some l => simp [gives, givesBy, val, optTag, Val.some, tag]

example : ∃ g, run 100 ["GrandfatheredLangTag"] "new" [.str (ascii "ZH-Min")] = returns (.ok g) :=
  ⟨_, run_grandfathered_new.mpr ⟨.ZhMin, rfl, by unfold CaseEq; decide +kernel⟩⟩

/-! ## C14 -/

/-- The predicates and `as_*` accessors of a tag agree with those of its typed view and of its kind. -/
def RunAgree (max : Nat) (s : Text) : Prop :=
  ∃ ty k, run max ["LangTag"] "as_typed" [tag "LangTag" s] = returns ty ∧ run max ["LangTag"] "kind" [tag "LangTag" s] = returns k ∧
    (∀ f ∈ ["is_normal", "is_private_use", "is_grandfathered", "as_normal", "as_private_use", "as_grandfathered"],
      (∃ v, run max ["LangTag"] f [tag "LangTag" s] = returns v) ∧
      run max ["LangTag"] f [tag "LangTag" s] = run max ["TypedLangTag"] f [ty]) ∧
    (∀ f ∈ ["is_normal", "is_private_use", "is_grandfathered"], run max ["LangTag"] f [tag "LangTag" s] = run max ["Kind"] f [k])

/-- The typed view of a tag is not longer than the tag. -/
theorem typedLength_of_asTyped {s : Text} (h : Grammar.languageTag.Matches s) {ty : TypedLangTag} (e : LangTag.asTyped ⟨s⟩ = .ok ty) :
    typedLength ty ≤ s.length := by
  rcases languageTag_cases h with hm | hm | ⟨g, hg, hn⟩
  · rw [asTyped_normal hm] at e; cases e; exact Nat.le_refl _
  · rw [asTyped_privateUse hm] at e; cases e; exact Nat.le_refl _
  · rw [asTyped_grandfathered hn hg] at e; cases e; exact Nat.zero_le _

/-- C14, what holds, by the text of the crate: everything agrees on an accepted tag iff the tag is not one of the nine regular grandfathered ones.
Missing: on those nine the tag says it is grandfathered, its typed view and its kind say it is not. -/
theorem C14_source_partial (max : Nat) (s : Text) (hs : s.length + 1 ≤ max) (h : RunAccepts max "LangTag" s) :
    RunAgree max s ↔ ¬ Grammar.regular.Matches s := by
  have hm := (runAccepts_iff C01_source hs).mp h
  have hc : Constructed (LangTag.mk s) := constructed_of_matches is_LangTag (fun ⟨_⟩ ⟨_⟩ h => congrArg LangTag.mk h) hm
  obtain ⟨_, _, _, _, _, _, _, a1, a2, a3, a4, a5, a6, a7, a8⟩ := C69_langTag max ⟨s⟩ hs
  constructor
  · rintro ⟨ty, k, e1, _, e3, _⟩ hr
    obtain ⟨g, hg, hc⟩ := (matches_regular s).mp hr
    have hn : Grammar.langtag.Matches s := (grandfathered_langtag hc).mpr hg
    obtain rfl := returns_inj (e1.symm.trans ((C10_source max s hs).1 hn).1)
    have e := (e3 "is_grandfathered" (by simp)).2
    have hg : Grammar.grandfathered.Matches s := (matches_grandfathered s).mpr ⟨g, hc⟩
    rw [(C14_source max s hs).2.2.2.2.1 hg] at e
    have k := (C69_typedLangTag max (.Normal ⟨s⟩) hs).2.2.2.2.1
    have := e.trans k
    simp [gives, givesBy, val, TypedLangTag.isGrandfathered] at this
  · intro hr
    obtain ⟨ty, k, e1, e2, p1, p2, p3, p4, p5, p6, p7, p8, p9⟩ := (C14_predicates_partial ⟨s⟩ hc).mpr hr
    have hl := typedLength_of_asTyped hm e1
    obtain ⟨_, _, b1, b2, b3, b4, b5, b6⟩ := C69_typedLangTag max ty (by omega)
    obtain ⟨d1, d2, d3⟩ := C69_kind max k
    rw [e1] at a8
    rw [e2] at a7
    refine ⟨val ty, val k, a8, a7, fun f hf => ?_, fun f hf => ?_⟩
    · simp only [List.mem_cons, List.not_mem_nil, or_false] at hf
      rcases hf with rfl | rfl | rfl | rfl | rfl | rfl
      · exact ⟨⟨_, a1⟩, a1.trans ((congrArg (fun x => gives (.ok x)) p1).trans b1.symm)⟩
      · exact ⟨⟨_, a2⟩, a2.trans ((congrArg (fun x => gives (.ok x)) p4).trans b2.symm)⟩
      · exact ⟨⟨_, a3.trans (congrArg gives p7)⟩, a3.trans ((congrArg gives p7).trans b3.symm)⟩
      · exact ⟨⟨_, a4⟩, a4.trans ((congrArg (fun x => gives (.ok x)) p3).trans b4.symm)⟩
      · exact ⟨⟨_, a5⟩, a5.trans ((congrArg (fun x => gives (.ok x)) p6).trans b5.symm)⟩
      · exact ⟨⟨_, a6.trans (congrArg gives p9)⟩, a6.trans ((congrArg gives p9).trans b6.symm)⟩
    · simp only [List.mem_cons, List.not_mem_nil, or_false] at hf
      rcases hf with rfl | rfl | rfl
      · exact a1.trans ((congrArg (fun x => gives (.ok x)) p2).trans d1.symm)
      · exact a2.trans ((congrArg (fun x => gives (.ok x)) p5).trans d2.symm)
      · exact a3.trans ((congrArg gives p8).trans d3.symm)

-- `art-lojban` is regular, `i-klingon` is not
example : RunAccepts 100 "LangTag" (ascii "i-klingon") ∧ Grammar.regular.Matches (ascii "art-LOJBAN") :=
  ⟨(runAccepts_iff C01_source (by decide +kernel)).mpr ((accepts_iff is_LangTag _).mp (accepts_of_isOk (by decide +kernel))),
   (matches_regular _).mpr ⟨.ArtLojban, by decide +kernel, by unfold CaseEq; decide +kernel⟩⟩

/-! ## C15 -/

/-- C15: `language()` of a tag is that of its typed view, and it is there iff the tag is normal, by the text of the crate. -/
theorem C15_source_typed (max : Nat) (s : Text) (hs : s.length + 1 ≤ max) (h : RunAccepts max "LangTag" s) :
    ∃ ty r, run max ["LangTag"] "as_typed" [tag "LangTag" s] = returns ty ∧
      run max ["LangTag"] "language" [tag "LangTag" s] = returns (optTag "Language" r) ∧
      run max ["TypedLangTag"] "language" [ty] = returns (optTag "Language" r) ∧
      (r.isSome ↔ RunAccepts max "NormalLangTag" s) ∧ ∀ p, Decomposes s p → r = some p.language := by
  have hm := (runAccepts_iff C01_source hs).mp h
  have hc : Constructed (LangTag.mk s) := constructed_of_matches is_LangTag (fun ⟨_⟩ ⟨_⟩ h => congrArg LangTag.mk h) hm
  obtain ⟨a0, _, _, _, _, _, _, _, _, _, _, _, _, _, a8⟩ := C69_langTag max ⟨s⟩ hs
  obtain ⟨ty, r, e1, e2, e3, e4, e5⟩ := C15_language ⟨s⟩ hc
  have hl := typedLength_of_asTyped hm e1
  have b := (C69_typedLangTag max ty (by omega)).1
  rw [e1] at a8
  rw [e2] at a0
  rw [e3] at b
  have hr : val r = optTag "Language" (r.map Language.str) := by cases r <;> rfl
  refine ⟨val ty, r.map Language.str, a8, a0.trans (congrArg returns hr), b.trans (congrArg returns hr), ?_, fun p hp => ?_⟩
  · rw [runAccepts_accepts NormalLangTag.source is_NormalLangTag hs, ← e4]; simp
  · rw [e5 p hp]; rfl

example : RunAccepts 100 "LangTag" (ascii "en-x-foo-b") ∧ Decomposes (ascii "en-x-foo-b") ⟨ascii "en", none, none, [], [], some (ascii "x-foo-b")⟩ :=
  ⟨(runAccepts_iff C01_source (by decide +kernel)).mpr ((accepts_iff is_LangTag _).mp (accepts_of_isOk (by decide +kernel))), decomposes_en_x⟩

/-! ## C22 -/

/-- C22, what holds, by the text of the crate: `language()` of a tag always returns.  On a tag that is not normal all accessors return.  On a normal tag
each of the others returns iff the tag goes on after the part that precedes the one looked for.  Missing: otherwise they panic. -/
theorem C22_source_langTag_partial (max : Nat) (s : Text) (hs : s.length + 1 ≤ max) (h : RunAccepts max "LangTag" s) :
    (∃ v, run max ["LangTag"] "language" [tag "LangTag" s] = returns v) ∧
    (¬ RunAccepts max "NormalLangTag" s → ∀ f ∈ ["script", "region", "variants", "extensions", "private_use", "private_use_subtags"],
      ∃ v, run max ["LangTag"] f [tag "LangTag" s] = returns v) ∧
    ∀ p, Decomposes s p →
      ((∃ v, run max ["LangTag"] "script" [tag "LangTag" s] = returns v) ↔ p.afterLanguage ≠ []) ∧
      ((∃ v, run max ["LangTag"] "region" [tag "LangTag" s] = returns v) ↔ p.afterScript ≠ []) ∧
      ((∃ v, run max ["LangTag"] "variants" [tag "LangTag" s] = returns v) ↔ p.afterRegion ≠ []) ∧
      ((∃ v, run max ["LangTag"] "extensions" [tag "LangTag" s] = returns v) ↔ p.afterVariants ≠ []) ∧
      ((∃ v, run max ["LangTag"] "private_use" [tag "LangTag" s] = returns v) ↔ p.afterRegion ≠ []) ∧
      ((∃ v, run max ["LangTag"] "private_use_subtags" [tag "LangTag" s] = returns v) ↔ p.afterRegion ≠ []) := by
  have hm := (runAccepts_iff C01_source hs).mp h
  have hc : Constructed (LangTag.mk s) := constructed_of_matches is_LangTag (fun ⟨_⟩ ⟨_⟩ h => congrArg LangTag.mk h) hm
  obtain ⟨a0, a1, a2, a3, a4, a5, a6, _⟩ := C69_langTag max ⟨s⟩ hs
  obtain ⟨k0, k1, k2⟩ := C22_langTag_partial ⟨s⟩ hc
  rw [runAccepts_accepts NormalLangTag.source is_NormalLangTag hs]
  have a0 : run max ["LangTag"] "language" [tag "LangTag" s] = _ := a0
  have a1 : run max ["LangTag"] "script" [tag "LangTag" s] = _ := a1
  have a2 : run max ["LangTag"] "region" [tag "LangTag" s] = _ := a2
  have a3 : run max ["LangTag"] "variants" [tag "LangTag" s] = _ := a3
  have a4 : run max ["LangTag"] "extensions" [tag "LangTag" s] = _ := a4
  have a5 : run max ["LangTag"] "private_use" [tag "LangTag" s] = _ := a5
  have a6 : run max ["LangTag"] "private_use_subtags" [tag "LangTag" s] = _ := a6
  refine ⟨by rw [a0, gives_returns]; exact k0, fun hn f hf => ?_, fun p hp => ?_⟩
  · obtain ⟨j1, j2, j3, j4, j5, j6⟩ := k1 hn
    simp only [List.mem_cons, List.not_mem_nil, or_false] at hf
    rcases hf with rfl | rfl | rfl | rfl | rfl | rfl
    · rw [a1, gives_returns]; exact j1
    · rw [a2, gives_returns]; exact j2
    · rw [a3, gives_returns]; exact j3
    · rw [a4, gives_returns]; exact j4
    · rw [a5, gives_returns]; exact j5
    · rw [a6, gives_returns]; exact j6
  · rw [a1, a2, a3, a4, a5, a6]
    simp only [gives_returns]
    exact k2 p hp

/-- C22, `language` and `private_use_subtags` of a normal tag, by the text of the crate. -/
theorem C22_source_subtags_partial (max : Nat) (s : Text) (hs : s.length + 1 ≤ max) (p : Parts) (hp : Decomposes s p) :
    (∃ v, run max ["NormalLangTag"] "language" [tag "NormalLangTag" s] = returns v) ∧
    ((∃ v, run max ["NormalLangTag"] "private_use_subtags" [tag "NormalLangTag" s] = returns v) ↔ p.afterRegion ≠ []) := by
  obtain ⟨a0, _, _, _, _, _, a6⟩ := C69_normalLangTag max ⟨s⟩ hs
  obtain ⟨k0, _, _, _, _, _, k6⟩ := C22_noPanic_partial ⟨s⟩ p hp
  rw [show run max ["NormalLangTag"] "language" [tag "NormalLangTag" s] = _ from a0,
    show run max ["NormalLangTag"] "private_use_subtags" [tag "NormalLangTag" s] = _ from a6, gives_returns, gives_returns]
  exact ⟨k0, k6⟩

-- a normal tag on which they return, and a tag that is not normal
example : (∃ v, run 100 ["LangTag"] "script" [tag "LangTag" (ascii "en-x-foo-b")] = returns v) ∧
    ∃ v, run 100 ["NormalLangTag"] "private_use_subtags" [tag "NormalLangTag" (ascii "en-x-foo-b")] = returns v :=
  ⟨((C22_source_langTag_partial 100 _ (by decide +kernel) ((runAccepts_iff C01_source (by decide +kernel)).mpr
      ((accepts_iff is_LangTag _).mp (accepts_of_isOk (by decide +kernel))))).2.2 _ decomposes_en_x).1.mpr (by decide +kernel),
   (C22_source_subtags_partial 100 _ (by decide +kernel) _ decomposes_en_x).2.mpr (by decide +kernel)⟩
example : RunAccepts 100 "LangTag" (ascii "x-foo") ∧ ¬ RunAccepts 100 "NormalLangTag" (ascii "x-foo") :=
  ⟨(runAccepts_iff C01_source (by decide +kernel)).mpr ((accepts_iff is_LangTag _).mp (accepts_of_isOk (by decide +kernel))),
   fun h => absurd ((isOk_NormalLangTag _).mpr ((runAccepts_iff C02_source (by decide +kernel)).mp h)) (by decide +kernel)⟩

/-! ## C47 -/

/-- C47, what holds, by the text of the crate: for a text that names a grandfathered tag, the tag has a language iff the grandfathered tag has; the two
have equal primary languages, and they are equal except for the four tags whose second subtag has three letters and reads as an extended language subtag.
Missing: these four. -/
theorem C47_source_partial (max : Nat) (s : Text) (hs : s.length + 1 ≤ max) (g : GrandfatheredLangTag)
    (h : run max ["GrandfatheredLangTag"] "new" [.str s] = returns (.ok (variantVal g))) :
    (run max ["LangTag"] "language" [tag "LangTag" s] = returns .none ∧ run max ["GrandfatheredLangTag"] "language" [variantVal g] = returns .none) ∨
    ∃ l l' p p', run max ["LangTag"] "language" [tag "LangTag" s] = returns (optTag "Language" (some l)) ∧
      run max ["GrandfatheredLangTag"] "language" [variantVal g] = returns (optTag "Language" (some l')) ∧
      run max ["Language"] "primary" [tag "Language" l] = returns (tag "PrimaryLanguage" p) ∧
      run max ["Language"] "primary" [tag "Language" l'] = returns (tag "PrimaryLanguage" p') ∧
      run max ["PrimaryLanguage"] "eq" [tag "PrimaryLanguage" p, tag "PrimaryLanguage" p'] = returns (.bool true) ∧
      (run max ["Language"] "eq" [tag "Language" l, tag "Language" l'] = returns (.bool true) ↔
        g ∉ [GrandfatheredLangTag.NoBok, .NoNyn, .ZhMin, .ZhMinNan]) := by
  have hg : CaseEq s (ascii (registered g)) := by
    obtain ⟨g', e, h'⟩ := run_grandfathered_new.mp h
    exact variantVal_inj e ▸ h'
  have hn := (C12_new_ok s g).mpr hg
  have a0 : run max ["LangTag"] "language" [tag "LangTag" s] = _ := (C69_langTag max ⟨s⟩ hs).1
  have b0 : run max ["GrandfatheredLangTag"] "language" [variantVal g] = _ := (C69_grandfathered max g s Model.Formatter.default []).2.2.1
  rcases C47_language_partial ⟨s⟩ g hn with ⟨e1, e2⟩ | ⟨⟨l⟩, ⟨l'⟩, e1, e2, e3, e4⟩
  · rw [e1] at a0
    rw [e2] at b0
    exact Or.inl ⟨a0, b0⟩
  · rw [e1] at a0
    rw [e2] at b0
    have hl : l.length ≤ s.length := by
      have hm : RunAccepts max "LangTag" s := (runAccepts_accepts LangTag.source is_LangTag hs).mpr (C13_langTag s g hn)
      exact (((C67_source max s hs).2 hm).1 l a0).2.length_le
    have hl' : l'.length ≤ s.length := by
      have e : (ascii (registered g)).length = s.length := by
        have := congrArg List.length hg
        simpa [lowerText] using this.symm
      rw [← e]
      revert e2
      cases g <;> intro e2 <;> first | (cases e2; done) | (cases e2; decide +kernel)
    refine Or.inr ⟨l, l', (Language.primary ⟨l⟩).str, (Language.primary ⟨l'⟩).str, a0, b0, ?_, ?_, ?_, ?_⟩
    · exact (C69_parts max l ⟨0⟩ (by omega)).1
    · exact (C69_parts max l' ⟨0⟩ (by omega)).1
    · exact (C34_source "PrimaryLanguage" (by simp [stringTypes]) max _ _).1 ((eq_true_iff _ _).mp e3)
    · rw [show g ∉ [GrandfatheredLangTag.NoBok, .NoNyn, .ZhMin, .ZhMinNan] ↔ looksExtended g = false by simp [looksExtended], ← e4]
      constructor
      · exact fun h => (eq_true_iff _ _).mpr (caseEq_of_run (T := "Language") (by simp [stringTypes]) h)
      · exact fun h => (C34_source "Language" (by simp [stringTypes]) max _ _).1 ((eq_true_iff _ _).mp h)

example : run 100 ["GrandfatheredLangTag"] "new" [.str (ascii "CEL-gaulish")] = returns (.ok (variantVal .CelGaulish)) :=
  run_grandfathered_new.mpr ⟨.CelGaulish, rfl, by unfold CaseEq; decide +kernel⟩

end Langtag.Props
