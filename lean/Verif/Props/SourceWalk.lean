import Verif.Props.SourceRest
import Verif.Props.Total

/-!
# The remaining properties, of the text of the crate: tags and their parts
-/

set_option autoImplicit false

namespace Langtag.Props
open Langtag.Model hiding Singleton
open Langtag.Source Langtag.Spec Langtag.Proof

/-! ## From results of the text to results of the model and back -/

theorem tag_inj {n : String} {u v : Text} (h : tag n u = tag n v) : u = v := by
  simpa [tag] using h

theorem optTag_inj {n : String} {u v : Option Text} (h : optTag n u = optTag n v) : u = v := by
  cases u <;> cases v <;> simp_all [optTag, tag, Val.some, Val.none]

theorem returns_inj {v w : Val} (h : returns v = returns w) : v = w := by simpa using h

section
variable {n : String} {T : Type} [StrNewtype T] [Compare T] [Rep T]

theorem gives_text (h : IsSource n T) {r : Rust T} {u : Text} (e : gives r = returns (tag n u)) : ∃ t, r = .ok t ∧ StrNewtype.str t = u := by
  cases r with
  | error p => cases e
  | ok t =>
    refine ⟨t, rfl, tag_inj (n := n) ?_⟩
    rw [← h.val_eq]
    exact returns_inj e

theorem gives_some (h : IsSource n T) {r : Rust (Option T)} {u : Text} (e : gives r = returns (optTag n (some u))) :
    ∃ t, r = .ok (some t) ∧ StrNewtype.str t = u := by
  cases r with
  | error p => cases e
  | ok t =>
    cases t with
    | none =>
      have := returns_inj e
      simp [val, Rep.val, optTag, Val.some] at this
    | some t =>
      refine ⟨t, rfl, ?_⟩
      have e : Val.some (val t) = Val.some (tag n u) := returns_inj e
      rw [h.val_eq] at e
      simp only [Val.some, Val.ctor.injEq, List.cons.injEq, and_true, true_and] at e
      exact tag_inj e

theorem gives_ok (h : IsSource n T) (t : T) : gives (.ok t) = returns (tag n (StrNewtype.str t)) := congrArg returns (h.val_eq t)

theorem gives_okSome (h : IsSource n T) (t : T) : gives (.ok (some t) : Rust (Option T)) = returns (optTag n (some (StrNewtype.str t))) :=
  congrArg (fun v => returns (.some v)) (h.val_eq t)

variable [LawfulCompare T]

theorem sameOutcome_text (h : IsSource n T) {a b : Rust T} (e : SameResult Same a b) : SameOutcome n (gives a) (gives b) := by
  cases a with
  | error p =>
    cases b with
    | error q => exact .panic p q
    | ok b => exact e.elim
  | ok a =>
    cases b with
    | error q => exact e.elim
    | ok b =>
      rw [gives_ok h, gives_ok h]
      exact .text _ _ ((eq_true_iff a b).mp e)

theorem sameOutcome_option (h : IsSource n T) {a b : Rust (Option T)} (e : SameResult SameOption a b) : SameOutcome n (gives a) (gives b) := by
  cases a with
  | error p =>
    cases b with
    | error q => exact .panic p q
    | ok b => exact e.elim
  | ok a =>
    cases b with
    | error q => exact e.elim
    | ok b =>
      cases a with
      | none =>
        cases b with
        | none => exact .none
        | some b => exact e.elim
      | some a =>
        cases b with
        | none => exact e.elim
        | some b =>
          rw [gives_okSome h, gives_okSome h]
          exact .some _ _ ((eq_true_iff a b).mp e)
end

/-! ## C38: equal tags -/

theorem caseEq_of_run {T : String} (hT : T ∈ stringTypes) {max : Nat} {s t : Text}
    (h : run max [T] "eq" [tag T s, tag T t] = returns (.bool true)) : CaseEq s t :=
  Classical.byContradiction fun hn => by
    have := (C34_source T hT max s t).2 hn
    rw [h] at this
    simp at this

/-- C38: equal tags have equal kinds and, up to case, equal parts, by the text of the crate. -/
theorem C38_source (max : Nat) (s t : Text) (hs : s.length + 1 ≤ max) (hm : RunAccepts max "LangTag" s)
    (h : run max ["LangTag"] "eq" [tag "LangTag" s, tag "LangTag" t] = returns (.bool true)) :
    run max ["LangTag"] "kind" [tag "LangTag" s] = run max ["LangTag"] "kind" [tag "LangTag" t] ∧
    ∀ fT ∈ [("language", "Language"), ("script", "Script"), ("region", "Region"), ("variants", "Variants"), ("extensions", "Extensions"),
        ("private_use", "PrivateUse")],
      SameOutcome fT.2 (run max ["LangTag"] fT.1 [tag "LangTag" s]) (run max ["LangTag"] fT.1 [tag "LangTag" t]) := by
  have hc := caseEq_of_run (by simp [stringTypes]) h
  have ht : t.length + 1 ≤ max := by
    have := congrArg List.length hc
    simp only [lowerText, List.length_map] at this
    omega
  obtain ⟨a1, a2, a3, a4, a5, a6, _, _, _, _, _, _, _, a7, _⟩ := C69_langTag max ⟨s⟩ hs
  obtain ⟨b1, b2, b3, b4, b5, b6, _, _, _, _, _, _, _, b7, _⟩ := C69_langTag max ⟨t⟩ ht
  obtain ⟨k, k1, k2, k3, k4, k5, k6⟩ := C38_langTag ⟨s⟩ ⟨t⟩
    (constructed_of_matches is_LangTag (fun ⟨_⟩ ⟨_⟩ h => congrArg LangTag.mk h) ((runAccepts_iff C01_source hs).mp hm)) ((eq_true_iff _ _).mpr hc)
  refine ⟨?_, ?_⟩
  · exact Eq.trans (α := Option Outcome) a7 ((congrArg gives k).trans b7.symm)
  · intro fT hf
    simp only [List.mem_cons, List.not_mem_nil, or_false] at hf
    rcases hf with rfl | rfl | rfl | rfl | rfl | rfl
    · exact a1 ▸ b1 ▸ sameOutcome_option Language.source k1
    · exact a2 ▸ b2 ▸ sameOutcome_option Script.source k2
    · exact a3 ▸ b3 ▸ sameOutcome_option Region.source k3
    · exact a4 ▸ b4 ▸ sameOutcome_text Variants.source k4
    · exact a5 ▸ b5 ▸ sameOutcome_text Extensions.source k5
    · exact a6 ▸ b6 ▸ sameOutcome_option PrivateUse.source k6

/-- C38: the same of `NormalLangTag`, and of `Language`. -/
theorem C38_source_normal (max : Nat) (s t : Text) (hs : s.length + 1 ≤ max) :
    (RunAccepts max "NormalLangTag" s → run max ["NormalLangTag"] "eq" [tag "NormalLangTag" s, tag "NormalLangTag" t] = returns (.bool true) →
      ∀ fT ∈ [("language", "Language"), ("script", "Script"), ("region", "Region"), ("variants", "Variants"), ("extensions", "Extensions"),
          ("private_use", "PrivateUse")],
        SameOutcome fT.2 (run max ["NormalLangTag"] fT.1 [tag "NormalLangTag" s]) (run max ["NormalLangTag"] fT.1 [tag "NormalLangTag" t])) ∧
    (run max ["Language"] "eq" [tag "Language" s, tag "Language" t] = returns (.bool true) →
      ∀ fT ∈ [("primary", "PrimaryLanguage"), ("extension", "LanguageExtension")],
        SameOutcome fT.2 (run max ["Language"] fT.1 [tag "Language" s]) (run max ["Language"] fT.1 [tag "Language" t])) := by
  have len : CaseEq s t → t.length + 1 ≤ max := fun hc => by
    have := congrArg List.length hc
    simp only [lowerText, List.length_map] at this
    omega
  refine ⟨fun hm h fT hf => ?_, fun h fT hf => ?_⟩
  · have hc := caseEq_of_run (by simp [stringTypes]) h
    have hm' := (C09_source "NormalLangTag" (by simp [stringTypes]) max s t hs hc).mp hm
    obtain ⟨a1, a2, a3, a4, a5, a6, _⟩ := C69_normalLangTag max ⟨s⟩ hs
    obtain ⟨b1, b2, b3, b4, b5, b6, _⟩ := C69_normalLangTag max ⟨t⟩ (len hc)
    obtain ⟨k1, k2, k3, k4, k5, k6⟩ := C38_normal ⟨s⟩ ⟨t⟩
      (constructed_of_matches is_NormalLangTag (fun ⟨_⟩ ⟨_⟩ h => congrArg NormalLangTag.mk h) ((runAccepts_iff C02_source hs).mp hm))
      (constructed_of_matches is_NormalLangTag (fun ⟨_⟩ ⟨_⟩ h => congrArg NormalLangTag.mk h) ((runAccepts_iff C02_source (len hc)).mp hm'))
      ((eq_true_iff _ _).mpr hc)
    simp only [List.mem_cons, List.not_mem_nil, or_false] at hf
    rcases hf with rfl | rfl | rfl | rfl | rfl | rfl
    · exact a1 ▸ b1 ▸ sameOutcome_text Language.source k1
    · exact a2 ▸ b2 ▸ sameOutcome_option Script.source k2
    · exact a3 ▸ b3 ▸ sameOutcome_option Region.source k3
    · exact a4 ▸ b4 ▸ sameOutcome_text Variants.source k4
    · exact a5 ▸ b5 ▸ sameOutcome_text Extensions.source k5
    · exact a6 ▸ b6 ▸ sameOutcome_option PrivateUse.source k6
  · have hc := caseEq_of_run (by simp [stringTypes]) h
    obtain ⟨a1, a2, _⟩ := C69_parts max s ⟨0⟩ hs
    obtain ⟨b1, b2, _⟩ := C69_parts max t ⟨0⟩ (len hc)
    obtain ⟨k1, k2⟩ := C38_language ⟨s⟩ ⟨t⟩ ((eq_true_iff _ _).mpr hc)
    simp only [List.mem_cons, List.not_mem_nil, or_false] at hf
    rcases hf with rfl | rfl
    · exact a1 ▸ b1 ▸ sameOutcome_text (a := .ok _) (b := .ok _) PrimaryLanguage.source k1
    · exact a2 ▸ b2 ▸ sameOutcome_option (a := .ok _) (b := .ok _) LanguageExtension.source k2

example : run 100 ["LangTag"] "eq" [tag "LangTag" (ascii "zh-Hant-HK"), tag "LangTag" (ascii "ZH-hANT-hk")] = returns (.bool true) :=
  (C34_source "LangTag" (by simp [stringTypes]) _ _ _).1 (by unfold CaseEq; decide +kernel)

/-! ## C23: the parts rejoin to the tag -/

/-- What the accessors return when they all return. -/
theorem runParts_eq {max : Nat} {s : Text} (hs : s.length + 1 ≤ max) {p : Parts} (hp : Decomposes s p) {l : Text} {sc r : Option Text} {v e : Text}
    {x : Option Text} (h : RunParts max s l sc r v e x) :
    p.afterVariants ≠ [] ∧ l = p.language ∧ sc = p.script ∧ r = p.region ∧ v = joinDash p.variants ∧ e = joinDash p.extensions ∧
    x = if p.extensions = [] then p.privateUse else some (joinDash (p.extensions ++ p.privateUse.toList)) := by
  have n5 : p.afterVariants ≠ [] := (C22_source_partial max s hs p hp).2.2.2.1.mp ⟨_, h.extensions⟩
  have n4 : p.afterRegion ≠ [] := (C22_source_partial max s hs p hp).2.2.1.mp ⟨_, h.variants⟩
  have n3 : p.afterScript ≠ [] := (C22_source_partial max s hs p hp).2.1.mp ⟨_, h.region⟩
  have n2 : p.afterLanguage ≠ [] := (C22_source_partial max s hs p hp).1.mp ⟨_, h.script⟩
  refine ⟨n5, tag_inj (n := "Language") (returns_inj (h.language.symm.trans (C16_source max s hs p hp))),
    optTag_inj (returns_inj (h.script.symm.trans ((C17_source_partial max s hs p hp).1 n2))),
    optTag_inj (returns_inj (h.region.symm.trans ((C18_source_partial max s hs p hp).1 n3))),
    tag_inj (returns_inj (h.variants.symm.trans ((C19_source_partial max s hs p hp).1 n4))),
    tag_inj (returns_inj (h.extensions.symm.trans ((C20_source_partial max s hs p hp).1 n5))), ?_⟩
  split
  · next he => exact optTag_inj (returns_inj (h.privateUse.symm.trans ((C21_source_partial max s hs p hp).1 n4 he)))
  · next he => exact optTag_inj (returns_inj (h.privateUse.symm.trans ((C21_source_partial max s hs p hp).2.1 he)))

/-- All accessors return if an extension or a private use part is there. -/
theorem runParts_of {max : Nat} {s : Text} (hs : s.length + 1 ≤ max) {p : Parts} (hp : Decomposes s p) (hn : p.afterVariants ≠ []) :
    RunParts max s p.language p.script p.region (joinDash p.variants) (joinDash p.extensions)
      (if p.extensions = [] then p.privateUse else some (joinDash (p.extensions ++ p.privateUse.toList))) := by
  have n4 : p.afterRegion ≠ [] := by unfold Parts.afterRegion; simp [hn]
  have n3 : p.afterScript ≠ [] := by unfold Parts.afterScript; simp [n4]
  have n2 : p.afterLanguage ≠ [] := by unfold Parts.afterLanguage; simp [n3]
  refine ⟨C16_source max s hs p hp, (C17_source_partial max s hs p hp).1 n2, (C18_source_partial max s hs p hp).1 n3,
    (C19_source_partial max s hs p hp).1 n4, (C20_source_partial max s hs p hp).1 hn, ?_⟩
  split
  · next he => exact (C21_source_partial max s hs p hp).1 n4 he
  · next he => exact (C21_source_partial max s hs p hp).2.1 he

/-- C23 is false: the six accessors return on `en-a-bbb-x-foo`, and what they return joins to `en-a-bbb-a-bbb-x-foo`, by the text of the crate. -/
theorem C23_source_violated :
    ¬ ∀ (s l : Text) (sc r : Option Text) (v e : Text) (x : Option Text), RunAccepts 100 "NormalLangTag" s → RunParts 100 s l sc r v e x →
      joinParts l sc r v e x = s := by
  intro h
  have hs : (ascii "en-a-bbb-x-foo").length + 1 ≤ 100 := by decide +kernel
  have := h _ _ _ _ _ _ _ ((runAccepts_iff C02_source hs).mpr ((matches_langtag _).mpr ⟨_, decomposes_en_a_x⟩))
    (runParts_of hs decomposes_en_a_x (by decide +kernel))
  revert this
  decide +kernel

/-- C23, what holds: when the six accessors return, what they return joins to the tag exactly if there are no extensions, by the text of the crate. -/
theorem C23_source_partial (max : Nat) (s : Text) (hs : s.length + 1 ≤ max) (p : Parts) (hp : Decomposes s p) (l : Text) (sc r : Option Text)
    (v e : Text) (x : Option Text) (h : RunParts max s l sc r v e x) : joinParts l sc r v e x = s ↔ p.extensions = [] := by
  obtain ⟨n5, rfl, rfl, rfl, rfl, rfl, rfl⟩ := runParts_eq hs hp h
  obtain ⟨a1, a2, a3, a4, a5, a6, _⟩ := C69_normalLangTag max ⟨s⟩ hs
  obtain ⟨⟨l⟩, l1, l2⟩ := gives_text Language.source (a1.symm.trans h.language)
  obtain ⟨⟨v⟩, v1, v2⟩ := gives_text Variants.source (a4.symm.trans h.variants)
  obtain ⟨⟨e⟩, e1, e2⟩ := gives_text Extensions.source (a5.symm.trans h.extensions)
  have n4 : p.afterRegion ≠ [] := by unfold Parts.afterRegion; simp [n5]
  have n3 : p.afterScript ≠ [] := by unfold Parts.afterScript; simp [n4]
  have n2 : p.afterLanguage ≠ [] := by unfold Parts.afterLanguage; simp [n3]
  have s1 := (C17_script_partial ⟨s⟩ p hp).1 n2
  have r1 := (C18_region_partial ⟨s⟩ p hp).1 n3
  by_cases he : p.extensions = []
  · have x1 := (C21_privateUse_partial ⟨s⟩ p hp).1 n4 he
    have := C23_reassemble_partial ⟨s⟩ p hp _ _ _ _ _ _ l1 s1 r1 v1 e1 x1
    rw [if_pos he, ← this]
    have l2 : l = p.language := l2
    have v2 : v = _ := v2
    have e2 : e = _ := e2
    subst l2 v2 e2
    have o : ∀ {α : Type} (mk : Text → α) (f : α → Text) (_ : ∀ t, f (mk t) = t) (o : Option Text), (o.map mk).map f = o := by
      intro α mk f hf o; cases o <;> simp [hf]
    simp only [joinParts, reassemble, o Script.mk (·.str) (fun _ => rfl), o Region.mk (·.str) (fun _ => rfl),
      o PrivateUse.mk (·.str) (fun _ => rfl)]
  · have x1 := (C21_privateUse_partial ⟨s⟩ p hp).2.1 he
    have := C23_reassemble_partial ⟨s⟩ p hp _ _ _ _ _ _ l1 s1 r1 v1 e1 x1
    rw [if_neg he, ← this]
    have l2 : l = p.language := l2
    have v2 : v = _ := v2
    have e2 : e = _ := e2
    subst l2 v2 e2
    have o : ∀ {α : Type} (mk : Text → α) (f : α → Text) (_ : ∀ t, f (mk t) = t) (o : Option Text), (o.map mk).map f = o := by
      intro α mk f hf o; cases o <;> simp [hf]
    simp only [joinParts, reassemble, o Script.mk (·.str) (fun _ => rfl), o Region.mk (·.str) (fun _ => rfl), Option.map_some]

example : RunParts 100 (ascii "en-a-bbb-x-foo") (ascii "en") none none [] (ascii "a-bbb") (some (ascii "a-bbb-x-foo")) :=
  runParts_of (by decide +kernel) decomposes_en_a_x (by decide +kernel)

/-- C55: `NormalLangTag::new` accepts what the reader reads; `language()` and, if a private use part and no extension are there, all accessors return what
it found, by the text of the crate. -/
theorem C55_source (max : Nat) (s : Text) (hs : s.length + 1 ≤ max) :
    (RunAccepts max "NormalLangTag" s ↔ (Parser.parse s).isSome) ∧
    ∀ p, Parser.parse s = some p →
      run max ["NormalLangTag"] "language" [tag "NormalLangTag" s] = returns (tag "Language" p.language) ∧
      (p.extensions = [] → p.privateUse ≠ none →
        RunParts max s p.language p.script p.region (joinDash p.variants) (joinDash p.extensions) p.privateUse) ∧
      ∀ (l : Text) (sc r : Option Text) (v e : Text) (x : Option Text), RunParts max s l sc r v e x →
        l = p.language ∧ sc = p.script ∧ r = p.region ∧ v = joinDash p.variants ∧ e = joinDash p.extensions := by
  refine ⟨by rw [runAccepts_accepts NormalLangTag.source is_NormalLangTag hs]; exact C55_accepts s, fun p hp => ?_⟩
  have hp := (C55_parse s p).mp hp
  refine ⟨C16_source max s hs p hp, fun he hx => ?_, fun l sc r v e x h => ?_⟩
  · have := runParts_of hs hp (by unfold Parts.afterVariants; cases hq : p.privateUse <;> simp_all)
    rwa [if_pos he] at this
  · obtain ⟨_, h1, h2, h3, h4, h5, _⟩ := runParts_eq hs hp h
    exact ⟨h1, h2, h3, h4, h5⟩

example : (Parser.parse (ascii "zh-yue-Hant-HK-1abc-abcde-x-y-zzz")).map (fun p => (p.extensions, p.privateUse)) =
    some ([], some (ascii "x-y-zzz")) := by decide +kernel

/-! ## C41: composing -/

/-- C41: accepted parts, joined, are an accepted tag; `language()` of it is the given language, and the other accessors, if they all return, return the
given parts, `private_use()` provided there is no extension; they do return if there is an extension or a private use part.  By the text of the crate. -/
theorem C41_source (max : Nat) (l : Text) (sc r : Option Text) (v e : Text) (x : Option Text) (hs : (joinParts l sc r v e x).length + 1 ≤ max)
    (hl : RunAccepts max "Language" l) (hsc : ∀ a ∈ sc, RunAccepts max "Script" a) (hr : ∀ a ∈ r, RunAccepts max "Region" a)
    (hv : RunAccepts max "Variants" v) (he : RunAccepts max "Extensions" e) (hx : ∀ a ∈ x, RunAccepts max "PrivateUse" a) :
    RunAccepts max "NormalLangTag" (joinParts l sc r v e x) ∧ RunAccepts max "LangTag" (joinParts l sc r v e x) ∧
    run max ["NormalLangTag"] "language" [tag "NormalLangTag" (joinParts l sc r v e x)] = returns (tag "Language" l) ∧
    (∀ l' sc' r' v' e' x', RunParts max (joinParts l sc r v e x) l' sc' r' v' e' x' →
      l' = l ∧ sc' = sc ∧ r' = r ∧ v' = v ∧ e' = e ∧ (e = [] → x' = x)) ∧
    (e ≠ [] ∨ x ≠ none → ∃ l' sc' r' v' e' x', RunParts max (joinParts l sc r v e x) l' sc' r' v' e' x') := by
  have hmem : ∀ u ∈ l :: (sc.toList ++ r.toList ++ [v, e].filter (· ≠ []) ++ x.toList), u.length + 1 ≤ max := fun u hu =>
    Nat.le_trans (Nat.succ_le_succ (length_le_joinDash hu)) hs
  have hv' : v.length + 1 ≤ max := by
    by_cases h : v = []
    · subst h; exact Nat.le_trans (Nat.succ_le_succ (Nat.zero_le _)) hs
    · exact hmem v (by simp [h])
  have he' : e.length + 1 ≤ max := by
    by_cases h : e = []
    · subst h; exact Nat.le_trans (Nat.succ_le_succ (Nat.zero_le _)) hs
    · exact hmem e (by simp [h])
  have hl := (runAccepts_iff C04_source.1 (hmem l (by simp))).mp hl
  have hsc : ∀ a ∈ sc, Grammar.script.Matches a := fun a ha => (runAccepts_iff C05_source.1 (hmem a (by simp [Option.mem_def.mp ha]))).mp (hsc a ha)
  have hr : ∀ a ∈ r, Grammar.region.Matches a := fun a ha => (runAccepts_iff C05_source.2 (hmem a (by simp [Option.mem_def.mp ha]))).mp (hr a ha)
  have hx : ∀ a ∈ x, Grammar.privateuse.Matches a := fun a ha =>
    (runAccepts_iff C03_source.1 (hmem a (by simp [Option.mem_def.mp ha]))).mp (hx a ha)
  have hv := (runAccepts_iff C06_source.2 hv').mp hv
  have he := (runAccepts_iff C07_source.2.2 he').mp he
  have ej : joinParts l sc r v e x = reassemble ⟨l⟩ (sc.map Script.mk) (r.map Region.mk) ⟨v⟩ ⟨e⟩ (x.map PrivateUse.mk) := by
    have o : ∀ {α : Type} (mk : Text → α) (f : α → Text) (_ : ∀ t, f (mk t) = t) (o : Option Text), (o.map mk).map f = o := by
      intro α mk f hf o; cases o <;> simp [hf]
    simp only [joinParts, reassemble, o Script.mk (·.str) (fun _ => rfl), o Region.mk (·.str) (fun _ => rfl), o PrivateUse.mk (·.str) (fun _ => rfl)]
  obtain ⟨h1, h2, p, hp, p1, p2, p3, p4, p5, p6⟩ := C41_compose ⟨l⟩ (sc.map Script.mk) (r.map Region.mk) ⟨v⟩ ⟨e⟩ (x.map PrivateUse.mk)
    (constructed_of_matches is_Language (fun ⟨_⟩ ⟨_⟩ h => congrArg Language.mk h) hl)
    (fun a ha => by
      obtain ⟨u, hu, rfl⟩ := Option.map_eq_some_iff.mp ha
      exact constructed_of_matches is_Script (fun ⟨_⟩ ⟨_⟩ h => congrArg Script.mk h) (hsc u hu))
    (fun a ha => by
      obtain ⟨u, hu, rfl⟩ := Option.map_eq_some_iff.mp ha
      exact constructed_of_matches is_Region (fun ⟨_⟩ ⟨_⟩ h => congrArg Region.mk h) (hr u hu))
    (constructed_of_matches is_Variants (fun ⟨_⟩ ⟨_⟩ h => congrArg Variants.mk h) hv)
    (constructed_of_matches is_Extensions (fun ⟨_⟩ ⟨_⟩ h => congrArg Extensions.mk h) he)
    (fun a ha => by
      obtain ⟨u, hu, rfl⟩ := Option.map_eq_some_iff.mp ha
      exact constructed_of_matches is_PrivateUse (fun ⟨_⟩ ⟨_⟩ h => congrArg PrivateUse.mk h) (hx u hu))
  rw [← ej] at h1 h2 hp
  have p1 : p.language = l := p1
  have p2 : p.script = sc := by rw [p2]; cases sc <;> rfl
  have p3 : p.region = r := by rw [p3]; cases r <;> rfl
  have p4 : joinDash p.variants = v := p4
  have p5 : joinDash p.extensions = e := p5
  have p6 : p.privateUse = x := by rw [p6]; cases x <;> rfl
  have hE : e = [] ↔ p.extensions = [] := by
    rw [← p5]
    refine ⟨fun h => ?_, fun h => by rw [h]; rfl⟩
    cases hc : p.extensions with
    | nil => rfl
    | cons u us =>
      have := length_extension (hp.1.extensions u (by simp [hc]))
      have hu : u.length ≤ (joinDash p.extensions).length := length_le_joinDash (by simp [hc])
      rw [h] at hu
      exact absurd (Nat.le_trans this hu) (by decide)
  refine ⟨(runAccepts_accepts NormalLangTag.source is_NormalLangTag hs).mpr h1, (runAccepts_accepts LangTag.source is_LangTag hs).mpr h2, ?_, ?_, ?_⟩
  · rw [← p1]; rw [p1]; rw [C16_source max _ hs p hp, p1]
  · intro l' sc' r' v' e' x' h
    obtain ⟨_, q1, q2, q3, q4, q5, q6⟩ := runParts_eq hs hp h
    refine ⟨q1.trans p1, q2.trans p2, q3.trans p3, q4.trans p4, q5.trans p5, fun h => ?_⟩
    rw [q6, if_pos (hE.mp h), p6]
  · intro h
    refine ⟨_, _, _, _, _, _, runParts_of hs hp ?_⟩
    unfold Parts.afterVariants
    rcases h with h | h
    · simp [mt hE.mpr h]
    · rw [p6]
      cases x with
      | none => exact absurd rfl h
      | some x => simp

example : RunAccepts 100 "Language" (ascii "zh-yue") ∧ RunAccepts 100 "Variants" [] ∧ RunAccepts 100 "Extensions" (ascii "a-bbb-cc") :=
  ⟨(runAccepts_accepts Language.source is_Language (by decide +kernel)).mpr (accepts_of_isOk (by decide +kernel)),
   (runAccepts_accepts Variants.source is_Variants (by decide +kernel)).mpr (accepts_of_isOk (by decide +kernel)),
   (runAccepts_accepts Extensions.source is_Extensions (by decide +kernel)).mpr (accepts_of_isOk (by decide +kernel))⟩

end Langtag.Props
