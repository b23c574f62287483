import Verif.Proof.Extend
import Verif.Props.Order
import Verif.Props.Compose

/-! # C63: filtering tags by a range -/

set_option autoImplicit false

namespace Langtag.Props
open Langtag.Spec Langtag.Model Langtag.Proof

theorem basicMatches_of_prefix {u v : Text} {us vs : List Text} (hu : u = joinDash us) (hv : v = joinDash vs) (hne : us ≠ [])
    (h : us <+: vs) : BasicMatches u v := by
  obtain ⟨t, rfl⟩ := h
  subst hu hv
  by_cases ht : t = []
  · left; simp [ht, CaseEq]
  · right
    exact ⟨joinDash t, by rw [joinDash_append hne ht]; rfl⟩

theorem BasicMatches.of_caseEq {u v w : Text} (h : BasicMatches u v) (hc : CaseEq v w) : BasicMatches u w := by
  rcases h with h | ⟨r, h⟩
  · exact Or.inl (h.trans hc)
  · exact Or.inr ⟨r, h.trans hc⟩

/-- C63 for tags that continue the range exactly. -/
theorem filter_exact (a b : NormalLangTag) (ha : Constructed a) (hb : Constructed b) (rest : Text) (h : b.str = a.str ++ dash :: rest) :
    (∃ l l', a.language = .ok l ∧ b.language = .ok l' ∧ l'.primary = l.primary ∧ BasicMatches l.str l'.str) ∧
    (∀ s, a.script = .ok (some s) → b.script = .ok (some s) ∧ b.language = a.language) ∧
    (∀ r, a.region = .ok (some r) → b.region = .ok (some r) ∧ b.script = a.script ∧ b.language = a.language) ∧
    (∀ v, a.variants = .ok v → v.str ≠ [] → ∃ v', b.variants = .ok v' ∧ BasicMatches v.str v'.str ∧ b.region = a.region) ∧
    (∀ e, a.extensions = .ok e → e.str ≠ [] → ∃ e', b.extensions = .ok e' ∧ BasicMatches e.str e'.str ∧ b.variants = a.variants) ∧
    (∀ x, a.privateUse = .ok (some x) → ∃ x', b.privateUse = .ok (some x') ∧ BasicMatches x.str x'.str) := by
  obtain ⟨p, hp⟩ := (normal_has_parts a).mp ha
  obtain ⟨q, hq⟩ := (normal_has_parts b).mp hb
  have he : Extends p q := extends_of_subtags hp.1 hq.1 (R := subtags rest) (by rw [hp.2, hq.2, h, subtags_append_dash])
  have aL := C16_language a p hp
  have bL := C16_language b q hq
  have ne1 {p q : Parts} (hs : p.script = q.script) (h : p.script ≠ none) : q.afterLanguage ≠ [] := by
    rw [hs] at h
    cases hq : q.script with
    | none => exact absurd hq h
    | some s => simp [Parts.afterLanguage, hq]
  have ne2 {p q : Parts} (hs : p.region = q.region) (h : p.region ≠ none) : q.afterScript ≠ [] := by
    rw [hs] at h
    cases hq : q.region with
    | none => exact absurd hq h
    | some s => simp [Parts.afterScript, hq]
  have up1 {p : Parts} (h : p.afterScript ≠ []) : p.afterLanguage ≠ [] := by simp [Parts.afterLanguage, h]
  have up2 {p : Parts} (h : p.afterRegion ≠ []) : p.afterScript ≠ [] := by simp [Parts.afterScript, h]
  have up3 {p : Parts} (h : p.afterVariants ≠ []) : p.afterRegion ≠ [] := by simp [Parts.afterRegion, h]
  refine ⟨⟨_, _, aL, bL, ?_, ?_⟩, fun s hs => ?_, fun r hr => ?_, fun v hv hne => ?_, fun e hex hne => ?_, fun x hx => ?_⟩
  · obtain ⟨u, us, e, _⟩ := subtags_language hp.1.language
    obtain ⟨u', us', e', _⟩ := subtags_language hq.1.language
    have hl := he.language
    rw [e, e'] at hl
    obtain rfl := (List.cons_prefix_cons.mp hl).1
    have h1 := (C25_split ⟨p.language⟩ u us e).1
    have h2 := (C25_split ⟨q.language⟩ u us' e').1
    cases hx : (Language.mk p.language).primary
    cases hy : (Language.mk q.language).primary
    rw [hx] at h1; rw [hy] at h2
    simp only at h1 h2
    rw [h1, h2]
  · exact basicMatches_of_prefix (joinDash_subtags _).symm (joinDash_subtags _).symm (subtags_ne_nil _) he.language
  · rw [eq_mk hp, script_eq hp.1] at hs
    split at hs <;> rename_i hn
    · cases hs
    · have hs' := Except.ok.inj hs
      have hps : p.script ≠ none := by intro hh; simp [hh] at hs'
      have hqs := he.script (Or.inl hps)
      refine ⟨?_, by rw [aL, bL, he.languageEq hn]⟩
      rw [eq_mk hq, script_eq hq.1, if_neg (ne1 hqs.symm hps), hqs, hs']
  · rw [eq_mk hp, region_eq hp.1] at hr
    split at hr <;> rename_i hn
    · cases hr
    · have hr' := Except.ok.inj hr
      have hps : p.region ≠ none := by intro hh; simp [hh] at hr'
      have hqs := he.region (Or.inl hps)
      have hn' := ne2 hqs.symm hps
      refine ⟨?_, ?_, by rw [aL, bL, he.languageEq (up1 hn)]⟩
      · rw [eq_mk hq, region_eq hq.1, if_neg hn', hqs, hr']
      · rw [eq_mk hp, eq_mk hq, script_eq hp.1, script_eq hq.1, if_neg (up1 hn), if_neg (up1 hn'), he.script (Or.inr hn)]
  · rw [eq_mk hp, variants_eq hp.1] at hv
    split at hv <;> rename_i hn
    · cases hv
    · obtain rfl := Except.ok.inj hv
      have hpv : p.variants ≠ [] := by rintro hh; simp [hh, joinDash] at hne
      have hqv : q.variants ≠ [] := by
        intro hh
        have := he.variants
        rw [hh, List.prefix_nil] at this
        exact hpv this
      have hn' : q.afterRegion ≠ [] := by simp [Parts.afterRegion, hqv]
      refine ⟨_, by rw [eq_mk hq, variants_eq hq.1, if_neg hn'], basicMatches_of_prefix rfl rfl hpv he.variants, ?_⟩
      rw [eq_mk hp, eq_mk hq, region_eq hp.1, region_eq hq.1, if_neg (up2 hn), if_neg (up2 hn'), he.region (Or.inr hn)]
  · rw [eq_mk hp, extensions_eq hp.1] at hex
    split at hex <;> rename_i hn
    · cases hex
    · obtain rfl := Except.ok.inj hex
      have hpe : p.extensions ≠ [] := by rintro hh; simp [hh, joinDash] at hne
      have hpe' : p.extensions.flatMap subtags ≠ [] := flatMap_subtags_ne_nil hpe
      have hqe : q.extensions ≠ [] := by
        intro hh
        have := he.extensions
        rw [hh, List.flatMap_nil, List.prefix_nil] at this
        exact hpe' this
      have hn' : q.afterVariants ≠ [] := by simp [Parts.afterVariants, hqe]
      refine ⟨_, by rw [eq_mk hq, extensions_eq hq.1, if_neg hn'],
        basicMatches_of_prefix (joinDash_flatMap_subtags _).symm (joinDash_flatMap_subtags _).symm hpe' he.extensions, ?_⟩
      rw [eq_mk hp, eq_mk hq, variants_eq hp.1, variants_eq hq.1, if_neg (up3 hn), if_neg (up3 hn'), he.variantsEq hn]
  · rw [eq_mk hp, privateUse_eq hp.1] at hx
    split at hx <;> rename_i hn
    · cases hx
    · split at hx <;> rename_i hv
      · cases hx
      · obtain rfl := Option.some.inj (Except.ok.inj hx)
        have hpv : p.afterVariants.flatMap subtags ≠ [] := flatMap_subtags_ne_nil hv
        have hqv : q.afterVariants ≠ [] := by
          intro hh
          have := he.afterVariants
          rw [hh, List.flatMap_nil, List.prefix_nil] at this
          exact hpv this
        exact ⟨_, by rw [eq_mk hq, privateUse_eq hq.1, if_neg (up3 hqv), if_neg hqv],
          basicMatches_of_prefix (joinDash_flatMap_subtags _).symm (joinDash_flatMap_subtags _).symm hpv he.afterVariants⟩

/-- C63: a normal tag that a normal tag `a` matches as a range (basic filtering, RFC 4647 §3.3.1) has the primary language of `a`, and the
script, region, variants, extensions and private use part of `a`, where `a` has them: the same script and region; the variants, the
extensions and the private use part possibly continued.  What comes before a component of `a` is the same in both. -/
theorem C63_filter (a b : NormalLangTag) (ha : Constructed a) (hb : Constructed b) (h : BasicMatches a.str b.str) :
    (∃ l l', a.language = .ok l ∧ b.language = .ok l' ∧ Same l.primary l'.primary ∧ BasicMatches l.str l'.str) ∧
    (∀ s, a.script = .ok (some s) → (∃ s', b.script = .ok (some s') ∧ Same s s') ∧ SameResult Same a.language b.language) ∧
    (∀ r, a.region = .ok (some r) → (∃ r', b.region = .ok (some r') ∧ Same r r') ∧ SameResult SameOption a.script b.script ∧
      SameResult Same a.language b.language) ∧
    (∀ v, a.variants = .ok v → v.str ≠ [] → (∃ v', b.variants = .ok v' ∧ BasicMatches v.str v'.str) ∧
      SameResult SameOption a.region b.region) ∧
    (∀ e, a.extensions = .ok e → e.str ≠ [] → (∃ e', b.extensions = .ok e' ∧ BasicMatches e.str e'.str) ∧
      SameResult Same a.variants b.variants) ∧
    (∀ x, a.privateUse = .ok (some x) → ∃ x', b.privateUse = .ok (some x') ∧ BasicMatches x.str x'.str) := by
  -- a tag equal to `b` that is `a` or continues it
  have key : ∃ c : NormalLangTag, Constructed c ∧ CaseEq c.str b.str ∧ (c = a ∨ ∃ rest, c.str = a.str ++ dash :: rest) := by
    rcases h with h | ⟨rest, h⟩
    · exact ⟨a, ha, h, Or.inl rfl⟩
    · refine ⟨⟨a.str ++ dash :: rest⟩, constructed_normal ((matches_caseEq okRe_langtag h).mpr ?_), h, Or.inr ⟨rest, rfl⟩⟩
      exact matches_of_constructed is_NormalLangTag hb
  obtain ⟨c, hc, hcb, hac⟩ := key
  obtain ⟨k1, k2, k3, k4, k5, k6⟩ := C38_normal c b hc hb ((eq_true_iff c b).mpr hcb)
  have main : (∃ l l', a.language = .ok l ∧ c.language = .ok l' ∧ l'.primary = l.primary ∧ BasicMatches l.str l'.str) ∧
      (∀ s, a.script = .ok (some s) → c.script = .ok (some s) ∧ c.language = a.language) ∧
      (∀ r, a.region = .ok (some r) → c.region = .ok (some r) ∧ c.script = a.script ∧ c.language = a.language) ∧
      (∀ v, a.variants = .ok v → v.str ≠ [] → ∃ v', c.variants = .ok v' ∧ BasicMatches v.str v'.str ∧ c.region = a.region) ∧
      (∀ e, a.extensions = .ok e → e.str ≠ [] → ∃ e', c.extensions = .ok e' ∧ BasicMatches e.str e'.str ∧ c.variants = a.variants) ∧
      (∀ x, a.privateUse = .ok (some x) → ∃ x', c.privateUse = .ok (some x') ∧ BasicMatches x.str x'.str) := by
    rcases hac with rfl | ⟨rest, hr⟩
    · obtain ⟨p, hp⟩ := (normal_has_parts c).mp hc
      have hL := C16_language c p hp
      refine ⟨⟨_, _, hL, hL, rfl, Or.inl rfl⟩, fun s hs => ⟨hs, rfl⟩, fun r hr => ⟨hr, rfl, rfl⟩,
        fun v hv _ => ⟨v, hv, Or.inl rfl, rfl⟩, fun v hv _ => ⟨v, hv, Or.inl rfl, rfl⟩, fun x hx => ⟨x, hx, Or.inl rfl⟩⟩
    · exact filter_exact a c ha hc rest hr
  obtain ⟨⟨l, l', h1, h1', hpr, hbm⟩, m2, m3, m4, m5, m6⟩ := main
  have some_ok {T : Type} [Compare T] {x : T} {r r' : Rust (Option T)} (h : r = .ok (some x)) (hs : SameResult SameOption r r') :
      ∃ y, r' = .ok (some y) ∧ Same x y := by
    subst h
    match r', hs with
    | .ok (some y), hs => exact ⟨y, rfl, hs⟩
  have ok_ok {T : Type} [Compare T] {x : T} {r r' : Rust T} (h : r = .ok x) (hs : SameResult Same r r') :
      ∃ y, r' = .ok y ∧ Same x y := by
    subst h
    match r', hs with
    | .ok y, hs => exact ⟨y, rfl, hs⟩
  refine ⟨?_, fun s hs => ?_, fun r hr => ?_, fun v hv hne => ?_, fun e he hne => ?_, fun x hx => ?_⟩
  · obtain ⟨y, hy, hsame⟩ := ok_ok h1' k1
    refine ⟨l, y, h1, hy, ?_, BasicMatches.of_caseEq hbm ((eq_true_iff l' y).mp hsame)⟩
    rw [← hpr]
    exact (C38_language l' y hsame).1
  · obtain ⟨m, n⟩ := m2 s hs
    rw [← n]
    exact ⟨some_ok m k2, k1⟩
  · obtain ⟨m, n, o⟩ := m3 r hr
    rw [← n, ← o]
    exact ⟨some_ok m k3, k2, k1⟩
  · obtain ⟨v', m, n, o⟩ := m4 v hv hne
    obtain ⟨y, hy, hs⟩ := ok_ok m k4
    rw [← o]
    exact ⟨⟨y, hy, BasicMatches.of_caseEq n ((eq_true_iff v' y).mp hs)⟩, k3⟩
  · obtain ⟨v', m, n, o⟩ := m5 e he hne
    obtain ⟨y, hy, hs⟩ := ok_ok m k5
    rw [← o]
    exact ⟨⟨y, hy, BasicMatches.of_caseEq n ((eq_true_iff v' y).mp hs)⟩, k4⟩
  · obtain ⟨x', m, n⟩ := m6 x hx
    obtain ⟨y, hy, hs⟩ := some_ok m k6
    exact ⟨y, hy, BasicMatches.of_caseEq n ((eq_true_iff x' y).mp hs)⟩

-- the hypotheses are met, and the conclusion says something of each component
example : Constructed (NormalLangTag.mk (ascii "zh-hant-HK-1abc")) ∧ Constructed (NormalLangTag.mk (ascii "zh-Hant-hk-1abc-abcde-x-foo")) ∧
    BasicMatches (ascii "zh-hant-HK-1abc") (ascii "zh-Hant-hk-1abc-abcde-x-foo") :=
  ⟨⟨ascii "zh-hant-HK-1abc", by decide +kernel⟩, ⟨ascii "zh-Hant-hk-1abc-abcde-x-foo", by decide +kernel⟩,
    Or.inr ⟨ascii "abcde-x-foo", by unfold CaseEq; decide +kernel⟩⟩
example : (NormalLangTag.mk (ascii "zh-hant-HK-1abc")).script = .ok (some ⟨ascii "hant"⟩) := by decide +kernel
-- a tag that is not normal can match, and has no components
example : BasicMatches (ascii "en-GB") (ascii "en-GB-oed") ∧ (LangTag.mk (ascii "en-GB-oed")).language = .ok none :=
  ⟨Or.inr ⟨ascii "oed", by unfold CaseEq; decide +kernel⟩, by decide +kernel⟩

end Langtag.Props
