import Verif.Source.ClientCalls

/-! # The public functions of the tag types preserve the invariant -/

set_option autoImplicit false

namespace Langtag.Client
open Langtag.Model hiding Singleton
open Langtag.Source Langtag.Spec Langtag.Props
open Langtag.Proof hiding run

variable {max : Nat}

/-! ## `LangTag` -/

theorem langTag_privateUse_textOf {t : LangTag} {x : PrivateUse} (hx : t.privateUse = .ok (some x)) : TextOf "PrivateUse" x.str := by
  unfold LangTag.privateUse LangTag.asNormal at hx
  by_cases hm : Grammar.langtag.Matches t.str
  · obtain ⟨p, hp⟩ := (matches_langtag _).mp hm
    rw [normal_new.1 hm] at hx
    exact privateUse_textOf (t := ⟨t.str⟩) hp hx
  · rw [normal_new.2 hm] at hx
    cases hx

theorem typedOk_of_holds {ty : TypedLangTag} {s : Text} (hs : s.length + 1 ≤ max) (h : Holds ty s) : TypedOk max ty := by
  rcases ty with t | t | g
  · obtain ⟨e, h⟩ := h
    exact ⟨by rw [e]; exact (accepts_iff is_NormalLangTag _).mp h, by rw [e]; exact hs⟩
  · obtain ⟨e, h⟩ := h
    exact ⟨by rw [e]; exact textOf rfl ((accepts_iff is_PrivateUse _).mp h), by rw [e]; exact hs⟩
  · trivial

theorem langTag_slice (t : LangTag) :
    (∀ e, t.script = .error e → e = .slice) ∧ (∀ e, t.region = .error e → e = .slice) ∧ (∀ e, t.variants = .error e → e = .slice) ∧
    (∀ e, t.extensions = .error e → e = .slice) ∧ (∀ e, t.privateUse = .error e → e = .slice) ∧
    (∀ e, t.privateUseSubtags = .error e → e = .slice) := by
  have k6 : ∀ e, t.privateUse = .error e → e = .slice := by
    unfold LangTag.privateUse LangTag.asNormal
    by_cases hm : Grammar.langtag.Matches t.str
    · obtain ⟨p, hp⟩ := (matches_langtag _).mp hm
      rw [normal_new.1 hm]
      exact (normal_slice (t := ⟨t.str⟩) hp).2.2.2.2.1
    · rw [normal_new.2 hm]
      intro e he
      cases he
  refine ⟨?_, ?_, ?_, ?_, k6, ?_⟩
  case refine_5 =>
    intro e he
    unfold LangTag.privateUseSubtags at he
    cases hp : t.privateUse with
    | error e' => rw [hp] at he; cases he; exact k6 _ hp
    | ok o => rw [hp] at he; cases o <;> cases he
  all_goals
    simp only [LangTag.script, LangTag.region, LangTag.variants, LangTag.extensions, LangTag.asNormal]
  all_goals
    by_cases hm : Grammar.langtag.Matches t.str
    · obtain ⟨p, hp⟩ := (matches_langtag _).mp hm
      rw [normal_new.1 hm]
      obtain ⟨q2, q3, q4, q5, _⟩ := normal_slice (t := ⟨t.str⟩) hp
      assumption
    · rw [normal_new.2 hm]
      intro e he
      cases he

theorem langTag_calls (hmax : 12 ≤ max) {F : PubFn}
    (hF : F ∈ methods "LangTag" ["language", "script", "region", "variants", "extensions", "private_use", "private_use_subtags", "is_normal",
      "is_private_use", "is_grandfathered", "as_normal", "as_private_use", "as_grandfathered", "kind", "as_typed"])
    {args : List Val} (hf : FitAll F.params args) (ha : ∀ a ∈ args, Sound max a) : Well max F args := by
  refine methods_well (fun v hv hn f hf => ?_) hF hf ha
  obtain ⟨s, rfl, ht, hs⟩ := sound_text (by decide) hv hn
  have hm : Grammar.languageTag.Matches s := matches_of_textOf rfl (by decide) (by decide) ht
  have hc : Constructed (LangTag.mk s) := constructed_of_matches is_LangTag (fun ⟨_⟩ ⟨_⟩ h => congrArg LangTag.mk h) hm
  obtain ⟨r1, r2, r3, r4, r5, r6, r7, r8, r9, r10, r11, r12, r13, r14, r15⟩ := C69_langTag max ⟨s⟩ hs
  obtain ⟨v1, v2, v3, v4, v5, _⟩ := C24_langTag_partial ⟨s⟩
  obtain ⟨l1, l2, l3, l4, l5, l6⟩ := C67_langTag ⟨s⟩ hc
  obtain ⟨n1, n2, n3⟩ := C22_langTag_partial ⟨s⟩ hc
  obtain ⟨q2, q3, q4, q5, q6, q7⟩ := langTag_slice ⟨s⟩
  obtain ⟨ty, ht1, ht2, ht3⟩ := C10_asTyped ⟨s⟩ hc
  obtain ⟨_, _, g1, g2, _⟩ := C56_langTag ⟨s⟩ hc
  have key {k : Parts → List Text} {α : Type} {r : Rust α} {f : String} (hk : ∀ p l, (f, l) ∈ searched p ↔ l = k p)
      (h1 : ¬ Accepts NormalLangTag s → Returns r) (h : ∀ p, Decomposes s p → (Returns r ↔ k p ≠ [])) :
      Returns r ↔ ¬ Panics ⟨["LangTag"], f, [.of "LangTag"]⟩ [tag "LangTag" s] := by
    rw [panics_iff (by decide) hk]
    exact returns_iff (fun h => h1 fun h' => h ((accepts_iff is_NormalLangTag _).mp h')) h
  simp only [List.mem_cons, List.not_mem_nil, or_false] at hf
  rcases hf with rfl | rfl | rfl | rfl | rfl | rfl | rfl | rfl | rfl | rfl | rfl | rfl | rfl | rfl | rfl
  · refine well_ok r1 (fun o ho => sound_option fun x hx => ?_) n1 (by decide)
    subst hx
    refine sound_newtype (g := Grammar.language) (by decide) rfl (rfl : val x = tag "Language" x.str) ?_ ?_
    · exact (accepts_iff is_Language _).mp (v1 x ho)
    · have := RunOf.length_le (l1 x ho).1; simp at this; omega
  · refine well_gives r2 (fun o ho => sound_option fun x hx => ?_) (key (k := Parts.afterLanguage) (by intro p l; simp [searched])
      (fun h => (n2 h).1) fun p hp => (n3 p hp).1) q2
    subst hx
    refine sound_newtype (g := Grammar.script) (by decide) rfl (rfl : val x = tag "Script" x.str) ?_ ?_
    · exact (accepts_iff is_Script _).mp (v2 x ho)
    · have := RunOf.length_le (l2 x ho); simp at this; omega
  · refine well_gives r3 (fun o ho => sound_option fun x hx => ?_) (key (k := Parts.afterScript) (by intro p l; simp [searched])
      (fun h => (n2 h).2.1) fun p hp => (n3 p hp).2.1) q3
    subst hx
    refine sound_newtype (g := Grammar.region) (by decide) rfl (rfl : val x = tag "Region" x.str) ?_ ?_
    · exact (accepts_iff is_Region _).mp (v3 x ho)
    · have := RunOf.length_le (l3 x ho); simp at this; omega
  · refine well_gives r4 (fun x ho => ?_) (key (k := Parts.afterRegion) (by intro p l; simp [searched])
      (fun h => (n2 h).2.2.1) fun p hp => (n3 p hp).2.2.1) q4
    refine sound_newtype (g := Grammar.variants) (by decide) rfl (rfl : val x = tag "Variants" x.str) ?_ ?_
    · exact (accepts_iff is_Variants _).mp (v4 x ho)
    · have := RunOf.length_le (l4 x ho); simp at this; omega
  · refine well_gives r5 (fun x ho => ?_) (key (k := Parts.afterVariants) (by intro p l; simp [searched])
      (fun h => (n2 h).2.2.2.1) fun p hp => (n3 p hp).2.2.2.1) q5
    refine sound_newtype (g := Grammar.extensions) (by decide) rfl (rfl : val x = tag "Extensions" x.str) ?_ ?_
    · exact (accepts_iff is_Extensions _).mp (v5 x ho)
    · have := RunOf.length_le (l5 x ho); simp at this; omega
  · refine well_gives r6 (fun o ho => sound_option fun x hx => ?_) (key (k := Parts.afterRegion) (by intro p l; simp [searched])
      (fun h => (n2 h).2.2.2.2.1) fun p hp => (n3 p hp).2.2.2.2.1) q6
    subst hx
    refine .text "PrivateUse" (by decide) x.str (langTag_privateUse_textOf ho) ?_
    have := RunOf.length_le (l6 x ho).1; simp at this; omega
  · refine well_gives r7 (fun it ho => ?_) (key (k := Parts.afterRegion) (by intro p l; simp [searched])
      (fun h => (n2 h).2.2.2.2.2) fun p hp => (n3 p hp).2.2.2.2.2) q7
    unfold LangTag.privateUseSubtags at ho
    cases hx : LangTag.privateUse ⟨s⟩ with
    | error e => rw [hx] at ho; cases ho
    | ok o =>
      rw [hx] at ho
      cases o with
      | none => cases ho; exact privateUseIter_empty hmax
      | some x =>
        cases ho
        refine .privateUseIter _ (privateUse_iterOk hmax (langTag_privateUse_textOf hx) ?_)
        have := RunOf.length_le (l6 x hx).1; simp at this; omega
  · exact well_val r8 (.bool _) (by decide)
  · exact well_val r9 (.bool _) (by decide)
  · exact well_ok r10 (fun b _ => .bool b) g1 (by decide)
  · refine well_val r11 (sound_option fun n hn => ?_) (by decide)
    unfold LangTag.asNormal at hn
    by_cases hl : Grammar.langtag.Matches s
    · rw [normal_new.1 hl] at hn
      cases hn
      exact .text "NormalLangTag" (by decide) s (textOf rfl hl) hs
    · rw [normal_new.2 hl] at hn
      cases hn
  · refine well_val r12 (sound_option (α := PrivateUse) fun n hn => ?_) (by decide)
    unfold LangTag.asPrivateUse at hn
    by_cases hl : Grammar.privateuse.Matches s
    · rw [privateUse_new.1 hl] at hn
      cases hn
      exact .text "PrivateUse" (by decide) s (textOf rfl hl) hs
    · rw [privateUse_new.2 hl] at hn
      cases hn
  · exact well_ok r13 (fun o _ => sound_option fun g _ => .grandfathered g) g2 (by decide)
  · exact well_ok r14 (fun k _ => .kind k) ⟨_, ht2⟩ (by decide)
  · refine well_ok r15 (fun t ht => ?_) ⟨_, ht1⟩ (by decide)
    rw [ht1] at ht
    cases ht
    exact .typed ty (typedOk_of_holds hs ht3)

/-! ## `GrandfatheredLangTag` -/

theorem grandfathered_result (s : Text) (r : Except Text GrandfatheredLangTag) (h : GrandfatheredLangTag.new s = .ok r) :
    (∃ g, r = .ok g) ∨ r = .error s := by
  by_cases hg : ∃ g, CaseEq s (ascii (registered g))
  · obtain ⟨g, hg⟩ := hg
    rw [(C12_new_ok s g).mpr hg] at h
    cases h
    exact .inl ⟨g, rfl⟩
  · rw [C12_new_error s fun g h => hg ⟨g, h⟩] at h
    cases h
    exact .inr rfl

theorem sound_grandfathered_language (hmax : 12 ≤ max) (g : GrandfatheredLangTag) : Sound max (val g.language) := by
  refine sound_option fun x hx => ?_
  refine sound_newtype (g := Grammar.language) (by decide) rfl (rfl : val x = tag "Language" x.str) ?_ ?_
  · exact (accepts_iff is_Language _).mp (C24_grandfathered g x hx)
  · have : ∀ g : GrandfatheredLangTag, ∀ x, g.language = some x → x.str.length ≤ 3 := by
      intro g x h
      cases g <;> cases h <;> decide
    have := this g x hx
    omega

theorem grandfathered_text (hmax : 12 ≤ max) (g : GrandfatheredLangTag) : IsUtf8 g.asStr ∧ g.asStr.length + 1 ≤ max := by
  have h1 : ∀ b ∈ g.asStr, b < 128 := by cases g <;> decide
  have h2 : g.asStr.length ≤ 11 := by cases g <;> decide
  exact ⟨isUtf8_of_ascii h1, by omega⟩

theorem grandfathered_methods (hmax : 12 ≤ max) {F : PubFn} (hF : F ∈ methods "GrandfatheredLangTag" ["language", "as_bytes", "as_str"])
    {args : List Val} (hf : FitAll F.params args) (ha : ∀ a ∈ args, Sound max a) : Well max F args := by
  refine methods_well (fun v hv hn f hf => ?_) hF hf ha
  obtain ⟨g, rfl⟩ := sound_grandfathered hv hn
  obtain ⟨_, _, r1, r2, r3, _⟩ := C69_grandfathered max g [] .default []
  simp only [List.mem_cons, List.not_mem_nil, or_false] at hf
  rcases hf with rfl | rfl | rfl
  · exact well_val r1 (sound_grandfathered_language hmax g) (by decide)
  · exact well_returns r2 (.bytes _ (grandfathered_text hmax g).2) (by simp) (by decide)
  · exact well_returns r3 (.str _ (grandfathered_text hmax g).1 (grandfathered_text hmax g).2) (by simp) (by decide)

theorem grandfathered_calls {F : PubFn}
    (hF : F ∈ [⟨["GrandfatheredLangTag"], "new", [.str]⟩, ⟨["GrandfatheredLangTag"], "try_from", [.bytes]⟩,
      ⟨["GrandfatheredLangTag"], "fmt", [.of "GrandfatheredLangTag", .formatter]⟩])
    {args : List Val} (hf : FitAll F.params args) (ha : ∀ a ∈ args, Sound max a) : Well max F args := by
  simp only [List.mem_cons, List.not_mem_nil, or_false] at hF
  rcases hF with rfl | rfl | rfl <;>
    rcases args with _ | ⟨v, _ | ⟨w, _ | ⟨u, vs⟩⟩⟩ <;> simp only [FitAll, and_true, and_false] at hf <;>
    simp only [List.mem_cons, List.not_mem_nil, or_false, forall_eq_or_imp, forall_eq] at ha
  · obtain ⟨s, rfl⟩ := hf
    obtain ⟨h, hs⟩ := sound_str ha
    refine well_givesBy (C69_grandfathered max .IAmi s .default []).1 (fun r hr => ?_) (C56_grandfathered s).1 (by decide)
    rcases grandfathered_result s r hr with ⟨g, rfl⟩ | rfl
    · exact .ok _ (.grandfathered g)
    · exact .err _ (.str s h hs)
  · obtain ⟨s, rfl⟩ := hf
    have hs := sound_bytes ha
    refine well_givesBy (C69_grandfathered max .IAmi s .default []).2.1 (fun r hr => ?_) (C56_grandfathered s).2 (by decide)
    rw [C12_tryFrom] at hr
    rcases grandfathered_result s r hr with ⟨g, rfl⟩ | rfl
    · exact .ok _ (.grandfathered g)
    · exact .err _ (.invalidGrandfathered _ (.bytes s hs))
  · obtain ⟨g, rfl⟩ := sound_grandfathered ha.1 hf.1
    obtain ⟨f, out, rfl⟩ := hf.2
    exact well_returns (C69_grandfathered max g [] f out).2.2.2.2.2 (.ok _ .unit) (by simpa using .formatter ..) (by decide)

/-! ## `TypedLangTag` and `Kind` -/

theorem typed_calls (hmax : 12 ≤ max) {F : PubFn}
    (hF : F ∈ methods "TypedLangTag" ["language", "kind", "is_normal", "is_private_use", "is_grandfathered", "as_normal", "as_private_use",
      "as_grandfathered"])
    {args : List Val} (hf : FitAll F.params args) (ha : ∀ a ∈ args, Sound max a) : Well max F args := by
  refine methods_well (fun v hv hn f hf => ?_) hF hf ha
  obtain ⟨t, rfl, ht⟩ := sound_typed hv hn
  have hl : typedLength t + 1 ≤ max := by
    rcases t with t | t | t
    · exact ht.2
    · exact ht.2
    · show 0 + 1 ≤ max
      omega
  obtain ⟨r1, r2, r3, r4, r5, r6, r7, r8⟩ := C69_typedLangTag max t hl
  simp only [List.mem_cons, List.not_mem_nil, or_false] at hf
  rcases hf with rfl | rfl | rfl | rfl | rfl | rfl | rfl | rfl
  · rcases t with t | t | g
    · obtain ⟨p, hp⟩ := (matches_langtag t.str).mp ht.1
      obtain ⟨l, hl⟩ := (C22_noPanic_partial t p hp).1
      have hr : (TypedLangTag.Normal t).language = .ok (some l) := by rw [TypedLangTag.language, hl]; rfl
      refine well_ok r1 (fun o ho => ?_) ⟨_, hr⟩ (by decide)
      rw [hr] at ho
      cases ho
      refine .some _ (sound_newtype (g := Grammar.language) (by decide) rfl (rfl : val l = tag "Language" l.str) ?_ ?_)
      · exact (accepts_iff is_Language _).mp ((C24_components_partial t p hp).1 l hl)
      · have := RunOf.length_le ((C67_accessors t ((normal_has_parts _).mpr ⟨p, hp⟩)).1 l hl).1
        have := ht.2
        omega
    · exact well_ok r1 (fun o ho => by cases ho; exact .none) ⟨_, rfl⟩ (by decide)
    · exact well_ok r1 (fun o ho => by cases ho; exact sound_grandfathered_language hmax g) ⟨_, rfl⟩ (by decide)
  · exact well_val r2 (.kind _) (by decide)
  · exact well_val r3 (.bool _) (by decide)
  · exact well_val r4 (.bool _) (by decide)
  · exact well_val r5 (.bool _) (by decide)
  · refine well_val r6 (sound_option fun n hn => ?_) (by decide)
    rcases t with t | t | t <;> cases hn
    exact .text "NormalLangTag" (by decide) n.str (textOf rfl ht.1) ht.2
  · refine well_val r7 (sound_option (α := PrivateUse) fun n hn => ?_) (by decide)
    rcases t with t | t | t <;> cases hn
    exact .text "PrivateUse" (by decide) n.str ht.1 ht.2
  · exact well_val r8 (sound_option fun g _ => .grandfathered g) (by decide)

theorem kind_calls {F : PubFn} (hF : F ∈ methods "Kind" ["is_normal", "is_private_use", "is_grandfathered"])
    {args : List Val} (hf : FitAll F.params args) (ha : ∀ a ∈ args, Sound max a) : Well max F args := by
  refine methods_well (fun v hv hn f hf => ?_) hF hf ha
  obtain ⟨k, rfl⟩ := sound_kind hv hn
  obtain ⟨r1, r2, r3⟩ := C69_kind max k
  simp only [List.mem_cons, List.not_mem_nil, or_false] at hf
  rcases hf with rfl | rfl | rfl
  · exact well_val r1 (.bool _) (by decide)
  · exact well_val r2 (.bool _) (by decide)
  · exact well_val r3 (.bool _) (by decide)

/-! ## `langtag!` -/

theorem macro_calls {F : PubFn} (hF : F ∈ [(⟨[], "langtag", [.str]⟩ : PubFn)])
    {args : List Val} (hf : FitAll F.params args) (ha : ∀ a ∈ args, Sound max a) : Well max F args := by
  rw [List.mem_singleton] at hF
  subst hF
  rcases args with _ | ⟨v, _ | ⟨w, vs⟩⟩ <;> simp only [FitAll, and_true, and_false] at hf
  obtain ⟨s, rfl⟩ := hf
  obtain ⟨h, hs⟩ := sound_str (ha (.str s) (by simp))
  have hp : Panics ⟨[], "langtag", [.str]⟩ [.str s] ↔ ¬ Grammar.languageTag.Matches s := by
    constructor
    · rintro (⟨T, _, hU, _⟩ | ⟨_, _, s', e, h⟩)
      · cases hU
      · cases e; exact h
    · exact fun h => .inr ⟨rfl, rfl, s, rfl, h⟩
  refine well_gives (C69_macro max s hs) (fun t ht => ?_) ?_ fun e he => ?_
  · by_cases hm : Grammar.languageTag.Matches s
    · obtain ⟨t', ht', e⟩ := (C50_macro s).1 hm
      rw [ht'] at ht
      cases ht
      exact .text "LangTag" (by decide) t.str (by rw [e]; exact textOf rfl hm) (by rw [e]; exact hs)
    · rw [(C50_macro s).2 hm] at ht
      cases ht
  · rw [hp, Classical.not_not]
    constructor
    · rintro ⟨t, ht⟩
      refine Classical.byContradiction fun hm => ?_
      rw [(C50_macro s).2 hm] at ht
      cases ht
    · intro hm
      obtain ⟨t, ht, _⟩ := (C50_macro s).1 hm
      exact ⟨t, ht⟩
  · by_cases hm : Grammar.languageTag.Matches s
    · obtain ⟨t, ht, _⟩ := (C50_macro s).1 hm
      rw [ht] at he
      cases he
    · rw [(C50_macro s).2 hm] at he
      cases he
      rfl

end Langtag.Client
