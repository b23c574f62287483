import Verif.Source.ClientTags

/-! # The public functions of the parts of tags preserve the invariant -/

set_option autoImplicit false

namespace Langtag.Client
open Langtag.Model hiding Singleton
open Langtag.Source Langtag.Spec Langtag.Props
open Langtag.Proof hiding run

variable {max : Nat}

/-! ## Iterators -/

section
variable {σ α : Type} [Rep σ] [Rep α]

/-- A call of `next` on a sound iterator. -/
theorem well_next {next : σ → Rust (Option α × σ)} {data : σ → Text} {str : α → Text} {P : Text → Prop} {it : σ} {I : String}
    (hi : IterOk next data str max P it) (hr : run max [I] "next" [val it] = givesNext (next it))
    (hd : ∀ x it', next it = .ok (x, it') → data it' = data it)
    (hs : ∀ it', IterOk next data str max P it' → Sound max (val it'))
    (hx : ∀ x, P (str x) → (str x).length + 1 ≤ max → Sound max (val x))
    (hp : ([I], "next") ∉ panicking) : Well max ⟨[I], "next", [.of I]⟩ [val it] := by
  obtain ⟨hl, items, hen, hall⟩ := hi
  obtain ⟨it', hn, hen'⟩ := enumerates_step hen
  rw [hn] at hr
  refine well_returns hr (sound_option fun x hx' => ?_) ?_ hp
  · have := hall x (List.mem_of_mem_head? hx')
    exact hx x this.1 this.2
  · intro w hw
    rw [List.mem_singleton] at hw
    subst hw
    exact hs it' ⟨by rw [hd _ _ hn]; exact hl, items.tail, hen', fun x hx => hall x (List.mem_of_mem_tail hx)⟩
end

theorem privateUseIter_calls {F : PubFn} (hF : F ∈ methods "PrivateUseIter" ["next"]) {args : List Val} (hf : FitAll F.params args)
    (ha : ∀ a ∈ args, Sound max a) : Well max F args := by
  refine methods_well (fun v hv hn f hf => ?_) hF hf ha
  obtain ⟨it, rfl, hi⟩ := sound_privateUseIter hv hn
  rw [List.mem_singleton] at hf
  subst hf
  exact well_next hi (C69_iterators max it.data it.offset 0 hi.1).2.2.2.2.2.2.2.2.2.2.2.2.2.1 (fun _ _ e => data_privateUse e)
    (fun _ h => .privateUseIter _ h) (fun x h hs => .text "PrivateUseSubtag" (by decide) x.str (textOf rfl h) hs) (by decide)

theorem extensionIter_calls {F : PubFn} (hF : F ∈ methods "ExtensionIter" ["next"]) {args : List Val} (hf : FitAll F.params args)
    (ha : ∀ a ∈ args, Sound max a) : Well max F args := by
  refine methods_well (fun v hv hn f hf => ?_) hF hf ha
  obtain ⟨it, rfl, hi⟩ := sound_extensionIter hv hn
  rw [List.mem_singleton] at hf
  subst hf
  exact well_next hi (C69_iterators max it.data it.offset 0 hi.1).2.2.2.2.2.2.2.2.2.2.2.1 (fun _ _ e => data_extension e)
    (fun _ h => .extensionIter _ h) (fun x h hs => .text "ExtensionSubtag" (by decide) x.str (textOf rfl h) hs) (by decide)

theorem languageExtensionIter_calls {F : PubFn} (hF : F ∈ methods "LanguageExtensionIter" ["next"]) {args : List Val} (hf : FitAll F.params args)
    (ha : ∀ a ∈ args, Sound max a) : Well max F args := by
  refine methods_well (fun v hv hn f hf => ?_) hF hf ha
  obtain ⟨it, rfl, hi⟩ := sound_languageExtensionIter hv hn
  rw [List.mem_singleton] at hf
  subst hf
  exact well_next hi (C69_iterators max it.data it.offset 0 hi.1).2.2.2.2.2.2.2.2.2.2.2.2.2.2 (fun _ _ e => data_languageExtension e)
    (fun _ h => .languageExtensionIter _ h) (fun x h hs => .text "ExtendedLangTag" (by decide) x.str (textOf rfl h) hs) (by decide)

theorem extensionsIter_calls {F : PubFn} (hF : F ∈ methods "ExtensionsIter" ["next"]) {args : List Val} (hf : FitAll F.params args)
    (ha : ∀ a ∈ args, Sound max a) : Well max F args := by
  refine methods_well (fun v hv hn f hf => ?_) hF hf ha
  obtain ⟨it, rfl, hi⟩ := sound_extensionsIter hv hn
  rw [List.mem_singleton] at hf
  subst hf
  exact well_next hi (C69_iterators max it.data it.offset 0 hi.1).2.2.2.2.2.2.2.2.2.2.2.2.1 (fun _ _ e => data_extensions e)
    (fun _ h => .extensionsIter _ h) (fun x h hs => .text "Extension" (by decide) x.str (textOf rfl h) hs) (by decide)

theorem variantsIter_calls {F : PubFn} (hF : F ∈ methods "VariantsIter" ["next", "next_back"]) {args : List Val} (hf : FitAll F.params args)
    (ha : ∀ a ∈ args, Sound max a) : Well max F args := by
  refine methods_well (fun v hv hn f hf => ?_) hF hf ha
  obtain ⟨it, rfl, hl, he, items, hen, hall⟩ := sound_variantsIter hv hn
  have hx (x : Variant) (h : x ∈ items) : Sound max (val x) := .text "Variant" (by decide) x.str (textOf rfl (hall x h).1) (hall x h).2
  obtain ⟨⟨i1, n1, e1⟩, ⟨i2, n2, e2⟩⟩ := bothEnds_step hen
  simp only [List.mem_cons, List.not_mem_nil, or_false] at hf
  rcases hf with rfl | rfl
  · have hr := (C69_iterators max it.data it.offset it.end_ hl).2.2.2.2.2.2.2.2.2.1 he
    rw [n1] at hr
    refine well_returns hr (sound_option fun x h => hx x (List.mem_of_mem_head? h)) (fun w hw => ?_) (by decide)
    rw [List.mem_singleton] at hw
    subst hw
    have hi := variants_inv ⟨rfl, he⟩ (.inl n1)
    exact .variantsIter _ ⟨by rw [hi.1]; exact hl, hi.2, _, e1, fun x h => hall x (List.mem_of_mem_tail h)⟩
  · have hr := (C69_iterators max it.data it.offset it.end_ hl).2.2.2.2.2.2.2.2.2.2.1
    rw [n2] at hr
    refine well_returns hr (sound_option fun x h => hx x (List.mem_of_getLast? h)) (fun w hw => ?_) (by decide)
    rw [List.mem_singleton] at hw
    subst hw
    have hi := variants_inv ⟨rfl, he⟩ (.inr n2)
    exact .variantsIter _ ⟨by rw [hi.1]; exact hl, hi.2, _, e2, fun x h => hall x ((List.dropLast_sublist _).subset h)⟩

theorem extensionIter_empty (hmax : 12 ≤ max) : Sound max (val ExtensionIter.empty) :=
  .extensionIter _ ⟨by simp [ExtensionIter.empty]; omega, [], C27_empty.2.1, by simp⟩

theorem languageExtensionIter_empty (hmax : 12 ≤ max) : Sound max (val LanguageExtensionIter.empty) :=
  .languageExtensionIter _ ⟨by simp [LanguageExtensionIter.empty]; omega, [], C27_empty.2.2.1, by simp⟩

theorem empty_calls (hmax : 12 ≤ max) {F : PubFn}
    (hF : F ∈ [(⟨["LanguageExtensionIter"], "empty", []⟩ : PubFn), ⟨["VariantsIter"], "empty", []⟩, ⟨["ExtensionIter"], "empty", []⟩,
      ⟨["PrivateUseIter"], "empty", []⟩])
    {args : List Val} (hf : FitAll F.params args) : Well max F args := by
  obtain ⟨_, _, _, _, _, r1, r2, r3, r4, _⟩ := C69_iterators max [] 0 0 (by simp; omega)
  simp only [List.mem_cons, List.not_mem_nil, or_false] at hF
  rcases hF with rfl | rfl | rfl | rfl <;> rcases args with _ | ⟨v, vs⟩ <;> simp only [FitAll] at hf
  · exact well_val r4 (languageExtensionIter_empty hmax) (by decide)
  · refine well_val r1 (.variantsIter _ ⟨?_, ?_, [], C27_empty.2.2.2, by simp⟩) (by decide)
    · simp [VariantsIter.empty]; omega
    · simp [VariantsIter.empty]
  · exact well_val r2 (extensionIter_empty hmax) (by decide)
  · exact well_val r3 (privateUseIter_empty hmax) (by decide)

/-! ## `Language`, `LanguageExtension` -/

theorem languageExtension_iterOk (hmax : 12 ≤ max) {s : Text} (h : Grammar.extlang.Matches s) (hs : s.length + 1 ≤ max) :
    IterOk LanguageExtensionIter.next (·.data) (·.str) max Grammar.extlangTag.Matches (LanguageExtension.iter ⟨s⟩) := by
  have hc : Constructed (LanguageExtension.mk s) := constructed_of_matches is_LanguageExtension (fun ⟨_⟩ ⟨_⟩ h => congrArg LanguageExtension.mk h) h
  refine ⟨hs, _, C27_languageExtension _ hc, fun u hu => ?_⟩
  have hm : Grammar.extlangTag.Matches u.str :=
    (accepts_iff is_ExtendedLangTag _).mp (C24_items.2.2.1 _ hc u (yields_of_mem (C27_languageExtension _ hc) hu))
  refine ⟨hm, ?_⟩
  have := ((matches_extlangTag _).mp hm).1
  show u.str.length + 1 ≤ max
  omega

theorem language_calls (hmax : 12 ≤ max) {F : PubFn} (hF : F ∈ methods "Language" ["primary", "extension", "extension_subtags"])
    {args : List Val} (hf : FitAll F.params args) (ha : ∀ a ∈ args, Sound max a) : Well max F args := by
  refine methods_well (fun v hv hn f hf => ?_) hF hf ha
  obtain ⟨s, rfl, ht, hs⟩ := sound_text (by decide) hv hn
  have hm : Grammar.language.Matches s := matches_of_textOf rfl (by decide) (by decide) ht
  have hc : Constructed (Language.mk s) := constructed_of_matches is_Language (fun ⟨_⟩ ⟨_⟩ h => congrArg Language.mk h) hm
  obtain ⟨r1, r2, r3, _⟩ := C69_parts max s ⟨0⟩ hs
  have hx (x : LanguageExtension) (hx : Language.extension ⟨s⟩ = some x) : Grammar.extlang.Matches x.str ∧ x.str.length + 1 ≤ max := by
    refine ⟨(accepts_iff is_LanguageExtension _).mp ((C24_language_partial _ hc).1 x hx), ?_⟩
    have := RunOf.length_le ((C67_parts.1 ⟨s⟩).2 x hx)
    simp at this
    omega
  simp only [List.mem_cons, List.not_mem_nil, or_false] at hf
  rcases hf with rfl | rfl | rfl
  · refine well_val r1 (.text "PrimaryLanguage" (by decide) _ ?_ ?_) (by decide)
    · obtain ⟨u, us, e, _, _, halpha, h⟩ := language_shape hm
      obtain ⟨e', _⟩ := C25_split ⟨s⟩ u us e
      rw [e']
      rcases h with h | ⟨_, h1, h2⟩
      · exact textOf rfl h
      · exact .inr (.inl ⟨rfl, h1, h2, halpha⟩)
    · have := RunOf.length_le (C67_parts.1 ⟨s⟩).1
      simp at this
      omega
  · exact well_val r2 (sound_option fun x h => .text "LanguageExtension" (by decide) x.str (textOf rfl (hx x h).1) (hx x h).2) (by decide)
  · refine well_val r3 ?_ (by decide)
    unfold Language.extensionSubtags
    cases h : Language.extension ⟨s⟩ with
    | none => exact languageExtensionIter_empty hmax
    | some x => exact .languageExtensionIter _ (languageExtension_iterOk hmax (hx x h).1 (hx x h).2)

theorem languageExtension_calls (hmax : 12 ≤ max) {F : PubFn} (hF : F ∈ methods "LanguageExtension" ["iter"])
    {args : List Val} (hf : FitAll F.params args) (ha : ∀ a ∈ args, Sound max a) : Well max F args := by
  refine methods_well (fun v hv hn f hf => ?_) hF hf ha
  obtain ⟨s, rfl, ht, hs⟩ := sound_text (by decide) hv hn
  rw [List.mem_singleton] at hf
  subst hf
  exact well_val (C69_parts max s ⟨0⟩ hs).2.2.2.1
    (.languageExtensionIter _ (languageExtension_iterOk hmax (matches_of_textOf rfl (by decide) (by decide) ht) hs)) (by decide)

/-! ## `Variants` -/

theorem variants_calls (hmax : 12 ≤ max) {F : PubFn} (hF : F ∈ methods "Variants" ["iter", "first", "last"])
    {args : List Val} (hf : FitAll F.params args) (ha : ∀ a ∈ args, Sound max a) : Well max F args := by
  refine methods_well (fun v hv hn f hf => ?_) hF hf ha
  obtain ⟨s, rfl, ht, hs⟩ := sound_text (by decide) hv hn
  have hm : Grammar.variants.Matches s := matches_of_textOf rfl (by decide) (by decide) ht
  have hc : Constructed (Variants.mk s) := constructed_of_matches is_Variants (fun ⟨_⟩ ⟨_⟩ h => congrArg Variants.mk h) hm
  obtain ⟨_, _, _, _, r1, r2, r3, _⟩ := C69_parts max s ⟨0⟩ hs
  have hall : ∀ x ∈ (listItems s).map Variant.mk, Grammar.variant.Matches x.str ∧ x.str.length + 1 ≤ max := by
    intro x hx
    have hv : Grammar.variant.Matches x.str :=
      (accepts_iff is_Variant _).mp (C24_items.2.2.2.2.1 _ hc x (.inl (yields_of_mem (C28_oneEnd _ hc).1 hx)))
    refine ⟨hv, ?_⟩
    have : x.str.length ≤ 8 := by
      rcases (matches_variant _).mp hv with h | h <;> omega
    omega
  have hx (x : Variant) (h : x ∈ (listItems s).map Variant.mk) : Sound max (val x) :=
    .text "Variant" (by decide) x.str (textOf rfl (hall x h).1) (hall x h).2
  simp only [List.mem_cons, List.not_mem_nil, or_false] at hf
  rcases hf with rfl | rfl | rfl
  · exact well_val r1 (.variantsIter _ ⟨hs, Nat.le_refl _, _, C28_iter _ hc, hall⟩) (by decide)
  · refine well_ok r2 (fun o ho => sound_option fun x e => hx x ?_) ⟨_, (C28_first_last _ hc).1⟩ (by decide)
    rw [(C28_first_last _ hc).1] at ho
    cases ho
    rw [← List.head?_map] at e
    exact List.mem_of_mem_head? e
  · refine well_ok r3 (fun o ho => sound_option fun x e => hx x ?_) ⟨_, (C28_first_last _ hc).2⟩ (by decide)
    rw [(C28_first_last _ hc).2] at ho
    cases ho
    rw [← List.getLast?_map] at e
    exact List.mem_of_getLast? e

/-! ## `Singleton` -/

theorem singleton_new_matches {b : UInt8} {g : Model.Singleton} (h : Singleton.new b = .ok g) : Grammar.singleton.Matches [g.byte] := by
  by_cases hm : Grammar.singleton.Matches [b]
  · obtain ⟨g', e, _, hg⟩ := (C32_u8 b).1 hm
    rw [e] at h
    cases h
    rw [← hg] at hm
    exact hm
  · rw [((C32_u8 b).2 hm).1] at h
    cases h

theorem singleton_calls {F : PubFn}
    (hF : F ∈ [(⟨["Singleton"], "new", [.u8]⟩ : PubFn), ⟨["Singleton"], "from_string", [.str]⟩, ⟨["Singleton"], "from_str", [.str]⟩,
      ⟨["Singleton"], "try_from", [.u8]⟩, ⟨["Singleton"], "try_from", [.char]⟩, ⟨["Singleton"], "eq", [.of "Singleton", .u8]⟩,
      ⟨["Singleton"], "eq", [.of "Singleton", .char]⟩, ⟨["Singleton"], "fmt", [.of "Singleton", .formatter]⟩])
    {args : List Val} (hf : FitAll F.params args) (ha : ∀ a ∈ args, Sound max a) : Well max F args := by
  simp only [List.mem_cons, List.not_mem_nil, or_false] at hF
  rcases hF with rfl | rfl | rfl | rfl | rfl | rfl | rfl | rfl <;>
    rcases args with _ | ⟨v, _ | ⟨w, _ | ⟨u, vs⟩⟩⟩ <;> simp only [FitAll, and_true, and_false] at hf <;>
    simp only [List.mem_cons, List.not_mem_nil, or_false, forall_eq_or_imp, forall_eq] at ha
  · obtain ⟨b, rfl⟩ := hf
    refine well_givesBy (C69_singleton max ⟨0⟩ [] b 'a' .default []).1 (fun r hr => ?_) ⟨_, rfl⟩ (by decide)
    injection hr with hr
    by_cases hm : Grammar.singleton.Matches [b]
    · obtain ⟨g, e, _⟩ := (C32_u8 b).1 hm
      rw [e] at hr
      subst hr
      exact .ok _ (.singleton g (singleton_new_matches e))
    · rw [((C32_u8 b).2 hm).1] at hr
      subst hr
      exact .err _ (.invalidSingleton _ (.u8 b))
  · obtain ⟨s, rfl⟩ := hf
    obtain ⟨h, hs⟩ := sound_str ha
    refine well_givesBy (C69_singleton max ⟨0⟩ s 0 'a' .default []).2.2.2.1 (fun r hr => ?_) (C56_singleton s h).1 (by decide)
    by_cases hm : Grammar.singleton.Matches s
    · obtain ⟨g, e, _, hg⟩ := (C32_string s h).1 hm
      rw [e] at hr
      cases hr
      rw [hg] at hm
      exact .ok _ (.singleton g hm)
    · rw [((C32_string s h).2 hm).1] at hr
      cases hr
      exact .err _ (.invalidSingleton _ (.str s h hs))
  · obtain ⟨s, rfl⟩ := hf
    obtain ⟨h, hs⟩ := sound_str ha
    refine well_givesBy (C69_singleton max ⟨0⟩ s 0 'a' .default []).2.2.2.2.1 (fun r hr => ?_) (C56_singleton s h).2 (by decide)
    by_cases hm : Grammar.singleton.Matches s
    · obtain ⟨g, _, e, hg⟩ := (C32_string s h).1 hm
      rw [e] at hr
      cases hr
      rw [hg] at hm
      exact .ok _ (.singleton g hm)
    · rw [((C32_string s h).2 hm).2] at hr
      cases hr
      exact .err _ (.invalidSingleton _ (.str s h hs))
  · obtain ⟨b, rfl⟩ := hf
    refine well_givesBy (C69_singleton max ⟨0⟩ [] b 'a' .default []).2.1 (fun r hr => ?_) ⟨_, rfl⟩ (by decide)
    injection hr with hr
    by_cases hm : Grammar.singleton.Matches [b]
    · obtain ⟨g, e', e, _⟩ := (C32_u8 b).1 hm
      rw [e] at hr
      subst hr
      exact .ok _ (.singleton g (singleton_new_matches e'))
    · rw [((C32_u8 b).2 hm).2] at hr
      subst hr
      exact .err _ (.invalidSingleton _ (.u8 b))
  · obtain ⟨c, rfl⟩ := hf
    refine well_givesBy (C69_singleton max ⟨0⟩ [] 0 c .default []).2.2.1 (fun r hr => ?_) ⟨_, rfl⟩ (by decide)
    injection hr with hr
    by_cases hm : Grammar.singleton.Matches (encodeChar c)
    · obtain ⟨g, e, hg⟩ := (C32_char c).1 hm
      rw [e] at hr
      subst hr
      rw [hg] at hm
      exact .ok _ (.singleton g hm)
    · rw [(C32_char c).2 hm] at hr
      subst hr
      exact .err _ (.invalidSingleton _ (.char c))
  · obtain ⟨g, rfl, _⟩ := sound_singleton ha.1 hf.1
    obtain ⟨b, rfl⟩ := hf.2
    exact well_val (C69_singleton max g [] b 'a' .default []).2.2.2.2.2.2.1 (.bool _) (by decide)
  · obtain ⟨g, rfl, _⟩ := sound_singleton ha.1 hf.1
    obtain ⟨c, rfl⟩ := hf.2
    exact well_val (C69_singleton max g [] 0 c .default []).2.2.2.2.2.2.2.1 (.bool _) (by decide)
  · obtain ⟨g, rfl, _⟩ := sound_singleton ha.1 hf.1
    obtain ⟨f, out, rfl⟩ := hf.2
    exact well_returns (C69_singleton max g [] 0 'a' f out).2.2.2.2.2.2.2.2.1 (.ok _ .unit) (by simpa using .formatter ..) (by decide)

theorem singleton_methods {F : PubFn} (hF : F ∈ methods "Singleton" ["unwrap"])
    {args : List Val} (hf : FitAll F.params args) (ha : ∀ a ∈ args, Sound max a) : Well max F args := by
  refine methods_well (fun v hv hn f hf => ?_) hF hf ha
  obtain ⟨g, rfl, _⟩ := sound_singleton hv hn
  rw [List.mem_singleton] at hf
  subst hf
  exact well_val (C69_singleton max g [] 0 'a' .default []).2.2.2.2.2.1 (.u8 _) (by decide)

/-! ## `Extension`, `Extensions`, `PrivateUse` -/

theorem extension_iterOk (hmax : 12 ≤ max) {s : Text} (h : Grammar.extension.Matches s) (hs : s.length + 1 ≤ max) :
    IterOk ExtensionIter.next (·.data) (·.str) max Grammar.extensionSubtag.Matches (Extension.iter ⟨s⟩) := by
  have hc : Constructed (Extension.mk s) := constructed_of_matches is_Extension (fun ⟨_⟩ ⟨_⟩ h => congrArg Extension.mk h) h
  refine ⟨hs, _, C27_extension _ hc, fun u hu => ?_⟩
  have hm : Grammar.extensionSubtag.Matches u.str :=
    (accepts_iff is_ExtensionSubtag _).mp (C24_items.2.1 _ hc u (yields_of_mem (C27_extension _ hc) hu))
  refine ⟨hm, ?_⟩
  have := ((matches_extensionSubtag _).mp hm).2.1
  show u.str.length + 1 ≤ max
  omega

theorem extension_calls (hmax : 12 ≤ max) {F : PubFn} (hF : F ∈ methods "Extension" ["singleton", "iter"])
    {args : List Val} (hf : FitAll F.params args) (ha : ∀ a ∈ args, Sound max a) : Well max F args := by
  refine methods_well (fun v hv hn f hf => ?_) hF hf ha
  obtain ⟨s, rfl, ht, hs⟩ := sound_text (by decide) hv hn
  have hm : Grammar.extension.Matches s := matches_of_textOf rfl (by decide) (by decide) ht
  have hc : Constructed (Extension.mk s) := constructed_of_matches is_Extension (fun ⟨_⟩ ⟨_⟩ h => congrArg Extension.mk h) hm
  obtain ⟨_, _, _, _, _, _, _, r1, r2, _⟩ := C69_parts max s ⟨0⟩ hs
  obtain ⟨g, h1, _, h3⟩ := C33_singleton _ hc
  simp only [List.mem_cons, List.not_mem_nil, or_false] at hf
  rcases hf with rfl | rfl
  · refine well_ok r1 (fun g' h => ?_) ⟨_, h1⟩ (by decide)
    rw [h1] at h
    cases h
    exact .singleton g (singleton_new_matches h3)
  · exact well_val r2 (.extensionIter _ (extension_iterOk hmax hm hs)) (by decide)

theorem extensions_get {s : Text} (hm : Grammar.extensions.Matches s) (hs : s.length + 1 ≤ max) (g : Model.Singleton) {x : Extension}
    (hx : Extensions.get ⟨s⟩ g = .ok (some x)) : Grammar.extension.Matches x.str ∧ x.str.length + 1 ≤ max := by
  have hc : Constructed (Extensions.mk s) := constructed_of_matches is_Extensions (fun ⟨_⟩ ⟨_⟩ h => congrArg Extensions.mk h) hm
  refine ⟨(accepts_iff is_Extension _).mp (C24_items.2.2.2.2.2.2 _ hc g x hx), ?_⟩
  have := RunOf.length_le (C67_parts.2 _ g hc x hx)
  simp at this
  omega

theorem extensions_methods {F : PubFn} (hF : F ∈ methods "Extensions" ["iter"])
    {args : List Val} (hf : FitAll F.params args) (ha : ∀ a ∈ args, Sound max a) : Well max F args := by
  refine methods_well (fun v hv hn f hf => ?_) hF hf ha
  obtain ⟨s, rfl, ht, hs⟩ := sound_text (by decide) hv hn
  have hm : Grammar.extensions.Matches s := matches_of_textOf rfl (by decide) (by decide) ht
  have hc : Constructed (Extensions.mk s) := constructed_of_matches is_Extensions (fun ⟨_⟩ ⟨_⟩ h => congrArg Extensions.mk h) hm
  rw [List.mem_singleton] at hf
  subst hf
  refine well_val (C69_parts max s ⟨0⟩ hs).2.2.2.2.2.2.2.2.2.2.1 (.extensionsIter _ ⟨hs, ?_⟩) (by decide)
  obtain ⟨es, he⟩ := C29_exists _ hc
  refine ⟨_, C29_iter _ es he, fun x hx => ?_⟩
  obtain ⟨e, hm', rfl⟩ := List.mem_map.mp hx
  refine ⟨he.1 e hm', ?_⟩
  obtain ⟨a, c, ea⟩ := List.append_of_mem hm'
  have h1 : s = joinDash es := he.2
  have h2 := (length_joinDash_append a (e :: c)).1
  have h3 := (length_joinDash_append [e] c).2
  rw [← ea, ← h1] at h2
  rw [List.singleton_append] at h3
  have h4 : (joinDash [e]).length = e.length := rfl
  show e.length + 1 ≤ max
  omega

theorem extensions_calls (hmax : 12 ≤ max) {F : PubFn}
    (hF : F ∈ [(⟨["Extensions"], "get", [.of "Extensions", .of "Singleton"]⟩ : PubFn),
      ⟨["Extensions"], "iter_extension", [.of "Extensions", .of "Singleton"]⟩])
    {args : List Val} (hf : FitAll F.params args) (ha : ∀ a ∈ args, Sound max a) : Well max F args := by
  simp only [List.mem_cons, List.not_mem_nil, or_false] at hF
  rcases hF with rfl | rfl <;>
    rcases args with _ | ⟨v, _ | ⟨w, _ | ⟨u, vs⟩⟩⟩ <;> simp only [FitAll, and_true, and_false] at hf <;>
    simp only [List.mem_cons, List.not_mem_nil, or_false, forall_eq_or_imp, forall_eq] at ha
  all_goals
    obtain ⟨s, rfl, ht, hs⟩ := sound_text (by decide) ha.1 hf.1
    obtain ⟨g, rfl, _⟩ := sound_singleton ha.2 hf.2
    have hm : Grammar.extensions.Matches s := matches_of_textOf rfl (by decide) (by decide) ht
    have hc : Constructed (Extensions.mk s) := constructed_of_matches is_Extensions (fun ⟨_⟩ ⟨_⟩ h => congrArg Extensions.mk h) hm
  · refine well_ok (C69_parts max s g hs).2.2.2.2.2.2.2.2.2.1 (fun o ho => sound_option fun x hx => ?_) (C56_parts.2.2 _ hc g).1 (by decide)
    subst hx
    have := extensions_get hm hs g ho
    exact .text "Extension" (by decide) x.str (textOf rfl this.1) this.2
  · refine well_ok (C69_parts max s g hs).2.2.2.2.2.2.2.2.2.2.2.1 (fun it hit => ?_) (C56_parts.2.2 _ hc g).2 (by decide)
    unfold Extensions.iterExtension at hit
    cases hx : Extensions.get ⟨s⟩ g with
    | error e => rw [hx] at hit; cases hit
    | ok o =>
      rw [hx] at hit
      cases o with
      | none => cases hit; exact extensionIter_empty hmax
      | some x =>
        cases hit
        have := extensions_get hm hs g hx
        exact .extensionIter _ (extension_iterOk hmax this.1 this.2)

theorem privateUse_calls (hmax : 12 ≤ max) {F : PubFn} (hF : F ∈ methods "PrivateUse" ["iter"])
    {args : List Val} (hf : FitAll F.params args) (ha : ∀ a ∈ args, Sound max a) : Well max F args := by
  refine methods_well (fun v hv hn f hf => ?_) hF hf ha
  obtain ⟨s, rfl, ht, hs⟩ := sound_text (by decide) hv hn
  rw [List.mem_singleton] at hf
  subst hf
  exact well_val (C69_parts max s ⟨0⟩ hs).2.2.2.2.2.2.2.2.2.2.2.2 (.privateUseIter _ (privateUse_iterOk hmax ht hs)) (by decide)

/-! ## All of them -/

theorem forall_mem_append {α : Type} {P : α → Prop} {a b : List α} (h1 : ∀ x ∈ a, P x) (h2 : ∀ x ∈ b, P x) : ∀ x ∈ a ++ b, P x :=
  fun x h => (List.mem_append.mp h).elim (h1 x) (h2 x)

theorem api_calls (hmax : 12 ≤ max) : ∀ F ∈ api, ∀ args, FitAll F.params args → (∀ a ∈ args, Sound max a) → Well max F args := by
  refine forall_mem_append (forall_mem_append (forall_mem_append (forall_mem_append (forall_mem_append (forall_mem_append (forall_mem_append (forall_mem_append (forall_mem_append (forall_mem_append (forall_mem_append (forall_mem_append (forall_mem_append (forall_mem_append (forall_mem_append (forall_mem_append (forall_mem_append (forall_mem_append (forall_mem_append (forall_mem_append (forall_mem_append (forall_mem_append (forall_mem_append (forall_mem_append (forall_mem_append ?_ ?_) ?_) ?_) ?_) ?_) ?_) ?_) ?_) ?_) ?_) ?_) ?_) ?_) ?_) ?_) ?_) ?_) ?_) ?_) ?_) ?_) ?_) ?_) ?_) ?_
  · intro F h args hf ha
    obtain ⟨T, hT, h⟩ := List.mem_flatMap.mp h
    exact stringTypes_calls hT h hf ha
  · exact fun F h args hf ha => langTag_calls hmax h hf ha
  · exact fun F h args hf ha => macro_calls h hf ha
  · exact fun F h args hf ha => typed_calls hmax h hf ha
  · exact fun F h args hf ha => kind_calls h hf ha
  · exact fun F h args hf ha => normal_calls hmax h hf ha
  · exact fun F h args hf ha => grandfathered_methods hmax h hf ha
  · exact fun F h args hf ha => grandfathered_calls h hf ha
  · exact fun F h args hf ha => language_calls hmax h hf ha
  · exact fun F h args hf ha => languageExtension_calls hmax h hf ha
  · exact fun F h args hf ha => empty_calls hmax (by rw [List.mem_singleton] at h; subst h; decide) hf
  · exact fun F h args hf ha => languageExtensionIter_calls h hf ha
  · exact fun F h args hf ha => variants_calls hmax h hf ha
  · exact fun F h args hf ha => empty_calls hmax (by rw [List.mem_singleton] at h; subst h; decide) hf
  · exact fun F h args hf ha => variantsIter_calls h hf ha
  · exact fun F h args hf ha => singleton_calls h hf ha
  · exact fun F h args hf ha => singleton_methods h hf ha
  · exact fun F h args hf ha => extension_calls hmax h hf ha
  · exact fun F h args hf ha => empty_calls hmax (by rw [List.mem_singleton] at h; subst h; decide) hf
  · exact fun F h args hf ha => extensionIter_calls h hf ha
  · exact fun F h args hf ha => extensions_methods h hf ha
  · exact fun F h args hf ha => extensions_calls hmax h hf ha
  · exact fun F h args hf ha => extensionsIter_calls h hf ha
  · exact fun F h args hf ha => privateUse_calls hmax h hf ha
  · exact fun F h args hf ha => empty_calls hmax (by rw [List.mem_singleton] at h; subst h; decide) hf
  · exact fun F h args hf ha => privateUseIter_calls h hf ha

/-- Every value a program can get hold of is sound. -/
theorem sound_of_obtainable (hmax : 12 ≤ max) {v : Val} (h : Obtainable max v) : Sound max v := by
  induction h with
  | bool b => exact .bool b
  | u8 b => exact .u8 b
  | char c => exact .char c
  | str s h hs => exact .str s h hs
  | bytes s hs => exact .bytes s hs
  | hasher w => exact .hasher w
  | formatter f out => exact .formatter f out
  | kind x h =>
    simp only [List.mem_cons, List.not_mem_nil, or_false] at h
    rcases h with rfl | rfl | rfl
    · exact .kind .Normal
    · exact .kind .PrivateUse
    · exact .kind .Grandfathered
  | grandfathered x h =>
    have : ∀ x ∈ grandfatheredVariants, ∃ g ∈ GRANDFATHERED, variantName g = x := by decide
    obtain ⟨g, _, rfl⟩ := this x h
    exact .grandfathered g
  | typed x T v hx hT h ih =>
    simp only [List.mem_cons, Prod.mk.injEq, List.not_mem_nil, or_false] at hx
    rcases hx with ⟨rfl, rfl⟩ | ⟨rfl, rfl⟩ | ⟨rfl, rfl⟩
    · obtain ⟨s, rfl, ht, hs⟩ := sound_text (by decide) ih hT
      exact .typed (.Normal ⟨s⟩) ⟨matches_of_textOf rfl (by decide) (by decide) ht, hs⟩
    · obtain ⟨s, rfl, ht, hs⟩ := sound_text (by decide) ih hT
      exact .typed (.PrivateUse ⟨s⟩) ⟨ht, hs⟩
    · obtain ⟨g, rfl⟩ := sound_grandfathered ih hT
      exact .typed (.Grandfathered g) trivial
  | empty T h =>
    simp only [List.mem_cons, List.not_mem_nil, or_false] at h
    rcases h with rfl | rfl
    · exact .text "Variants" (by decide) [] (textOf rfl ((accepts_iff is_Variants _).mp C24_empty.1)) (by simp; omega)
    · exact .text "Extensions" (by decide) [] (textOf rfl ((accepts_iff is_Extensions _).mp C24_empty.2.1)) (by simp; omega)
  | text T s h hv ih =>
    obtain ⟨s', e, ht, hs⟩ := sound_text h ih rfl
    injection e with _ _ e
    injection e with e
    injection e with e
    subst e
    exact .str s (isUtf8_of_ascii (ascii_of_textOf h ht)) hs
  | field T x vs v h hv ho ih => exact sound_field ih h hv
  | call F hF args hf ha v after hr w hw ih =>
    rcases api_calls hmax F hF args hf ih with ⟨v', after', hr', hs, _⟩ | ⟨hp, _⟩
    · rw [hr] at hr'
      cases hr'
      exact hs w hw
    · rw [hr] at hp
      cases hp

end Langtag.Client
