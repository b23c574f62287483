import Verif.Props.Client
import Verif.Spec.Depth

/-!
# C76: calls are nested to a bounded depth

`runWithin n` reads the text of the files of `/repo/src` and executes a call, giving up (`none`) where more than `n` calls would be under way at
the same time.  How many can be under way does not depend on the length of the text: the stack cannot overflow because of an input.
-/

set_option autoImplicit false

namespace Langtag.Props
open Langtag.Model hiding Singleton
open Langtag.Spec Langtag.Client
open Langtag.Source (run Val val tag typedLength)
open Langtag.Source.Deep

theorem _root_.Langtag.Source.Deep.Within.nests {n m max : Nat} {T : List String} {f : String} {args : List Val} (h : Within n max T f args) (hm : n ≤ m) :
    NestsWithin m max T f args := (within_le hm h).elim fun o ho => ⟨o, ho, runWithin_run ho⟩

/-- C76: a bound that is enough stays enough if it is raised. -/
theorem C76_raise {n m max : Nat} {T : List String} {f : String} {args : List Val} (hm : n ≤ m) (h : NestsWithin n max T f args) :
    NestsWithin m max T f args := h.elim fun o ho => Within.nests ⟨o, ho.1⟩ hm

theorem within_stringTypes : ∀ T ∈ stringTypes, WithinSource T := by
  intro T hT
  simp only [stringTypes, List.mem_cons, List.not_mem_nil, or_false] at hT
  rcases hT with rfl | rfl | rfl | rfl | rfl | rfl | rfl | rfl | rfl | rfl | rfl | rfl | rfl | rfl | rfl
  · exact LangTag.within
  · exact NormalLangTag.within
  · exact Language.within
  · exact PrimaryLanguage.within
  · exact LanguageExtension.within
  · exact ExtendedLangTag.within
  · exact Script.within
  · exact Region.within
  · exact Variant.within
  · exact Variants.within
  · exact Extension.within
  · exact Extensions.within
  · exact ExtensionSubtag.within
  · exact PrivateUse.within
  · exact PrivateUseSubtag.within

/-- C76: the constructors of the fifteen types, and `==`, `cmp`, `partial_cmp` and `hash`, on texts of any content. -/
theorem C76_types : ∀ T ∈ stringTypes, ∀ (max : Nat) (s t : Text) (w : List UInt8), s.length + 1 ≤ max →
    NestsWithin 3 max [T] "new" [.str s] ∧ NestsWithin 3 max [T] "eq" [tag T s, tag T t] ∧ NestsWithin 3 max [T] "cmp" [tag T s, tag T t] ∧
    NestsWithin 4 max [T] "partial_cmp" [tag T s, tag T t] ∧ NestsWithin 3 max [T] "hash" [tag T s, .hasher w] := by
  intro T hT max s t w hs
  have h := within_stringTypes T hT
  exact ⟨(h.new max s hs).nests (Nat.le_refl _), (h.eq max s t).nests (Nat.le_refl _), (h.cmp max s t hs).nests (Nat.le_refl _),
    (h.partialCmp max s t hs).nests (Nat.le_refl _), (h.hash max s w).nests (Nat.le_refl _)⟩

/-- C76: the accessors of `NormalLangTag` and of `LangTag` on texts of any content. -/
theorem C76_accessors (max : Nat) (s : Text) (h : s.length + 1 ≤ max) :
    NestsWithin 7 max ["NormalLangTag"] "language" [tag "NormalLangTag" s] ∧ NestsWithin 8 max ["NormalLangTag"] "script" [tag "NormalLangTag" s] ∧
    NestsWithin 9 max ["NormalLangTag"] "region" [tag "NormalLangTag" s] ∧ NestsWithin 10 max ["NormalLangTag"] "variants" [tag "NormalLangTag" s] ∧
    NestsWithin 11 max ["NormalLangTag"] "extensions" [tag "NormalLangTag" s] ∧
    NestsWithin 11 max ["NormalLangTag"] "private_use" [tag "NormalLangTag" s] ∧
    NestsWithin 12 max ["NormalLangTag"] "private_use_subtags" [tag "NormalLangTag" s] ∧
    NestsWithin 5 max ["LangTag"] "as_typed" [tag "LangTag" s] ∧ NestsWithin 8 max ["LangTag"] "language" [tag "LangTag" s] ∧
    NestsWithin 9 max ["LangTag"] "script" [tag "LangTag" s] ∧ NestsWithin 10 max ["LangTag"] "region" [tag "LangTag" s] ∧
    NestsWithin 11 max ["LangTag"] "variants" [tag "LangTag" s] ∧ NestsWithin 12 max ["LangTag"] "extensions" [tag "LangTag" s] ∧
    NestsWithin 12 max ["LangTag"] "private_use" [tag "LangTag" s] ∧ NestsWithin 13 max ["LangTag"] "private_use_subtags" [tag "LangTag" s] := by
  obtain ⟨n1, n2, n3, n4, n5, n6, n7⟩ := normalLangTag_within max s h
  obtain ⟨l1, l2, l3, l4, l5, l6, l7, _, _, _, _, _, _, _, l15⟩ := langTag_within max s h
  exact ⟨n1.nests (Nat.le_refl _), n2.nests (Nat.le_refl _), n3.nests (Nat.le_refl _), n4.nests (Nat.le_refl _), n5.nests (Nat.le_refl _),
    n6.nests (Nat.le_refl _), n7.nests (Nat.le_refl _), l15.nests (Nat.le_refl _), l1.nests (Nat.le_refl _), l2.nests (Nat.le_refl _),
    l3.nests (Nat.le_refl _), l4.nests (Nat.le_refl _), l5.nests (Nat.le_refl _), l6.nests (Nat.le_refl _), l7.nests (Nat.le_refl _)⟩

/-- C76: the steps of iterators, under way anywhere in a text of any content. -/
theorem C76_iterators (max : Nat) (d : Text) (o e : Nat) (h : d.length + 1 ≤ max) :
    NestsWithin 2 max ["VariantsIter"] "next" [val (⟨d, o, e⟩ : VariantsIter)] ∧
    NestsWithin 2 max ["VariantsIter"] "next_back" [val (⟨d, o, e⟩ : VariantsIter)] ∧
    NestsWithin 2 max ["ExtensionIter"] "next" [val (⟨d, o⟩ : ExtensionIter)] ∧
    NestsWithin 6 max ["ExtensionsIter"] "next" [val (⟨d, o⟩ : ExtensionsIter)] ∧
    NestsWithin 2 max ["PrivateUseIter"] "next" [val (⟨d, o⟩ : PrivateUseIter)] ∧
    NestsWithin 2 max ["LanguageExtensionIter"] "next" [val (⟨d, o⟩ : LanguageExtensionIter)] := by
  obtain ⟨i1, i2, i3, i4, i5, i6⟩ := iterators_within max d o e h
  exact ⟨i1.nests (Nat.le_refl _), i2.nests (Nat.le_refl _), i3.nests (Nat.le_refl _), i4.nests (Nat.le_refl _), i5.nests (Nat.le_refl _),
    i6.nests (Nat.le_refl _)⟩

/-! ## All of the public functions -/

section
variable {max : Nat}

theorem methods_nest {T : String} {fs : List String}
    (h : ∀ v, Sound max v → typeName v = some T → ∀ f ∈ fs, NestsWithin 13 max [T] f [v]) {F : PubFn} (hF : F ∈ methods T fs)
    {args : List Val} (hf : FitAll F.params args) (ha : ∀ a ∈ args, Sound max a) : NestsWithin 13 max F.owner F.name args := by
  obtain ⟨f, hf', rfl⟩ := List.mem_map.mp hF
  rcases args with _ | ⟨v, _ | ⟨w, vs⟩⟩ <;> simp only [FitAll, and_true, and_false] at hf
  exact h v (ha v (by simp)) hf f hf'

theorem stringTypes_nest {T : String} (hT : T ∈ stringTypes) {F : PubFn}
    (hF : F ∈ [⟨[T], "new", [.str]⟩, ⟨[T], "eq", [.of T, .of T]⟩, ⟨[T], "cmp", [.of T, .of T]⟩, ⟨[T], "partial_cmp", [.of T, .of T]⟩,
      ⟨[T], "hash", [.of T, .hasher]⟩])
    {args : List Val} (hf : FitAll F.params args) (ha : ∀ a ∈ args, Sound max a) : NestsWithin 13 max F.owner F.name args := by
  have h := within_stringTypes T hT
  simp only [List.mem_cons, List.not_mem_nil, or_false] at hF
  rcases hF with rfl | rfl | rfl | rfl | rfl <;>
    rcases args with _ | ⟨v, _ | ⟨w, _ | ⟨u, vs⟩⟩⟩ <;> simp only [FitAll, and_true, and_false] at hf <;>
    simp only [List.mem_cons, List.not_mem_nil, or_false, forall_eq_or_imp, forall_eq] at ha
  · obtain ⟨s, rfl⟩ := hf
    exact (h.new max s (sound_str ha).2).nests (by decide)
  · obtain ⟨s, rfl, _, hs⟩ := sound_text hT ha.1 hf.1
    obtain ⟨t, rfl, _, ht⟩ := sound_text hT ha.2 hf.2
    exact (h.eq max s t).nests (by decide)
  · obtain ⟨s, rfl, _, hs⟩ := sound_text hT ha.1 hf.1
    obtain ⟨t, rfl, _, ht⟩ := sound_text hT ha.2 hf.2
    exact (h.cmp max s t hs).nests (by decide)
  · obtain ⟨s, rfl, _, hs⟩ := sound_text hT ha.1 hf.1
    obtain ⟨t, rfl, _, ht⟩ := sound_text hT ha.2 hf.2
    exact (h.partialCmp max s t hs).nests (by decide)
  · obtain ⟨s, rfl, _, hs⟩ := sound_text hT ha.1 hf.1
    obtain ⟨w, rfl⟩ := hf.2
    exact (h.hash max s w).nests (by decide)

theorem langTag_nest {F : PubFn}
    (hF : F ∈ methods "LangTag" ["language", "script", "region", "variants", "extensions", "private_use", "private_use_subtags", "is_normal",
      "is_private_use", "is_grandfathered", "as_normal", "as_private_use", "as_grandfathered", "kind", "as_typed"])
    {args : List Val} (hf : FitAll F.params args) (ha : ∀ a ∈ args, Sound max a) : NestsWithin 13 max F.owner F.name args := by
  refine methods_nest (fun v hv hn f hf => ?_) hF hf ha
  obtain ⟨s, rfl, _, hs⟩ := sound_text (by decide) hv hn
  obtain ⟨r1, r2, r3, r4, r5, r6, r7, r8, r9, r10, r11, r12, r13, r14, r15⟩ := langTag_within max s hs
  simp only [List.mem_cons, List.not_mem_nil, or_false] at hf
  rcases hf with rfl | rfl | rfl | rfl | rfl | rfl | rfl | rfl | rfl | rfl | rfl | rfl | rfl | rfl | rfl
  all_goals exact Within.nests (by assumption) (by decide)

theorem macro_nest {F : PubFn} (hF : F ∈ [(⟨[], "langtag", [.str]⟩ : PubFn)])
    {args : List Val} (hf : FitAll F.params args) (ha : ∀ a ∈ args, Sound max a) : NestsWithin 13 max F.owner F.name args := by
  rw [List.mem_singleton] at hF
  subst hF
  rcases args with _ | ⟨v, _ | ⟨w, vs⟩⟩ <;> simp only [FitAll, and_true, and_false] at hf
  obtain ⟨s, rfl⟩ := hf
  exact (macro_within max s (sound_str (ha (.str s) (by simp))).2).nests (by decide)

theorem typed_nest (hmax : 12 ≤ max) {F : PubFn}
    (hF : F ∈ methods "TypedLangTag" ["language", "kind", "is_normal", "is_private_use", "is_grandfathered", "as_normal", "as_private_use",
      "as_grandfathered"])
    {args : List Val} (hf : FitAll F.params args) (ha : ∀ a ∈ args, Sound max a) : NestsWithin 13 max F.owner F.name args := by
  refine methods_nest (fun v hv hn f hf => ?_) hF hf ha
  obtain ⟨t, rfl, ht⟩ := sound_typed hv hn
  have hl : typedLength t + 1 ≤ max := by
    rcases t with t | t | t
    · exact ht.2
    · exact ht.2
    · show 0 + 1 ≤ max
      omega
  obtain ⟨r1, r2, r3, r4, r5, r6, r7, r8⟩ := typedLangTag_within max t hl
  simp only [List.mem_cons, List.not_mem_nil, or_false] at hf
  rcases hf with rfl | rfl | rfl | rfl | rfl | rfl | rfl | rfl
  all_goals exact Within.nests (by assumption) (by decide)

theorem kind_nest {F : PubFn} (hF : F ∈ methods "Kind" ["is_normal", "is_private_use", "is_grandfathered"])
    {args : List Val} (hf : FitAll F.params args) (ha : ∀ a ∈ args, Sound max a) : NestsWithin 13 max F.owner F.name args := by
  refine methods_nest (fun v hv hn f hf => ?_) hF hf ha
  obtain ⟨k, rfl⟩ := sound_kind hv hn
  obtain ⟨r1, r2, r3⟩ := kind_within max k
  simp only [List.mem_cons, List.not_mem_nil, or_false] at hf
  rcases hf with rfl | rfl | rfl
  all_goals exact Within.nests (by assumption) (by decide)

theorem normal_nest {F : PubFn}
    (hF : F ∈ methods "NormalLangTag" ["language", "script", "region", "variants", "extensions", "private_use", "private_use_subtags"])
    {args : List Val} (hf : FitAll F.params args) (ha : ∀ a ∈ args, Sound max a) : NestsWithin 13 max F.owner F.name args := by
  refine methods_nest (fun v hv hn f hf => ?_) hF hf ha
  obtain ⟨s, rfl, _, hs⟩ := sound_text (by decide) hv hn
  obtain ⟨r1, r2, r3, r4, r5, r6, r7⟩ := normalLangTag_within max s hs
  simp only [List.mem_cons, List.not_mem_nil, or_false] at hf
  rcases hf with rfl | rfl | rfl | rfl | rfl | rfl | rfl
  all_goals exact Within.nests (by assumption) (by decide)

theorem grandfathered_methods_nest {F : PubFn} (hF : F ∈ methods "GrandfatheredLangTag" ["language", "as_bytes", "as_str"])
    {args : List Val} (hf : FitAll F.params args) (ha : ∀ a ∈ args, Sound max a) : NestsWithin 13 max F.owner F.name args := by
  refine methods_nest (fun v hv hn f hf => ?_) hF hf ha
  obtain ⟨g, rfl⟩ := sound_grandfathered hv hn
  obtain ⟨_, _, r1, r2, r3, _⟩ := grandfathered_within max g [] .default []
  simp only [List.mem_cons, List.not_mem_nil, or_false] at hf
  rcases hf with rfl | rfl | rfl
  all_goals exact Within.nests (by assumption) (by decide)

theorem grandfathered_nest {F : PubFn}
    (hF : F ∈ [⟨["GrandfatheredLangTag"], "new", [.str]⟩, ⟨["GrandfatheredLangTag"], "try_from", [.bytes]⟩,
      ⟨["GrandfatheredLangTag"], "fmt", [.of "GrandfatheredLangTag", .formatter]⟩])
    {args : List Val} (hf : FitAll F.params args) (ha : ∀ a ∈ args, Sound max a) : NestsWithin 13 max F.owner F.name args := by
  simp only [List.mem_cons, List.not_mem_nil, or_false] at hF
  rcases hF with rfl | rfl | rfl <;>
    rcases args with _ | ⟨v, _ | ⟨w, _ | ⟨u, vs⟩⟩⟩ <;> simp only [FitAll, and_true, and_false] at hf <;>
    simp only [List.mem_cons, List.not_mem_nil, or_false, forall_eq_or_imp, forall_eq] at ha
  · obtain ⟨s, rfl⟩ := hf
    exact (grandfathered_within max .IAmi s .default []).1.nests (by decide)
  · obtain ⟨s, rfl⟩ := hf
    exact (grandfathered_within max .IAmi s .default []).2.1.nests (by decide)
  · obtain ⟨g, rfl⟩ := sound_grandfathered ha.1 hf.1
    obtain ⟨f, out, rfl⟩ := hf.2
    exact (grandfathered_within max g [] f out).2.2.2.2.2.nests (by decide)

theorem parts_nest {T : String} (hT : T ∈ stringTypes) {fs : List String}
    (h : ∀ s : Text, s.length + 1 ≤ max → ∀ f ∈ fs, NestsWithin 13 max [T] f [tag T s]) {F : PubFn} (hF : F ∈ methods T fs)
    {args : List Val} (hf : FitAll F.params args) (ha : ∀ a ∈ args, Sound max a) : NestsWithin 13 max F.owner F.name args := by
  refine methods_nest (fun v hv hn f hf => ?_) hF hf ha
  obtain ⟨s, rfl, _, hs⟩ := sound_text hT hv hn
  exact h s hs f hf

theorem language_nest {F : PubFn} (hF : F ∈ methods "Language" ["primary", "extension", "extension_subtags"])
    {args : List Val} (hf : FitAll F.params args) (ha : ∀ a ∈ args, Sound max a) : NestsWithin 13 max F.owner F.name args := by
  refine parts_nest (by decide) (fun s hs f hf => ?_) hF hf ha
  obtain ⟨r1, r2, r3, r4, r5, r6, r7, r8, r9, _, r11, _, r13⟩ := parts_within max s ⟨0⟩ hs
  simp only [List.mem_cons, List.not_mem_nil, or_false] at hf
  rcases hf with rfl | rfl | rfl
  all_goals exact Within.nests (by assumption) (by decide)

theorem variants_nest {F : PubFn} (hF : F ∈ methods "Variants" ["iter", "first", "last"])
    {args : List Val} (hf : FitAll F.params args) (ha : ∀ a ∈ args, Sound max a) : NestsWithin 13 max F.owner F.name args := by
  refine parts_nest (by decide) (fun s hs f hf => ?_) hF hf ha
  obtain ⟨r1, r2, r3, r4, r5, r6, r7, r8, r9, _, r11, _, r13⟩ := parts_within max s ⟨0⟩ hs
  simp only [List.mem_cons, List.not_mem_nil, or_false] at hf
  rcases hf with rfl | rfl | rfl
  all_goals exact Within.nests (by assumption) (by decide)

theorem extension_nest {F : PubFn} (hF : F ∈ methods "Extension" ["singleton", "iter"])
    {args : List Val} (hf : FitAll F.params args) (ha : ∀ a ∈ args, Sound max a) : NestsWithin 13 max F.owner F.name args := by
  refine parts_nest (by decide) (fun s hs f hf => ?_) hF hf ha
  obtain ⟨r1, r2, r3, r4, r5, r6, r7, r8, r9, _, r11, _, r13⟩ := parts_within max s ⟨0⟩ hs
  simp only [List.mem_cons, List.not_mem_nil, or_false] at hf
  rcases hf with rfl | rfl
  all_goals exact Within.nests (by assumption) (by decide)

theorem iter_nest {T : String} (hT : T ∈ ["LanguageExtension", "Extensions", "PrivateUse"]) {F : PubFn} (hF : F ∈ methods T ["iter"])
    {args : List Val} (hf : FitAll F.params args) (ha : ∀ a ∈ args, Sound max a) : NestsWithin 13 max F.owner F.name args := by
  simp only [List.mem_cons, List.not_mem_nil, or_false] at hT
  rcases hT with rfl | rfl | rfl <;> refine parts_nest (by decide) (fun s hs f hf => ?_) hF hf ha
  all_goals
    obtain ⟨r1, r2, r3, r4, r5, r6, r7, r8, r9, _, r11, _, r13⟩ := parts_within max s ⟨0⟩ hs
    rw [List.mem_singleton] at hf
    subst hf
    exact Within.nests (by assumption) (by decide)

theorem extensions_nest {F : PubFn}
    (hF : F ∈ [(⟨["Extensions"], "get", [.of "Extensions", .of "Singleton"]⟩ : PubFn),
      ⟨["Extensions"], "iter_extension", [.of "Extensions", .of "Singleton"]⟩])
    {args : List Val} (hf : FitAll F.params args) (ha : ∀ a ∈ args, Sound max a) : NestsWithin 13 max F.owner F.name args := by
  simp only [List.mem_cons, List.not_mem_nil, or_false] at hF
  rcases hF with rfl | rfl <;>
    rcases args with _ | ⟨v, _ | ⟨w, _ | ⟨u, vs⟩⟩⟩ <;> simp only [FitAll, and_true, and_false] at hf <;>
    simp only [List.mem_cons, List.not_mem_nil, or_false, forall_eq_or_imp, forall_eq] at ha
  all_goals
    obtain ⟨s, rfl, ht, hs⟩ := sound_text (by decide) ha.1 hf.1
    obtain ⟨g, rfl, _⟩ := sound_singleton ha.2 hf.2
    obtain ⟨_, _, _, _, _, _, _, _, _, r10, _, r12, _⟩ := parts_within max s g hs
    exact Within.nests (by assumption) (by decide)

theorem singleton_nest {F : PubFn}
    (hF : F ∈ [(⟨["Singleton"], "new", [.u8]⟩ : PubFn), ⟨["Singleton"], "from_string", [.str]⟩, ⟨["Singleton"], "from_str", [.str]⟩,
      ⟨["Singleton"], "try_from", [.u8]⟩, ⟨["Singleton"], "try_from", [.char]⟩, ⟨["Singleton"], "eq", [.of "Singleton", .u8]⟩,
      ⟨["Singleton"], "eq", [.of "Singleton", .char]⟩, ⟨["Singleton"], "fmt", [.of "Singleton", .formatter]⟩])
    {args : List Val} (hf : FitAll F.params args) (ha : ∀ a ∈ args, Sound max a) : NestsWithin 13 max F.owner F.name args := by
  simp only [List.mem_cons, List.not_mem_nil, or_false] at hF
  rcases hF with rfl | rfl | rfl | rfl | rfl | rfl | rfl | rfl <;>
    rcases args with _ | ⟨v, _ | ⟨w, _ | ⟨u, vs⟩⟩⟩ <;> simp only [FitAll, and_true, and_false] at hf <;>
    simp only [List.mem_cons, List.not_mem_nil, or_false, forall_eq_or_imp, forall_eq] at ha
  · obtain ⟨b, rfl⟩ := hf
    exact (singleton_within max ⟨0⟩ [] b 'a' .default []).1.nests (by decide)
  · obtain ⟨s, rfl⟩ := hf
    exact (singleton_within max ⟨0⟩ s 0 'a' .default []).2.2.2.1.nests (by decide)
  · obtain ⟨s, rfl⟩ := hf
    exact (singleton_within max ⟨0⟩ s 0 'a' .default []).2.2.2.2.1.nests (by decide)
  · obtain ⟨b, rfl⟩ := hf
    exact (singleton_within max ⟨0⟩ [] b 'a' .default []).2.1.nests (by decide)
  · obtain ⟨c, rfl⟩ := hf
    exact (singleton_within max ⟨0⟩ [] 0 c .default []).2.2.1.nests (by decide)
  · obtain ⟨g, rfl, _⟩ := sound_singleton ha.1 hf.1
    obtain ⟨b, rfl⟩ := hf.2
    exact (singleton_within max g [] b 'a' .default []).2.2.2.2.2.2.1.nests (by decide)
  · obtain ⟨g, rfl, _⟩ := sound_singleton ha.1 hf.1
    obtain ⟨c, rfl⟩ := hf.2
    exact (singleton_within max g [] 0 c .default []).2.2.2.2.2.2.2.1.nests (by decide)
  · obtain ⟨g, rfl, _⟩ := sound_singleton ha.1 hf.1
    obtain ⟨f, out, rfl⟩ := hf.2
    exact (singleton_within max g [] 0 'a' f out).2.2.2.2.2.2.2.2.nests (by decide)

theorem singleton_methods_nest {F : PubFn} (hF : F ∈ methods "Singleton" ["unwrap"])
    {args : List Val} (hf : FitAll F.params args) (ha : ∀ a ∈ args, Sound max a) : NestsWithin 13 max F.owner F.name args := by
  refine methods_nest (fun v hv hn f hf => ?_) hF hf ha
  obtain ⟨g, rfl, _⟩ := sound_singleton hv hn
  rw [List.mem_singleton] at hf
  subst hf
  exact (singleton_within max g [] 0 'a' .default []).2.2.2.2.2.1.nests (by decide)

theorem empty_nest {F : PubFn}
    (hF : F ∈ [(⟨["LanguageExtensionIter"], "empty", []⟩ : PubFn), ⟨["VariantsIter"], "empty", []⟩, ⟨["ExtensionIter"], "empty", []⟩,
      ⟨["PrivateUseIter"], "empty", []⟩])
    {args : List Val} (hf : FitAll F.params args) : NestsWithin 13 max F.owner F.name args := by
  obtain ⟨r1, r2, r3, r4⟩ := empty_within max
  simp only [List.mem_cons, List.not_mem_nil, or_false] at hF
  rcases hF with rfl | rfl | rfl | rfl <;> rcases args with _ | ⟨v, vs⟩ <;> simp only [FitAll] at hf
  all_goals exact Within.nests (by assumption) (by decide)

theorem variantsIter_nest {F : PubFn} (hF : F ∈ methods "VariantsIter" ["next", "next_back"]) {args : List Val} (hf : FitAll F.params args)
    (ha : ∀ a ∈ args, Sound max a) : NestsWithin 13 max F.owner F.name args := by
  refine methods_nest (fun v hv hn f hf => ?_) hF hf ha
  obtain ⟨it, rfl, hl, _⟩ := sound_variantsIter hv hn
  obtain ⟨r1, r2, _⟩ := iterators_within max it.data it.offset it.end_ hl
  simp only [List.mem_cons, List.not_mem_nil, or_false] at hf
  rcases hf with rfl | rfl
  · exact r1.nests (by decide)
  · exact r2.nests (by decide)

theorem extensionIter_nest {F : PubFn} (hF : F ∈ methods "ExtensionIter" ["next"]) {args : List Val} (hf : FitAll F.params args)
    (ha : ∀ a ∈ args, Sound max a) : NestsWithin 13 max F.owner F.name args := by
  refine methods_nest (fun v hv hn f hf => ?_) hF hf ha
  obtain ⟨it, rfl, hi⟩ := sound_extensionIter hv hn
  rw [List.mem_singleton] at hf
  subst hf
  exact (iterators_within max it.data it.offset 0 hi.1).2.2.1.nests (by decide)

theorem extensionsIter_nest {F : PubFn} (hF : F ∈ methods "ExtensionsIter" ["next"]) {args : List Val} (hf : FitAll F.params args)
    (ha : ∀ a ∈ args, Sound max a) : NestsWithin 13 max F.owner F.name args := by
  refine methods_nest (fun v hv hn f hf => ?_) hF hf ha
  obtain ⟨it, rfl, hi⟩ := sound_extensionsIter hv hn
  rw [List.mem_singleton] at hf
  subst hf
  exact (iterators_within max it.data it.offset 0 hi.1).2.2.2.1.nests (by decide)

theorem privateUseIter_nest {F : PubFn} (hF : F ∈ methods "PrivateUseIter" ["next"]) {args : List Val} (hf : FitAll F.params args)
    (ha : ∀ a ∈ args, Sound max a) : NestsWithin 13 max F.owner F.name args := by
  refine methods_nest (fun v hv hn f hf => ?_) hF hf ha
  obtain ⟨it, rfl, hi⟩ := sound_privateUseIter hv hn
  rw [List.mem_singleton] at hf
  subst hf
  exact (iterators_within max it.data it.offset 0 hi.1).2.2.2.2.1.nests (by decide)

theorem languageExtensionIter_nest {F : PubFn} (hF : F ∈ methods "LanguageExtensionIter" ["next"]) {args : List Val} (hf : FitAll F.params args)
    (ha : ∀ a ∈ args, Sound max a) : NestsWithin 13 max F.owner F.name args := by
  refine methods_nest (fun v hv hn f hf => ?_) hF hf ha
  obtain ⟨it, rfl, hi⟩ := sound_languageExtensionIter hv hn
  rw [List.mem_singleton] at hf
  subst hf
  exact (iterators_within max it.data it.offset 0 hi.1).2.2.2.2.2.nests (by decide)

theorem api_nest (hmax : 12 ≤ max) : ∀ F ∈ api, ∀ args, FitAll F.params args → (∀ a ∈ args, Sound max a) → NestsWithin 13 max F.owner F.name args := by
  refine forall_mem_append (forall_mem_append (forall_mem_append (forall_mem_append (forall_mem_append (forall_mem_append (forall_mem_append (forall_mem_append (forall_mem_append (forall_mem_append (forall_mem_append (forall_mem_append (forall_mem_append (forall_mem_append (forall_mem_append (forall_mem_append (forall_mem_append (forall_mem_append (forall_mem_append (forall_mem_append (forall_mem_append (forall_mem_append (forall_mem_append (forall_mem_append (forall_mem_append ?_ ?_) ?_) ?_) ?_) ?_) ?_) ?_) ?_) ?_) ?_) ?_) ?_) ?_) ?_) ?_) ?_) ?_) ?_) ?_) ?_) ?_) ?_) ?_) ?_) ?_
  · intro F h args hf ha
    obtain ⟨T, hT, h⟩ := List.mem_flatMap.mp h
    exact stringTypes_nest hT h hf ha
  · exact fun F h args hf ha => langTag_nest h hf ha
  · exact fun F h args hf ha => macro_nest h hf ha
  · exact fun F h args hf ha => typed_nest hmax h hf ha
  · exact fun F h args hf ha => kind_nest h hf ha
  · exact fun F h args hf ha => normal_nest h hf ha
  · exact fun F h args hf ha => grandfathered_methods_nest h hf ha
  · exact fun F h args hf ha => grandfathered_nest h hf ha
  · exact fun F h args hf ha => language_nest h hf ha
  · exact fun F h args hf ha => iter_nest (by decide) h hf ha
  · exact fun F h args hf ha => empty_nest (by rw [List.mem_singleton] at h; subst h; decide) hf
  · exact fun F h args hf ha => languageExtensionIter_nest h hf ha
  · exact fun F h args hf ha => variants_nest h hf ha
  · exact fun F h args hf ha => empty_nest (by rw [List.mem_singleton] at h; subst h; decide) hf
  · exact fun F h args hf ha => variantsIter_nest h hf ha
  · exact fun F h args hf ha => singleton_nest h hf ha
  · exact fun F h args hf ha => singleton_methods_nest h hf ha
  · exact fun F h args hf ha => extension_nest h hf ha
  · exact fun F h args hf ha => empty_nest (by rw [List.mem_singleton] at h; subst h; decide) hf
  · exact fun F h args hf ha => extensionIter_nest h hf ha
  · exact fun F h args hf ha => iter_nest (by decide) h hf ha
  · exact fun F h args hf ha => extensions_nest h hf ha
  · exact fun F h args hf ha => extensionsIter_nest h hf ha
  · exact fun F h args hf ha => iter_nest (by decide) h hf ha
  · exact fun F h args hf ha => empty_nest (by rw [List.mem_singleton] at h; subst h; decide) hf
  · exact fun F h args hf ha => privateUseIter_nest h hf ha

end

/-- C76: whichever public function a program calls, on whatever values it has got from the crate, at most thirteen calls are ever under way at the
same time. -/
theorem C76_api (max : Nat) (hmax : 12 ≤ max) : ∀ F ∈ api, ∀ args, FitAll F.params args → (∀ a ∈ args, Obtainable max a) →
    NestsWithin 13 max F.owner F.name args :=
  fun F hF args hf ha => api_nest hmax F hF args hf fun a h => sound_of_obtainable hmax (ha a h)

-- a value a program gets hold of only through other calls
example : NestsWithin 13 100 ["PrivateUse"] "iter" [tag "PrivateUse" (ascii "a-bbb-x-foo")] :=
  C76_api 100 (by decide) ⟨["PrivateUse"], "iter", [.of "PrivateUse"]⟩ (by decide) [_] ⟨rfl, trivial⟩ (by simpa using obtainable_a_x)

-- a call that panics
example : NestsWithin 9 100 ["NormalLangTag"] "region" [tag "NormalLangTag" (ascii "zh")] ∧ (ascii "zh").length + 1 ≤ 100 :=
  ⟨(C76_accessors 100 (ascii "zh") (by decide)).2.2.1, by decide⟩

-- the bound counts: `as_str` calls `as_bytes`, so that one call is not enough, two are
open Langtag.Source (Fn Program Env crate outcome) in
example : runWithin 1 100 ["GrandfatheredLangTag"] "as_str" [val GrandfatheredLangTag.IAmi] = none ∧
    NestsWithin 2 100 ["GrandfatheredLangTag"] "as_str" [val GrandfatheredLangTag.IAmi] := by
  have zero (F : Fn) (vs : List Val) (P : Program) (σ : Env) : callFn 0 P F vs σ = none := by rw [callFn]; rfl
  refine ⟨?_, (grandfathered_within 100 .IAmi [] .default []).2.2.2.2.1.nests (Nat.le_refl _)⟩
  rw [runWithin_eq]
  show outcome (callPath _ (crate 100) _ _ _ [.ctor ["GrandfatheredLangTag"] "IAmi" []] _) = none
  rw [Names.GrandfatheredLangTag_as_str.callPath, callFn_apply]
  simp only [Langtag.Source.Ast.GrandfatheredLangTag_as_str]
  deep [zero]
  rfl

end Langtag.Props
