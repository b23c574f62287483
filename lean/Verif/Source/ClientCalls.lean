import Verif.Source.Client

/-! # The public functions preserve the invariant -/

set_option autoImplicit false

namespace Langtag.Client
open Langtag.Model hiding Singleton
open Langtag.Source Langtag.Spec Langtag.Props
open Langtag.Proof hiding run

variable {max : Nat}

/-- The call ends, with a panic iff it is one of those that do; what it returns is sound. -/
def Well (max : Nat) (F : PubFn) (args : List Val) : Prop :=
  (∃ v after, run max F.owner F.name args = some (.returns v after) ∧ (∀ w ∈ v :: after, Sound max w) ∧ ¬ Panics F args) ∨
  (run max F.owner F.name args = some (.panics (panicOf F)) ∧ Panics F args)

/-- The functions that panic on some arguments. -/
def panicking : List (List String × String) :=
  [(["LangTag"], "script"), (["LangTag"], "region"), (["LangTag"], "variants"), (["LangTag"], "extensions"), (["LangTag"], "private_use"),
   (["LangTag"], "private_use_subtags"), (["NormalLangTag"], "script"), (["NormalLangTag"], "region"), (["NormalLangTag"], "variants"),
   (["NormalLangTag"], "extensions"), (["NormalLangTag"], "private_use"), (["NormalLangTag"], "private_use_subtags"), ([], "langtag")]

theorem not_panics {F : PubFn} (h : (F.owner, F.name) ∉ panicking) (args : List Val) : ¬ Panics F args := by
  rintro (⟨T, hT, ho, s, p, _, _, hs⟩ | ⟨ho, hf, _⟩)
  · refine h ?_
    rw [ho]
    simp only [List.mem_cons, List.not_mem_nil, or_false] at hT
    simp only [searched, List.mem_cons, Prod.mk.injEq, List.not_mem_nil, or_false] at hs
    rcases hT with rfl | rfl <;> rcases hs with h | h | h | h | h | h <;> (rw [h.1]; decide)
  · refine h ?_
    rw [ho, hf]; decide

section
variable {F : PubFn} {args : List Val}

theorem well_returns {v : Val} {after : List Val} (hr : run max F.owner F.name args = some (.returns v after)) (hv : Sound max v)
    (ha : ∀ w ∈ after, Sound max w) (hp : (F.owner, F.name) ∉ panicking) : Well max F args :=
  .inl ⟨v, after, hr, List.forall_mem_cons.mpr ⟨hv, ha⟩, not_panics hp args⟩

theorem well_gives {α : Type} [Rep α] {r : Rust α} (hr : run max F.owner F.name args = gives r) (ho : ∀ a, r = .ok a → Sound max (val a))
    (hp : Returns r ↔ ¬ Panics F args) (hq : ∀ e, r = .error e → e = panicOf F) : Well max F args := by
  cases r with
  | ok a => exact .inl ⟨val a, [], hr, by simpa using ho a rfl, hp.mp ⟨a, rfl⟩⟩
  | error p => exact .inr ⟨hq p rfl ▸ hr, Classical.byContradiction fun h => by obtain ⟨a, h⟩ := hp.mpr h; cases h⟩

theorem well_ok {α : Type} [Rep α] {r : Rust α} (hr : run max F.owner F.name args = gives r) (ho : ∀ a, r = .ok a → Sound max (val a))
    (ht : Returns r) (hp : (F.owner, F.name) ∉ panicking) : Well max F args :=
  well_gives hr ho ⟨fun _ => not_panics hp args, fun _ => ht⟩ fun e he => by obtain ⟨a, ha⟩ := ht; rw [ha] at he; cases he

theorem well_val {α : Type} [Rep α] {a : α} (hr : run max F.owner F.name args = gives (.ok a)) (ho : Sound max (val a))
    (hp : (F.owner, F.name) ∉ panicking) : Well max F args :=
  well_ok hr (fun _ e => by cases e; exact ho) ⟨_, rfl⟩ hp

theorem well_givesBy {α : Type} {k : α → Val} {r : Rust α} (hr : run max F.owner F.name args = givesBy k r)
    (ho : ∀ a, r = .ok a → Sound max (k a)) (ht : Returns r) (hp : (F.owner, F.name) ∉ panicking) : Well max F args := by
  obtain ⟨a, rfl⟩ := ht
  exact well_returns hr (ho a rfl) (by simp) hp
end

/-- A value of a string type. -/
theorem sound_newtype {M : Type} [Rep M] {n : String} {x : M} {s : Text} {g : Abnf} (hn : n ∈ stringTypes) (hp : production n = some g)
    (hv : val x = tag n s) (h : g.Matches s) (hs : s.length + 1 ≤ max) : Sound max (val x) := by
  rw [hv]; exact .text n hn s (textOf hp h) hs

theorem sound_option {α : Type} [Rep α] {o : Option α} (h : ∀ a, o = some a → Sound max (val a)) : Sound max (val o) := by
  cases o with
  | none => exact .none
  | some a => exact .some _ (h a rfl)

/-! ## The functions of every string type -/

theorem type_calls {n : String} {M : Type} [StrNewtype M] [Compare M] [Rep M] (src : IsSource n M) {g : Abnf} (hg : ConstructorIs M g)
    (hn : n ∈ stringTypes) (hp : production n = some g)
    (hc : ∀ (a b : M) (H : Hasher) (st : H.State),
      Returns (Compare.eq a b) ∧ Returns (Compare.cmp a b) ∧ Returns (Compare.partialCmp a b) ∧ Returns (Compare.hash H a st))
    {F : PubFn}
    (hF : F ∈ [⟨[n], "new", [.str]⟩, ⟨[n], "eq", [.of n, .of n]⟩, ⟨[n], "cmp", [.of n, .of n]⟩, ⟨[n], "partial_cmp", [.of n, .of n]⟩,
      ⟨[n], "hash", [.of n, .hasher]⟩])
    {args : List Val} (hf : FitAll F.params args) (ha : ∀ a ∈ args, Sound max a) : Well max F args := by
  have hnp : ∀ n ∈ stringTypes, ∀ f ∈ ["new", "eq", "cmp", "partial_cmp", "hash"], ([n], f) ∉ panicking := by decide
  have one : ∀ v, Sound max v → (Param.of n).Fits v → ∃ a : M, v = val a ∧ (StrNewtype.str a).length + 1 ≤ max := by
    intro v hv hf
    obtain ⟨s, rfl, _, hs⟩ := sound_text hn hv hf
    obtain ⟨a, rfl⟩ := src.ofText s
    exact ⟨a, (src.val_eq a).symm, hs⟩
  simp only [List.mem_cons, List.not_mem_nil, or_false] at hF
  rcases hF with rfl | rfl | rfl | rfl | rfl <;>
    rcases args with _ | ⟨v, _ | ⟨w, _ | ⟨u, vs⟩⟩⟩ <;> simp only [FitAll, and_true, and_false] at hf <;>
    simp only [List.mem_cons, List.not_mem_nil, or_false, forall_eq_or_imp, forall_eq] at ha
  · obtain ⟨s, rfl⟩ := hf
    obtain ⟨h, hs⟩ := sound_str ha
    refine well_val (src.new max s hs) ?_ (hnp n hn "new" (by decide))
    by_cases hm : g.Matches s
    · obtain ⟨t, ht, e⟩ := (hg s).1 hm
      rw [ht]
      refine .ok _ (sound_newtype hn hp (src.val_eq t) ?_ ?_) <;> rw [e] <;> assumption
    · rw [(hg s).2 hm]
      exact .err _ (.str s h hs)
  · obtain ⟨a, rfl, hs⟩ := one v ha.1 hf.1
    obtain ⟨b, rfl, _⟩ := one w ha.2 hf.2
    exact well_ok (src.eq max a b) (fun b _ => .bool b) (hc a b ⟨Unit, fun _ _ => ()⟩ ()).1 (hnp n hn "eq" (by decide))
  · obtain ⟨a, rfl, hs⟩ := one v ha.1 hf.1
    obtain ⟨b, rfl, _⟩ := one w ha.2 hf.2
    exact well_ok (src.cmp max a b hs) (fun b _ => .ordering b) (hc a b ⟨Unit, fun _ _ => ()⟩ ()).2.1 (hnp n hn "cmp" (by decide))
  · obtain ⟨a, rfl, hs⟩ := one v ha.1 hf.1
    obtain ⟨b, rfl, _⟩ := one w ha.2 hf.2
    exact well_ok (src.partialCmp max a b hs) (fun b _ => sound_option fun o _ => .ordering o) (hc a b ⟨Unit, fun _ _ => ()⟩ ()).2.2.1
      (hnp n hn "partial_cmp" (by decide))
  · obtain ⟨a, rfl, hs⟩ := one v ha.1 hf.1
    obtain ⟨w, rfl⟩ := hf.2
    obtain ⟨w', hw⟩ := (hc a a logHasher w).2.2.2
    have := src.hash max a w
    rw [hw] at this
    exact well_returns this .unit (by simpa using .hasher w') (hnp n hn "hash" (by decide))

theorem stringTypes_calls {T : String} (hT : T ∈ stringTypes) {F : PubFn}
    (hF : F ∈ [⟨[T], "new", [.str]⟩, ⟨[T], "eq", [.of T, .of T]⟩, ⟨[T], "cmp", [.of T, .of T]⟩, ⟨[T], "partial_cmp", [.of T, .of T]⟩,
      ⟨[T], "hash", [.of T, .hasher]⟩])
    {args : List Val} (hf : FitAll F.params args) (ha : ∀ a ∈ args, Sound max a) : Well max F args := by
  obtain ⟨h0, h1, h2, h3, h4, h5, h6, h7, h8, h9, h10, h11, h12, h13, h14⟩ := C56_compare
  have hT' := hT
  simp only [stringTypes, List.mem_cons, List.not_mem_nil, or_false] at hT
  rcases hT with rfl | rfl | rfl | rfl | rfl | rfl | rfl | rfl | rfl | rfl | rfl | rfl | rfl | rfl | rfl
  · exact type_calls LangTag.source is_LangTag hT' rfl h0 hF hf ha
  · exact type_calls NormalLangTag.source is_NormalLangTag hT' rfl h1 hF hf ha
  · exact type_calls Language.source is_Language hT' rfl h2 hF hf ha
  · exact type_calls PrimaryLanguage.source is_PrimaryLanguage hT' rfl h3 hF hf ha
  · exact type_calls LanguageExtension.source is_LanguageExtension hT' rfl h4 hF hf ha
  · exact type_calls ExtendedLangTag.source is_ExtendedLangTag hT' rfl h5 hF hf ha
  · exact type_calls Script.source is_Script hT' rfl h6 hF hf ha
  · exact type_calls Region.source is_Region hT' rfl h7 hF hf ha
  · exact type_calls Variant.source is_Variant hT' rfl h8 hF hf ha
  · exact type_calls Variants.source is_Variants hT' rfl h9 hF hf ha
  · exact type_calls Extension.source is_Extension hT' rfl h10 hF hf ha
  · exact type_calls Extensions.source is_Extensions hT' rfl h11 hF hf ha
  · exact type_calls ExtensionSubtag.source is_ExtensionSubtag hT' rfl h12 hF hf ha
  · exact type_calls PrivateUse.source is_PrivateUse hT' rfl h13 hF hf ha
  · exact type_calls PrivateUseSubtag.source is_PrivateUseSubtag hT' rfl h14 hF hf ha

/-! ## Accessors of tags -/

theorem methods_well {T : String} {fs : List String}
    (h : ∀ v, Sound max v → typeName v = some T → ∀ f ∈ fs, Well max ⟨[T], f, [.of T]⟩ [v]) {F : PubFn} (hF : F ∈ methods T fs)
    {args : List Val} (hf : FitAll F.params args) (ha : ∀ a ∈ args, Sound max a) : Well max F args := by
  obtain ⟨f, hf', rfl⟩ := List.mem_map.mp hF
  rcases args with _ | ⟨v, _ | ⟨w, vs⟩⟩ <;> simp only [FitAll, and_true, and_false] at hf
  exact h v (ha v (by simp)) hf f hf'

theorem panics_iff {T f : String} {ps : List Param} {s : Text} (hT : T ∈ ["LangTag", "NormalLangTag"]) {k : Parts → List Text}
    (hk : ∀ p l, (f, l) ∈ searched p ↔ l = k p) : Panics ⟨[T], f, ps⟩ [tag T s] ↔ ∃ p, Decomposes s p ∧ k p = [] := by
  constructor
  · rintro (⟨U, _, hU, s', p, e, hp, hs⟩ | ⟨e, _⟩)
    · cases hU
      simp only [List.cons.injEq, and_true, tag, Val.ctor.injEq, true_and, Val.str.injEq] at e
      subst e
      exact ⟨p, hp, ((hk p []).mp hs).symm⟩
    · cases e
  · rintro ⟨p, hp, h⟩
    exact .inl ⟨T, hT, rfl, s, p, rfl, hp, (hk p []).mpr h.symm⟩

theorem returns_iff {α : Type} {r : Rust α} {s : Text} {k : Parts → List Text} (h1 : ¬ Grammar.langtag.Matches s → Returns r)
    (h2 : ∀ p, Decomposes s p → (Returns r ↔ k p ≠ [])) : Returns r ↔ ¬ ∃ p, Decomposes s p ∧ k p = [] := by
  constructor
  · rintro hr ⟨p, hp, h⟩
    exact (h2 p hp).mp hr h
  · intro h
    by_cases hm : Grammar.langtag.Matches s
    · obtain ⟨p, hp⟩ := (matches_langtag s).mp hm
      exact (h2 p hp).mpr fun e => h ⟨p, hp, e⟩
    · exact h1 hm

/-- Where an accessor panics, it panics with a slice out of range. -/
theorem normal_slice {t : NormalLangTag} {p : Parts} (h : Decomposes t.str p) :
    (∀ e, t.script = .error e → e = .slice) ∧ (∀ e, t.region = .error e → e = .slice) ∧ (∀ e, t.variants = .error e → e = .slice) ∧
    (∀ e, t.extensions = .error e → e = .slice) ∧ (∀ e, t.privateUse = .error e → e = .slice) ∧
    (∀ e, t.privateUseSubtags = .error e → e = .slice) := by
  have key {α : Type} {r : Rust α} {l : List Text} (h1 : Returns r ↔ l ≠ []) (h2 : l = [] → r = .error .slice) (e : Panic) (he : r = .error e) :
      e = .slice := by
    by_cases hl : l = []
    · rw [h2 hl] at he; cases he; rfl
    · obtain ⟨a, ha⟩ := h1.mpr hl
      rw [ha] at he
      cases he
  obtain ⟨_, n2, n3, n4, n5, n6, _⟩ := C22_noPanic_partial t p h
  have k6 := key n6 (C21_privateUse_partial t p h).2.2
  refine ⟨key n2 (C17_script_partial t p h).2, key n3 (C18_region_partial t p h).2, key n4 (C19_variants_partial t p h).2,
    key n5 (C20_extensions_partial t p h).2, k6, fun e he => ?_⟩
  unfold NormalLangTag.privateUseSubtags at he
  cases hp : t.privateUse with
  | error e' => rw [hp] at he; cases he; exact k6 _ hp
  | ok o => rw [hp] at he; cases o <;> cases he

theorem privateUse_textOf {t : NormalLangTag} {p : Parts} (h : Decomposes t.str p) {x : PrivateUse} (hx : t.privateUse = .ok (some x)) :
    TextOf "PrivateUse" x.str := by
  by_cases he : p.extensions = []
  · exact textOf rfl ((accepts_iff is_PrivateUse _).mp (((C24_components_partial t p h).2.2.2.2.2 x hx).mpr he))
  · rw [(C21_privateUse_partial t p h).2.1 he] at hx
    cases hx
    exact .inr (.inr ⟨rfl, _, _, he, h.1.extensions, h.1.privateUse, rfl⟩)

theorem privateUse_iterOk (hmax : 12 ≤ max) {s : Text} (h : TextOf "PrivateUse" s) (hs : s.length + 1 ≤ max) :
    IterOk PrivateUseIter.next (·.data) (·.str) max Grammar.privateuseSubtag.Matches (PrivateUse.iter ⟨s⟩) := by
  refine ⟨hs, ?_⟩
  obtain ⟨es, x, hne, h1, h2, rfl⟩ := privateUse_of_textOf h
  have hd := decomposes_en_rest hne h1 h2
  generalize hp : Parts.mk (ascii "en") none none [] es x = p at hd
  have hr : p.afterRegion ≠ [] := by subst hp; exact hne
  have hu : (NormalLangTag.mk (ascii "en" ++ dash :: joinDash (es ++ x.toList))).privateUse = .ok (some ⟨joinDash (es ++ x.toList)⟩) := by
    obtain ⟨k1, k2, _⟩ := C21_privateUse_partial _ p hd
    subst hp
    by_cases he : es = []
    · subst he
      rw [k1 hr rfl]
      cases x with
      | none => exact absurd rfl hne
      | some w => rfl
    · exact k2 he
  obtain ⟨it, hit, hen⟩ := C21_privateUseSubtags_extensions _ p hd hr
  have hit' := hit
  rw [NormalLangTag.privateUseSubtags, hu] at hit'
  cases hit'
  refine ⟨_, hen, fun u hu => ?_⟩
  have hm : Grammar.privateuseSubtag.Matches u.str :=
    (accepts_iff is_PrivateUseSubtag _).mp (C24_privateUseSubtags.1 _ _ _ ((normal_has_parts _).mpr ⟨p, hd⟩) hit (yields_of_mem hen hu))
  refine ⟨hm, ?_⟩
  have := ((matches_privateuseSubtag _).mp hm).2.1
  show u.str.length + 1 ≤ max
  omega

theorem privateUseIter_empty (hmax : 12 ≤ max) : Sound max (val PrivateUseIter.empty) :=
  .privateUseIter _ ⟨by simp [PrivateUseIter.empty]; omega, [], C27_empty.1, by simp⟩

theorem normal_calls (hmax : 12 ≤ max) {F : PubFn}
    (hF : F ∈ methods "NormalLangTag" ["language", "script", "region", "variants", "extensions", "private_use", "private_use_subtags"])
    {args : List Val} (hf : FitAll F.params args) (ha : ∀ a ∈ args, Sound max a) : Well max F args := by
  refine methods_well (fun v hv hn f hf => ?_) hF hf ha
  obtain ⟨s, rfl, ht, hs⟩ := sound_text (by decide) hv hn
  have hm : Grammar.langtag.Matches s := matches_of_textOf rfl (by decide) (by decide) ht
  obtain ⟨p, hp⟩ := (matches_langtag s).mp hm
  obtain ⟨r1, r2, r3, r4, r5, r6, r7⟩ := C69_normalLangTag max ⟨s⟩ hs
  obtain ⟨v1, v2, v3, v4, v5, _⟩ := C24_components_partial ⟨s⟩ p hp
  obtain ⟨q2, q3, q4, q5, q6, q7⟩ := normal_slice (t := ⟨s⟩) hp
  obtain ⟨l1, l2, l3, l4, l5, l6⟩ := C67_accessors ⟨s⟩ ((normal_has_parts _).mpr ⟨p, hp⟩)
  have key {k : Parts → List Text} {α : Type} {r : Rust α} {f : String} (hk : ∀ p l, (f, l) ∈ searched p ↔ l = k p)
      (h : ∀ p, Decomposes s p → (Returns r ↔ k p ≠ [])) : Returns r ↔ ¬ Panics ⟨["NormalLangTag"], f, [.of "NormalLangTag"]⟩ [tag "NormalLangTag" s] := by
    rw [panics_iff (by decide) hk]
    exact returns_iff (fun h => absurd hm h) h
  simp only [List.mem_cons, List.not_mem_nil, or_false] at hf
  rcases hf with rfl | rfl | rfl | rfl | rfl | rfl | rfl
  · refine well_ok r1 (fun x hx => sound_newtype (g := Grammar.language) (by decide) rfl (rfl : val x = tag "Language" x.str) ?_ ?_)
      (C22_noPanic_partial ⟨s⟩ p hp).1 (by decide)
    · exact (accepts_iff is_Language _).mp (v1 x hx)
    · have := RunOf.length_le (l1 x hx).1; simp at this; omega
  · refine well_gives r2 (fun o ho => sound_option fun x hx => ?_) (key (k := Parts.afterLanguage) (by intro p l; simp [searched])
      fun p hp => (C22_noPanic_partial ⟨s⟩ p hp).2.1) q2
    subst hx
    refine sound_newtype (g := Grammar.script) (by decide) rfl (rfl : val x = tag "Script" x.str) ?_ ?_
    · exact (accepts_iff is_Script _).mp (v2 x ho)
    · have := RunOf.length_le (l2 x ho); simp at this; omega
  · refine well_gives r3 (fun o ho => sound_option fun x hx => ?_) (key (k := Parts.afterScript) (by intro p l; simp [searched])
      fun p hp => (C22_noPanic_partial ⟨s⟩ p hp).2.2.1) q3
    subst hx
    refine sound_newtype (g := Grammar.region) (by decide) rfl (rfl : val x = tag "Region" x.str) ?_ ?_
    · exact (accepts_iff is_Region _).mp (v3 x ho)
    · have := RunOf.length_le (l3 x ho); simp at this; omega
  · refine well_gives r4 (fun x ho => ?_) (key (k := Parts.afterRegion) (by intro p l; simp [searched])
      fun p hp => (C22_noPanic_partial ⟨s⟩ p hp).2.2.2.1) q4
    refine sound_newtype (g := Grammar.variants) (by decide) rfl (rfl : val x = tag "Variants" x.str) ?_ ?_
    · exact (accepts_iff is_Variants _).mp (v4 x ho)
    · have := RunOf.length_le (l4 x ho); simp at this; omega
  · refine well_gives r5 (fun x ho => ?_) (key (k := Parts.afterVariants) (by intro p l; simp [searched])
      fun p hp => (C22_noPanic_partial ⟨s⟩ p hp).2.2.2.2.1) q5
    refine sound_newtype (g := Grammar.extensions) (by decide) rfl (rfl : val x = tag "Extensions" x.str) ?_ ?_
    · exact (accepts_iff is_Extensions _).mp (v5 x ho)
    · have := RunOf.length_le (l5 x ho); simp at this; omega
  · refine well_gives r6 (fun o ho => sound_option fun x hx => ?_) (key (k := Parts.afterRegion) (by intro p l; simp [searched])
      fun p hp => (C22_noPanic_partial ⟨s⟩ p hp).2.2.2.2.2.1) q6
    subst hx
    refine .text "PrivateUse" (by decide) x.str (privateUse_textOf hp ho) ?_
    have := RunOf.length_le (l6 x ho).1; simp at this; omega
  · refine well_gives r7 (fun it ho => ?_) (key (k := Parts.afterRegion) (by intro p l; simp [searched])
      fun p hp => (C22_noPanic_partial ⟨s⟩ p hp).2.2.2.2.2.2) q7
    unfold NormalLangTag.privateUseSubtags at ho
    cases hx : NormalLangTag.privateUse ⟨s⟩ with
    | error e => rw [hx] at ho; cases ho
    | ok o =>
      rw [hx] at ho
      cases o with
      | none => cases ho; exact privateUseIter_empty hmax
      | some x =>
        cases ho
        refine .privateUseIter _ (privateUse_iterOk hmax (privateUse_textOf hp hx) ?_)
        have := RunOf.length_le (l6 x hx).1; simp at this; omega

end Langtag.Client
