import Verif.Proof.Prefix
import Verif.Props.Components
import Verif.Props.Iterators
import Verif.Props.Language

/-! # C41–C43: building, walking and truncating normal tags -/

set_option autoImplicit false

namespace Langtag.Props
open Langtag.Spec Langtag.Model Langtag.Proof

theorem langTag_of_normal {w : Text} (h : Accepts NormalLangTag w) : Accepts LangTag w := by
  rw [accepts_iff is_NormalLangTag] at h
  rw [accepts_iff is_LangTag]
  exact Or.inl (Or.inl h)

theorem accepts_of_decomposes {w : Text} {p : Parts} (h : Decomposes w p) : Accepts NormalLangTag w :=
  (accepts_iff is_NormalLangTag _).mpr ((matches_langtag _).mpr ⟨p, h⟩)

/-! ## C41 -/

section
variable (l : Language) (s : Option Script) (r : Option Region) (v : Variants) (e : Extensions) (x : Option PrivateUse)

/-- C41: valid components joined by `-` are a tag, and it is made of exactly these components. -/
theorem C41_compose (hl : Constructed l) (hs : ∀ a ∈ s, Constructed a) (hr : ∀ a ∈ r, Constructed a)
    (hv : Constructed v) (he : Constructed e) (hx : ∀ a ∈ x, Constructed a) :
    Accepts NormalLangTag (reassemble l s r v e x) ∧ Accepts LangTag (reassemble l s r v e x) ∧
    ∃ p, Decomposes (reassemble l s r v e x) p ∧ p.language = l.str ∧ p.script = s.map (·.str) ∧
      p.region = r.map (·.str) ∧ joinDash p.variants = v.str ∧ joinDash p.extensions = e.str ∧
      p.privateUse = x.map (·.str) := by
  obtain ⟨vs, ev, hvs⟩ := (matches_variants _).mp (matches_of_constructed is_Variants hv)
  obtain ⟨es, ee, hes⟩ := (matches_extensions _).mp (matches_of_constructed is_Extensions he)
  let p : Parts := ⟨l.str, s.map (·.str), r.map (·.str), vs, es, x.map (·.str)⟩
  have hw : p.WF := by
    refine ⟨matches_of_constructed is_Language hl, ?_, ?_, hvs, hes, ?_⟩
    · intro a ha
      obtain ⟨a, ha', rfl⟩ := Option.map_eq_some_iff.mp ha
      exact matches_of_constructed is_Script (hs a ha')
    · intro a ha
      obtain ⟨a, ha', rfl⟩ := Option.map_eq_some_iff.mp ha
      exact matches_of_constructed is_Region (hr a ha')
    · intro a ha
      obtain ⟨a, ha', rfl⟩ := Option.map_eq_some_iff.mp ha
      exact matches_of_constructed is_PrivateUse (hx a ha')
  have hd : Decomposes (reassemble l s r v e x) p := by
    refine ⟨hw, ?_⟩
    have h1 := reassemble_length hw x
    have e1 : p.script.map Script.mk = s := by simp only [p]; cases s <;> rfl
    have e2 : p.region.map Region.mk = r := by simp only [p]; cases r <;> rfl
    have e3 : (⟨joinDash p.variants⟩ : Variants) = v := by cases v; exact congrArg Variants.mk ev.symm
    have e4 : (⟨joinDash p.extensions⟩ : Extensions) = e := by cases e; exact congrArg Extensions.mk ee.symm
    rw [e1, e2, e3, e4] at h1
    exact (render_upTo5 p).trans h1.symm
  have ha := accepts_of_decomposes hd
  exact ⟨ha, langTag_of_normal ha, p, hd, rfl, rfl, rfl, ev.symm, ee.symm, rfl⟩

/-- C41: the accessors give the components back, each one whenever it returns (see C22), except that `private_use()`
does so only without extensions (see C21). -/
theorem C41_accessors (hl : Constructed l) (hs : ∀ a ∈ s, Constructed a) (hr : ∀ a ∈ r, Constructed a)
    (hv : Constructed v) (he : Constructed e) (hx : ∀ a ∈ x, Constructed a)
    (t : NormalLangTag) (ht : t.str = reassemble l s r v e x) :
    t.language = .ok l ∧ (∀ a, t.script = .ok a → a = s) ∧ (∀ a, t.region = .ok a → a = r) ∧
    (∀ a, t.variants = .ok a → a = v) ∧ (∀ a, t.extensions = .ok a → a = e) ∧
    (∀ a, t.privateUse = .ok a → e.str = [] → a = x) ∧
    (e.str ≠ [] ∨ x ≠ none → NoPanic t) := by
  obtain ⟨_, _, p, hp, h1, h2, h3, h4, h5, h6⟩ := C41_compose l s r v e x hl hs hr hv he hx
  rw [← ht] at hp
  obtain ⟨_, n2, n3, n4, n5, n6, _⟩ := C22_noPanic_partial t p hp
  have e2 : p.script.map Script.mk = s := by rw [h2]; cases s <;> rfl
  have e3 : p.region.map Region.mk = r := by rw [h3]; cases r <;> rfl
  have e6 : p.privateUse.map PrivateUse.mk = x := by rw [h6]; cases x <;> rfl
  have hE : e.str = [] ↔ p.extensions = [] := by
    rw [← h5]
    constructor
    · intro h
      cases hc : p.extensions with
      | nil => rfl
      | cons u us =>
        rw [hc, joinDash_cons_tail] at h
        obtain ⟨b, vs, hb, _⟩ := subtags_extension (hp.1.extensions u (by simp [hc]))
        have : u = [] := (List.append_eq_nil_iff.mp h).1
        rw [this] at hb
        simp [subtags] at hb
    · intro h; rw [h]; rfl
  refine ⟨?_, fun a ha => ?_, fun a ha => ?_, fun a ha => ?_, fun a ha => ?_, fun a ha hn => ?_, fun h => ?_⟩
  · rw [C16_language t p hp, h1]
  · rw [(C17_script_partial t p hp).1 (n2.mp ⟨_, ha⟩), e2] at ha
    exact (Except.ok.inj ha).symm
  · rw [(C18_region_partial t p hp).1 (n3.mp ⟨_, ha⟩), e3] at ha
    exact (Except.ok.inj ha).symm
  · rw [(C19_variants_partial t p hp).1 (n4.mp ⟨_, ha⟩), h4] at ha
    exact (Except.ok.inj ha).symm
  · rw [(C20_extensions_partial t p hp).1 (n5.mp ⟨_, ha⟩), h5] at ha
    exact (Except.ok.inj ha).symm
  · rw [(C21_privateUse_partial t p hp).1 (n6.mp ⟨_, ha⟩) (hE.mp hn), e6] at ha
    exact (Except.ok.inj ha).symm
  · refine C22_noPanic_of_tail t p hp ?_
    unfold Parts.afterVariants
    rcases h with h | h
    · simp [mt hE.mpr h]
    · rw [h6]
      cases x with
      | none => exact absurd rfl h
      | some x => simp

end

example : Constructed (Language.mk (ascii "zh-yue")) ∧ Constructed (Script.mk (ascii "Hant")) ∧
    Constructed (Region.mk (ascii "HK")) ∧ Constructed (Variants.mk (ascii "1abc-abcde")) ∧
    Constructed (Extensions.mk (ascii "a-bbb-cc-b-dd")) ∧ Constructed (PrivateUse.mk (ascii "x-y-zzz")) :=
  ⟨⟨ascii "zh-yue", by decide +kernel⟩, ⟨ascii "Hant", by decide +kernel⟩, ⟨ascii "HK", by decide +kernel⟩,
    ⟨ascii "1abc-abcde", by decide +kernel⟩, ⟨ascii "a-bbb-cc-b-dd", by decide +kernel⟩,
    ⟨ascii "x-y-zzz", by decide +kernel⟩⟩
example : reassemble ⟨ascii "zh-yue"⟩ (some ⟨ascii "Hant"⟩) (some ⟨ascii "HK"⟩) ⟨ascii "1abc-abcde"⟩
    ⟨ascii "a-bbb-cc-b-dd"⟩ (some ⟨ascii "x-y-zzz"⟩) = ascii "zh-yue-Hant-HK-1abc-abcde-a-bbb-cc-b-dd-x-y-zzz" := by
  decide +kernel

/-! ## C42 -/

theorem listItems_joinDash {vs : List Text} (h : ∀ u ∈ vs, dash ∉ u ∧ u ≠ []) : listItems (joinDash vs) = vs := by
  unfold listItems
  cases vs with
  | nil => rfl
  | cons u us =>
    have hn : joinDash (u :: us) ≠ [] := by
      rw [joinDash_cons_tail]
      simp [(h u (by simp)).2]
    rw [if_neg hn, subtags_joinDash_of_dashFree (by simp) fun u hu => (h u hu).1]

theorem items_variants {p : Parts} (h : p.WF) : listItems (joinDash p.variants) = p.variants := by
  refine listItems_joinDash fun u hu => ⟨dashFree_variant (h.variants u hu), ?_⟩
  rintro rfl
  have := length_variant (h.variants _ hu)
  simp at this

theorem constructed_variants {w : Text} (h : Grammar.variants.Matches w) : Constructed (Variants.mk w) :=
  constructed_of_matches is_Variants (by rintro ⟨a⟩ ⟨b⟩ h; exact congrArg Variants.mk h) h

/-- C42: iterating `variants()` of a tag from either end gives the variants of the tag. -/
theorem C42_variants (t : NormalLangTag) (p : Parts) (h : Decomposes t.str p) (v : Variants) (hv : t.variants = .ok v) :
    EnumeratesBothEnds VariantsIter.next VariantsIter.nextBack v.iter (p.variants.map Variant.mk) ∧
    v.first = .ok (p.variants.head?.map Variant.mk) ∧ v.last = .ok (p.variants.getLast?.map Variant.mk) := by
  rw [(C19_variants_partial t p h).1 ((C22_noPanic_partial t p h).2.2.2.1.mp ⟨_, hv⟩)] at hv
  obtain rfl := Except.ok.inj hv
  have hc := constructed_variants ((matches_variants _).mpr ⟨p.variants, rfl, h.1.variants⟩)
  have h1 := C28_iter _ hc
  have h2 := C28_first_last _ hc
  rw [items_variants h.1] at h1 h2
  exact ⟨h1, h2⟩

/-- C42: iterating `extensions()` of a tag gives the extensions of the tag; `get` finds the first with the given
singleton, and `iter_extension` enumerates its subtags. -/
theorem C42_extensions (t : NormalLangTag) (p : Parts) (h : Decomposes t.str p) (x : Extensions) (hx : t.extensions = .ok x) :
    Enumerates ExtensionsIter.next x.iter (p.extensions.map Extension.mk) ∧
    ∀ g, x.get g = .ok ((p.extensions.map Extension.mk).find? fun e => decide (e.singleton = .ok g)) ∧
      ∃ it, x.iterExtension g = .ok it ∧
        Enumerates ExtensionIter.next it
          (match (p.extensions.map Extension.mk).find? fun e => decide (e.singleton = .ok g) with
            | some e => (subtags e.str).tail.map ExtensionSubtag.mk
            | none => []) := by
  rw [(C20_extensions_partial t p h).1 ((C22_noPanic_partial t p h).2.2.2.2.1.mp ⟨_, hx⟩)] at hx
  obtain rfl := Except.ok.inj hx
  have hl : IsListOf ⟨joinDash p.extensions⟩ p.extensions := ⟨h.1.extensions, rfl⟩
  exact ⟨C29_iter _ _ hl, fun g => ⟨C30_get _ _ hl g, C30_iterExtension _ _ hl g⟩⟩

/-- C42: `language().primary()` is the first subtag of the tag, and `language().extension_subtags()` gives the other
subtags of the language. -/
theorem C42_language (t : NormalLangTag) (p : Parts) (h : Decomposes t.str p) (l : Language) (hl : t.language = .ok l) :
    (subtags t.str).head? = some l.primary.str ∧
    Enumerates LanguageExtensionIter.next l.extensionSubtags ((subtags p.language).tail.map ExtendedLangTag.mk) := by
  rw [C16_language t p h] at hl
  obtain rfl := Except.ok.inj hl
  have hc : Constructed (Language.mk p.language) :=
    constructed_of_matches is_Language (by rintro ⟨a⟩ ⟨b⟩ h; exact congrArg Language.mk h) h.1.language
  refine ⟨?_, C25_extensionSubtags _ hc⟩
  rw [← h.2, subtags_render h.1]
  cases hs : subtags p.language with
  | nil => exact absurd hs (subtags_ne_nil _)
  | cons u us => rw [(C25_split ⟨p.language⟩ u us hs).1]; rfl

example : (NormalLangTag.mk (ascii "zh-yue-Hant-HK-1abc-abcde-a-bbb-cc-b-dd-x-y-zzz")).variants =
    .ok ⟨ascii "1abc-abcde"⟩ := by decide +kernel
example : (NormalLangTag.mk (ascii "zh-yue-Hant-HK-1abc-abcde-a-bbb-cc-b-dd-x-y-zzz")).extensions =
    .ok ⟨ascii "a-bbb-cc-b-dd"⟩ := by decide +kernel

/-! ## C43 -/

/-- C43: the first `k ≥ 1` subtags of a normal tag are a normal tag, unless the last of them has only one
character. -/
theorem C43_prefix (w : Text) (h : Accepts NormalLangTag w) (k : Nat) (hk : 1 ≤ k)
    (hl : ∀ u, ((subtags w).take k).getLast? = some u → u.length ≠ 1) :
    Accepts NormalLangTag (joinDash ((subtags w).take k)) := by
  obtain ⟨p, hp⟩ := (matches_langtag _).mp ((accepts_iff is_NormalLangTag _).mp h)
  have hne : (subtags w).take k ≠ [] := by
    intro hn
    rcases List.take_eq_nil_iff.mp hn with hn | hn
    · omega
    · exact subtags_ne_nil _ hn
  obtain ⟨q, h1, h2⟩ := prefix_normal hp.1 (q := (subtags w).take k) (by rw [hp.2]; exact List.take_prefix _ _) hne
    (fun u hu => hl u hu)
  rw [← h2, joinDash_subtags]
  exact accepts_of_decomposes ⟨h1, rfl⟩

/-- C43, without the last condition, is false: `en-a` is not a tag. -/
example : Accepts NormalLangTag (ascii "en-a-bbb") ∧ ¬ Accepts NormalLangTag (joinDash ((subtags (ascii "en-a-bbb")).take 2)) := by
  refine ⟨accepts_of_isOk (by decide +kernel), ?_⟩
  rw [accepts_iff is_NormalLangTag, ← isOk_NormalLangTag]; decide +kernel

theorem truncate_take (us : List Text) :
    ∃ k, truncate us = us.take k ∧ ∀ u ∈ (truncate us).getLast?, u.length ≠ 1 := by
  have hp : truncate us <+: us := by
    refine List.IsPrefix.trans ?_ (List.dropLast_prefix us)
    unfold truncate
    have := List.dropWhile_suffix (fun u : Text => u.length == 1) (l := us.dropLast.reverse)
    have := List.reverse_prefix.mpr this
    rwa [List.reverse_reverse] at this
  refine ⟨(truncate us).length, List.prefix_iff_eq_take.mp hp, ?_⟩
  intro u hu
  unfold truncate at hu
  rw [List.getLast?_reverse] at hu
  have := List.head?_dropWhile_not (fun u : Text => u.length == 1) us.dropLast.reverse
  rw [Option.mem_def.mp hu] at this
  simpa using this

/-- C43: every range the lookup algorithm of RFC 4647 derives from a normal tag is a normal tag, until none is left. -/
theorem C43_lookup (w : Text) (h : Accepts NormalLangTag w) (n : Nat) :
    truncations n (subtags w) = [] ∨ Accepts NormalLangTag (joinDash (truncations n (subtags w))) := by
  induction n generalizing w with
  | zero => exact Or.inr (by rw [truncations, joinDash_subtags]; exact h)
  | succ n ih =>
    rw [truncations]
    obtain ⟨k, h1, h2⟩ := truncate_take (subtags w)
    by_cases hk : truncate (subtags w) = []
    · rw [hk]
      left
      clear ih h h1 h2 hk
      induction n with
      | zero => rfl
      | succ n ih => exact ih
    · have hk1 : 1 ≤ k := by
        rcases k with _ | k
        · exact absurd (by simpa using h1) hk
        · omega
      have ha := C43_prefix w h k hk1 (by rw [← h1]; exact fun u hu => h2 u hu)
      rw [← h1] at ha
      have hd : ∀ u ∈ truncate (subtags w), dash ∉ u := by
        intro u hu
        rw [h1] at hu
        exact subtags_dashFree w u (List.mem_of_mem_take hu)
      have := ih _ ha
      rwa [subtags_joinDash_of_dashFree hk hd] at this

/-- C43: the first `k ≥ 2` subtags of a private use tag are a private use tag. -/
theorem C43_privateUse (w : Text) (h : Accepts PrivateUse w) (k : Nat) (hk : 2 ≤ k) :
    Accepts PrivateUse (joinDash ((subtags w).take k)) ∧ Accepts LangTag (joinDash ((subtags w).take k)) := by
  have hm := (accepts_iff is_PrivateUse _).mp h
  obtain ⟨b, us, e, hne, hb, hus⟩ := subtags_privateuse hm
  have : Grammar.privateuse.Matches (joinDash ((subtags w).take k)) := by
    rw [e]
    obtain ⟨k, rfl⟩ : ∃ j, k = j + 1 := ⟨k - 1, by omega⟩
    rw [List.take_succ_cons]
    refine (matches_privateuse _).mpr ⟨b, us.take k, rfl, ?_, hb, fun u hu => hus u (List.mem_of_mem_take hu)⟩
    intro hn
    rcases List.take_eq_nil_iff.mp hn with hn | hn
    · omega
    · exact hne hn
  rw [accepts_iff is_PrivateUse, accepts_iff is_LangTag]
  exact ⟨this, Or.inl (Or.inr this)⟩

example : Accepts NormalLangTag (ascii "zh-Hant-CN-x-private1-private2") := accepts_of_isOk (by decide +kernel)
example : Accepts PrivateUse (ascii "x-a-bcd") := accepts_of_isOk (by decide +kernel)

end Langtag.Props
