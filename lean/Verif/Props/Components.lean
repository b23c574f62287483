import Verif.Proof.Constructors
import Verif.Proof.Iter
import Verif.Proof.Unique

/-!
# C16–C24, C39: the components of a normal tag

`Decomposes t.str p` says that `p` is the decomposition of the text of `t` according to RFC 5646.  Every accepted
normal tag has one (`normal_has_parts`) and only one (`C39_unique`).
-/

set_option autoImplicit false

namespace Langtag.Props
open Langtag.Spec Langtag.Model Langtag.Proof

/-! ## C39 -/

/-- Every normal tag obtained from the constructor has a decomposition, and only such tags have. -/
theorem normal_has_parts (t : NormalLangTag) : Constructed t ↔ ∃ p, Decomposes t.str p := by
  constructor
  · exact normal_decomposes
  · intro h
    refine constructed_of_matches is_NormalLangTag ?_ ((matches_langtag _).mpr h)
    rintro ⟨a⟩ ⟨b⟩ h
    exact congrArg NormalLangTag.mk h

/-- C39: the decomposition is unique. -/
theorem C39_unique (w : Text) (p q : Parts) (hp : Decomposes w p) (hq : Decomposes w q) : p = q :=
  decomposes_unique hp hq

/-! ## Examples used below -/

/-- A checked way to give a decomposition. -/
theorem decomposes_of_isOk {w : Text} {p : Parts}
    (h : (StrNewtype.isOk Language p.language && p.script.all (StrNewtype.isOk Script ·) &&
      p.region.all (StrNewtype.isOk Region ·) && p.variants.all (StrNewtype.isOk Variant ·) &&
      p.extensions.all (StrNewtype.isOk Extension ·) && p.privateUse.all (StrNewtype.isOk PrivateUse ·)) = true)
    (hw : p.render = w) : Decomposes w p := by
  simp only [Bool.and_eq_true] at h
  obtain ⟨⟨⟨⟨⟨h1, h2⟩, h3⟩, h4⟩, h5⟩, h6⟩ := h
  refine ⟨⟨(isOk_Language _).mp h1, fun s hs => ?_, fun s hs => ?_, fun s hs => ?_, fun s hs => ?_, fun s hs => ?_⟩, hw⟩
  · rw [hs] at h2; exact (isOk_Script _).mp h2
  · rw [hs] at h3; exact (isOk_Region _).mp h3
  · exact (isOk_Variant _).mp (List.all_eq_true.mp h4 s hs)
  · exact (isOk_Extension _).mp (List.all_eq_true.mp h5 s hs)
  · rw [hs] at h6; exact (isOk_PrivateUse _).mp h6

/-- All six parts. -/
theorem decomposes_full :
    Decomposes (ascii "zh-yue-Hant-HK-1abc-abcde-a-bbb-cc-b-dd-x-y-zzz") exampleParts :=
  decomposes_of_isOk (by decide +kernel) (by decide +kernel)

/-- Only a language. -/
theorem decomposes_en : Decomposes (ascii "en") { language := ascii "en" } :=
  decomposes_of_isOk (by decide +kernel) (by decide +kernel)

/-- A language and a private use part. -/
theorem decomposes_en_x : Decomposes (ascii "en-x-foo-b") { language := ascii "en", privateUse := some (ascii "x-foo-b") } :=
  decomposes_of_isOk (by decide +kernel) (by decide +kernel)

/-- A language and an extension. -/
theorem decomposes_en_a : Decomposes (ascii "en-a-bbb") { language := ascii "en", extensions := [ascii "a-bbb"] } :=
  decomposes_of_isOk (by decide +kernel) (by decide +kernel)

/-- A language, an extension and a private use part. -/
theorem decomposes_en_a_x : Decomposes (ascii "en-a-bbb-x-foo")
    { language := ascii "en", extensions := [ascii "a-bbb"], privateUse := some (ascii "x-foo") } :=
  decomposes_of_isOk (by decide +kernel) (by decide +kernel)

-- C39 of these
example (q : Parts) (h : Decomposes (ascii "en-x-foo-b") q) : q = { language := ascii "en", privateUse := some (ascii "x-foo-b") } :=
  C39_unique _ _ _ h decomposes_en_x

section
variable {t : NormalLangTag} {p : Parts}

theorem eq_mk (h : Decomposes t.str p) : t = ⟨p.render⟩ := by cases t; rw [h.2]

/-! ## C16 -/

/-- C16: `language()` returns the language part. -/
theorem C16_language (t : NormalLangTag) (p : Parts) (h : Decomposes t.str p) : t.language = .ok ⟨p.language⟩ := by
  rw [eq_mk h]; exact language_eq h.1

example : (NormalLangTag.mk (ascii "zh-yue-Hant-HK-1abc-abcde-a-bbb-cc-b-dd-x-y-zzz")).language =
    .ok ⟨ascii "zh-yue"⟩ := C16_language _ _ decomposes_full

/-! ## C17 -/

/-- C17 is false: `script()` panics on `en`. -/
theorem C17_violated :
    ¬ ∀ (t : NormalLangTag) (p : Parts), Decomposes t.str p → t.script = .ok (p.script.map Script.mk) := by
  intro h
  have := h ⟨ascii "en"⟩ _ decomposes_en
  revert this
  decide +kernel

/-- C17, what holds: `script()` returns the script part, or `None` if the tag has none, whenever something
follows the language.  Missing: on a tag that is only a language it panics. -/
theorem C17_script_partial (t : NormalLangTag) (p : Parts) (h : Decomposes t.str p) :
    (p.afterLanguage ≠ [] → t.script = .ok (p.script.map Script.mk)) ∧
    (p.afterLanguage = [] → t.script = .error .slice) := by
  rw [eq_mk h, script_eq h.1]
  exact ⟨fun hn => if_neg hn, fun hn => if_pos hn⟩

example : (NormalLangTag.mk (ascii "zh-yue-Hant-HK-1abc-abcde-a-bbb-cc-b-dd-x-y-zzz")).script =
    .ok (some ⟨ascii "Hant"⟩) := (C17_script_partial _ _ decomposes_full).1 (by decide +kernel)
example : (NormalLangTag.mk (ascii "en-x-foo-b")).script = .ok none :=
  (C17_script_partial _ _ decomposes_en_x).1 (by decide +kernel)

/-! ## C18 -/

/-- C18 is false: `region()` panics on `en`. -/
theorem C18_violated :
    ¬ ∀ (t : NormalLangTag) (p : Parts), Decomposes t.str p → t.region = .ok (p.region.map Region.mk) := by
  intro h
  have := h ⟨ascii "en"⟩ _ decomposes_en
  revert this
  decide +kernel

/-- C18, what holds: `region()` returns the region part, or `None` if the tag has none, whenever something
follows the language and script.  Missing: otherwise it panics. -/
theorem C18_region_partial (t : NormalLangTag) (p : Parts) (h : Decomposes t.str p) :
    (p.afterScript ≠ [] → t.region = .ok (p.region.map Region.mk)) ∧
    (p.afterScript = [] → t.region = .error .slice) := by
  rw [eq_mk h, region_eq h.1]
  exact ⟨fun hn => if_neg hn, fun hn => if_pos hn⟩

example : (NormalLangTag.mk (ascii "zh-yue-Hant-HK-1abc-abcde-a-bbb-cc-b-dd-x-y-zzz")).region =
    .ok (some ⟨ascii "HK"⟩) := (C18_region_partial _ _ decomposes_full).1 (by decide +kernel)

/-! ## C19 -/

/-- C19 is false: `variants()` panics on `en`. -/
theorem C19_violated :
    ¬ ∀ (t : NormalLangTag) (p : Parts), Decomposes t.str p → t.variants = .ok ⟨joinDash p.variants⟩ := by
  intro h
  have := h ⟨ascii "en"⟩ _ decomposes_en
  revert this
  decide +kernel

/-- C19, what holds: `variants()` returns the list of the variants, empty if there is none, whenever something
follows the language, script and region.  Missing: otherwise it panics. -/
theorem C19_variants_partial (t : NormalLangTag) (p : Parts) (h : Decomposes t.str p) :
    (p.afterRegion ≠ [] → t.variants = .ok ⟨joinDash p.variants⟩) ∧
    (p.afterRegion = [] → t.variants = .error .slice) := by
  rw [eq_mk h, variants_eq h.1]
  exact ⟨fun hn => if_neg hn, fun hn => if_pos hn⟩

example : (NormalLangTag.mk (ascii "zh-yue-Hant-HK-1abc-abcde-a-bbb-cc-b-dd-x-y-zzz")).variants =
    .ok ⟨ascii "1abc-abcde"⟩ := (C19_variants_partial _ _ decomposes_full).1 (by decide +kernel)
example : (NormalLangTag.mk (ascii "en-x-foo-b")).variants = .ok ⟨[]⟩ :=
  (C19_variants_partial _ _ decomposes_en_x).1 (by decide +kernel)

/-! ## C20 -/

/-- C20 is false: `extensions()` panics on `en`. -/
theorem C20_violated :
    ¬ ∀ (t : NormalLangTag) (p : Parts), Decomposes t.str p → t.extensions = .ok ⟨joinDash p.extensions⟩ := by
  intro h
  have := h ⟨ascii "en"⟩ _ decomposes_en
  revert this
  decide +kernel

/-- C20, what holds: `extensions()` returns the list of the extensions, without the private use part, empty if
there is none, whenever the tag has an extension or a private use part.  Missing: otherwise it panics. -/
theorem C20_extensions_partial (t : NormalLangTag) (p : Parts) (h : Decomposes t.str p) :
    (p.afterVariants ≠ [] → t.extensions = .ok ⟨joinDash p.extensions⟩) ∧
    (p.afterVariants = [] → t.extensions = .error .slice) := by
  rw [eq_mk h, extensions_eq h.1]
  exact ⟨fun hn => if_neg hn, fun hn => if_pos hn⟩

example : (NormalLangTag.mk (ascii "zh-yue-Hant-HK-1abc-abcde-a-bbb-cc-b-dd-x-y-zzz")).extensions =
    .ok ⟨ascii "a-bbb-cc-b-dd"⟩ := (C20_extensions_partial _ _ decomposes_full).1 (by decide +kernel)
example : (NormalLangTag.mk (ascii "en-x-foo-b")).extensions = .ok ⟨[]⟩ :=
  (C20_extensions_partial _ _ decomposes_en_x).1 (by decide +kernel)

/-! ## C21 -/

/-- C21 is false, and not only for the panics: on `en-a-bbb`, which has no private use part, `private_use()` returns
`a-bbb`; on `en-a-bbb-x-foo` it returns `a-bbb-x-foo`. -/
theorem C21_violated :
    (NormalLangTag.mk (ascii "en-a-bbb")).privateUse = .ok (some ⟨ascii "a-bbb"⟩) ∧
    (NormalLangTag.mk (ascii "en-a-bbb-x-foo")).privateUse = .ok (some ⟨ascii "a-bbb-x-foo"⟩) ∧
    (NormalLangTag.mk (ascii "en")).privateUse = .error .slice ∧
    ¬ ∀ (t : NormalLangTag) (p : Parts), Decomposes t.str p → t.privateUse = .ok (p.privateUse.map PrivateUse.mk) := by
  refine ⟨by decide +kernel, by decide +kernel, by decide +kernel, ?_⟩
  intro h
  have := h ⟨ascii "en-a-bbb"⟩ _ decomposes_en_a
  revert this
  decide +kernel

/-- C21, what holds: `private_use()` returns the private use part, or `None`, on a tag without extensions that goes on
after the region.  Missing: with extensions it returns the extensions and the private use part together
(second clause); it panics if nothing follows the region (third clause). -/
theorem C21_privateUse_partial (t : NormalLangTag) (p : Parts) (h : Decomposes t.str p) :
    (p.afterRegion ≠ [] → p.extensions = [] → t.privateUse = .ok (p.privateUse.map PrivateUse.mk)) ∧
    (p.extensions ≠ [] → t.privateUse = .ok (some ⟨joinDash (p.extensions ++ p.privateUse.toList)⟩)) ∧
    (p.afterRegion = [] → t.privateUse = .error .slice) := by
  rw [eq_mk h, privateUse_eq h.1]
  refine ⟨fun hn he => ?_, fun he => ?_, fun hn => if_pos hn⟩
  · rw [if_neg hn]
    cases hp : p.privateUse with
    | none => rw [if_pos (by simp [Parts.afterVariants, he, hp])]; rfl
    | some x =>
      rw [if_neg (by simp [Parts.afterVariants, hp])]
      simp [Parts.afterVariants, he, hp, joinDash]
  · have h1 : p.afterVariants ≠ [] := by simp [Parts.afterVariants, he]
    have h2 : p.afterRegion ≠ [] := by simp [Parts.afterRegion, h1]
    rw [if_neg h2, if_neg h1]; rfl

/-- C21, what holds: `private_use_subtags()` enumerates the subtags after the `x`, or nothing, on the same tags.
Missing: the same. -/
theorem C21_privateUseSubtags_partial (t : NormalLangTag) (p : Parts) (h : Decomposes t.str p)
    (hr : p.afterRegion ≠ []) (he : p.extensions = []) :
    ∃ it, t.privateUseSubtags = .ok it ∧
      Enumerates PrivateUseIter.next it
        (match p.privateUse with
          | some x => (subtags x).tail.map PrivateUseSubtag.mk
          | none => []) := by
  have h1 := (C21_privateUse_partial t p h).1 hr he
  unfold NormalLangTag.privateUseSubtags
  rw [h1]
  cases hp : p.privateUse with
  | none =>
    refine ⟨.empty, rfl, ?_⟩
    exact privateUseIter_enumerates (items := []) ⟨by simp [Ascii], Or.inl ⟨rfl, by simp⟩⟩
  | some x =>
    refine ⟨.new x, rfl, ?_⟩
    have hm := h.1.privateUse x hp
    obtain ⟨b, us, e, hne, hb, hus⟩ := subtags_privateuse hm
    have hx : x = [b, dash] ++ joinDash us := by
      rw [← joinDash_subtags x, e, joinDash_cons_of_ne_nil _ hne]; rfl
    have ha : Ascii x := ascii_of_matches okRe_privateuse hm
    simp only [e, List.tail_cons]
    rw [hx] at ha ⊢
    refine privateUseIter_enumerates (segInv_start ha ?_)
    intro u hu
    obtain ⟨hl, _, hal⟩ := (matches_privateuseSubtag u).mp (hus u hu)
    refine ⟨dashFree_of_alphanum hal, ?_⟩
    rintro rfl; simp at hl

/-- C21: what `private_use_subtags()` does whenever it returns: it skips the first subtag after the variants and
enumerates all the others, those of extensions included. -/
theorem C21_privateUseSubtags_extensions (t : NormalLangTag) (p : Parts) (h : Decomposes t.str p)
    (hr : p.afterRegion ≠ []) :
    ∃ it, t.privateUseSubtags = .ok it ∧
      Enumerates PrivateUseIter.next it (((p.extensions ++ p.privateUse.toList).flatMap subtags).tail.map PrivateUseSubtag.mk) := by
  have e0 := privateUse_eq h.1
  rw [← eq_mk h, if_neg hr] at e0
  unfold NormalLangTag.privateUseSubtags
  by_cases hv : p.afterVariants = []
  · rw [e0, if_pos hv]
    refine ⟨.empty, rfl, ?_⟩
    have : p.extensions ++ p.privateUse.toList = [] := hv
    rw [this]
    exact privateUseIter_enumerates (items := []) ⟨by simp [Ascii], Or.inl ⟨rfl, by simp⟩⟩
  · rw [e0, if_neg hv]
    refine ⟨.new (joinDash p.afterVariants), rfl, ?_⟩
    have ha : Ascii (joinDash p.afterVariants) := by
      have := ascii_render h.1
      rw [render_eq4] at this
      have hs : segs4 p ≠ [] := mt segs4_eq_nil.mp hv
      rw [tail_eq_of_ne_nil hs, segs4, joinDash_flatMap_subtags] at this
      intro b hb
      exact this b (by simp [hb])
    have hall : ∀ u ∈ p.afterVariants, ∃ (b : UInt8) (us : List Text), subtags u = [b] :: us ∧ us ≠ [] ∧
        ∀ w ∈ us, w ≠ [] := by
      intro u hu
      rcases List.mem_append.mp hu with hu | hu
      · obtain ⟨b, us, e, hne, _, hus⟩ := subtags_extension (h.1.extensions u hu)
        refine ⟨b, us, e, hne, ?_⟩
        rintro w hw rfl
        have := ((matches_extensionSubtag _).mp (hus _ hw)).1
        simp at this
      · obtain ⟨b, us, e, hne, _, hus⟩ := subtags_privateuse (h.1.privateUse u (by simpa using hu))
        refine ⟨b, us, e, hne, ?_⟩
        rintro w hw rfl
        have := ((matches_privateuseSubtag _).mp (hus _ hw)).1
        simp at this
    change Enumerates _ _ ((p.afterVariants.flatMap subtags).tail.map _)
    have hsegs : ∃ (b : UInt8) (us : List Text), p.afterVariants.flatMap subtags = [b] :: us ∧ us ≠ [] ∧
        ∀ w ∈ us, w ≠ [] := by
      cases hp : p.afterVariants with
      | nil => exact absurd hp hv
      | cons u ws =>
        rw [hp, List.forall_mem_cons] at hall
        obtain ⟨⟨b, us, e, hne, hus⟩, hws⟩ := hall
        refine ⟨b, us ++ ws.flatMap subtags, by rw [List.flatMap_cons, e]; rfl, by simp [hne], ?_⟩
        intro w hw
        rcases List.mem_append.mp hw with hw | hw
        · exact hus w hw
        · obtain ⟨u', hu', hw⟩ := List.mem_flatMap.mp hw
          obtain ⟨c, vs, e', _, hvs⟩ := hws u' hu'
          rw [e'] at hw
          rcases List.mem_cons.mp hw with rfl | hw
          · simp
          · exact hvs w hw
    obtain ⟨b, us, e, hne, hus⟩ := hsegs
    have hx : joinDash p.afterVariants = [b, dash] ++ joinDash us := by
      rw [← joinDash_flatMap_subtags, e, joinDash_cons_of_ne_nil _ hne]; rfl
    rw [e, List.tail_cons]
    rw [hx] at ha ⊢
    refine privateUseIter_enumerates (segInv_start ha fun u hu => ⟨?_, hus u hu⟩)
    have hm : u ∈ p.afterVariants.flatMap subtags := by rw [e]; exact List.mem_cons_of_mem _ hu
    obtain ⟨u', _, hu'⟩ := List.mem_flatMap.mp hm
    exact subtags_dashFree u' u hu'

example : (NormalLangTag.mk (ascii "en-x-foo-b")).privateUse = .ok (some ⟨ascii "x-foo-b"⟩) :=
  (C21_privateUse_partial _ _ decomposes_en_x).1 (by decide +kernel) rfl
example : subtags (ascii "x-foo-b") = [ascii "x", ascii "foo", ascii "b"] := by decide +kernel

/-! ## C22 -/

/-- Every accessor of the tag returns normally. -/
def NoPanic (t : NormalLangTag) : Prop :=
  (∃ r, t.language = .ok r) ∧ (∃ r, t.script = .ok r) ∧ (∃ r, t.region = .ok r) ∧ (∃ r, t.variants = .ok r) ∧
  (∃ r, t.extensions = .ok r) ∧ (∃ r, t.privateUse = .ok r) ∧ (∃ r, t.privateUseSubtags = .ok r)

/-- C22 is false: all accessors but `language()` panic on `en`. -/
theorem C22_violated : ¬ ∀ t : NormalLangTag, Constructed t → NoPanic t := by
  intro h
  obtain ⟨_, ⟨r, hr⟩, _⟩ := h ⟨ascii "en"⟩ ((normal_has_parts _).mpr ⟨_, decomposes_en⟩)
  have e : (NormalLangTag.mk (ascii "en")).script = .error .slice := by decide +kernel
  rw [e] at hr
  cases hr

/-- C22, what holds, exactly: `language()` always returns; the others return iff the tag goes on after the part
that precedes the one looked for.  Missing: otherwise they panic.  (No accessor panics on a tag with an extension or
a private use part; on a tag that is only a language all but `language()` do.) -/
theorem C22_noPanic_partial (t : NormalLangTag) (p : Parts) (h : Decomposes t.str p) :
    (∃ r, t.language = .ok r) ∧
    ((∃ r, t.script = .ok r) ↔ p.afterLanguage ≠ []) ∧
    ((∃ r, t.region = .ok r) ↔ p.afterScript ≠ []) ∧
    ((∃ r, t.variants = .ok r) ↔ p.afterRegion ≠ []) ∧
    ((∃ r, t.extensions = .ok r) ↔ p.afterVariants ≠ []) ∧
    ((∃ r, t.privateUse = .ok r) ↔ p.afterRegion ≠ []) ∧
    ((∃ r, t.privateUseSubtags = .ok r) ↔ p.afterRegion ≠ []) := by
  have hpu : (∃ r, t.privateUse = .ok r) ↔ p.afterRegion ≠ [] := by
    rw [eq_mk h, privateUse_eq h.1]
    by_cases h1 : p.afterRegion = []
    · rw [if_pos h1]; simp [h1]
    · rw [if_neg h1]; simp only [ne_eq, h1, not_false_eq_true, iff_true]
      split <;> exact ⟨_, rfl⟩
  refine ⟨⟨_, C16_language t p h⟩, ?_, ?_, ?_, ?_, hpu, ?_⟩
  · rw [eq_mk h, script_eq h.1]; split <;> simp [*]
  · rw [eq_mk h, region_eq h.1]; split <;> simp [*]
  · rw [eq_mk h, variants_eq h.1]; split <;> simp [*]
  · rw [eq_mk h, extensions_eq h.1]; split <;> simp [*]
  · rw [← hpu]
    unfold NormalLangTag.privateUseSubtags
    cases t.privateUse with
    | error e => simp [bind, Except.bind]
    | ok r => cases r <;> simp [bind, Except.bind, pure, Except.pure]

/-- C22, a class of tags on which nothing panics. -/
theorem C22_noPanic_of_tail (t : NormalLangTag) (p : Parts) (h : Decomposes t.str p) (hv : p.afterVariants ≠ []) :
    NoPanic t := by
  obtain ⟨h1, h2, h3, h4, h5, h6, h7⟩ := C22_noPanic_partial t p h
  have hr : p.afterRegion ≠ [] := by simp [Parts.afterRegion, hv]
  have hs : p.afterScript ≠ [] := by simp [Parts.afterScript, hr]
  have hl : p.afterLanguage ≠ [] := by simp [Parts.afterLanguage, hs]
  exact ⟨h1, h2.mpr hl, h3.mpr hs, h4.mpr hr, h5.mpr hv, h6.mpr hr, h7.mpr hr⟩

example : NoPanic ⟨ascii "en-x-foo-b"⟩ := C22_noPanic_of_tail _ _ decomposes_en_x (by decide +kernel)

/-! ## C23 -/

/-- The components returned by the accessors, joined by `-`. -/
def reassemble (l : Language) (s : Option Script) (r : Option Region) (v : Variants) (e : Extensions)
    (x : Option PrivateUse) : Text :=
  joinDash (l.str :: ((s.map (·.str)).toList ++ (r.map (·.str)).toList ++ [v.str, e.str].filter (· ≠ []) ++
    (x.map (·.str)).toList))

/-- C23 is false: on `en-a-bbb-x-foo` all accessors return, and the components join to `en-a-bbb-a-bbb-x-foo`. -/
theorem C23_violated :
    ¬ ∀ (t : NormalLangTag) l s r v e x, Constructed t → t.language = .ok l → t.script = .ok s → t.region = .ok r →
      t.variants = .ok v → t.extensions = .ok e → t.privateUse = .ok x → reassemble l s r v e x = t.str := by
  intro h
  have := h ⟨ascii "en-a-bbb-x-foo"⟩ ⟨ascii "en"⟩ none none ⟨[]⟩ ⟨ascii "a-bbb"⟩ (some ⟨ascii "a-bbb-x-foo"⟩)
    ((normal_has_parts _).mpr ⟨_, decomposes_en_a_x⟩) (by decide +kernel) (by decide +kernel) (by decide +kernel)
    (by decide +kernel) (by decide +kernel) (by decide +kernel)
  revert this
  decide +kernel

theorem tail_filter_join {vs : List Text} (h : ∀ v ∈ vs, v ≠ []) : tail ([joinDash vs].filter (· ≠ [])) = tail vs := by
  cases vs with
  | nil => rfl
  | cons u us =>
    have hu := h u (by simp)
    have : joinDash (u :: us) ≠ [] := by rw [joinDash_cons_tail]; simp [hu]
    rw [tail_eq_of_ne_nil (ws := u :: us) (by simp)]
    simp [this, tail]

theorem reassemble_length {p : Parts} (h : p.WF) (x : Option PrivateUse) :
    reassemble ⟨p.language⟩ (p.script.map Script.mk) (p.region.map Region.mk) ⟨joinDash p.variants⟩
      ⟨joinDash p.extensions⟩ x = upTo5 p ++ tail (x.map (·.str)).toList := by
  have hv : ∀ v ∈ p.variants, v ≠ [] := by
    rintro v hv rfl
    have := length_variant (h.variants _ hv)
    simp at this
  have he : ∀ v ∈ p.extensions, v ≠ [] := by
    rintro v hv rfl
    obtain ⟨b, us, e, hne, _⟩ := subtags_extension (h.extensions _ hv)
    simp [subtags] at e
  have e1 : [joinDash p.variants, joinDash p.extensions].filter (· ≠ []) =
      [joinDash p.variants].filter (· ≠ []) ++ [joinDash p.extensions].filter (· ≠ []) := by
    rw [← List.filter_append]; rfl
  unfold reassemble
  rw [joinDash_cons_tail, e1]
  simp only [tail_append, tail_filter_join hv, tail_filter_join he, Option.map_map]
  have e2 : (p.script.map ((fun x => x.str) ∘ Script.mk)) = p.script := by cases p.script <;> rfl
  have e3 : (p.region.map ((fun x => x.str) ∘ Region.mk)) = p.region := by cases p.region <;> rfl
  rw [e2, e3]
  simp only [upTo5, upTo4, upTo3, upTo2, List.append_assoc]

theorem render_upTo5 (p : Parts) : p.render = upTo5 p ++ tail p.privateUse.toList := by
  rw [render_eq4, segs4, tail_flatMap_subtags, Parts.afterVariants, tail_append, upTo5, List.append_assoc]

/-- C23, what holds, exactly: when all accessors return (see C22), the components join to the text iff the tag has no
extensions.  Missing: with extensions, `private_use()` repeats them (see C21). -/
theorem C23_reassemble_partial (t : NormalLangTag) (p : Parts) (h : Decomposes t.str p) (l s r v e x)
    (hl : t.language = .ok l) (hs : t.script = .ok s) (hr : t.region = .ok r) (hv : t.variants = .ok v)
    (he : t.extensions = .ok e) (hx : t.privateUse = .ok x) :
    reassemble l s r v e x = t.str ↔ p.extensions = [] := by
  obtain ⟨_, h2, h3, h4, h5, h6, _⟩ := C22_noPanic_partial t p h
  have n2 := h2.mp ⟨_, hs⟩
  have n3 := h3.mp ⟨_, hr⟩
  have n4 := h4.mp ⟨_, hv⟩
  have n5 := h5.mp ⟨_, he⟩
  rw [C16_language t p h] at hl
  rw [(C17_script_partial t p h).1 n2] at hs
  rw [(C18_region_partial t p h).1 n3] at hr
  rw [(C19_variants_partial t p h).1 n4] at hv
  rw [(C20_extensions_partial t p h).1 n5] at he
  obtain rfl := Except.ok.inj hl
  obtain rfl := Except.ok.inj hs
  obtain rfl := Except.ok.inj hr
  obtain rfl := Except.ok.inj hv
  obtain rfl := Except.ok.inj he
  rw [reassemble_length h.1, ← h.2, render_upTo5]
  constructor
  · intro heq
    by_cases hext : p.extensions = []
    · exact hext
    · rw [(C21_privateUse_partial t p h).2.1 hext] at hx
      obtain rfl := Except.ok.inj hx
      have := congrArg List.length heq
      cases hE : p.extensions with
      | nil => exact absurd hE hext
      | cons u us =>
        simp only [Option.map_some, Option.toList_some, hE, List.cons_append, joinDash_cons_tail, tail_append] at this
        have e1 : tail [u ++ (tail us ++ tail p.privateUse.toList)] =
            dash :: (u ++ (tail us ++ tail p.privateUse.toList)) := by simp [tail]
        rw [e1] at this
        simp at this
        omega
  · intro hext
    rw [(C21_privateUse_partial t p h).1 n4 hext] at hx
    obtain rfl := Except.ok.inj hx
    rw [Option.map_map]
    have : (p.privateUse.map ((fun x => x.str) ∘ PrivateUse.mk)) = p.privateUse := by cases p.privateUse <;> rfl
    rw [this]

example : reassemble ⟨ascii "en"⟩ none none ⟨[]⟩ ⟨[]⟩ (some ⟨ascii "x-foo-b"⟩) = ascii "en-x-foo-b" := by decide +kernel

end

/-! ## The same accessors on `LangTag` -/

/-- C16–C22 on `LangTag`: on a normal tag each accessor of `LangTag` does what the accessor of `NormalLangTag` does. -/
theorem C16_langTag (t : LangTag) (h : Accepts NormalLangTag t.str) :
    (t.language = (NormalLangTag.mk t.str).language.map some) ∧
    t.script = (NormalLangTag.mk t.str).script ∧ t.region = (NormalLangTag.mk t.str).region ∧
    t.variants = (NormalLangTag.mk t.str).variants ∧ t.extensions = (NormalLangTag.mk t.str).extensions ∧
    t.privateUse = (NormalLangTag.mk t.str).privateUse ∧
    t.privateUseSubtags = (NormalLangTag.mk t.str).privateUseSubtags := by
  have hm := (accepts_iff is_NormalLangTag _).mp h
  have hn : t.asNormal = some ⟨t.str⟩ := by unfold LangTag.asNormal; rw [normal_new.1 hm]; rfl
  have hp : t.privateUse = (NormalLangTag.mk t.str).privateUse := by unfold LangTag.privateUse; rw [hn]
  refine ⟨?_, ?_, ?_, ?_, ?_, hp, ?_⟩
  · unfold LangTag.language
    rw [normal_new.1 hm]
    simp only
    cases (NormalLangTag.mk t.str).language <;> rfl
  · unfold LangTag.script; rw [hn]
  · unfold LangTag.region; rw [hn]
  · unfold LangTag.variants; rw [hn]
  · unfold LangTag.extensions; rw [hn]
  · unfold LangTag.privateUseSubtags NormalLangTag.privateUseSubtags
    rw [hp]
    cases (NormalLangTag.mk t.str).privateUse with
    | error e => rfl
    | ok r => cases r <;> rfl

example : Accepts NormalLangTag (ascii "en-x-foo-b") := accepts_of_isOk (by decide +kernel)

end Langtag.Props
