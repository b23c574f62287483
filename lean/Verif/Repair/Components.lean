import Verif.Repair.Normal
import Verif.Props.Components

/-!
# C17–C23 of the repaired code

The statements that `C17_violated`, …, `C23_violated` refute of the code of the repository, proved of `Verif/Repair/Normal.lean`.
-/

set_option autoImplicit false

namespace Langtag.Repair
open Langtag.Spec Langtag.Model Langtag.Proof Langtag.Props

variable {p : Parts}

theorem findListEnd_past {s : Str} {i : Nat} {f : Nat → Str → Rust Bool} (h : s.length < i) : findListEnd s i f = .ok i := if_pos h

theorem findListEnd_inside {s : Str} {i : Nat} {f : Nat → Str → Rust Bool} (h : i ≤ s.length) :
    findListEnd s i f = Model.findListEnd s i f := if_neg (Nat.not_lt.mpr h)

theorem length_lt_of_ne {w cur : Text} {segs : List Text} (hr : w = cur ++ tail segs) (h : segs ≠ []) : cur.length + 1 ≤ w.length := by
  rw [hr, tail_eq_of_ne_nil h]
  simp

theorem length_of_nil {w cur : Text} {segs : List Text} (hr : w = cur ++ tail segs) (h : segs = []) : w.length < cur.length + 1 := by
  rw [hr, h]
  simp [tail]

/-! ## Script -/

theorem scriptRange_same (h : p.WF) (hA : p.afterLanguage ≠ []) : scriptRange ⟨p.render⟩ = (NormalLangTag.mk p.render).scriptRange := by
  unfold scriptRange NormalLangTag.scriptRange
  rw [languageEnd_eq h]
  simp only [bind, Except.bind]
  rw [findListEnd_inside (length_lt_of_ne (render_eq p) (mt segs1_eq_nil.mp hA))]

theorem scriptRange_end (h : p.WF) (hA : p.afterLanguage = []) : scriptRange ⟨p.render⟩ = .ok (.error p.language.length) := by
  unfold scriptRange
  rw [languageEnd_eq h]
  simp only [bind, Except.bind]
  rw [findListEnd_past (length_of_nil (render_eq p) (segs1_eq_nil.mpr hA))]
  simp [pure, Except.pure]

theorem afterLanguage_nil (hA : p.afterLanguage = []) : p.script = none ∧ p.afterScript = [] := by
  simpa [Parts.afterLanguage] using hA

theorem afterScript_nil (hA : p.afterScript = []) : p.region = none ∧ p.afterRegion = [] := by
  simpa [Parts.afterScript] using hA

theorem afterRegion_nil (hA : p.afterRegion = []) : p.variants = [] ∧ p.afterVariants = [] := by
  simpa [Parts.afterRegion] using hA

theorem afterVariants_nil (hA : p.afterVariants = []) : p.extensions = [] ∧ p.privateUse = none := by
  simpa [Parts.afterVariants] using hA

/-- C17 of the repaired code. -/
theorem C17_script (t : NormalLangTag) (p : Parts) (h : Decomposes t.str p) : script t = .ok (p.script.map Script.mk) := by
  rw [eq_mk h]
  by_cases hA : p.afterLanguage = []
  · unfold script
    rw [scriptRange_end h.1 hA, (afterLanguage_nil hA).1]
    rfl
  · have := script_eq h.1
    rw [if_neg hA] at this
    rw [← this]
    unfold script NormalLangTag.script
    rw [scriptRange_same h.1 hA]
    rfl

theorem scriptEnd (h : p.WF) :
    (∃ a, scriptRange ⟨p.render⟩ = .ok (.ok (a, (upTo2 p).length))) ∨ scriptRange ⟨p.render⟩ = .ok (.error (upTo2 p).length) := by
  by_cases hA : p.afterLanguage = []
  · refine Or.inr ?_
    rw [scriptRange_end h hA]
    simp [upTo2, (afterLanguage_nil hA).1, tail]
  · rw [scriptRange_same h hA]
    exact scriptEnd_ok h hA

/-! ## Region -/

theorem regionRange_same (h : p.WF) (hA : p.afterScript ≠ []) : regionRange ⟨p.render⟩ = (NormalLangTag.mk p.render).regionRange := by
  have hL := afterLanguage_ne_nil_of hA
  unfold regionRange NormalLangTag.regionRange
  rw [scriptRange_same h hL]
  rcases scriptEnd_ok h hL with ⟨a, hr⟩ | hr <;>
  · rw [hr]
    simp only [bind, Except.bind]
    rw [findListEnd_inside (length_lt_of_ne (render_eq2 p) (mt segs2_eq_nil.mp hA))]

theorem regionRange_end (h : p.WF) (hA : p.afterScript = []) : regionRange ⟨p.render⟩ = .ok (.error (upTo2 p).length) := by
  unfold regionRange
  rcases scriptEnd h with ⟨a, hr⟩ | hr <;>
  · rw [hr]
    simp only [bind, Except.bind]
    rw [findListEnd_past (length_of_nil (render_eq2 p) (segs2_eq_nil.mpr hA))]
    simp [pure, Except.pure]

/-- C18 of the repaired code. -/
theorem C18_region (t : NormalLangTag) (p : Parts) (h : Decomposes t.str p) : region t = .ok (p.region.map Region.mk) := by
  rw [eq_mk h]
  by_cases hA : p.afterScript = []
  · unfold region
    rw [regionRange_end h.1 hA, (afterScript_nil hA).1]
    rfl
  · have := region_eq h.1
    rw [if_neg hA] at this
    rw [← this]
    unfold region NormalLangTag.region
    rw [regionRange_same h.1 hA]
    rfl

theorem regionEnd (h : p.WF) :
    (∃ a, regionRange ⟨p.render⟩ = .ok (.ok (a, (upTo3 p).length))) ∨ regionRange ⟨p.render⟩ = .ok (.error (upTo3 p).length) := by
  by_cases hA : p.afterScript = []
  · refine Or.inr ?_
    rw [regionRange_end h hA]
    simp [upTo3, (afterScript_nil hA).1, tail]
  · rw [regionRange_same h hA]
    exact regionEnd_ok h hA

/-! ## Variants -/

theorem variantsRange_same (h : p.WF) (hA : p.afterRegion ≠ []) :
    variantsRange ⟨p.render⟩ = (NormalLangTag.mk p.render).variantsRange := by
  have hL := afterScript_ne_nil_of hA
  unfold variantsRange NormalLangTag.variantsRange
  rw [regionRange_same h hL]
  rcases regionEnd_ok h hL with ⟨a, hr⟩ | hr <;>
  · rw [hr]
    simp only [bind, Except.bind]
    rw [findListEnd_inside (length_lt_of_ne (render_eq3 p) (mt segs3_eq_nil.mp hA))]

theorem variantsRange_end (h : p.WF) (hA : p.afterRegion = []) :
    variantsRange ⟨p.render⟩ = .ok ((upTo3 p).length, (upTo3 p).length) := by
  unfold variantsRange
  rcases regionEnd h with ⟨a, hr⟩ | hr <;>
  · rw [hr]
    simp only [bind, Except.bind]
    rw [findListEnd_past (length_of_nil (render_eq3 p) (segs3_eq_nil.mpr hA))]
    simp [pure, Except.pure]

theorem slice_empty {w cur rest : Text} (hs : Ascii w) (e : w = cur ++ rest) : sliceRange w cur.length cur.length = .ok [] := by
  have e1 : w = cur ++ [] ++ rest := by rw [e]; simp
  rw [e1] at hs ⊢
  simpa using sliceRange_append hs

/-- C19 of the repaired code. -/
theorem C19_variants (t : NormalLangTag) (p : Parts) (h : Decomposes t.str p) : variants t = .ok ⟨joinDash p.variants⟩ := by
  rw [eq_mk h]
  by_cases hA : p.afterRegion = []
  · unfold variants
    rw [variantsRange_end h.1 hA, (afterRegion_nil hA).1]
    simp only [bind, Except.bind]
    rw [slice_empty (ascii_render h.1) (render_eq3 p)]
    rfl
  · have := variants_eq h.1
    rw [if_neg hA] at this
    rw [← this]
    unfold variants NormalLangTag.variants
    rw [variantsRange_same h.1 hA]

theorem variantsEnd (h : p.WF) : ∃ r, variantsRange ⟨p.render⟩ = .ok r ∧ r.2 = (upTo4 p).length := by
  by_cases hA : p.afterRegion = []
  · exact ⟨_, variantsRange_end h hA, by simp [upTo4, (afterRegion_nil hA).1, tail]⟩
  · rw [variantsRange_same h hA]
    exact variantsEnd_ok h hA

/-! ## Extensions -/

theorem extensionsRange_same (h : p.WF) (hA : p.afterVariants ≠ []) :
    extensionsRange ⟨p.render⟩ = (NormalLangTag.mk p.render).extensionsRange := by
  have hL := afterRegion_ne_nil_of hA
  unfold extensionsRange NormalLangTag.extensionsRange
  rw [variantsRange_same h hL]
  obtain ⟨r, hr, hr'⟩ := variantsEnd_ok h hL
  rw [hr]
  simp only [bind, Except.bind]
  rw [hr', findListEnd_inside (length_lt_of_ne (render_eq4 p) (mt segs4_eq_nil.mp hA))]

theorem extensionsRange_end (h : p.WF) (hA : p.afterVariants = []) :
    extensionsRange ⟨p.render⟩ = .ok ((upTo4 p).length, (upTo4 p).length) := by
  unfold extensionsRange
  obtain ⟨r, hr, hr'⟩ := variantsEnd h
  rw [hr]
  simp only [bind, Except.bind]
  rw [hr', findListEnd_past (length_of_nil (render_eq4 p) (segs4_eq_nil.mpr hA))]
  simp [pure, Except.pure]

/-- C20 of the repaired code. -/
theorem C20_extensions (t : NormalLangTag) (p : Parts) (h : Decomposes t.str p) : extensions t = .ok ⟨joinDash p.extensions⟩ := by
  rw [eq_mk h]
  by_cases hA : p.afterVariants = []
  · unfold extensions
    rw [extensionsRange_end h.1 hA, (afterVariants_nil hA).1]
    simp only [bind, Except.bind]
    rw [slice_empty (ascii_render h.1) (render_eq4 p)]
    rfl
  · have := extensions_eq h.1
    rw [if_neg hA] at this
    rw [← this]
    unfold extensions NormalLangTag.extensions
    rw [extensionsRange_same h.1 hA]

theorem extensionsEnd (h : p.WF) : ∃ r, extensionsRange ⟨p.render⟩ = .ok r ∧ r.2 = (upTo5 p).length := by
  by_cases hA : p.afterVariants = []
  · exact ⟨_, extensionsRange_end h hA, by simp [upTo5, (afterVariants_nil hA).1, tail]⟩
  · rw [extensionsRange_same h hA, extensionsRange_eq h, if_neg hA]
    split <;> rename_i hv
    · exact ⟨_, rfl, by simp [upTo5, hv, tail]⟩
    · exact ⟨_, rfl, rfl⟩

/-! ## Private use -/

/-- C21 of the repaired code. -/
theorem C21_privateUse (t : NormalLangTag) (p : Parts) (h : Decomposes t.str p) :
    privateUse t = .ok (p.privateUse.map PrivateUse.mk) := by
  rw [eq_mk h]
  unfold privateUse privateUseOffset
  obtain ⟨r, hr, hr'⟩ := extensionsEnd h.1
  rw [hr]
  simp only [bind, Except.bind]
  rw [hr']
  cases hp : p.privateUse with
  | none =>
    have : p.render = upTo5 p := by rw [render_upTo5, hp]; simp [tail]
    rw [if_neg (by rw [this]; omega)]
    rfl
  | some x =>
    have e : p.render = (upTo5 p ++ [dash]) ++ x := by rw [render_upTo5, hp]; simp [tail]
    rw [if_pos (by rw [e]; simp)]
    have hs := ascii_render h.1
    rw [e] at hs ⊢
    have e2 : (upTo5 p).length + 1 = (upTo5 p ++ [dash]).length := by simp
    simp only [pure, Except.pure]
    rw [e2, sliceFrom_append hs]
    rfl

/-- C21 of the repaired code: the subtags. -/
theorem C21_privateUseSubtags (t : NormalLangTag) (p : Parts) (h : Decomposes t.str p) :
    ∃ it, privateUseSubtags t = .ok it ∧
      Enumerates PrivateUseIter.next it
        (match p.privateUse with
          | some x => (subtags x).tail.map PrivateUseSubtag.mk
          | none => []) := by
  unfold privateUseSubtags
  rw [C21_privateUse t p h]
  cases hp : p.privateUse with
  | none =>
    refine ⟨.empty, rfl, ?_⟩
    exact privateUseIter_enumerates (items := []) ⟨by simp [Ascii], Or.inl ⟨rfl, by simp⟩⟩
  | some x =>
    refine ⟨.new x, rfl, ?_⟩
    have hm := h.1.privateUse x hp
    obtain ⟨b, us, e, hne, hb, hus⟩ := subtags_privateuse hm
    have hx : x = [b, dash] ++ joinDash us := by
      rw [← joinDash_subtags x, e, joinDash_cons_of_ne_nil _ hne]; rfl
    have ha : Ascii x := ascii_of_matches okRe_privateuse hm
    simp only [e, List.tail_cons]
    rw [hx] at ha ⊢
    refine privateUseIter_enumerates (segInv_start ha ?_)
    intro u hu
    obtain ⟨hl, _, hal⟩ := (matches_privateuseSubtag u).mp (hus u hu)
    refine ⟨dashFree_of_alphanum hal, ?_⟩
    rintro rfl; simp at hl

/-- C22 of the repaired code: no accessor panics. -/
theorem C22_noPanic (t : NormalLangTag) (h : Constructed t) :
    (∃ r, t.language = .ok r) ∧ (∃ r, script t = .ok r) ∧ (∃ r, region t = .ok r) ∧ (∃ r, variants t = .ok r) ∧
    (∃ r, extensions t = .ok r) ∧ (∃ r, privateUse t = .ok r) ∧ (∃ r, privateUseSubtags t = .ok r) := by
  obtain ⟨p, hp⟩ := (normal_has_parts t).mp h
  obtain ⟨it, hit, _⟩ := C21_privateUseSubtags t p hp
  exact ⟨⟨_, C16_language t p hp⟩, ⟨_, C17_script t p hp⟩, ⟨_, C18_region t p hp⟩, ⟨_, C19_variants t p hp⟩,
    ⟨_, C20_extensions t p hp⟩, ⟨_, C21_privateUse t p hp⟩, ⟨it, hit⟩⟩

/-- C23 of the repaired code: the components join to the text. -/
theorem C23_reassemble (t : NormalLangTag) (h : Constructed t) (l s r v e x)
    (hl : t.language = .ok l) (hs : script t = .ok s) (hr : region t = .ok r) (hv : variants t = .ok v)
    (he : extensions t = .ok e) (hx : privateUse t = .ok x) : reassemble l s r v e x = t.str := by
  obtain ⟨p, hp⟩ := (normal_has_parts t).mp h
  rw [C16_language t p hp] at hl
  rw [C17_script t p hp] at hs
  rw [C18_region t p hp] at hr
  rw [C19_variants t p hp] at hv
  rw [C20_extensions t p hp] at he
  rw [C21_privateUse t p hp] at hx
  obtain rfl := Except.ok.inj hl
  obtain rfl := Except.ok.inj hs
  obtain rfl := Except.ok.inj hr
  obtain rfl := Except.ok.inj hv
  obtain rfl := Except.ok.inj he
  obtain rfl := Except.ok.inj hx
  rw [reassemble_length hp.1, ← hp.2, render_upTo5, Option.map_map]
  have : (p.privateUse.map ((fun x => x.str) ∘ PrivateUse.mk)) = p.privateUse := by cases p.privateUse <;> rfl
  rw [this]

/-- Where the code of the repository returns, and the tag has no extensions, the repaired code returns the same. -/
theorem unchanged (t : NormalLangTag) (h : Constructed t) :
    (∀ r, t.script = .ok r → script t = .ok r) ∧ (∀ r, t.region = .ok r → region t = .ok r) ∧
    (∀ r, t.variants = .ok r → variants t = .ok r) ∧ (∀ r, t.extensions = .ok r → extensions t = .ok r) ∧
    (∀ r, t.privateUse = .ok r → (∃ e, t.extensions = .ok e ∧ e.str ≠ []) ∨ privateUse t = .ok r) := by
  obtain ⟨p, hp⟩ := (normal_has_parts t).mp h
  obtain ⟨_, h2, h3, h4, h5, h6, _⟩ := C22_noPanic_partial t p hp
  refine ⟨fun r hr => ?_, fun r hr => ?_, fun r hr => ?_, fun r hr => ?_, fun r hr => ?_⟩
  · rw [C17_script t p hp, ← hr, (C17_script_partial t p hp).1 (h2.mp ⟨_, hr⟩)]
  · rw [C18_region t p hp, ← hr, (C18_region_partial t p hp).1 (h3.mp ⟨_, hr⟩)]
  · rw [C19_variants t p hp, ← hr, (C19_variants_partial t p hp).1 (h4.mp ⟨_, hr⟩)]
  · rw [C20_extensions t p hp, ← hr, (C20_extensions_partial t p hp).1 (h5.mp ⟨_, hr⟩)]
  · by_cases he : p.extensions = []
    · right
      rw [C21_privateUse t p hp, ← hr, (C21_privateUse_partial t p hp).1 (h6.mp ⟨_, hr⟩) he]
    · left
      refine ⟨_, (C20_extensions_partial t p hp).1 (by simp [Parts.afterVariants, he]), ?_⟩
      exact List.length_pos_iff.mp (joinDash_length_pos he (extensions_ne hp.1))

example : script ⟨ascii "en"⟩ = .ok none := by decide +kernel
example : privateUse ⟨ascii "en-a-bbb-x-foo"⟩ = .ok (some ⟨ascii "x-foo"⟩) := by decide +kernel
example : extensions ⟨ascii "en-US"⟩ = .ok ⟨[]⟩ := by decide +kernel

end Langtag.Repair
