import Verif.Spec.Parser
import Verif.Proof.Unique

/-! # The reference parser computes the decomposition -/

set_option autoImplicit false

namespace Langtag.Proof
open Langtag.Spec Langtag.Model
open Langtag.Spec.Parser

theorem letter_iff (b : UInt8) : letter b = true ↔ IsAlpha b := by
  simp [letter, IsAlpha]
theorem digit_iff (b : UInt8) : digit b = true ↔ IsDigit b := by
  simp [digit, IsDigit]
theorem alphanum_iff (b : UInt8) : alphanum b = true ↔ IsAlphanum b := by
  simp [alphanum, IsAlphanum, letter_iff, digit_iff]

theorem sized_iff {f : UInt8 → Bool} {P : UInt8 → Prop} (h : ∀ b, f b = true ↔ P b) (m n : Nat) (u : Text) :
    sized m n f u = true ↔ m ≤ u.length ∧ u.length ≤ n ∧ ∀ b ∈ u, P b := by
  simp [sized, h, and_assoc]

theorem isExtlang_iff (u : Text) : isExtlang u = true ↔ Grammar.extlangTag.Matches u := by
  rw [isExtlang, sized_iff letter_iff, matches_extlangTag]
  constructor
  · rintro ⟨h1, h2, h3⟩; exact ⟨by omega, h3⟩
  · rintro ⟨h1, h3⟩; exact ⟨by omega, by omega, h3⟩
theorem isScript_iff (u : Text) : isScript u = true ↔ Grammar.script.Matches u := by
  rw [isScript, sized_iff letter_iff, matches_script]
  constructor
  · rintro ⟨h1, h2, h3⟩; exact ⟨by omega, h3⟩
  · rintro ⟨h1, h3⟩; exact ⟨by omega, by omega, h3⟩
theorem isRegion_iff (u : Text) : isRegion u = true ↔ Grammar.region.Matches u := by
  rw [isRegion, Bool.or_eq_true, sized_iff letter_iff, sized_iff digit_iff, matches_region]
  constructor
  · rintro (⟨h1, h2, h3⟩ | ⟨h1, h2, h3⟩)
    · exact Or.inl ⟨by omega, h3⟩
    · exact Or.inr ⟨by omega, h3⟩
  · rintro (⟨h1, h3⟩ | ⟨h1, h3⟩)
    · exact Or.inl ⟨by omega, by omega, h3⟩
    · exact Or.inr ⟨by omega, by omega, h3⟩
theorem isVariant_iff (u : Text) : isVariant u = true ↔ Grammar.variant.Matches u := by
  rw [isVariant, Bool.or_eq_true, Bool.and_eq_true, sized_iff alphanum_iff, sized_iff alphanum_iff, matches_variant]
  have hd : u.head?.any digit = true ↔ ∃ b ∈ u.head?, IsDigit b := by
    cases u with
    | nil => simp
    | cons b u => simp [digit_iff]
  rw [hd]
  constructor
  · rintro (h | ⟨⟨h1, h2, h3⟩, h4⟩)
    · exact Or.inl h
    · exact Or.inr ⟨by omega, h3, h4⟩
  · rintro (h | ⟨h1, h3, h4⟩)
    · exact Or.inl h
    · exact Or.inr ⟨⟨by omega, by omega, h3⟩, h4⟩
theorem isX_iff (u : Text) : isX u = true ↔ ∃ b, u = [b] ∧ (b = 120 ∨ b = 88) := by
  simp only [isX, Bool.or_eq_true, beq_iff_eq]
  constructor
  · rintro (rfl | rfl)
    · exact ⟨_, rfl, Or.inl rfl⟩
    · exact ⟨_, rfl, Or.inr rfl⟩
  · rintro ⟨b, rfl, rfl | rfl⟩ <;> simp
theorem isSingleton_iff (u : Text) : Parser.isSingleton u = true ↔ ∃ b, u = [b] ∧ IsSingleton b := by
  rw [Parser.isSingleton, Bool.and_eq_true, sized_iff alphanum_iff]
  simp only [isX, Bool.not_eq_true', Bool.or_eq_false_iff, beq_eq_false_iff_ne]
  constructor
  · rintro ⟨⟨h1, h2, h3⟩, h4, h5⟩
    obtain ⟨b, rfl⟩ := List.length_eq_one_iff.mp (show u.length = 1 by omega)
    exact ⟨b, rfl, h3 b (by simp), by simpa using h4, by simpa using h5⟩
  · rintro ⟨b, rfl, h1, h2, h3⟩
    simp [h1, h2, h3]
theorem isExtensionSubtag_iff (u : Text) : isExtensionSubtag u = true ↔ Grammar.extensionSubtag.Matches u := by
  rw [isExtensionSubtag, sized_iff alphanum_iff, matches_extensionSubtag]
theorem isPrivateUseSubtag_iff (u : Text) : isPrivateUseSubtag u = true ↔ Grammar.privateuseSubtag.Matches u := by
  rw [isPrivateUseSubtag, sized_iff alphanum_iff, matches_privateuseSubtag]

/-! ## Completeness -/

theorem takeAtMost_append {f : Text → Bool} {as bs : List Text} (ha : ∀ a ∈ as, f a = true)
    (hb : ∀ b ∈ bs.head?, f b = false) (n : Nat) (hn : as.length ≤ n) : takeAtMost f n (as ++ bs) = (as, bs) := by
  induction as generalizing n with
  | nil =>
    cases bs with
    | nil => cases n <;> rfl
    | cons b bs =>
      have := hb b rfl
      cases n <;> simp [takeAtMost, this]
  | cons a as ih =>
    rw [List.forall_mem_cons] at ha
    cases n with
    | zero => simp at hn
    | succ n => simp [takeAtMost, ha.1, ih ha.2 n (by simpa using hn)]

theorem takeOne_append {f : Text → Bool} {o : Option Text} {bs : List Text} (ha : ∀ a, o = some a → f a = true)
    (hb : ∀ b ∈ bs.head?, f b = false) : takeOne f (o.toList ++ bs) = (o, bs) := by
  cases o with
  | none =>
    cases bs with
    | nil => rfl
    | cons b bs => simp [takeOne, hb b rfl]
  | some a => simp [takeOne, ha a rfl]

theorem takeWhile_append_stop {f : Text → Bool} {as bs : List Text} (ha : ∀ a ∈ as, f a = true)
    (hb : ∀ b ∈ bs.head?, f b = false) : (as ++ bs).takeWhile f = as ∧ (as ++ bs).dropWhile f = bs := by
  induction as with
  | nil =>
    cases bs with
    | nil => simp
    | cons b bs => simp [hb b rfl]
  | cons a as ih =>
    rw [List.forall_mem_cons] at ha
    simp [ha.1, ih ha.2]

theorem bool_false_of {f : Text → Bool} {a : Abnf} (h : ∀ u, f u = true ↔ a.Matches u) {u : Text} (hn : ¬ a.Matches u) :
    f u = false := by
  rw [Bool.eq_false_iff]; exact fun hh => hn ((h u).mp hh)

theorem parseLanguage_append {l : Text} (h : Grammar.language.Matches l) {bs : List Text}
    (hb : ∀ b ∈ bs.head?, ¬ Grammar.extlangTag.Matches b) : parseLanguage (subtags l ++ bs) = some (l, bs) := by
  obtain ⟨v, us, e, hl, hp, h2, h8, hv, hus⟩ := subtags_language h
  have hj : l = joinDash (v :: us) := by rw [← e, joinDash_subtags]
  rw [e]
  simp only [List.cons_append, parseLanguage]
  by_cases hlen : v.length ≤ 3
  · have hs : sized 2 3 letter v = true := (sized_iff letter_iff _ _ _).mpr ⟨h2, hlen, hv⟩
    have ht := takeAtMost_append (fun u hu => (isExtlang_iff u).mpr (hus u hu))
      (fun b hb' => bool_false_of isExtlang_iff (hb b hb')) 3 hl
    simp [hs, ht, hj]
  · have hus0 : us = [] := by
      by_cases h0 : us = []
      · exact h0
      · have := ((matches_primary v).mp (hp h0)).2.1; omega
    have hs : sized 2 3 letter v = false := by
      rw [Bool.eq_false_iff, Ne, sized_iff letter_iff]; rintro ⟨_, h, _⟩; omega
    have hs' : sized 4 8 letter v = true := (sized_iff letter_iff _ _ _).mpr ⟨by omega, h8, hv⟩
    subst hus0
    simp [hs, hs', hj, joinDash]

theorem not_isExtensionSubtag {u : Text} (h : u.length = 1) : isExtensionSubtag u = false := by
  rw [Bool.eq_false_iff, Ne, isExtensionSubtag, sized_iff alphanum_iff]; rintro ⟨_, _, _⟩; omega

theorem parseExtensions_stop {R : List Text} (h : ∀ b ∈ R.head?, Parser.isSingleton b = false) :
    parseExtensions R = ([], R) := by
  match R, h with
  | [], _ => rw [parseExtensions.eq_def]
  | [_], _ => rw [parseExtensions.eq_def]
  | s :: v :: us, h => rw [parseExtensions.eq_def]; simp [h s rfl]

theorem parseExtensions_append {es : List Text} (h : ∀ e ∈ es, Grammar.extension.Matches e) {R : List Text}
    (hR : ∀ b ∈ R.head?, b.length = 1 ∧ Parser.isSingleton b = false) :
    parseExtensions (es.flatMap subtags ++ R) = (es, R) := by
  induction es with
  | nil => exact parseExtensions_stop fun b hb => (hR b hb).2
  | cons e es ih =>
    rw [List.forall_mem_cons] at h
    obtain ⟨b, us, hu, hne, hb, hus⟩ := subtags_extension h.1
    have hj : e = joinDash ([b] :: us) := by rw [← hu, joinDash_subtags]
    obtain ⟨v, vs, rfl⟩ := List.exists_cons_of_ne_nil hne
    have hhead : ∀ a ∈ (es.flatMap subtags ++ R).head?, isExtensionSubtag a = false := by
      intro a ha
      refine not_isExtensionSubtag ?_
      cases hes : es.flatMap subtags with
      | nil => rw [hes] at ha; exact (hR a ha).1
      | cons x xs =>
        rw [hes] at ha
        exact head_extensions h.2 a (by rw [hes]; exact ha)
    rw [List.forall_mem_cons] at hus
    obtain ⟨h1, h2⟩ := takeWhile_append_stop (fun u hu => (isExtensionSubtag_iff u).mpr (hus.2 u hu)) hhead
    rw [parseExtensions.eq_def]
    simp only [List.flatMap_cons, hu, List.cons_append, List.append_assoc]
    rw [h1, h2, ih h.2, (isSingleton_iff [b]).mpr ⟨b, rfl, hb⟩, (isExtensionSubtag_iff v).mpr hus.1, hj]
    rfl

theorem x_not_singleton {b : UInt8} (h : b = 120 ∨ b = 88) : Parser.isSingleton [b] = false := by
  rcases h with rfl | rfl <;> decide

theorem subtags_render_flatMap (p : Parts) : subtags p.render = subtags p.language ++ p.afterLanguage.flatMap subtags := by
  rw [Parts.render, subtags_joinDash (by simp), List.flatMap_cons]

theorem flatMap_afterLanguage {p : Parts} (h : p.WF) : p.afterLanguage.flatMap subtags = segs1 p := by
  have hsc : p.script.toList.flatMap subtags = p.script.toList :=
    flatMap_subtags_of_dashFree fun u hu => dashFree_script (h.script u (by simpa using hu))
  have hre : p.region.toList.flatMap subtags = p.region.toList :=
    flatMap_subtags_of_dashFree fun u hu => dashFree_region (h.region u (by simpa using hu))
  have hva : p.variants.flatMap subtags = p.variants :=
    flatMap_subtags_of_dashFree fun u hu => dashFree_variant (h.variants u hu)
  simp only [Parts.afterLanguage, Parts.afterScript, Parts.afterRegion, List.flatMap_append, hsc, hre, hva, segs1, segs2,
    segs3, segs4]

theorem parse_complete {w : Text} {p : Parts} (h : Decomposes w p) : parse w = some p := by
  obtain ⟨h, rfl⟩ := h
  unfold parse
  rw [subtags_render_flatMap, flatMap_afterLanguage h, parseLanguage_append h.language (head1_not_extlang h)]
  have h1 : takeOne isScript (segs1 p) = (p.script, segs2 p) :=
    takeOne_append (fun a ha => (isScript_iff a).mpr (h.script a ha))
      fun b hb => bool_false_of isScript_iff (head2_not_script h b hb)
  have h2 : takeOne isRegion (segs2 p) = (p.region, segs3 p) :=
    takeOne_append (fun a ha => (isRegion_iff a).mpr (h.region a ha))
      fun b hb => bool_false_of isRegion_iff (head3_not_region h b hb)
  obtain ⟨h3, h4⟩ : (segs3 p).takeWhile isVariant = p.variants ∧ (segs3 p).dropWhile isVariant = segs4 p :=
    takeWhile_append_stop (fun a ha => (isVariant_iff a).mpr (h.variants a ha))
      fun b hb => bool_false_of isVariant_iff (head4_not_variant h b hb)
  have h5 : parseExtensions (segs4 p) = (p.extensions, p.privateUse.toList.flatMap subtags) := by
    rw [segs4, Parts.afterVariants, List.flatMap_append]
    refine parseExtensions_append h.extensions ?_
    cases hp : p.privateUse with
    | none => simp
    | some s =>
      obtain ⟨b, us, hu, _, hb, _⟩ := subtags_privateuse (h.privateUse s hp)
      simp [hu, x_not_singleton hb]
  have h6 : parsePrivateUse (p.privateUse.toList.flatMap subtags) = some p.privateUse := by
    cases hp : p.privateUse with
    | none => rfl
    | some s =>
      obtain ⟨b, us, hu, hne, hb, hus⟩ := subtags_privateuse (h.privateUse s hp)
      have hj : joinDash ([b] :: us) = s := by rw [← hu, joinDash_subtags]
      have hall : us.all isPrivateUseSubtag = true := by
        rw [List.all_eq_true]; exact fun u hu => (isPrivateUseSubtag_iff u).mpr (hus u hu)
      simp [hu, parsePrivateUse, (isX_iff [b]).mpr ⟨b, rfl, hb⟩, hne, hall, hj]
  simp only [bind, Option.bind, h1, h2, h3, h4, h5, h6, pure]

/-! ## Soundness -/

theorem takeAtMost_sound {f : Text → Bool} {n : Nat} {us vs rest : List Text} (h : takeAtMost f n us = (vs, rest)) :
    us = vs ++ rest ∧ vs.length ≤ n ∧ ∀ v ∈ vs, f v = true := by
  induction n generalizing us vs with
  | zero => simp only [takeAtMost, Prod.mk.injEq] at h; obtain ⟨rfl, rfl⟩ := h; simp
  | succ n ih =>
    cases us with
    | nil => simp only [takeAtMost, Prod.mk.injEq] at h; obtain ⟨rfl, rfl⟩ := h; simp
    | cons u us =>
      simp only [takeAtMost] at h
      split at h <;> rename_i hf
      · simp only [Prod.mk.injEq] at h
        obtain ⟨rfl, rfl⟩ := h
        obtain ⟨h1, h2, h3⟩ := ih (us := us) (vs := (takeAtMost f n us).1) (by ext <;> rfl)
        exact ⟨by rw [List.cons_append, ← h1], by simpa using h2, by simpa [hf] using h3⟩
      · simp only [Prod.mk.injEq] at h; obtain ⟨rfl, rfl⟩ := h; simp

theorem takeOne_sound {f : Text → Bool} {us rest : List Text} {o : Option Text} (h : takeOne f us = (o, rest)) :
    us = o.toList ++ rest ∧ ∀ s, o = some s → f s = true := by
  cases us with
  | nil => simp only [takeOne, Prod.mk.injEq] at h; obtain ⟨rfl, rfl⟩ := h; simp
  | cons u us =>
    simp only [takeOne] at h
    split at h <;> rename_i hf <;> (simp only [Prod.mk.injEq] at h; obtain ⟨rfl, rfl⟩ := h; simp [hf])

theorem parseLanguage_sound {us rest : List Text} {l : Text} (hd : ∀ u ∈ us, dash ∉ u)
    (h : parseLanguage us = some (l, rest)) : Grammar.language.Matches l ∧ us = subtags l ++ rest := by
  cases us with
  | nil => simp [parseLanguage] at h
  | cons u us =>
    simp only [parseLanguage] at h
    split at h <;> rename_i h1
    · simp only [Option.some.injEq, Prod.mk.injEq] at h
      obtain ⟨rfl, rfl⟩ := h
      obtain ⟨e, h2, h3⟩ := takeAtMost_sound (f := isExtlang) (n := 3) (us := us) (vs := (takeAtMost isExtlang 3 us).1)
        (rest := (takeAtMost isExtlang 3 us).2) rfl
      generalize (takeAtMost isExtlang 3 us).1 = vs at *
      generalize (takeAtMost isExtlang 3 us).2 = rest at *
      subst e
      refine ⟨(matches_language _).mpr (Or.inl ⟨u, vs, rfl, h2, ?_, fun v hv => (isExtlang_iff v).mp (h3 v hv)⟩), ?_⟩
      · exact (matches_primary u).mpr ((sized_iff letter_iff _ _ _).mp h1)
      · rw [subtags_joinDash_of_dashFree (by simp)]
        · rfl
        · intro v hv
          exact hd v (by simp only [List.mem_cons, List.mem_append] at hv ⊢; rcases hv with h | h <;> simp [h])
    · split at h <;> rename_i h2
      · simp only [Option.some.injEq, Prod.mk.injEq] at h
        obtain ⟨rfl, rfl⟩ := h
        have h2 := (sized_iff letter_iff _ _ _).mp h2
        exact ⟨(matches_language _).mpr (Or.inr h2), by rw [subtags_of_dashFree (hd u (by simp))]; rfl⟩
      · simp at h

theorem parseExtensions_sound (us : List Text) (hd : ∀ u ∈ us, dash ∉ u) :
    us = (parseExtensions us).1.flatMap subtags ++ (parseExtensions us).2 ∧
      ∀ e ∈ (parseExtensions us).1, Grammar.extension.Matches e := by
  match us, hd with
  | [], _ => rw [parseExtensions.eq_def]; simp
  | [_], _ => rw [parseExtensions.eq_def]; simp
  | s :: v :: us, hd =>
    rw [parseExtensions.eq_def]
    simp only
    split <;> rename_i h
    · rw [Bool.and_eq_true] at h
      obtain ⟨b, rfl, hb⟩ := (isSingleton_iff s).mp h.1
      have hv := (isExtensionSubtag_iff v).mp h.2
      have hsuf := List.dropWhile_suffix (l := us) isExtensionSubtag
      have hlen := hsuf.length_le
      have hd' : ∀ u ∈ us.dropWhile isExtensionSubtag, dash ∉ u := fun u hu => hd u (by simp [hsuf.subset hu])
      obtain ⟨h1, h2⟩ := parseExtensions_sound (us.dropWhile isExtensionSubtag) hd'
      have htw : ∀ u ∈ us.takeWhile isExtensionSubtag, Grammar.extensionSubtag.Matches u := fun u hu =>
        (isExtensionSubtag_iff u).mp (by
          have := List.all_takeWhile (l := us) (p := isExtensionSubtag)
          rw [List.all_eq_true] at this
          exact this u hu)
      refine ⟨?_, ?_⟩
      · simp only [List.flatMap_cons, List.append_assoc]
        rw [← h1, subtags_joinDash_of_dashFree (by simp)]
        · simp [List.takeWhile_append_dropWhile]
        · intro u hu
          simp only [List.mem_cons] at hu
          rcases hu with rfl | rfl | hu
          · exact hd _ (by simp)
          · exact hd _ (by simp)
          · exact hd _ (by simp [List.takeWhile_subset _ hu])
      · rw [List.forall_mem_cons]
        refine ⟨(matches_extension _).mpr ⟨b, _, rfl, by simp, hb, ?_⟩, h2⟩
        rw [List.forall_mem_cons]
        exact ⟨hv, htw⟩
    · simp
termination_by us.length
decreasing_by simp; omega

theorem parsePrivateUse_sound {us : List Text} {o : Option Text} (hd : ∀ u ∈ us, dash ∉ u)
    (h : parsePrivateUse us = some o) :
    us = o.toList.flatMap subtags ∧ ∀ s, o = some s → Grammar.privateuse.Matches s := by
  cases us with
  | nil => simp only [parsePrivateUse, Option.some.injEq] at h; subst h; simp
  | cons u us =>
    simp only [parsePrivateUse] at h
    split at h <;> rename_i hc
    · simp only [Bool.and_eq_true, decide_eq_true_eq, List.all_eq_true] at hc
      obtain ⟨⟨hx, hne⟩, hall⟩ := hc
      obtain ⟨b, rfl, hb⟩ := (isX_iff u).mp hx
      simp only [Option.some.injEq] at h
      subst h
      refine ⟨by simp [subtags_joinDash_of_dashFree (by simp) hd], ?_⟩
      intro s hs
      have hs := Option.some.inj hs
      subst hs
      exact (matches_privateuse _).mpr ⟨b, us, rfl, hne, hb, fun u hu => (isPrivateUseSubtag_iff u).mp (hall u hu)⟩
    · simp at h

theorem parse_sound {w : Text} {p : Parts} (h : parse w = some p) : Decomposes w p := by
  unfold parse at h
  cases hl : parseLanguage (subtags w) with
  | none => rw [hl] at h; simp at h
  | some lr =>
    obtain ⟨l, us1⟩ := lr
    rw [hl] at h
    simp only [bind, Option.bind] at h
    have hd0 := subtags_dashFree w
    obtain ⟨hL, e0⟩ := parseLanguage_sound hd0 hl
    obtain ⟨e1, h1⟩ := takeOne_sound (f := isScript) (us := us1) (o := (takeOne isScript us1).1)
      (rest := (takeOne isScript us1).2) rfl
    generalize (takeOne isScript us1).1 = sc at *
    generalize (takeOne isScript us1).2 = us2 at *
    obtain ⟨e2, h2⟩ := takeOne_sound (f := isRegion) (us := us2) (o := (takeOne isRegion us2).1)
      (rest := (takeOne isRegion us2).2) rfl
    generalize (takeOne isRegion us2).1 = re at *
    generalize (takeOne isRegion us2).2 = us3 at *
    have e3 : us3 = us3.takeWhile isVariant ++ us3.dropWhile isVariant := List.takeWhile_append_dropWhile.symm
    have h3 : ∀ v ∈ us3.takeWhile isVariant, Grammar.variant.Matches v := fun u hu =>
      (isVariant_iff u).mp (by
        have := List.all_takeWhile (l := us3) (p := isVariant)
        rw [List.all_eq_true] at this
        exact this u hu)
    generalize us3.takeWhile isVariant = va at *
    generalize us3.dropWhile isVariant = us4 at *
    have hd4 : ∀ u ∈ us4, dash ∉ u := fun u hu => hd0 u (by rw [e0, e1, e2, e3]; simp [hu])
    obtain ⟨e4, h4⟩ := parseExtensions_sound us4 hd4
    generalize (parseExtensions us4).1 = ex at *
    generalize (parseExtensions us4).2 = us5 at *
    have hd5 : ∀ u ∈ us5, dash ∉ u := fun u hu => hd4 u (by rw [e4]; simp [hu])
    cases hp : parsePrivateUse us5 with
    | none => rw [hp] at h; simp at h
    | some pu =>
      rw [hp] at h
      simp only [pure, Option.some.injEq] at h
      subst h
      obtain ⟨e5, h5⟩ := parsePrivateUse_sound hd5 hp
      have hwf : Parts.WF ⟨l, sc, re, va, ex, pu⟩ :=
        ⟨hL, fun s hs => (isScript_iff s).mp (h1 s hs), fun s hs => (isRegion_iff s).mp (h2 s hs), h3, h4, h5⟩
      refine ⟨hwf, subtags_inj ?_⟩
      rw [subtags_render_flatMap, flatMap_afterLanguage hwf, e0, e1, e2, e3, e4, e5]
      simp [segs1, segs2, segs3, segs4, Parts.afterVariants]

theorem parse_iff (w : Text) (p : Parts) : parse w = some p ↔ Decomposes w p := ⟨parse_sound, parse_complete⟩

end Langtag.Proof
