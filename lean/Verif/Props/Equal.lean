import Verif.Props.Order
import Verif.Props.Validity
import Verif.Props.Types

/-! # C46–C49, C53, C60: more about equality and order -/

set_option autoImplicit false

namespace Langtag.Props
open Langtag.Spec Langtag.Model Langtag.Proof

/-! ## C46 -/

/-- No value gives a hasher a proper prefix of what another gives it. -/
def PrefixFree (T : Type) [StrNewtype T] [Compare T] : Prop :=
  ∀ (a b : T) (u w : Text), Constructed a → Constructed b → Compare.hash recorder a [] = .ok u →
    Compare.hash recorder b [] = .ok (u ++ w) → Compare.eq a b = .ok true

theorem not_prefixFree {T : Type} [StrNewtype T] [Compare T] (a b : T) (u w : Text) (ha : Constructed a) (hb : Constructed b)
    (hu : Compare.hash recorder a [] = .ok u) (hw : Compare.hash recorder b [] = .ok (u ++ w))
    (h : Compare.eq a b ≠ .ok true) : ¬ PrefixFree T :=
  fun hp => h (hp a b u w ha hb hu hw)

/-- C46 is false: `en` gives a hasher a prefix of what `en-US` gives it, so the pairs (`en`, `-US…`) are not kept apart;
and so do twelve of the fifteen types. -/
theorem C46_violated :
    ¬ PrefixFree LangTag ∧ ¬ PrefixFree NormalLangTag ∧ ¬ PrefixFree Language ∧ ¬ PrefixFree PrimaryLanguage ∧
    ¬ PrefixFree LanguageExtension ∧ ¬ PrefixFree Variant ∧ ¬ PrefixFree Variants ∧ ¬ PrefixFree Extension ∧
    ¬ PrefixFree Extensions ∧ ¬ PrefixFree ExtensionSubtag ∧ ¬ PrefixFree PrivateUse ∧
    ¬ PrefixFree PrivateUseSubtag := by
  refine ⟨?_, ?_, ?_, ?_, ?_, ?_, ?_, ?_, ?_, ?_, ?_, ?_⟩
  · exact not_prefixFree ⟨ascii "en"⟩ ⟨ascii "en-us"⟩ (ascii "en") (ascii "-us") ⟨ascii "en", by decide +kernel⟩
      ⟨ascii "en-us", by decide +kernel⟩ (by decide +kernel) (by decide +kernel) (by decide +kernel)
  · exact not_prefixFree ⟨ascii "en"⟩ ⟨ascii "en-us"⟩ (ascii "en") (ascii "-us") ⟨ascii "en", by decide +kernel⟩
      ⟨ascii "en-us", by decide +kernel⟩ (by decide +kernel) (by decide +kernel) (by decide +kernel)
  · exact not_prefixFree ⟨ascii "en"⟩ ⟨ascii "enm"⟩ (ascii "en") (ascii "m") ⟨ascii "en", by decide +kernel⟩
      ⟨ascii "enm", by decide +kernel⟩ (by decide +kernel) (by decide +kernel) (by decide +kernel)
  · exact not_prefixFree ⟨ascii "en"⟩ ⟨ascii "enm"⟩ (ascii "en") (ascii "m") ⟨ascii "en", by decide +kernel⟩
      ⟨ascii "enm", by decide +kernel⟩ (by decide +kernel) (by decide +kernel) (by decide +kernel)
  · exact not_prefixFree ⟨ascii "abc"⟩ ⟨ascii "abc-def"⟩ (ascii "abc") (ascii "-def") ⟨ascii "abc", by decide +kernel⟩
      ⟨ascii "abc-def", by decide +kernel⟩ (by decide +kernel) (by decide +kernel) (by decide +kernel)
  · exact not_prefixFree ⟨ascii "abcde"⟩ ⟨ascii "abcdef"⟩ (ascii "abcde") (ascii "f") ⟨ascii "abcde", by decide +kernel⟩
      ⟨ascii "abcdef", by decide +kernel⟩ (by decide +kernel) (by decide +kernel) (by decide +kernel)
  · exact not_prefixFree ⟨ascii ""⟩ ⟨ascii "abcde"⟩ (ascii "") (ascii "abcde") ⟨ascii "", by decide +kernel⟩
      ⟨ascii "abcde", by decide +kernel⟩ (by decide +kernel) (by decide +kernel) (by decide +kernel)
  · exact not_prefixFree ⟨ascii "a-bb"⟩ ⟨ascii "a-bbc"⟩ (ascii "a-bb") (ascii "c") ⟨ascii "a-bb", by decide +kernel⟩
      ⟨ascii "a-bbc", by decide +kernel⟩ (by decide +kernel) (by decide +kernel) (by decide +kernel)
  · exact not_prefixFree ⟨ascii ""⟩ ⟨ascii "a-bb"⟩ (ascii "") (ascii "a-bb") ⟨ascii "", by decide +kernel⟩
      ⟨ascii "a-bb", by decide +kernel⟩ (by decide +kernel) (by decide +kernel) (by decide +kernel)
  · exact not_prefixFree ⟨ascii "ab"⟩ ⟨ascii "abc"⟩ (ascii "ab") (ascii "c") ⟨ascii "ab", by decide +kernel⟩
      ⟨ascii "abc", by decide +kernel⟩ (by decide +kernel) (by decide +kernel) (by decide +kernel)
  · exact not_prefixFree ⟨ascii "x-a"⟩ ⟨ascii "x-ab"⟩ (ascii "x-a") (ascii "b") ⟨ascii "x-a", by decide +kernel⟩
      ⟨ascii "x-ab", by decide +kernel⟩ (by decide +kernel) (by decide +kernel) (by decide +kernel)
  · exact not_prefixFree ⟨ascii "a"⟩ ⟨ascii "ab"⟩ (ascii "a") (ascii "b") ⟨ascii "a", by decide +kernel⟩
      ⟨ascii "ab", by decide +kernel⟩ (by decide +kernel) (by decide +kernel) (by decide +kernel)

theorem prefixFree_of_length {T : Type} [StrNewtype T] [Compare T] [LawfulCompare T] {n : Nat}
    (h : ∀ x : T, Constructed x → (StrNewtype.str x).length = n) : PrefixFree T := by
  intro a b u w ha hb h1 h2
  rw [hash_eq_foldl, recorder_foldl] at h1 h2
  have h1 := Except.ok.inj h1
  have h2 := Except.ok.inj h2
  rw [List.nil_append] at h1 h2
  have l1 := congrArg List.length h1
  have l2 := congrArg List.length h2
  simp only [lowerText, List.length_map, List.length_append, h a ha, h b hb] at l1 l2
  have : w = [] := List.length_eq_zero_iff.mp (by omega)
  rw [this, List.append_nil, ← h1] at h2
  exact (eq_true_iff a b).mpr h2.symm

theorem lower_digit_ne_alpha {c d : UInt8} (hd : IsDigit d) (hc : IsAlpha c) : lower d ≠ lower c := by
  unfold IsDigit at hd
  unfold IsAlpha at hc
  unfold lower
  have h32 : c ≤ 90 → (c + 32).toNat = c.toNat + 32 := by
    intro h
    rw [UInt8.toNat_add]
    have : c.toNat ≤ 90 := UInt8.le_iff_toNat_le.mp h
    have : (32 : UInt8).toNat = 32 := rfl
    omega
  simp only [UInt8.le_iff_toNat_le] at hd hc h32 ⊢
  intro h
  have h := congrArg UInt8.toNat h
  have e : ((48:UInt8).toNat = 48 ∧ (57:UInt8).toNat = 57 ∧ (65:UInt8).toNat = 65 ∧ (90:UInt8).toNat = 90 ∧
    (97:UInt8).toNat = 97 ∧ (122:UInt8).toNat = 122) := by decide
  split at h <;> split at h <;> omega

/-- C46, what holds: hashing is prefix-free for scripts and extended language tags, whose texts all have the same length, and
for regions, which are two letters or three digits.  Missing: the twelve other types, for which it is false. -/
theorem C46_hash_partial : PrefixFree Script ∧ PrefixFree ExtendedLangTag ∧ PrefixFree Region := by
  refine ⟨prefixFree_of_length C51_lengths.2.2.2.2.1, prefixFree_of_length C51_lengths.2.1, ?_⟩
  intro a b u w ha hb h1 h2
  rw [hash_eq_foldl, recorder_foldl] at h1 h2
  have h1 := Except.ok.inj h1
  have h2 := Except.ok.inj h2
  rw [List.nil_append] at h1 h2
  have ra := (matches_region _).mp (matches_of_constructed is_Region ha)
  have rb := (matches_region _).mp (matches_of_constructed is_Region hb)
  have key : ∀ x y : Text, (∀ c ∈ x, IsAlpha c) → (∀ c ∈ y, IsDigit c) → x ≠ [] → lowerText y ≠ lowerText x ++ w := by
    intro x y hx hy hne h
    cases x with
    | nil => exact hne rfl
    | cons c x =>
      cases y with
      | nil => simp [lowerText] at h
      | cons d y =>
        have hc := hx c (by simp)
        have hd := hy d (by simp)
        simp only [lowerText, List.map_cons, List.cons_append, List.cons.injEq] at h
        exact lower_digit_ne_alpha hd hc h.1
  have hl : (StrNewtype.str b).length = (StrNewtype.str a).length + w.length := by
    have := congrArg List.length h2
    rw [← h1] at this
    simpa [lowerText] using this
  have hw : w.length = 0 := by
    rcases ra with ra | ra <;> rcases rb with rb | rb
    · omega
    · exact absurd (h1 ▸ h2) (key _ _ ra.2 rb.2 (by intro h; simp [h] at ra))
    · omega
    · omega
  rw [List.length_eq_zero_iff.mp hw, List.append_nil, ← h1] at h2
  exact (eq_true_iff a b).mpr h2.symm

example : Constructed (Script.mk (ascii "Latn")) := ⟨ascii "Latn", by decide +kernel⟩
example : Constructed (Region.mk (ascii "419")) := ⟨ascii "419", by decide +kernel⟩

/-! ## C47 -/

/-- C47 is false: `no-bok` has the language `no-bok` as a tag and `no` as a grandfathered tag. -/
theorem C47_violated :
    ¬ ∀ (t : LangTag) (g : GrandfatheredLangTag) l l', GrandfatheredLangTag.new t.str = .ok (.ok g) →
      t.language = .ok (some l) → g.language = some l' → Same l l' := by
  intro h
  have := h ⟨ascii "no-bok"⟩ .NoBok ⟨ascii "no-bok"⟩ ⟨ascii "no"⟩ (by decide +kernel) (by decide +kernel) (by decide +kernel)
  revert this
  unfold Same
  decide +kernel

/-- The regular grandfathered tags whose second subtag has three letters: it reads as an extended language subtag. -/
def looksExtended (g : GrandfatheredLangTag) : Bool := g ∈ [.NoBok, .NoNyn, .ZhMin, .ZhMinNan]

/-- C47, what holds: the tag has a language iff the grandfathered tag has, the two have equal primary languages, and
they are equal except for the four tags whose second subtag reads as an extended language subtag.
Missing: these four. -/
theorem C47_language_partial (t : LangTag) (g : GrandfatheredLangTag) (h : GrandfatheredLangTag.new t.str = .ok (.ok g)) :
    (t.language = .ok none ∧ g.language = none) ∨
    ∃ l l', t.language = .ok (some l) ∧ g.language = some l' ∧ Same l.primary l'.primary ∧
      (Same l l' ↔ looksExtended g = false) := by
  have hc : CaseEq g.asStr t.str := by
    rw [C12_new_ok, ← (C12_texts g).1] at h; exact h.symm
  have hg : Constructed (LangTag.mk g.asStr) := by
    have := C13_langTag g.asStr g (C12_inverse g g.asStr rfl)
    rw [accepts_iff is_LangTag] at this
    exact constructed_of_matches is_LangTag (by rintro ⟨a⟩ ⟨b⟩ h; exact congrArg LangTag.mk h) this
  have hs : Same (LangTag.mk g.asStr) t := (eq_true_iff _ _).mpr hc
  have hl := (C38_langTag _ t hg hs).2.1
  -- on the registered texts, by computation
  have key : ((LangTag.mk g.asStr).language = .ok none ∧ g.language = none) ∨
      ∃ l l', (LangTag.mk g.asStr).language = .ok (some l) ∧ g.language = some l' ∧ Same l.primary l'.primary ∧
        (Same l l' ↔ looksExtended g = false) := by
    unfold Same
    cases g
    case ArtLojban => exact Or.inr ⟨⟨ascii "art"⟩, ⟨ascii "art"⟩, by decide +kernel⟩
    case CelGaulish => exact Or.inr ⟨⟨ascii "cel"⟩, ⟨ascii "cel"⟩, by decide +kernel⟩
    case NoBok => exact Or.inr ⟨⟨ascii "no-bok"⟩, ⟨ascii "no"⟩, by decide +kernel⟩
    case NoNyn => exact Or.inr ⟨⟨ascii "no-nyn"⟩, ⟨ascii "no"⟩, by decide +kernel⟩
    case ZhGuoyu => exact Or.inr ⟨⟨ascii "zh"⟩, ⟨ascii "zh"⟩, by decide +kernel⟩
    case ZhHakka => exact Or.inr ⟨⟨ascii "zh"⟩, ⟨ascii "zh"⟩, by decide +kernel⟩
    case ZhMin => exact Or.inr ⟨⟨ascii "zh-min"⟩, ⟨ascii "zh"⟩, by decide +kernel⟩
    case ZhMinNan => exact Or.inr ⟨⟨ascii "zh-min-nan"⟩, ⟨ascii "zh"⟩, by decide +kernel⟩
    case ZhXiang => exact Or.inr ⟨⟨ascii "zh"⟩, ⟨ascii "zh"⟩, by decide +kernel⟩
    all_goals exact Or.inl (by decide +kernel)
  rcases key with ⟨k1, k2⟩ | ⟨l, l', k1, k2, k3, k4⟩
  · left
    rw [k1] at hl
    refine ⟨?_, k2⟩
    revert hl
    cases t.language with
    | error e => exact fun h => h.elim
    | ok o =>
      cases o with
      | none => exact fun _ => rfl
      | some x => exact fun h => h.elim
  · right
    rw [k1] at hl
    revert hl
    cases t.language with
    | error e => exact fun h => h.elim
    | ok o =>
      cases o with
      | none => exact fun h => h.elim
      | some x =>
        intro (hx : Same l x)
        have hp := (C38_language l x hx).1
        have hlx : lowerText l.str = lowerText x.str := (eq_true_iff l x).mp hx
        refine ⟨x, l', rfl, k2, ?_, ?_⟩
        · rw [Same, eq_true_iff] at k3 hp ⊢
          exact hp.symm.trans k3
        · rw [← k4, Same, Same, eq_true_iff, eq_true_iff]
          change lowerText x.str = lowerText l'.str ↔ lowerText l.str = lowerText l'.str
          rw [hlx]

example : GrandfatheredLangTag.new (ascii "ZH-min-NAN") = .ok (.ok .ZhMinNan) := by decide +kernel

/-! ## C48 -/

/-- C48 is false: `a-bb` and `A-bb` are equal, and their singletons are not. -/
theorem C48_violated :
    ¬ ∀ (a b : Extension) g g', Constructed a → Constructed b → Same a b → a.singleton = .ok g → b.singleton = .ok g' →
      g.eq g' = true := by
  intro h
  have := h ⟨ascii "a-bb"⟩ ⟨ascii "A-bb"⟩ ⟨97⟩ ⟨65⟩ ⟨ascii "a-bb", by decide +kernel⟩ ⟨ascii "A-bb", by decide +kernel⟩
    (by unfold Same; decide +kernel) (by decide +kernel) (by decide +kernel)
  revert this
  decide +kernel

/-- C48, what holds: the singletons of equal extensions are the same letter or digit, and they are equal if both are
lower case or both are upper case.  Missing: they are not equal if one is lower case and the other upper case. -/
theorem C48_singleton_partial (a b : Extension) (ha : Constructed a) (hb : Constructed b) (h : Same a b) :
    ∃ g g', a.singleton = .ok g ∧ b.singleton = .ok g' ∧ lower g.unwrap = lower g'.unwrap ∧
      (g.eq g' = true ↔ a.str.head? = b.str.head?) := by
  obtain ⟨g, h1, h2, _⟩ := C33_singleton a ha
  obtain ⟨g', h1', h2', _⟩ := C33_singleton b hb
  refine ⟨g, g', h1, h1', ?_, ?_⟩
  · have hc : lowerText a.str = lowerText b.str := (eq_true_iff a b).mp h
    have := congrArg List.head? hc
    simp only [lowerText, List.head?_map, h2, h2', Option.map_some, Option.some.injEq] at this
    exact this
  · rw [h2, h2']
    simp [Singleton.eq, Singleton.unwrap]

example : Constructed (Extension.mk (ascii "a-bb")) ∧ Constructed (Extension.mk (ascii "a-BB")) ∧
    Same (Extension.mk (ascii "a-bb")) ⟨ascii "a-BB"⟩ :=
  ⟨⟨ascii "a-bb", by decide +kernel⟩, ⟨ascii "a-BB", by decide +kernel⟩, by unfold Same; decide +kernel⟩

/-! ## C49 -/

/-- Both lists have the same length, and equal values at the same places. -/
def SameItems {T : Type} [Compare T] (xs ys : List T) : Prop :=
  xs.length = ys.length ∧ ∀ (k : Nat) x y, xs[k]? = some x → ys[k]? = some y → Same x y

theorem sameItems_of_lower {T : Type} [StrNewtype T] [Compare T] [LawfulCompare T] {mk : Text → T}
    (hmk : ∀ w, StrNewtype.str (mk w) = w) {us vs : List Text} (h : us.map lowerText = vs.map lowerText) :
    SameItems (us.map mk) (vs.map mk) := by
  refine ⟨?_, fun k x y hx hy => ?_⟩
  · have := congrArg List.length h
    simpa using this
  · rw [List.getElem?_map] at hx hy
    obtain ⟨u, hu, rfl⟩ := Option.map_eq_some_iff.mp hx
    obtain ⟨v, hv, rfl⟩ := Option.map_eq_some_iff.mp hy
    refine same_of_lower ?_
    rw [hmk, hmk]
    have := congrArg (fun l : List Text => l[k]?) h
    simp only [List.getElem?_map, hu, hv, Option.map_some, Option.some.injEq] at this
    exact this

theorem lower_subtags {u v : Text} (h : CaseEq u v) : (subtags u).map lowerText = (subtags v).map lowerText := by
  rw [← subtags_lowerText, ← subtags_lowerText, h]

theorem lower_tail {us vs : List Text} (h : us.map lowerText = vs.map lowerText) :
    us.tail.map lowerText = vs.tail.map lowerText := by
  rw [List.map_tail, List.map_tail, h]

theorem lower_listItems {u v : Text} (h : CaseEq u v) : (listItems u).map lowerText = (listItems v).map lowerText := by
  have hn : u = [] ↔ v = [] := by
    have h' : lowerText u = lowerText v := h
    have := congrArg List.length h'
    simp only [lowerText, List.length_map] at this
    rw [← List.length_eq_zero_iff, ← List.length_eq_zero_iff, this]
  unfold listItems
  by_cases hu : u = []
  · rw [if_pos hu, if_pos (hn.mp hu)]
  · rw [if_neg hu, if_neg (mt hn.mpr hu)]
    exact lower_subtags h

/-- C49: iterating equal values gives equal items at the same places. -/
theorem C49_items :
    (∀ a b : PrivateUse, Constructed a → Constructed b → Same a b → ∃ xs ys, Enumerates PrivateUseIter.next a.iter xs ∧
      Enumerates PrivateUseIter.next b.iter ys ∧ SameItems xs ys) ∧
    (∀ a b : Extension, Constructed a → Constructed b → Same a b → ∃ xs ys, Enumerates ExtensionIter.next a.iter xs ∧
      Enumerates ExtensionIter.next b.iter ys ∧ SameItems xs ys) ∧
    (∀ a b : LanguageExtension, Constructed a → Constructed b → Same a b → ∃ xs ys,
      Enumerates LanguageExtensionIter.next a.iter xs ∧ Enumerates LanguageExtensionIter.next b.iter ys ∧ SameItems xs ys) ∧
    (∀ a b : Language, Constructed a → Constructed b → Same a b → ∃ xs ys,
      Enumerates LanguageExtensionIter.next a.extensionSubtags xs ∧
      Enumerates LanguageExtensionIter.next b.extensionSubtags ys ∧ SameItems xs ys) ∧
    (∀ a b : Variants, Constructed a → Constructed b → Same a b → ∃ xs ys,
      EnumeratesBothEnds VariantsIter.next VariantsIter.nextBack a.iter xs ∧
      EnumeratesBothEnds VariantsIter.next VariantsIter.nextBack b.iter ys ∧ SameItems xs ys) ∧
    (∀ a b : Extensions, Constructed a → Constructed b → Same a b → ∃ xs ys, Enumerates ExtensionsIter.next a.iter xs ∧
      Enumerates ExtensionsIter.next b.iter ys ∧ SameItems xs ys) := by
  refine ⟨fun a b ha hb h => ?_, fun a b ha hb h => ?_, fun a b ha hb h => ?_, fun a b ha hb h => ?_,
    fun a b ha hb h => ?_, fun a b ha hb h => ?_⟩
  · have hc : CaseEq a.str b.str := (eq_true_iff a b).mp h
    exact ⟨_, _, C27_privateUse a ha, C27_privateUse b hb,
      sameItems_of_lower (fun _ => rfl) (lower_tail (lower_subtags hc))⟩
  · have hc : CaseEq a.str b.str := (eq_true_iff a b).mp h
    exact ⟨_, _, C27_extension a ha, C27_extension b hb,
      sameItems_of_lower (fun _ => rfl) (lower_tail (lower_subtags hc))⟩
  · have hc : CaseEq a.str b.str := (eq_true_iff a b).mp h
    exact ⟨_, _, C27_languageExtension a ha, C27_languageExtension b hb, sameItems_of_lower (fun _ => rfl) (lower_subtags hc)⟩
  · have hc : CaseEq a.str b.str := (eq_true_iff a b).mp h
    exact ⟨_, _, C25_extensionSubtags a ha, C25_extensionSubtags b hb,
      sameItems_of_lower (fun _ => rfl) (lower_tail (lower_subtags hc))⟩
  · have hc : CaseEq a.str b.str := (eq_true_iff a b).mp h
    exact ⟨_, _, C28_iter a ha, C28_iter b hb, sameItems_of_lower (fun _ => rfl) (lower_listItems hc)⟩
  · have hc : CaseEq a.str b.str := (eq_true_iff a b).mp h
    obtain ⟨es, he⟩ := C29_exists a ha
    obtain ⟨fs, hf⟩ := C29_exists b hb
    exact ⟨_, _, C29_iter a es he, C29_iter b fs hf, sameItems_of_lower (fun _ => rfl) (lower_lists he hf hc)⟩

example : Constructed (Variants.mk (ascii "1abc-abcde")) ∧ Constructed (Variants.mk (ascii "1ABC-aBcDe")) ∧
    Same (Variants.mk (ascii "1abc-abcde")) ⟨ascii "1ABC-aBcDe"⟩ :=
  ⟨⟨ascii "1abc-abcde", by decide +kernel⟩, ⟨ascii "1ABC-aBcDe", by decide +kernel⟩, by unfold Same; decide +kernel⟩

/-! ## C53 -/

/-- `eq` is equality, and `cmp` is a total order in which only the same values are `Equal`. -/
def TotalOrder {T : Type} (eq : T → T → Bool) (cmp : T → T → Ordering) : Prop :=
  (∀ a b, eq a b = true ↔ a = b) ∧ (∀ a b, cmp a b = .eq ↔ a = b) ∧ (∀ a b, cmp b a = (cmp a b).swap) ∧
  ∀ a b c, cmp a b = .lt → cmp b c = .lt → cmp a c = .lt

theorem totalOrder_of {T : Type} (f : T → Nat) (hf : ∀ a b, f a = f b → a = b) :
    TotalOrder (fun a b => f a == f b) (fun a b => compare (f a) (f b)) := by
  refine ⟨fun a b => ?_, fun a b => ?_, fun a b => ?_, fun a b c => ?_⟩
  · rw [beq_iff_eq]; exact ⟨hf a b, fun h => h ▸ rfl⟩
  · rw [Nat.compare_eq_eq]; exact ⟨hf a b, fun h => h ▸ rfl⟩
  · exact (Nat.compare_swap (f a) (f b)).symm
  · simp only [Nat.compare_eq_lt]; exact Nat.lt_trans

/-- C53: the derived comparisons of `GrandfatheredLangTag`, `Kind` and `Singleton` are equality and a total order. -/
theorem C53_orders :
    TotalOrder GrandfatheredLangTag.eq GrandfatheredLangTag.cmp ∧ TotalOrder Kind.eq Kind.cmp ∧
    TotalOrder Singleton.eq Singleton.cmp := by
  refine ⟨totalOrder_of GrandfatheredLangTag.discriminant ?_, totalOrder_of Kind.discriminant ?_, ?_⟩
  · intro a b; cases a <;> cases b <;> decide
  · intro a b; cases a <;> cases b <;> decide
  · have h := totalOrder_of (fun s : Singleton => s.byte.toNat) (by
      rintro ⟨a⟩ ⟨b⟩ h; have h : a = b := UInt8.toNat_inj.mp h; rw [h])
    have e1 : Singleton.eq = fun a b => a.byte.toNat == b.byte.toNat := by
      funext a b
      rw [Bool.eq_iff_iff, beq_iff_eq, Singleton.eq, beq_iff_eq]
      exact UInt8.toNat_inj.symm
    have e2 : Singleton.cmp = fun a b => compare a.byte.toNat b.byte.toNat := by
      funext a b
      simp only [Singleton.cmp, compare, compareOfLessAndEq, UInt8.lt_iff_toNat_lt, ← UInt8.toNat_inj]
    rw [e1, e2]
    exact h

/-- C53: two grandfathered tags are equal iff their texts are, ignoring case. -/
theorem C53_grandfathered (g g' : GrandfatheredLangTag) : g.eq g' = true ↔ CaseEq g.asStr g'.asStr := by
  rw [C53_orders.1.1]
  refine ⟨fun h => h ▸ rfl, fun h => ?_⟩
  have h1 := C12_inverse g g.asStr rfl
  rw [C12_inverse g' g.asStr h] at h1
  exact (Except.ok.inj (Except.ok.inj h1)).symm

theorem accepts_iff_isOk {T : Type} [StrNewtype T] (s : Text) : Accepts T s ↔ StrNewtype.isOk T s = true := by
  unfold Accepts StrNewtype.isOk
  cases StrNewtype.new T s <;> simp

/-- The 26 grandfathered tags. -/
def allGrandfathered : List GrandfatheredLangTag :=
  [.EnGbOed, .IAmi, .IBnn, .IDefault, .IEnochian, .IHak, .IKlingon, .ILux, .IMingo, .INavajo, .IPwn, .ITao, .ITay, .ITsu,
   .SgnBeFr, .SgnBeNl, .SgnChDe, .ArtLojban, .CelGaulish, .NoBok, .NoNyn, .ZhGuoyu, .ZhHakka, .ZhMin, .ZhMinNan, .ZhXiang]

theorem mem_allGrandfathered (g : GrandfatheredLangTag) : g ∈ allGrandfathered := by
  cases g <;> decide

/-- C53, the orders: `Normal` < `PrivateUse` < `Grandfathered`; singletons as their bytes; of grandfathered tags first those that
are not normal tags, and each of the two groups in alphabetical order. -/
theorem C53_ascending :
    Kind.cmp .Normal .PrivateUse = .lt ∧ Kind.cmp .PrivateUse .Grandfathered = .lt ∧
    (∀ s s' : Singleton, Singleton.cmp s s' = .lt ↔ s.unwrap < s'.unwrap) ∧
    ∀ g g' : GrandfatheredLangTag, g.cmp g' = .lt ↔
      (¬ Accepts NormalLangTag g.asStr ∧ Accepts NormalLangTag g'.asStr) ∨
      ((Accepts NormalLangTag g.asStr ↔ Accepts NormalLangTag g'.asStr) ∧ lowerText g.asStr < lowerText g'.asStr) := by
  refine ⟨by decide, by decide, fun s s' => ?_, fun g g' => ?_⟩
  · exact compare_lt_iff _ _
  · simp only [accepts_iff_isOk]
    have key : ∀ g ∈ allGrandfathered, ∀ g' ∈ allGrandfathered, (g.cmp g' = .lt ↔
      (¬ StrNewtype.isOk NormalLangTag g.asStr = true ∧ StrNewtype.isOk NormalLangTag g'.asStr = true) ∨
      ((StrNewtype.isOk NormalLangTag g.asStr = true ↔ StrNewtype.isOk NormalLangTag g'.asStr = true) ∧ lowerText g.asStr < lowerText g'.asStr)) := by
      decide +kernel
    exact key g (mem_allGrandfathered g) g' (mem_allGrandfathered g')

/-! ## C60 -/

/-- C60 is false: as tags `art-lojban` < `i-ami` and `zh-min-nan` < `zh-min`, as grandfathered tags the other way round. -/
theorem C60_violated : ¬ ∀ g g' : GrandfatheredLangTag,
    Compare.cmp (LangTag.mk g.asStr) (LangTag.mk g'.asStr) = .ok (g.cmp g') := by
  intro h
  have := h .IAmi .ArtLojban
  revert this
  decide +kernel

/-- C60, what holds, exactly: the two orders agree on tags that are both normal tags or both not, except on `zh-min` and
`zh-min-nan`; on a normal and another one they agree iff the other one comes first alphabetically.  Missing: they disagree on the rest. -/
theorem C60_order_partial (g g' : GrandfatheredLangTag) :
    Compare.cmp (LangTag.mk g.asStr) (LangTag.mk g'.asStr) = .ok (g.cmp g') ↔
      ((Accepts NormalLangTag g.asStr ↔ Accepts NormalLangTag g'.asStr) ∧
        ¬ (g = .ZhMin ∧ g' = .ZhMinNan) ∧ ¬ (g = .ZhMinNan ∧ g' = .ZhMin)) ∨
      (¬ Accepts NormalLangTag g.asStr ∧ Accepts NormalLangTag g'.asStr ∧ lowerText g.asStr < lowerText g'.asStr) ∨
      (Accepts NormalLangTag g.asStr ∧ ¬ Accepts NormalLangTag g'.asStr ∧ lowerText g'.asStr < lowerText g.asStr) := by
  simp only [accepts_iff_isOk]
  have key : ∀ g ∈ allGrandfathered, ∀ g' ∈ allGrandfathered,
      (Compare.cmp (LangTag.mk g.asStr) (LangTag.mk g'.asStr) = .ok (g.cmp g') ↔
      ((StrNewtype.isOk NormalLangTag g.asStr = true ↔ StrNewtype.isOk NormalLangTag g'.asStr = true) ∧
        ¬ (g = .ZhMin ∧ g' = .ZhMinNan) ∧ ¬ (g = .ZhMinNan ∧ g' = .ZhMin)) ∨
      (¬ StrNewtype.isOk NormalLangTag g.asStr = true ∧ StrNewtype.isOk NormalLangTag g'.asStr = true ∧
        lowerText g.asStr < lowerText g'.asStr) ∨
      (StrNewtype.isOk NormalLangTag g.asStr = true ∧ ¬ StrNewtype.isOk NormalLangTag g'.asStr = true ∧
        lowerText g'.asStr < lowerText g.asStr)) := by
    decide +kernel
  exact key g (mem_allGrandfathered g) g' (mem_allGrandfathered g')

-- both cases occur
example : ¬ Accepts NormalLangTag GrandfatheredLangTag.IAmi.asStr ∧ Accepts NormalLangTag GrandfatheredLangTag.ZhMin.asStr := by
  simp only [accepts_iff_isOk]; decide +kernel

end Langtag.Props
