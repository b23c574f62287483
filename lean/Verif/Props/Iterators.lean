import Verif.Spec.Utf8
import Verif.Proof.Constructors
import Verif.Proof.Iter
import Verif.Proof.Get
import Verif.Proof.Utf8
import Verif.Proof.Compare

/-! # C27–C33: iterators, extension lookup, singletons -/

set_option autoImplicit false

namespace Langtag.Props
open Langtag.Spec Langtag.Model Langtag.Proof

/-! ## C27 -/

/-- An iterator enumerates one list only. -/
theorem enumerates_unique {σ α : Type} {next : σ → Rust (Option α × σ)} {it : σ} {xs ys : List α}
    (hx : Enumerates next it xs) (hy : Enumerates next it ys) : xs = ys := by
  apply List.ext_getElem?
  intro k
  have h := (hx (k + 1)).symm.trans (hy (k + 1))
  have h' := Except.ok.inj h
  have := congrArg (fun l => l[k]?) h'
  simpa using this

/-- C27: `PrivateUse::iter` enumerates the subtags after the `x`. -/
theorem C27_privateUse (p : PrivateUse) (h : Constructed p) :
    Enumerates PrivateUseIter.next p.iter ((subtags p.str).tail.map PrivateUseSubtag.mk) := by
  have hm : Grammar.privateuse.Matches p.str := matches_of_constructed is_PrivateUse h
  obtain ⟨b, us, e, hne, hb, hus⟩ := subtags_privateuse hm
  have hx : p.str = [b, dash] ++ joinDash us := by
    rw [← joinDash_subtags p.str, e, joinDash_cons_of_ne_nil _ hne]; rfl
  have ha : Ascii p.str := ascii_of_matches okRe_privateuse hm
  simp only [PrivateUse.iter, PrivateUseIter.new, e, List.tail_cons]
  rw [hx] at ha ⊢
  refine privateUseIter_enumerates (segInv_start ha ?_)
  intro u hu
  obtain ⟨hl, _, hal⟩ := (matches_privateuseSubtag u).mp (hus u hu)
  refine ⟨dashFree_of_alphanum hal, ?_⟩
  rintro rfl; simp at hl

/-- C27: `Extension::iter` enumerates the subtags after the singleton. -/
theorem C27_extension (x : Extension) (h : Constructed x) :
    Enumerates ExtensionIter.next x.iter ((subtags x.str).tail.map ExtensionSubtag.mk) := by
  have hm : Grammar.extension.Matches x.str := matches_of_constructed is_Extension h
  obtain ⟨b, us, e, hne, hb, hus⟩ := subtags_extension hm
  have hx : x.str = [b, dash] ++ joinDash us := by
    rw [← joinDash_subtags x.str, e, joinDash_cons_of_ne_nil _ hne]; rfl
  have ha : Ascii x.str := ascii_of_matches okRe_extension hm
  simp only [Extension.iter, ExtensionIter.new, e, List.tail_cons]
  rw [hx] at ha ⊢
  refine extensionIter_enumerates (segInv_start ha ?_)
  intro u hu
  obtain ⟨hl, _, hal⟩ := (matches_extensionSubtag u).mp (hus u hu)
  refine ⟨dashFree_of_alphanum hal, ?_⟩
  rintro rfl; simp at hl

theorem okRe_extlang : (Re.ofAbnf Grammar.extlang).okRe = true := by decide +kernel

/-- C27: `LanguageExtension::iter` enumerates the subtags. -/
theorem C27_languageExtension (x : LanguageExtension) (h : Constructed x) :
    Enumerates LanguageExtensionIter.next x.iter ((subtags x.str).map ExtendedLangTag.mk) := by
  have hm : Grammar.extlang.Matches x.str := matches_of_constructed is_LanguageExtension h
  have ha : Ascii x.str := ascii_of_matches okRe_extlang hm
  obtain ⟨us, hne, _, hx, hus⟩ := (matches_extlang _).mp hm
  have hu : ∀ u ∈ us, dash ∉ u ∧ u ≠ [] := by
    intro u hu
    obtain ⟨hl, hal⟩ := (matches_extlangTag u).mp (hus u hu)
    refine ⟨dashFree_of_alphanum fun b hb => Or.inl (hal b hb), ?_⟩
    rintro rfl; simp at hl
  simp only [LanguageExtension.iter, LanguageExtensionIter.new]
  rw [hx] at ha ⊢
  rw [subtags_joinDash_of_dashFree hne fun u h => (hu u h).1]
  exact languageExtensionIter_enumerates (segInv_start (pre := []) ha hu)

/-- C27: the empty iterators enumerate nothing. -/
theorem C27_empty :
    Enumerates PrivateUseIter.next .empty [] ∧ Enumerates ExtensionIter.next .empty [] ∧
    Enumerates LanguageExtensionIter.next .empty [] ∧
    EnumeratesBothEnds VariantsIter.next VariantsIter.nextBack .empty [] := by
  have h : SegInv [] 0 [] := ⟨by simp [Ascii], Or.inl ⟨rfl, by simp⟩⟩
  refine ⟨privateUseIter_enumerates h, extensionIter_enumerates h, languageExtensionIter_enumerates h, ?_⟩
  exact variantsIter_enumerates (dequeInv_start (items := []) (by simp [Ascii, joinDash]) (by simp))

example : Constructed (PrivateUse.mk (ascii "x-a-bcd")) := ⟨ascii "x-a-bcd", by decide +kernel⟩
example : Constructed (Extension.mk (ascii "a-bcd-ef")) := ⟨ascii "a-bcd-ef", by decide +kernel⟩
example : Constructed (LanguageExtension.mk (ascii "abc-def")) := ⟨ascii "abc-def", by decide +kernel⟩
-- four calls of `next()`
example : collect ExtensionIter.next 4 (Extension.mk (ascii "a-bcd-ef")).iter =
    .ok [some ⟨ascii "bcd"⟩, some ⟨ascii "ef"⟩, none, none] :=
  C27_extension ⟨ascii "a-bcd-ef"⟩ ⟨ascii "a-bcd-ef", by decide +kernel⟩ 4

/-! ## C28 -/

theorem okRe_variants : (Re.ofAbnf Grammar.variants).okRe = true := by decide +kernel
theorem okRe_extensions : (Re.ofAbnf Grammar.extensions).okRe = true := by decide +kernel

theorem variants_deque {v : Variants} (h : Constructed v) :
    DequeInv v.iter.data v.iter.offset v.iter.end_ (listItems v.str) := by
  have hm : Grammar.variants.Matches v.str := matches_of_constructed is_Variants h
  have ha : Ascii v.str := ascii_of_matches okRe_variants hm
  obtain ⟨vs, hv, hvs⟩ := (matches_variants _).mp hm
  have hu : ∀ u ∈ vs, dash ∉ u ∧ u ≠ [] := by
    intro u hu
    have h1 := length_variant (hvs u hu)
    refine ⟨dashFree_variant (hvs u hu), ?_⟩
    rintro rfl; simp at h1
  have e : listItems v.str = vs := by
    unfold listItems
    cases vs with
    | nil => rw [hv]; rfl
    | cons u us =>
      have hn : v.str ≠ [] := by
        rw [hv, joinDash_cons_tail]
        simp [(hu u (by simp)).2]
      rw [if_neg hn, hv, subtags_joinDash_of_dashFree (by simp) fun u h => (hu u h).1]
  rw [e]
  simp only [Variants.iter, VariantsIter.new]
  rw [hv] at ha ⊢
  exact dequeInv_start ha hu

/-- C28: under every history of `next()` and `next_back()` calls, `Variants::iter` gives the variants from either
end, each once, and then nothing. -/
theorem C28_iter (v : Variants) (h : Constructed v) :
    EnumeratesBothEnds VariantsIter.next VariantsIter.nextBack v.iter ((listItems v.str).map Variant.mk) :=
  variantsIter_enumerates (variants_deque h)

/-- C28: `first()` and `last()`. -/
theorem C28_first_last (v : Variants) (h : Constructed v) :
    v.first = .ok ((listItems v.str).head?.map Variant.mk) ∧
    v.last = .ok ((listItems v.str).getLast?.map Variant.mk) := by
  obtain ⟨_, h1, _⟩ := variantsIter_next (variants_deque h)
  obtain ⟨_, h2, _⟩ := variantsIter_nextBack (variants_deque h)
  constructor
  · unfold Variants.first
    rw [h1]
    simp [bind, Except.bind, pure, Except.pure]
  · unfold Variants.last
    rw [h2]
    simp [bind, Except.bind, pure, Except.pure]

theorem takeSides_front {α : Type} (n : Nat) (xs : List α) :
    takeSides (List.replicate n .front) xs = (List.range n).map fun k => xs[k]? := by
  induction n generalizing xs with
  | zero => rfl
  | succ n ih =>
    rw [List.replicate_succ, takeSides, ih, List.range_succ_eq_map]
    cases xs <;> simp

theorem takeSides_back {α : Type} (n : Nat) (xs : List α) :
    takeSides (List.replicate n .back) xs = (List.range n).map fun k => xs.reverse[k]? := by
  induction n generalizing xs with
  | zero => rfl
  | succ n ih =>
    rw [List.replicate_succ, takeSides, ih, List.range_succ_eq_map]
    have e : xs.dropLast.reverse = xs.reverse.tail := by simp
    rw [e, ← List.head?_reverse]
    cases xs.reverse <;> simp

theorem collectSides_replicate {σ α : Type} (next nextBack : σ → Rust (Option α × σ)) (n : Nat) (it : σ) :
    collectSides next nextBack (List.replicate n .front) it = collect next n it ∧
    collectSides next nextBack (List.replicate n .back) it = collect nextBack n it := by
  induction n generalizing it with
  | zero => exact ⟨rfl, rfl⟩
  | succ n ih =>
    simp only [List.replicate_succ, collectSides, collect]
    refine ⟨?_, ?_⟩ <;> simp only [ih]

/-- C28: with `next()` only, the variants in order; with `next_back()` only, in reverse. -/
theorem C28_oneEnd (v : Variants) (h : Constructed v) :
    Enumerates VariantsIter.next v.iter ((listItems v.str).map Variant.mk) ∧
    Enumerates VariantsIter.nextBack v.iter ((listItems v.str).map Variant.mk).reverse := by
  constructor <;> intro n
  · rw [← (collectSides_replicate _ VariantsIter.nextBack n _).1, C28_iter v h, takeSides_front]
  · rw [← (collectSides_replicate VariantsIter.next _ n _).2, C28_iter v h, takeSides_back]

example : Constructed (Variants.mk (ascii "1abc-abcde-2xyz")) := ⟨ascii "1abc-abcde-2xyz", by decide +kernel⟩
example : listItems (ascii "1abc-abcde-2xyz") = [ascii "1abc", ascii "abcde", ascii "2xyz"] := by decide +kernel
example : collectSides VariantsIter.next VariantsIter.nextBack [.back, .front, .back, .front, .back]
    (Variants.mk (ascii "1abc-abcde-2xyz")).iter =
      .ok [some ⟨ascii "2xyz"⟩, some ⟨ascii "1abc"⟩, some ⟨ascii "abcde"⟩, none, none] :=
  C28_iter ⟨ascii "1abc-abcde-2xyz"⟩ ⟨ascii "1abc-abcde-2xyz", by decide +kernel⟩ [.back, .front, .back, .front, .back]

/-! ## C29 -/

/-- `es` are the extensions of `x`, in order. -/
def IsListOf (x : Extensions) (es : List Text) : Prop := (∀ e ∈ es, Grammar.extension.Matches e) ∧ x.str = joinDash es

/-- C29: every accepted `Extensions` is a list of extensions. -/
theorem C29_exists (x : Extensions) (h : Constructed x) : ∃ es, IsListOf x es := by
  obtain ⟨es, h1, h2⟩ := (matches_extensions _).mp (matches_of_constructed is_Extensions h)
  exact ⟨es, h2, h1⟩

theorem ascii_isListOf {x : Extensions} {es : List Text} (h : IsListOf x es) : Ascii (joinDash es) :=
  ascii_of_matches okRe_extensions ((matches_extensions _).mpr ⟨es, rfl, h.1⟩)

/-- C29: `Extensions::iter` enumerates the extensions. -/
theorem C29_iter (x : Extensions) (es : List Text) (h : IsListOf x es) :
    Enumerates ExtensionsIter.next x.iter (es.map Extension.mk) := by
  simp only [Extensions.iter, ExtensionsIter.new, h.2]
  exact extensionsIter_enumerates (extInv_start (ascii_isListOf h) h.1)

/-- C29: the list is determined by the text. -/
theorem C29_unique (x : Extensions) (es fs : List Text) (h : IsListOf x es) (h' : IsListOf x fs) : es = fs := by
  have := enumerates_unique (C29_iter x es h) (C29_iter x fs h')
  have := congrArg (List.map (·.str)) this
  simpa [Function.comp_def] using this

theorem isListOf_example : IsListOf ⟨ascii "a-bbb-cc-b-dd"⟩ [ascii "a-bbb-cc", ascii "b-dd"] := by
  refine ⟨?_, by decide +kernel⟩
  simp only [List.mem_cons, List.not_mem_nil, or_false, forall_eq_or_imp, forall_eq]
  exact ⟨(isOk_Extension _).mp (by decide +kernel), (isOk_Extension _).mp (by decide +kernel)⟩

example : Enumerates ExtensionsIter.next (Extensions.mk (ascii "a-bbb-cc-b-dd")).iter [⟨ascii "a-bbb-cc"⟩, ⟨ascii "b-dd"⟩] :=
  C29_iter _ _ isListOf_example
example : Constructed (Extensions.mk (ascii "a-bbb-cc-b-dd")) := ⟨ascii "a-bbb-cc-b-dd", by decide +kernel⟩

/-! ## C33 -/

/-- C33: `singleton()` is the first byte, and `Singleton::new` accepts it. -/
theorem C33_singleton (x : Extension) (h : Constructed x) :
    ∃ g, x.singleton = .ok g ∧ x.str.head? = some g.unwrap ∧ Singleton.new g.unwrap = .ok g := by
  obtain ⟨b, us, e, hne, hb, hus⟩ := (matches_extension _).mp (matches_of_constructed is_Extension h)
  refine ⟨⟨b⟩, ?_, ?_, singleton_new_ok hb⟩
  · unfold Extension.singleton
    have : x.str = [] ++ b :: tail us := by change StrNewtype.str x = _; rw [e, joinDash_cons_tail]; rfl
    rw [this]
    have := index_append (pre := []) (post := tail us) (b := b)
    simp only [List.length_nil] at this
    rw [this]; rfl
  · change (StrNewtype.str x).head? = some b
    rw [e, joinDash_cons_tail]; rfl

example : Constructed (Extension.mk (ascii "a-bcd-ef")) := ⟨ascii "a-bcd-ef", by decide +kernel⟩

/-! ## C30 -/

theorem constructed_extension {e : Text} (h : Grammar.extension.Matches e) : Constructed (Extension.mk e) := by
  refine constructed_of_matches is_Extension ?_ h
  rintro ⟨a⟩ ⟨b⟩ h
  exact congrArg Extension.mk h

/-- C30: `get(g)` is the first of the extensions whose `singleton()` is `g`. -/
theorem C30_get (x : Extensions) (es : List Text) (h : IsListOf x es) (g : Singleton) :
    x.get g = .ok ((es.map Extension.mk).find? fun e => decide (e.singleton = .ok g)) := by
  unfold Extensions.get
  have := getLoop_eq g es h.1 [] (by simpa using ascii_isListOf h)
  simp only [List.nil_append, List.length_nil] at this
  rw [h.2, this, List.find?_map]
  unfold findExt
  congr 2
  have : ∀ e ∈ es, (e.head? == some g.byte) = decide ((Extension.mk e).singleton = .ok g) := by
    intro e he
    obtain ⟨k, h1, h2, _⟩ := C33_singleton _ (constructed_extension (h.1 e he))
    simp only at h2
    rw [h1, h2]
    rw [Bool.eq_iff_iff, beq_iff_eq, decide_eq_true_eq]
    obtain ⟨k⟩ := k
    obtain ⟨g⟩ := g
    simp [Singleton.unwrap]
  revert this
  generalize es = l
  intro this
  induction l with
  | nil => rfl
  | cons e l ih =>
    rw [List.forall_mem_cons] at this
    simp only [List.find?_cons, Function.comp_apply, this.1]
    rw [ih this.2]

/-- C30: `get(g)` is `None` iff no extension has the singleton `g`. -/
theorem C30_none (x : Extensions) (es : List Text) (h : IsListOf x es) (g : Singleton) :
    x.get g = .ok none ↔ ∀ e ∈ es, (Extension.mk e).singleton ≠ .ok g := by
  rw [C30_get x es h]
  simp

/-- C30: `iter_extension(g)` enumerates the subtags of the extension found, or nothing. -/
theorem C30_iterExtension (x : Extensions) (es : List Text) (h : IsListOf x es) (g : Singleton) :
    ∃ it, x.iterExtension g = .ok it ∧
      Enumerates ExtensionIter.next it
        (match (es.map Extension.mk).find? fun e => decide (e.singleton = .ok g) with
          | some e => (subtags e.str).tail.map ExtensionSubtag.mk
          | none => []) := by
  unfold Extensions.iterExtension
  rw [C30_get x es h]
  cases hf : (es.map Extension.mk).find? fun e => decide (e.singleton = .ok g) with
  | none => exact ⟨.empty, rfl, C27_empty.2.1⟩
  | some e =>
    refine ⟨e.iter, rfl, ?_⟩
    obtain ⟨w, hw, rfl⟩ := List.mem_map.mp (List.mem_of_find?_eq_some hf)
    exact C27_extension _ (constructed_extension (h.1 w hw))

example : (Extensions.mk (ascii "a-bbb-cc-b-dd")).get ⟨98⟩ = .ok (some ⟨ascii "b-dd"⟩) := by
  rw [C30_get _ _ isListOf_example]; decide +kernel

/-! ## C31 -/

/-- C31 is false: `a-bb` and `A-bb` are equal, and `get(a)` finds an extension in the first only; and `get(A)` does not
find what `get(a)` finds. -/
theorem C31_violated :
    Compare.eq (Extensions.mk (ascii "a-bb")) ⟨ascii "A-bb"⟩ = .ok true ∧
    (Extensions.mk (ascii "a-bb")).get ⟨97⟩ = .ok (some ⟨ascii "a-bb"⟩) ∧
    (Extensions.mk (ascii "A-bb")).get ⟨97⟩ = .ok none ∧
    (Extensions.mk (ascii "a-bb")).get ⟨65⟩ = .ok none ∧
    Accepts Extensions (ascii "a-bb") ∧ Accepts Extensions (ascii "A-bb") ∧
    Singleton.new 97 = .ok ⟨97⟩ ∧ Singleton.new 65 = .ok ⟨65⟩ :=
  ⟨by decide +kernel, by decide +kernel, by decide +kernel, by decide +kernel, accepts_of_isOk (by decide +kernel),
    accepts_of_isOk (by decide +kernel), rfl, rfl⟩

/-- The extensions of equal texts are equal one by one. -/
theorem lower_lists {x y : Extensions} {es fs : List Text} (hx : IsListOf x es) (hy : IsListOf y fs)
    (hc : CaseEq x.str y.str) : es.map lowerText = fs.map lowerText := by
  have low : ∀ es : List Text, (∀ e ∈ es, Grammar.extension.Matches e) →
      ∀ e ∈ es.map lowerText, Grammar.extension.Matches e := by
    intro es h e he
    obtain ⟨e', he', rfl⟩ := List.mem_map.mp he
    exact (matches_caseEq okRe_extension (caseEq_lowerText e')).mp (h e' he')
  refine C29_unique ⟨joinDash (es.map lowerText)⟩ _ _ ⟨low es hx.1, rfl⟩ ⟨low fs hy.1, ?_⟩
  have hc' : lowerText x.str = lowerText y.str := hc
  rw [hx.2, hy.2, lowerText_joinDash, lowerText_joinDash] at hc'
  exact hc'

theorem findExt_caseEq {es fs : List Text} (g : UInt8) (hl : es.map lowerText = fs.map lowerText)
    (hh : es.map List.head? = fs.map List.head?) :
    (findExt g es).map lowerText = (findExt g fs).map lowerText := by
  induction es generalizing fs with
  | nil =>
    cases fs with
    | nil => rfl
    | cons => simp at hl
  | cons e es ih =>
    cases fs with
    | nil => simp at hl
    | cons f fs =>
      simp only [List.map_cons, List.cons.injEq] at hl hh
      unfold findExt at ih ⊢
      rw [List.find?_cons, List.find?_cons, hh.1]
      cases f.head? == some g with
      | true => simp [hl.1]
      | false => exact ih hl.2 hh.2

/-- C31, what holds: equal `Extensions` whose singletons are written in the same case answer `get` alike (equal
extensions, or `None` from both).  Missing: singletons written in different cases. -/
theorem C31_get_partial (x y : Extensions) (es fs : List Text) (hx : IsListOf x es) (hy : IsListOf y fs)
    (hc : Compare.eq x y = .ok true) (hh : es.map List.head? = fs.map List.head?) (g : Singleton) :
    ∃ r s, x.get g = .ok r ∧ y.get g = .ok s ∧ r.isSome = s.isSome ∧
      ∀ e ∈ r, ∀ f ∈ s, Compare.eq e f = .ok true := by
  have hc' : CaseEq x.str y.str := by
    rw [LawfulCompare.eq, caseInsensitiveEq_eq] at hc
    exact decide_eq_true_eq.mp (Except.ok.inj hc)
  have e1 : x.get g = .ok ((findExt g.byte es).map Extension.mk) := by
    unfold Extensions.get
    have := getLoop_eq g es hx.1 [] (by simpa using ascii_isListOf hx)
    rw [hx.2]; exact this
  have e2 : y.get g = .ok ((findExt g.byte fs).map Extension.mk) := by
    unfold Extensions.get
    have := getLoop_eq g fs hy.1 [] (by simpa using ascii_isListOf hy)
    rw [hy.2]; exact this
  have hf := findExt_caseEq g.byte (lower_lists hx hy hc') hh
  refine ⟨_, _, e1, e2, ?_, ?_⟩
  · have := congrArg Option.isSome hf
    simpa using this
  · intro e he f hfm
    obtain ⟨e, he', rfl⟩ := Option.map_eq_some_iff.mp he
    obtain ⟨f, hf', rfl⟩ := Option.map_eq_some_iff.mp hfm
    rw [he', hf'] at hf
    rw [LawfulCompare.eq, caseInsensitiveEq_eq]
    exact congrArg _ (decide_eq_true (Option.some.inj hf))

example : IsListOf ⟨ascii "a-bbb-b-dd"⟩ [ascii "a-bbb", ascii "b-dd"] ∧
    IsListOf ⟨ascii "a-BBB-b-DD"⟩ [ascii "a-BBB", ascii "b-DD"] ∧
    Compare.eq (Extensions.mk (ascii "a-bbb-b-dd")) ⟨ascii "a-BBB-b-DD"⟩ = .ok true ∧
    [ascii "a-bbb", ascii "b-dd"].map List.head? = [ascii "a-BBB", ascii "b-DD"].map List.head? := by
  refine ⟨⟨?_, by decide +kernel⟩, ⟨?_, by decide +kernel⟩, by decide +kernel, by decide +kernel⟩ <;>
  · simp only [List.mem_cons, List.not_mem_nil, or_false, forall_eq_or_imp, forall_eq]
    exact ⟨(isOk_Extension _).mp (by decide +kernel), (isOk_Extension _).mp (by decide +kernel)⟩

/-! ## C32 -/

theorem matches_singleton (b : UInt8) : Grammar.singleton.Matches [b] ↔ IsSingleton b := by
  rw [isClass_singleton]
  simp

/-- C32: `Singleton::new` and `TryFrom<u8>`. -/
theorem C32_u8 (b : UInt8) :
    (Grammar.singleton.Matches [b] → ∃ g, Singleton.new b = .ok g ∧ Singleton.tryFromU8 b = .ok g ∧ g.unwrap = b) ∧
    (¬ Grammar.singleton.Matches [b] → Singleton.new b = .error b ∧ Singleton.tryFromU8 b = .error b) := by
  rw [matches_singleton]
  exact ⟨fun h => ⟨⟨b⟩, singleton_new_ok h, singleton_new_ok h, rfl⟩,
    fun h => ⟨singleton_new_error h, singleton_new_error h⟩⟩

/-- C32: `TryFrom<char>`. -/
theorem C32_char (c : Char) :
    (Grammar.singleton.Matches (encodeChar c) → ∃ g, Singleton.tryFromChar c = .ok g ∧ encodeChar c = [g.unwrap]) ∧
    (¬ Grammar.singleton.Matches (encodeChar c) → Singleton.tryFromChar c = .error c) := by
  constructor
  · intro h
    obtain ⟨b, hb, hs⟩ := (isClass_singleton _).mp h
    exact ⟨⟨b⟩, (tryFromChar_byte (encodeChar_one hb).2).1 hs, hb⟩
  · intro h
    rw [tryFromChar_eq]
    by_cases hc : c.toNat < 255
    · rw [if_pos hc]
      have hb : (UInt8.ofNat c.toNat).toNat = c.toNat := by
        rw [UInt8.toNat_ofNat']; exact Nat.mod_eq_of_lt (by omega)
      rw [singleton_new_error]
      intro hs
      apply h
      rw [encodeChar_ascii (isAlphanum_lt hs.1) hb.symm, matches_singleton]
      exact hs
    · rw [if_neg hc]

/-- C32: `from_string` and `FromStr`, on every valid string. -/
theorem C32_string (s : Text) (hs : IsUtf8 s) :
    (Grammar.singleton.Matches s →
      ∃ g, Singleton.fromString s = .ok (.ok g) ∧ Singleton.fromStr s = .ok (.ok g) ∧ s = [g.unwrap]) ∧
    (¬ Grammar.singleton.Matches s →
      Singleton.fromString s = .ok (.error s) ∧ Singleton.fromStr s = .ok (.error s)) := by
  constructor
  · intro h
    obtain ⟨b, rfl, hb⟩ := (isClass_singleton _).mp h
    have h1 := (fromString_one (isAlphanum_lt hb.1)).1 hb
    refine ⟨⟨b⟩, h1, ?_, rfl⟩
    unfold Singleton.fromStr
    rw [h1]; rfl
  · intro h
    have h1 : Singleton.fromString s = .ok (.error s) := by
      by_cases hl : s.length = 1
      · match s, hl with
        | [b], _ =>
          exact (fromString_one (utf8_one hs)).2 fun hb => h ((matches_singleton b).mpr hb)
      · exact fromString_other hl
    refine ⟨h1, ?_⟩
    unfold Singleton.fromStr
    rw [h1]; rfl

/-- C32: `==` with a byte or a character, and `Display`, show the byte the singleton was made of. -/
theorem C32_observers (b : UInt8) (g : Singleton) (h : Singleton.new b = .ok g) :
    g.unwrap = b ∧ (∀ b', g.eqU8 b' = true ↔ b' = b) ∧ (∀ c, g.eqChar c = true ↔ encodeChar c = [b]) ∧
    encodeChar g.display = [b] := by
  by_cases hs : IsSingleton b
  · rw [singleton_new_ok hs] at h
    obtain rfl := Except.ok.inj h
    have hlt := isAlphanum_lt hs.1
    refine ⟨rfl, fun b' => ?_, fun c => ?_, ?_⟩
    · unfold Singleton.eqU8
      rw [beq_iff_eq]; exact eq_comm
    · unfold Singleton.eqChar
      rw [beq_iff_eq]
      exact ⟨fun h => encodeChar_ascii hlt h.symm, fun h => (encodeChar_one h).2.symm⟩
    · refine encodeChar_ascii hlt ?_
      unfold Singleton.display
      have hv : b.toNat.isValidChar := Or.inl (by omega)
      simp only [Char.ofNat, hv, dif_pos]
      rfl
  · rw [singleton_new_error hs] at h
    cases h

example : Grammar.singleton.Matches (encodeChar 'a') := by
  rw [show encodeChar 'a' = [97] from by decide +kernel, matches_singleton]
  refine ⟨Or.inl (Or.inr ?_), ?_⟩ <;> decide
example : IsUtf8 (ascii "a") := ⟨['a'], by decide +kernel⟩
example : Singleton.new 97 = .ok ⟨97⟩ := rfl

end Langtag.Props
