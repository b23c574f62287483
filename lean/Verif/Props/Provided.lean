import Verif.Spec.Provided
import Verif.Props.SourceSpec
import Verif.Props.Client

/-! # C75: the methods every iterator has -/

set_option autoImplicit false

namespace Langtag.Props
open Langtag.Model hiding Singleton
open Langtag.Source Langtag.Spec Langtag.Proof

theorem stepOf_returns {T : String} {o : Option Text} {it : Val} : stepOf (some (.returns (optTag T o) [it])) = some (o.map (tag T), it) := by
  cases o <;> rfl

/-- What `next` does, in whatever state the iterator is: it takes the first item. -/
def Takes (next : Val → Option (Option Val × Val)) (T : String) (Left : Val → List Text → Prop) : Prop :=
  ∀ it items, Left it items → ∃ it', next it = some (items.head?.map (tag T), it') ∧ Left it' items.tail

section
variable {next : Val → Option (Option Val × Val)} {T : String} {Left : Val → List Text → Prop}

theorem fold_takes (h : Takes next T Left) {A : Type} (g : A → Val → A) : ∀ (items : List Text) (a : A) (it : Val), Left it items →
    ∃ it', fold next g a it = some ((items.map (tag T)).foldl g a, it') ∧ Left it' []
  | [], a, it, hl => by
    obtain ⟨it', h1, h2⟩ := h it [] hl
    refine ⟨it', ?_, h2⟩
    rw [fold, h1]
    rfl
  | u :: items, a, it, hl => by
    obtain ⟨it', h1, h2⟩ := h it _ hl
    obtain ⟨it'', h3, h4⟩ := fold_takes h g items (g a (tag T u)) it' h2
    refine ⟨it'', ?_, h4⟩
    rw [fold, h1]
    exact h3

theorem find_takes (h : Takes next T Left) (p : Val → Bool) : ∀ (items : List Text) (it : Val), Left it items →
    ∃ it', find next p it = some ((items.map (tag T)).find? p, it') ∧ Left it' (items.drop ((items.map (tag T)).findIdx p + 1))
  | [], it, hl => by
    obtain ⟨it', h1, h2⟩ := h it [] hl
    refine ⟨it', ?_, h2⟩
    rw [find, h1]
    rfl
  | u :: items, it, hl => by
    obtain ⟨it', h1, h2⟩ := h it _ hl
    rw [find, h1]
    by_cases hp : p (tag T u) = true
    · refine ⟨it', ?_, ?_⟩
      · simp [hp]
      · simpa [List.findIdx_cons, hp] using h2
    · obtain ⟨it'', h3, h4⟩ := find_takes h p items it' h2
      refine ⟨it'', ?_, ?_⟩
      · simpa [hp] using h3
      · simpa [List.findIdx_cons, hp] using h4

theorem nth_takes (h : Takes next T Left) : ∀ (n : Nat) (items : List Text) (it : Val), Left it items →
    ∃ it', nth next n it = some (items[n]?.map (tag T), it') ∧ Left it' (items.drop (n + 1))
  | 0, items, it, hl => by
    obtain ⟨it', h1, h2⟩ := h it _ hl
    exact ⟨it', by rw [nth, h1, List.head?_eq_getElem?], by simpa using h2⟩
  | n + 1, [], it, hl => by
    obtain ⟨it', h1, h2⟩ := h it [] hl
    refine ⟨it', ?_, h2⟩
    rw [nth, h1]
    rfl
  | n + 1, u :: items, it, hl => by
    obtain ⟨it', h1, h2⟩ := h it _ hl
    obtain ⟨it'', h3, h4⟩ := nth_takes h n items it' h2
    refine ⟨it'', ?_, by simpa using h4⟩
    rw [nth, h1]
    simpa using h3

theorem foldl_last : ∀ (xs : List Val) (a : Option Val), xs.foldl (fun _ x => some x) a = xs.getLast?.or a
  | [], a => rfl
  | x :: xs, a => by
    rw [List.foldl_cons, foldl_last xs]
    cases xs with
    | nil => rfl
    | cons y ys => rw [List.getLast?_cons_cons, List.getLast?_eq_some_getLast (by simp : y :: ys ≠ [])]; rfl

theorem foldl_collect : ∀ (xs ys : List Val), xs.foldl (fun xs x => xs ++ [x]) ys = ys ++ xs
  | [], ys => by simp
  | x :: xs, ys => by rw [List.foldl_cons, foldl_collect xs]; simp

theorem seesItems_of (h : Takes next T Left) {it : Val} {items : List Text} (hl : Left it items) : SeesItems next it T items Left where
  fold A g a := fold_takes h g items a it hl
  find p := find_takes h p items it hl
  nth n := nth_takes h n items it hl
  count := by
    obtain ⟨it', h1, _⟩ := fold_takes h (fun n _ => n + 1) items 0 it hl
    have : ∀ (xs : List Val) (n : Nat), xs.foldl (fun n _ => n + 1) n = n + xs.length := by
      intro xs
      induction xs with
      | nil => intro n; rfl
      | cons x xs ih => intro n; rw [List.foldl_cons, ih, List.length_cons]; omega
    rw [count, h1, this]
    simp
  last := by
    obtain ⟨it', h1, _⟩ := fold_takes h (fun _ x => some x) items none it hl
    rw [last, h1, foldl_last]
    simp
  collect := by
    obtain ⟨it', h1, _⟩ := fold_takes h (fun xs x => xs ++ [x]) items [] it hl
    rw [collectVec, h1, foldl_collect]
    simp
end

theorem followedBy_some {k : Val → Option (List Val)} {r : Option Outcome} {v : Val} {vs : List Val} (h : followedBy k r = some (v :: vs)) :
    ∃ it, r = some (.returns v [it]) ∧ k it = some vs := by
  unfold followedBy at h
  split at h
  · rename_i w it
    cases hk : k it with
    | none => rw [hk] at h; cases h
    | some ws =>
      rw [hk] at h
      simp only [Option.map_some, Option.some.injEq, List.cons.injEq] at h
      exact ⟨it, by rw [h.1], by rw [hk, h.2]⟩
  · cases h

theorem runCalls_some {max : Nat} {I f : String} {fs : List String} {it v : Val} {vs : List Val} (h : runCalls max I (f :: fs) it = some (v :: vs)) :
    ∃ it', run max [I] f [it] = some (.returns v [it']) ∧ runCalls max I fs it' = some vs := followedBy_some h

theorem takes_front (max : Nat) (I T : String) : Takes (step max I "next") T fun it items => RunEnumerates max I it T items := by
  intro it items h
  have h0 := h 1
  obtain ⟨it', h1, _⟩ := runCalls_some (vs := []) h0
  have hh : items[0]? = items.head? := by cases items <;> rfl
  refine ⟨it', ?_, fun n => ?_⟩
  · show stepOf _ = _
    rw [h1, stepOf_returns, hh]
  · have h2 := h (n + 1)
    rw [List.range_succ_eq_map, List.map_cons, List.map_map] at h2
    obtain ⟨it'', h3, h4⟩ := runCalls_some h2
    rw [h1] at h3
    obtain rfl : it' = it'' := by simpa using h3
    rw [h4]
    congr 1
    refine List.map_congr_left fun k _ => ?_
    cases items <;> simp

theorem takes_both_front (max : Nat) (I T : String) : Takes (step max I "next") T fun it items => RunEnumeratesBothEnds max I it T items := by
  intro it items h
  obtain ⟨it', h1, _⟩ := runCalls_some (h [.front])
  refine ⟨it', ?_, fun hist => ?_⟩
  · show stepOf (run max [I] "next" [it]) = _
    rw [show run max [I] "next" [it] = _ from h1, stepOf_returns]
  · obtain ⟨it'', h3, h4⟩ := runCalls_some (h (.front :: hist))
    rw [h1] at h3
    obtain rfl : it' = it'' := by simpa using h3
    exact h4

theorem takes_both_back (max : Nat) (I T : String) :
    Takes (step max I "next_back") T fun it items => RunEnumeratesBothEnds max I it T items.reverse := by
  intro it items h
  obtain ⟨it', h1, _⟩ := runCalls_some (h [.back])
  refine ⟨it', ?_, fun hist => ?_⟩
  · show stepOf (run max [I] "next_back" [it]) = _
    rw [show run max [I] "next_back" [it] = _ from h1, stepOf_returns, List.getLast?_reverse]
  · obtain ⟨it'', h3, h4⟩ := runCalls_some (h (.back :: hist))
    rw [h1] at h3
    obtain rfl : it' = it'' := by simpa using h3
    rw [List.dropLast_reverse] at h4
    exact h4

/-- C75: `for`, `fold`, `find`, `nth`, `count`, `last` and `collect` on the iterator that a call returns see its items, in order; what they do not take is
left. -/
theorem C75_forward (max : Nat) (T f : String) (args : List Val) (I U : String) (items : List Text) (h : RunIterates max T f args I U items) :
    ∃ it, run max [T] f args = returns it ∧ SeesItems (step max I "next") it U items fun it' left => RunEnumerates max I it' U left :=
  h.imp fun _ h => ⟨h.1, seesItems_of (takes_front max I U) h.2⟩

/-- C75: so at each end of an iterator with two ends, whatever was taken from it before; `rev()` sees the items in reverse.  What is left can be taken from
either end again. -/
theorem C75_both_ends (max : Nat) (I U : String) (it : Val) (items : List Text) (h : RunEnumeratesBothEnds max I it U items) :
    SeesItems (step max I "next") it U items (fun it' left => RunEnumeratesBothEnds max I it' U left) ∧
    SeesItems (step max I "next_back") it U items.reverse (fun it' left => RunEnumeratesBothEnds max I it' U left.reverse) :=
  ⟨seesItems_of (takes_both_front max I U) h, seesItems_of (takes_both_back max I U) (by rwa [List.reverse_reverse])⟩

/-- C75: the iterators over the private use part, an extension, an extended language and variants. -/
theorem C75_source (max : Nat) (s : Text) (h : s.length + 1 ≤ max) :
    (RunAccepts max "PrivateUse" s → ∃ it, run max ["PrivateUse"] "iter" [tag "PrivateUse" s] = returns it ∧
      SeesItems (step max "PrivateUseIter" "next") it "PrivateUseSubtag" (subtags s).tail
        fun it' left => RunEnumerates max "PrivateUseIter" it' "PrivateUseSubtag" left) ∧
    (RunAccepts max "Extension" s → ∃ it, run max ["Extension"] "iter" [tag "Extension" s] = returns it ∧
      SeesItems (step max "ExtensionIter" "next") it "ExtensionSubtag" (subtags s).tail
        fun it' left => RunEnumerates max "ExtensionIter" it' "ExtensionSubtag" left) ∧
    (RunAccepts max "LanguageExtension" s → ∃ it, run max ["LanguageExtension"] "iter" [tag "LanguageExtension" s] = returns it ∧
      SeesItems (step max "LanguageExtensionIter" "next") it "ExtendedLangTag" (subtags s)
        fun it' left => RunEnumerates max "LanguageExtensionIter" it' "ExtendedLangTag" left) ∧
    (RunAccepts max "Variants" s → ∃ it, run max ["Variants"] "iter" [tag "Variants" s] = returns it ∧
      SeesItems (step max "VariantsIter" "next") it "Variant" (listItems s)
        (fun it' left => RunEnumeratesBothEnds max "VariantsIter" it' "Variant" left) ∧
      SeesItems (step max "VariantsIter" "next_back") it "Variant" (listItems s).reverse
        fun it' left => RunEnumeratesBothEnds max "VariantsIter" it' "Variant" left.reverse) := by
  have hm : ∀ {T : String} {g : Abnf}, RunConstructorIs T g → RunAccepts max T s → g.Matches s := fun hc ha =>
    Classical.byContradiction fun hn => by
      have h1 := (hc max s h).2 hn
      have h2 : run max [_] "new" [.str s] = _ := ha
      rw [h1] at h2
      simp [Val.ok, Val.err] at h2
  obtain ⟨k1, k2, k3⟩ := C27_source max s h
  exact ⟨fun ha => C75_forward _ _ _ _ _ _ _ (k1 (hm C03_source.1 ha)), fun ha => C75_forward _ _ _ _ _ _ _ (k2 (hm C07_source.1 ha)),
    fun ha => C75_forward _ _ _ _ _ _ _ (k3 (hm C04_source.2.2.1 ha)),
    fun ha => (C28_source max s h (hm C06_source.2 ha)).1.imp fun it k => ⟨k.1, C75_both_ends _ _ _ _ _ k.2⟩⟩

/-- C75: the iterator over extensions, and the one over the subtags of the extension with a given singleton. -/
theorem C75_source_extensions (max : Nat) (es : List Text) (hm : ∀ e ∈ es, Grammar.extension.Matches e) (h : (joinDash es).length + 1 ≤ max) (b : UInt8) :
    (∃ it, run max ["Extensions"] "iter" [tag "Extensions" (joinDash es)] = returns it ∧
      SeesItems (step max "ExtensionsIter" "next") it "Extension" es fun it' left => RunEnumerates max "ExtensionsIter" it' "Extension" left) ∧
    ∃ it, run max ["Extensions"] "iter_extension" [tag "Extensions" (joinDash es), .ctor ["Singleton"] "Singleton" [.u8 b]] = returns it ∧
      SeesItems (step max "ExtensionIter" "next") it "ExtensionSubtag"
        (match es.find? fun e => e.head? = some b with | some e => (subtags e).tail | none => [])
        fun it' left => RunEnumerates max "ExtensionIter" it' "ExtensionSubtag" left :=
  ⟨C75_forward _ _ _ _ _ _ _ (C29_source max es hm h), C75_forward _ _ _ _ _ _ _ (C30_source_iter max es hm h b)⟩

/-- C75: the iterators over the subtags of an extended language and of the private use part of a tag (for which see C21). -/
theorem C75_source_tags (max : Nat) (s : Text) (h : s.length + 1 ≤ max) :
    (RunAccepts max "Language" s → ∃ it, run max ["Language"] "extension_subtags" [tag "Language" s] = returns it ∧
      SeesItems (step max "LanguageExtensionIter" "next") it "ExtendedLangTag" (subtags s).tail
        fun it' left => RunEnumerates max "LanguageExtensionIter" it' "ExtendedLangTag" left) ∧
    ∀ p : Parts, Decomposes s p → p.afterRegion ≠ [] →
      ∃ it, run max ["NormalLangTag"] "private_use_subtags" [tag "NormalLangTag" s] = returns it ∧
        SeesItems (step max "PrivateUseIter" "next") it "PrivateUseSubtag" ((p.extensions ++ p.privateUse.toList).flatMap subtags).tail
          fun it' left => RunEnumerates max "PrivateUseIter" it' "PrivateUseSubtag" left := by
  refine ⟨fun ha => C75_forward _ _ _ _ _ _ _ (C25_source_subtags max s h ?_), fun p hp hr =>
    C75_forward _ _ _ _ _ _ _ (C21_source_subtags_partial max s h p hp hr)⟩
  exact Classical.byContradiction fun hn => by
    have h1 := (C04_source.1 max s h).2 hn
    have h2 : run max [_] "new" [.str s] = _ := ha
    rw [h1] at h2
    simp [Val.ok, Val.err] at h2

/-- C75: the crate writes `next` and `next_back` and no other method of the traits, so that all others are those of `core`. -/
theorem C75_source_provided (max : Nat) : ∃ P, readCrate max = some P ∧
    (∀ F ∈ P.fns, F.trait = "Iterator" → F.fn.name = "next") ∧ (∀ F ∈ P.fns, F.trait = "DoubleEndedIterator" → F.fn.name = "next_back") ∧
    ∀ F ∈ P.fns, F.trait = "" → (∃ T ∈ F.owner, T = "VariantsIter" ∨ ∃ U, (T, U) ∈ iterators) → F.fn.name = "new" ∨ F.fn.name = "empty" := by
  refine ⟨_, readCrate_eq max, ?_⟩
  have h1 : ∀ F ∈ (crate 0).fns, F.trait = "Iterator" → F.fn.name = "next" := by decide +kernel
  have h2 : ∀ F ∈ (crate 0).fns, F.trait = "DoubleEndedIterator" → F.fn.name = "next_back" := by decide +kernel
  have h3 : ∀ F ∈ (crate 0).fns, F.trait = "" → (∃ T ∈ F.owner, T ∈ "VariantsIter" :: iterators.map (·.1)) → F.fn.name = "new" ∨ F.fn.name = "empty" := by
    decide +kernel
  refine ⟨h1, h2, fun F hF ht ⟨T, hT, hU⟩ => h3 F hF ht ⟨T, hT, ?_⟩⟩
  rcases hU with rfl | ⟨U, hU⟩
  · simp
  · exact List.mem_cons_of_mem _ (List.mem_map.mpr ⟨_, hU, rfl⟩)

theorem iterOk_items {σ α : Type} {next : σ → Model.Rust (Option α × σ)} {data : σ → Text} {str : α → Text} {mk : Text → α} (hk : ∀ x, mk (str x) = x)
    {max : Nat} {P : Text → Prop} {it : σ} (h : Client.IterOk next data str max P it) :
    ∃ items : List Text, Enumerates next it (items.map mk) ∧ ∀ u ∈ items, P u := by
  obtain ⟨_, items, h1, h2⟩ := h
  refine ⟨items.map str, ?_, fun u hu => ?_⟩
  · rwa [List.map_map, show mk ∘ str = id from funext hk, List.map_id]
  · obtain ⟨x, hx, rfl⟩ := List.mem_map.mp hu
    exact (h2 x hx).1

/-- C75: so for every iterator a program can get hold of, whatever calls it comes from and whatever has been taken from it: there are finitely many items,
of the production of their type, and a `for` loop over them ends. -/
theorem C75_obtainable (max : Nat) (hmax : 12 ≤ max) (I U : String) (hI : (I, U) ∈ iterators) (it : Val) (h : Obtainable max it)
    (hT : typeName it = some I) :
    ∃ items : List Text, (∀ u ∈ items, InProduction U u) ∧
      SeesItems (step max I "next") it U items fun it' left => RunEnumerates max I it' U left := by
  have hs := Client.sound_of_obtainable hmax h
  simp only [iterators, List.mem_cons, Prod.mk.injEq, List.not_mem_nil, or_false] at hI
  rcases hI with ⟨rfl, rfl⟩ | ⟨rfl, rfl⟩ | ⟨rfl, rfl⟩ | ⟨rfl, rfl⟩
  · obtain ⟨it, rfl, hi⟩ := Client.sound_privateUseIter hs hT
    obtain ⟨items, h1, h2⟩ := iterOk_items (mk := PrivateUseSubtag.mk) (fun _ => rfl) hi
    exact ⟨items, fun u hu => ⟨_, rfl, h2 u hu⟩, seesItems_of (takes_front _ _ _) (privateUseIter_runs hi.1 h1)⟩
  · obtain ⟨it, rfl, hi⟩ := Client.sound_extensionIter hs hT
    obtain ⟨items, h1, h2⟩ := iterOk_items (mk := ExtensionSubtag.mk) (fun _ => rfl) hi
    exact ⟨items, fun u hu => ⟨_, rfl, h2 u hu⟩, seesItems_of (takes_front _ _ _) (extensionIter_runs hi.1 h1)⟩
  · obtain ⟨it, rfl, hi⟩ := Client.sound_languageExtensionIter hs hT
    obtain ⟨items, h1, h2⟩ := iterOk_items (mk := ExtendedLangTag.mk) (fun _ => rfl) hi
    exact ⟨items, fun u hu => ⟨_, rfl, h2 u hu⟩, seesItems_of (takes_front _ _ _) (languageExtensionIter_runs hi.1 h1)⟩
  · obtain ⟨it, rfl, hi⟩ := Client.sound_extensionsIter hs hT
    obtain ⟨items, h1, h2⟩ := iterOk_items (mk := Extension.mk) (fun _ => rfl) hi
    exact ⟨items, fun u hu => ⟨_, rfl, h2 u hu⟩, seesItems_of (takes_front _ _ _) (extensionsIter_runs hi.1 h1)⟩

/-- C75: and for every `VariantsIter`, at both ends. -/
theorem C75_obtainable_both_ends (max : Nat) (hmax : 12 ≤ max) (it : Val) (h : Obtainable max it) (hT : typeName it = some "VariantsIter") :
    ∃ items : List Text, (∀ u ∈ items, InProduction "Variant" u) ∧
      SeesItems (step max "VariantsIter" "next") it "Variant" items (fun it' left => RunEnumeratesBothEnds max "VariantsIter" it' "Variant" left) ∧
      SeesItems (step max "VariantsIter" "next_back") it "Variant" items.reverse
        (fun it' left => RunEnumeratesBothEnds max "VariantsIter" it' "Variant" left.reverse) := by
  obtain ⟨it, rfl, hl, he, items, h1, h2⟩ := Client.sound_variantsIter (Client.sound_of_obtainable hmax h) hT
  refine ⟨items.map (·.str), fun u hu => ?_, C75_both_ends _ _ _ _ _ (variantsIter_runs hl he ?_)⟩
  · obtain ⟨x, hx, rfl⟩ := List.mem_map.mp hu
    exact ⟨_, rfl, (h2 x hx).1⟩
  · rwa [List.map_map, show Variant.mk ∘ (·.str) = id from rfl, List.map_id]

-- `Variants::new("rozaj-biske-1994").iter().rev().collect()`, and `nth(1)` followed by `next_back()`
example : ∃ it, run 100 ["Variants"] "iter" [tag "Variants" (ascii "rozaj-biske-1994")] = returns it ∧
    collectVec (step 100 "VariantsIter" "next_back") it = some [tag "Variant" (ascii "1994"), tag "Variant" (ascii "biske"), tag "Variant" (ascii "rozaj")] ∧
    ∃ it', nth (step 100 "VariantsIter" "next") 1 it = some (some (tag "Variant" (ascii "biske")), it') ∧
      count (step 100 "VariantsIter" "next_back") it' = some 1 := by
  have ha : RunAccepts 100 "Variants" (ascii "rozaj-biske-1994") :=
    (C06_source.2 100 _ (by decide +kernel)).1 (by
      obtain ⟨v, hv⟩ : Accepts Model.Variants (ascii "rozaj-biske-1994") := accepts_of_isOk (by decide +kernel)
      exact Classical.byContradiction fun hn => by rw [(C06_variants _).2 hn] at hv; cases hv)
  obtain ⟨it, h1, h2, h3⟩ := (C75_source 100 (ascii "rozaj-biske-1994") (by decide +kernel)).2.2.2 ha
  obtain ⟨it', h4, h5⟩ := h2.nth 1
  refine ⟨it, h1, ?_, it', ?_, ?_⟩
  · rw [h3.collect, show (listItems (ascii "rozaj-biske-1994")).reverse = [ascii "1994", ascii "biske", ascii "rozaj"] from by decide +kernel]
    rfl
  · rw [h4]
    congr 2
  · rw [(C75_both_ends 100 _ _ it' _ h5).2.count]
    decide +kernel

-- an iterator a program can get hold of: that over the odd private use part `a-bbb-x-foo` of C24
example : ∃ it, Obtainable 100 it ∧ typeName it = some "PrivateUseIter" ∧ ∃ n, count (step 100 "PrivateUseIter" "next") it = some n := by
  have hr := (C69_parts 100 (ascii "a-bbb-x-foo") ⟨0⟩ (by decide +kernel)).2.2.2.2.2.2.2.2.2.2.2.2
  have ho := obtainable_method (T := "PrivateUse") (f := "iter") (by decide +kernel) rfl obtainable_a_x hr
  obtain ⟨items, _, h⟩ := C75_obtainable 100 (by omega) "PrivateUseIter" "PrivateUseSubtag" (by simp [iterators]) _ ho rfl
  exact ⟨_, ho, rfl, _, h.count⟩

end Langtag.Props
