import Verif.Props.Work
import Verif.Props.SourceWalk
import Verif.Spec.RunWork

/-!
# C68: the work done by the text of the crate is linear in the length of the text

`runCounted` reads the text of the files of `/repo/src` and executes a call, counting how many times the body of a loop is executed.
-/

set_option autoImplicit false

namespace Langtag.Props
open Langtag.Model hiding Singleton
open Langtag.Spec Langtag.Proof Langtag.Source.Counted
open Langtag.Source (run Val val Rep tag Outcome givesNext)

theorem _root_.Langtag.Source.Counted.Counts.within {max : Nat} {T : List String} {f : String} {args : List Val} {k n : Nat}
    (h : Counts max T f args k) (hk : k ≤ n) :
    EndsWithin max T f args n := h.elim fun o ho => ⟨o, k, ho, runCounted_run ho, hk⟩

/-- C68: the constructors of the fifteen types go over the text once at most, and so do `==`, `cmp`, `partial_cmp` and `hash`. -/
theorem C68_source : ∀ T ∈ stringTypes, ∀ (max : Nat) (s t : Text) (w : List UInt8), s.length + 1 ≤ max →
    EndsWithin max [T] "new" [.str s] s.length ∧
    EndsWithin max [T] "eq" [tag T s, tag T t] (min s.length t.length) ∧
    EndsWithin max [T] "cmp" [tag T s, tag T t] (min s.length t.length + 1) ∧
    EndsWithin max [T] "partial_cmp" [tag T s, tag T t] (min s.length t.length + 1) ∧
    EndsWithin max [T] "hash" [tag T s, .hasher w] s.length := by
  have key : ∀ (n : String) (T : Type) [StrNewtype T], CountsSource n T → ∀ (max : Nat) (s t : Text) (w : List UInt8), s.length + 1 ≤ max →
      EndsWithin max [n] "new" [.str s] s.length ∧
      EndsWithin max [n] "eq" [tag n s, tag n t] (min s.length t.length) ∧
      EndsWithin max [n] "cmp" [tag n s, tag n t] (min s.length t.length + 1) ∧
      EndsWithin max [n] "partial_cmp" [tag n s, tag n t] (min s.length t.length + 1) ∧
      EndsWithin max [n] "hash" [tag n s, .hasher w] s.length := by
    intro n T _ h max s t w hs
    refine ⟨(h.new max s hs).within (work_new T s).2, (h.eq max s t).within (caseInsensitiveEq_steps s t),
      (h.cmp max s t hs).within (caseInsensitiveCmp_steps s t), (h.partialCmp max s t hs).within ?_, (h.hash max s w).within ?_⟩
    · refine Nat.le_trans (Nat.le_of_eq ?_) (caseInsensitiveCmp_steps s t)
      rcases Timed.caseInsensitiveCmp s t with ⟨_ | _, k⟩ <;> rfl
    · exact hash_steps Langtag.Source.logHasher s w
  intro T hT
  simp only [stringTypes, List.mem_cons, List.not_mem_nil, or_false] at hT
  rcases hT with rfl | rfl | rfl | rfl | rfl | rfl | rfl | rfl | rfl | rfl | rfl | rfl | rfl | rfl | rfl
  · exact key _ _ LangTag.counts
  · exact key _ _ NormalLangTag.counts
  · exact key _ _ Language.counts
  · exact key _ _ PrimaryLanguage.counts
  · exact key _ _ LanguageExtension.counts
  · exact key _ _ ExtendedLangTag.counts
  · exact key _ _ Script.counts
  · exact key _ _ Region.counts
  · exact key _ _ Variant.counts
  · exact key _ _ Variants.counts
  · exact key _ _ Extension.counts
  · exact key _ _ Extensions.counts
  · exact key _ _ ExtensionSubtag.counts
  · exact key _ _ PrivateUse.counts
  · exact key _ _ PrivateUseSubtag.counts

/-- The bound is attained: a text that is accepted is read to the end. -/
example : Counts 100 ["LangTag"] "new" [.str (ascii "en-Latn-US")] 10 ∧
    Counts 100 ["Script"] "eq" [tag "Script" (ascii "Latn"), tag "Script" (ascii "latn")] 4 := by
  have h1 := LangTag.counts.new 100 (ascii "en-Latn-US") (by decide)
  have h2 := Script.counts.eq 100 (ascii "Latn") (ascii "latn")
  rw [show (Timed.new LangTag (ascii "en-Latn-US")).steps = 10 from by decide +kernel] at h1
  rw [show (Timed.caseInsensitiveEq (ascii "Latn") (ascii "latn")).steps = 4 from by decide +kernel] at h2
  exact ⟨h1, h2⟩

/-- C68: the accessors of `NormalLangTag` on any text. -/
theorem C68_source_accessors (max : Nat) (s : Text) (h : s.length + 1 ≤ max) :
    EndsWithin max ["NormalLangTag"] "language" [tag "NormalLangTag" s] (2 * s.length) ∧
    EndsWithin max ["NormalLangTag"] "script" [tag "NormalLangTag" s] (4 * s.length) ∧
    EndsWithin max ["NormalLangTag"] "region" [tag "NormalLangTag" s] (6 * s.length) ∧
    EndsWithin max ["NormalLangTag"] "variants" [tag "NormalLangTag" s] (8 * s.length) ∧
    EndsWithin max ["NormalLangTag"] "extensions" [tag "NormalLangTag" s] (10 * s.length) ∧
    EndsWithin max ["NormalLangTag"] "private_use" [tag "NormalLangTag" s] (8 * s.length) ∧
    EndsWithin max ["NormalLangTag"] "private_use_subtags" [tag "NormalLangTag" s] (8 * s.length) :=
  ⟨(counts_of (Names.NormalLangTag_language.callPath ..) (NormalLangTag.language_eq _ _ h)).within (work_language ⟨s⟩).2,
   (counts_of (Names.NormalLangTag_script.callPath ..) (NormalLangTag.script_eq _ _ h)).within (work_script ⟨s⟩).2,
   (counts_of (Names.NormalLangTag_region.callPath ..) (NormalLangTag.region_eq _ _ h)).within (work_region ⟨s⟩).2,
   (counts_of (Names.NormalLangTag_variants.callPath ..) (NormalLangTag.variants_eq _ _ h)).within (work_variants ⟨s⟩).2,
   (counts_of (Names.NormalLangTag_extensions.callPath ..) (NormalLangTag.extensions_eq _ _ h)).within (work_extensions ⟨s⟩).2,
   (counts_of (Names.NormalLangTag_private_use.callPath ..) (NormalLangTag.private_use_eq _ _ h)).within (work_privateUse ⟨s⟩).2,
   (counts_of (Names.NormalLangTag_private_use_subtags.callPath ..) (NormalLangTag.private_use_subtags_eq _ _ h)).within
     (work_privateUseSubtags ⟨s⟩).2⟩

example : (ascii "en-Latn-US-rozaj-a-bbb").length + 1 ≤ 100 ∧
    Counts 100 ["NormalLangTag"] "extensions" [tag "NormalLangTag" (ascii "en-Latn-US-rozaj-a-bbb")] 57 := by
  refine ⟨by decide, ?_⟩
  rw [← show (Timed.extensions ⟨ascii "en-Latn-US-rozaj-a-bbb"⟩).steps = 57 from by decide +kernel]
  exact counts_of (Names.NormalLangTag_extensions.callPath ..) (NormalLangTag.extensions_eq _ _ (by decide))

/-- C68: the functions of `LangTag` on any text, and recognising a grandfathered tag. -/
theorem C68_source_langTag (max : Nat) (s : Text) (h : s.length + 1 ≤ max) :
    EndsWithin max ["GrandfatheredLangTag"] "new" [.str s] 312 ∧ EndsWithin max ["GrandfatheredLangTag"] "try_from" [.bytes s] 312 ∧
    EndsWithin max ["LangTag"] "as_typed" [tag "LangTag" s] (2 * s.length + 312) ∧
    EndsWithin max ["LangTag"] "kind" [tag "LangTag" s] (2 * s.length + 312) ∧
    EndsWithin max ["LangTag"] "as_normal" [tag "LangTag" s] s.length ∧
    EndsWithin max ["LangTag"] "as_private_use" [tag "LangTag" s] s.length ∧
    EndsWithin max ["LangTag"] "as_grandfathered" [tag "LangTag" s] 312 ∧
    EndsWithin max ["LangTag"] "is_normal" [tag "LangTag" s] s.length ∧
    EndsWithin max ["LangTag"] "is_private_use" [tag "LangTag" s] s.length ∧
    EndsWithin max ["LangTag"] "is_grandfathered" [tag "LangTag" s] 312 ∧
    EndsWithin max ["LangTag"] "language" [tag "LangTag" s] (3 * s.length + 312) ∧
    EndsWithin max ["LangTag"] "script" [tag "LangTag" s] (5 * s.length) ∧
    EndsWithin max ["LangTag"] "region" [tag "LangTag" s] (7 * s.length) ∧
    EndsWithin max ["LangTag"] "variants" [tag "LangTag" s] (9 * s.length) ∧
    EndsWithin max ["LangTag"] "extensions" [tag "LangTag" s] (11 * s.length) ∧
    EndsWithin max ["LangTag"] "private_use" [tag "LangTag" s] (9 * s.length) ∧
    EndsWithin max ["LangTag"] "private_use_subtags" [tag "LangTag" s] (9 * s.length) :=
  ⟨(counts_of (Names.GrandfatheredLangTag_new.callPath ..) (GrandfatheredLangTag.new_eq _)).within (work_newGrandfathered s).2,
   (counts_of (Names.GrandfatheredLangTag_TryFrom_try_from.callPath ..) (GrandfatheredLangTag.try_from_eq _)).within (work_tryFrom s).2,
   (counts_of (Names.LangTag_as_typed.callPath ..) (LangTag.as_typed_eq _ _ h)).within (work_asTyped ⟨s⟩).2,
   (counts_of (Names.LangTag_kind.callPath ..) (LangTag.kind_eq _ _ h)).within (work_kind ⟨s⟩).2,
   (counts_of (Names.LangTag_as_normal.callPath ..) (LangTag.as_normal_eq _ _ h)).within (work_asNormal ⟨s⟩).2,
   (counts_of (Names.LangTag_as_private_use.callPath ..) (LangTag.as_private_use_eq _ _ h)).within (work_asPrivateUse ⟨s⟩).2,
   (counts_of (Names.LangTag_as_grandfathered.callPath ..) (LangTag.as_grandfathered_eq _ _)).within (work_asGrandfathered ⟨s⟩).2,
   (counts_of (Names.LangTag_is_normal.callPath ..) (LangTag.is_normal_eq _ _ h)).within (work_isNormal ⟨s⟩).2,
   (counts_of (Names.LangTag_is_private_use.callPath ..) (LangTag.is_private_use_eq _ _ h)).within (work_isPrivateUse ⟨s⟩).2,
   (counts_of (Names.LangTag_is_grandfathered.callPath ..) (LangTag.is_grandfathered_eq _ _)).within (work_isGrandfathered ⟨s⟩).2,
   (counts_of (Names.LangTag_language.callPath ..) (LangTag.language_eq _ _ h)).within (work_langTag_language ⟨s⟩).2,
   (counts_of (Names.LangTag_script.callPath ..) (LangTag.script_eq _ _ h)).within (work_langTag_script ⟨s⟩).2,
   (counts_of (Names.LangTag_region.callPath ..) (LangTag.region_eq _ _ h)).within (work_langTag_region ⟨s⟩).2,
   (counts_of (Names.LangTag_variants.callPath ..) (LangTag.variants_eq _ _ h)).within (work_langTag_variants ⟨s⟩).2,
   (counts_of (Names.LangTag_extensions.callPath ..) (LangTag.extensions_eq _ _ h)).within (work_langTag_extensions ⟨s⟩).2,
   (counts_of (Names.LangTag_private_use.callPath ..) (LangTag.private_use_eq _ _ h)).within (work_langTag_privateUse ⟨s⟩).2,
   (counts_of (Names.LangTag_private_use_subtags.callPath ..) (LangTag.private_use_subtags_eq _ _ h)).within (work_langTag_privateUseSubtags ⟨s⟩).2⟩

example : Counts 100 ["LangTag"] "script" [tag "LangTag" (ascii "en-Latn-US")] 33 := by
  rw [← show (Timed.LangTag.script ⟨ascii "en-Latn-US"⟩).steps = 33 from by decide +kernel]
  exact counts_of (Names.LangTag_script.callPath ..) (LangTag.script_eq _ _ (by decide))

/-- C68: the parts of a language, looking up an extension, the first and the last variant. -/
theorem C68_source_parts (max : Nat) (s : Text) (g : UInt8) (h : s.length + 1 ≤ max) :
    EndsWithin max ["Language"] "primary" [tag "Language" s] s.length ∧
    EndsWithin max ["Language"] "extension" [tag "Language" s] s.length ∧
    EndsWithin max ["Language"] "extension_subtags" [tag "Language" s] s.length ∧
    EndsWithin max ["Extensions"] "get" [tag "Extensions" s, .ctor ["Singleton"] "Singleton" [.u8 g]] s.length ∧
    EndsWithin max ["Extensions"] "iter_extension" [tag "Extensions" s, .ctor ["Singleton"] "Singleton" [.u8 g]] s.length ∧
    EndsWithin max ["Variants"] "first" [tag "Variants" s] (s.length + 1) ∧
    EndsWithin max ["Variants"] "last" [tag "Variants" s] (s.length + 1) :=
  ⟨(counts_of (Names.Language_primary.callPath ..) (Language.primary_eq ..)).within (work_primary ⟨s⟩).2,
   (counts_of (Names.Language_extension.callPath ..) (Language.extension_eq ..)).within (work_extension ⟨s⟩).2,
   (counts_of (Names.Language_extension_subtags.callPath ..) (Language.extension_subtags_eq ..)).within (work_extensionSubtags ⟨s⟩).2,
   (counts_of (Names.Extensions_get.callPath ..) (Extensions.get_eq _ _ _ _ h)).within (work_get ⟨s⟩ ⟨g⟩).2,
   (counts_of (Names.Extensions_iter_extension.callPath ..) (Extensions.iter_extension_eq _ _ _ _ h)).within (work_iterExtension ⟨s⟩ ⟨g⟩).2,
   (counts_of (Names.Variants_first.callPath ..) (Variants.first_eq _ _ h)).within (work_first ⟨s⟩).2,
   (counts_of (Names.Variants_last.callPath ..) (Variants.last_eq _ _ h)).within (work_last ⟨s⟩).2⟩

example : Counts 100 ["Extensions"] "get" [tag "Extensions" (ascii "a-bbb-cc-b-dd"), .ctor ["Singleton"] "Singleton" [.u8 98]] 12 := by
  rw [← show (Timed.get ⟨ascii "a-bbb-cc-b-dd"⟩ ⟨98⟩).steps = 12 from by decide +kernel]
  exact counts_of (Names.Extensions_get.callPath ..) (Extensions.get_eq _ _ _ _ (by decide))

/-! ## Whole iterations -/

section
variable {σ α : Type} [Rep σ] [Rep α]

theorem countCalls_ok {max : Nat} {I f : String} {fs : List String} {it v it' : Val} {n : Nat}
    (h : runCounted max [I] f [it] = some (.returns v [it'], n)) : countCalls max I (f :: fs) it = (countCalls max I fs it').map (n + ·) :=
  congrArg (countedWith (countCalls max I fs)) h
theorem countCalls_panics {max : Nat} {I f : String} {fs : List String} {it : Val} {p : Panic} {n : Nat}
    (h : runCounted max [I] f [it] = some (.panics p, n)) : countCalls max I (f :: fs) it = some n :=
  congrArg (countedWith (countCalls max I fs)) h

/-- A history of calls counts what it counts in the model. -/
theorem countCalls_collect {max : Nat} {I : String} {next : σ → Timed (Option α × σ)} (P : σ → Prop)
    (hr : ∀ it, P it → runCounted max [I] "next" [val it] = countedNext (next it))
    (hP : ∀ it x it', P it → (next it).result = .ok (x, it') → P it') :
    ∀ (n : Nat) (it : σ), P it → countCalls max I (List.replicate n "next") (val it) = some (collectTimed next n it).steps
  | 0, _, _ => rfl
  | n + 1, it, hi => by
    rw [collectTimed, List.replicate_succ]
    have hr := hr it hi
    rcases hn : next it with ⟨p | ⟨x, it'⟩, k⟩ <;> rw [hn] at hr
    · rw [countCalls_panics hr]
      rfl
    · rw [countCalls_ok hr, countCalls_collect P ‹_› hP n it' (hP it x it' hi (by rw [hn]))]
      rw [timed_bind_steps_ok (a := (x, it')) _ rfl]
      dsimp only
      rcases collectTimed next n it' with ⟨_ | _, _⟩ <;> rfl

/-- A history of calls at both ends counts what it counts in the model. -/
theorem countCalls_collectSides {max : Nat} {I : String} {next nextBack : σ → Timed (Option α × σ)} (P : σ → Prop)
    (hr : ∀ it, P it → runCounted max [I] "next" [val it] = countedNext (next it))
    (hP : ∀ it x it', P it → (next it).result = .ok (x, it') → P it')
    (hr' : ∀ it, P it → runCounted max [I] "next_back" [val it] = countedNext (nextBack it))
    (hP' : ∀ it x it', P it → (nextBack it).result = .ok (x, it') → P it') :
    ∀ (hist : List Side) (it : σ), P it → countCalls max I (hist.map Side.fn) (val it) = some (collectSidesTimed next nextBack hist it).steps
  | [], _, _ => rfl
  | side :: hist, it, hi => by
    have key : ∃ f : σ → Timed (Option α × σ), runCounted max [I] side.fn [val it] = countedNext (f it) ∧
        (∀ x it', (f it).result = .ok (x, it') → P it') ∧ collectSidesTimed next nextBack (side :: hist) it = (do
          let (x, it) ← f it
          let xs ← collectSidesTimed next nextBack hist it
          return x :: xs) := by
      cases side
      · exact ⟨next, hr it hi, fun x it' => hP it x it' hi, rfl⟩
      · exact ⟨nextBack, hr' it hi, fun x it' => hP' it x it' hi, rfl⟩
    obtain ⟨f, k1, k2, k3⟩ := key
    rw [k3, List.map_cons]
    rcases hn : f it with ⟨p | ⟨x, it'⟩, k⟩ <;> rw [hn] at k1
    · rw [countCalls_panics k1]
      rfl
    · rw [countCalls_ok k1, countCalls_collectSides P hr hP hr' hP' hist it' (k2 x it' (by rw [hn]))]
      rw [timed_bind_steps_ok (a := (x, it')) _ rfl]
      dsimp only
      rcases collectSidesTimed next nextBack hist it' with ⟨_ | _, _⟩ <;> rfl
end

/-- A call that makes no iterations. -/
theorem counts_free {max : Nat} {T : List String} {f : String} {args : List Val} {F : Langtag.Source.Fn} {v : Val × List (Option Val)}
    (h : callPath (Langtag.Source.crate max) ⟨[], "", .tuple []⟩ T f args [] = callFn (Langtag.Source.crate max) F args [])
    (h' : callFn (Langtag.Source.crate max) F args [] = fin (.ok v [])) : EndsWithin max T f args 0 :=
  (counts_of h (k := id) (t := pure v) h').within (Nat.le_refl 0)

theorem extensionsNext_data {it it' : ExtensionsIter} {x : Option Extension} (h : (Timed.extensionsNext it).result = .ok (x, it')) :
    it'.data = it.data := by
  unfold Timed.extensionsNext at h
  split at h
  · dsimp only at h
    rw [timed_bind_result] at h
    cases hr : (Timed.findListEnd it.data (it.offset + 2) fun _ segment => Timed.isOk ExtensionSubtag segment).result with
    | error p => rw [hr] at h; cases h
    | ok e =>
      rw [hr, ok_bind, timed_bind_result, timed_lift_result] at h
      cases hs : sliceRange it.data it.offset e with
      | error p => rw [hs] at h; cases h
      | ok u => rw [hs] at h; cases h; rfl
  · cases h
    rfl

/-- C68: `iter` makes no iterations, and all the calls of `next` together on the iterator, however many, make at most one for each byte of the text; for
`Extensions` two, if the text is one `Extensions::new` accepts. -/
theorem C68_source_iterators (max : Nat) (s : Text) (h : s.length + 1 ≤ max) :
    IteratesWithin max "PrivateUse" "iter" [tag "PrivateUse" s] "PrivateUseIter" 0 s.length ∧
    IteratesWithin max "Extension" "iter" [tag "Extension" s] "ExtensionIter" 0 s.length ∧
    IteratesWithin max "LanguageExtension" "iter" [tag "LanguageExtension" s] "LanguageExtensionIter" 0 s.length ∧
    (RunAccepts max "Extensions" s → IteratesWithin max "Extensions" "iter" [tag "Extensions" s] "ExtensionsIter" 0 (2 * s.length)) := by
  have hp := C69_parts max s ⟨0⟩ h
  refine ⟨⟨_, hp.2.2.2.2.2.2.2.2.2.2.2.2, counts_free (Names.PrivateUse_iter.callPath ..) (PrivateUse.iter_eq ..),
      fun calls => ⟨_, ?_, (C68_iterators calls ⟨s⟩ ⟨s⟩ ⟨s⟩).1.2⟩⟩,
    ⟨_, hp.2.2.2.2.2.2.2.2.1, counts_free (Names.Extension_iter.callPath ..) (Extension.iter_eq ..),
      fun calls => ⟨_, ?_, (C68_iterators calls ⟨s⟩ ⟨s⟩ ⟨s⟩).2.1.2⟩⟩,
    ⟨_, hp.2.2.2.1, counts_free (Names.LanguageExtension_iter.callPath ..) (LanguageExtension.iter_eq ..),
      fun calls => ⟨_, ?_, (C68_iterators calls ⟨s⟩ ⟨s⟩ ⟨s⟩).2.2.2⟩⟩, fun ha =>
    ⟨_, hp.2.2.2.2.2.2.2.2.2.2.1, counts_free (Names.Extensions_iter.callPath ..) (Extensions.iter_eq ..),
      fun calls => ⟨_, ?_, (C68_extensions calls ⟨s⟩
        (constructed_of_matches is_Extensions (fun ⟨_⟩ ⟨_⟩ h => congrArg Extensions.mk h)
        ((runAccepts_iff C07_source.2.2 h).mp ha))).2⟩⟩⟩
  · exact countCalls_collect (next := Timed.privateUseNext) (fun j => j.data.length + 1 ≤ max)
      (fun j hj => runCounted_next (Names.PrivateUseIter_Iterator_next.callPath ..) (PrivateUseIter.next_eq _ _ hj))
      (fun j x j' hj e => by
        rw [data_privateUse ((work_forward j.data j.offset PrivateUseSubtag.mk (fun o => ({ j with offset := o } : PrivateUseIter)) j).1.1.symm.trans e)]
        exact hj) calls _ h
  · exact countCalls_collect (next := Timed.extensionNext) (fun j => j.data.length + 1 ≤ max)
      (fun j hj => runCounted_next (Names.ExtensionIter_Iterator_next.callPath ..) (ExtensionIter.next_eq _ _ hj))
      (fun j x j' hj e => by
        rw [data_extension ((work_forward j.data j.offset ExtensionSubtag.mk (fun o => ({ j with offset := o } : ExtensionIter)) j).1.1.symm.trans e)]
        exact hj) calls _ h
  · exact countCalls_collect (next := Timed.languageExtensionNext) (fun j => j.data.length + 1 ≤ max)
      (fun j hj => runCounted_next (Names.LanguageExtensionIter_Iterator_next.callPath ..) (LanguageExtensionIter.next_eq _ _ hj))
      (fun j x j' hj e => by
        rw [data_languageExtension ((work_forward j.data j.offset ExtendedLangTag.mk
          (fun o => ({ j with offset := o } : LanguageExtensionIter)) j).1.1.symm.trans e)]
        exact hj) calls _ h
  · exact countCalls_collect (next := Timed.extensionsNext) (fun j => j.data.length + 1 ≤ max)
      (fun j hj => runCounted_next (Names.ExtensionsIter_Iterator_next.callPath ..) (ExtensionsIter.next_eq _ _ hj))
      (fun j x j' hj e => by rw [extensionsNext_data e]; exact hj) calls _ h

example : RunAccepts 100 "Extensions" (ascii "a-bbb-cc-b-dd") ∧
    countCalls 100 "ExtensionsIter" (List.replicate 3 "next") (val (Extensions.iter ⟨ascii "a-bbb-cc-b-dd"⟩)) = some 19 := by
  refine ⟨(runAccepts_iff C07_source.2.2 (by decide)).mpr ((isOk_Extensions _).mp (by decide +kernel)), ?_⟩
  rw [← show (collectTimed Timed.extensionsNext 3 (Extensions.iter ⟨ascii "a-bbb-cc-b-dd"⟩)).steps = 19 from by decide +kernel]
  exact countCalls_collect (next := Timed.extensionsNext) (fun j => j.data.length + 1 ≤ 100)
    (fun j hj => runCounted_next (Names.ExtensionsIter_Iterator_next.callPath ..) (ExtensionsIter.next_eq _ _ hj))
    (fun j x j' hj e => by rw [extensionsNext_data e]; exact hj) 3 _ (by decide)

/-- C68: all the calls of `next` and `next_back` together on the iterator over variants, in any order. -/
theorem C68_source_variants (max : Nat) (s : Text) (h : s.length + 1 ≤ max) :
    ∃ it, run max ["Variants"] "iter" [tag "Variants" s] = returns it ∧ EndsWithin max ["Variants"] "iter" [tag "Variants" s] 0 ∧
      ∀ history : List Side, CallsEndWithin max "VariantsIter" (history.map Side.fn) it (s.length + 1) := by
  have hp := C69_parts max s ⟨0⟩ h
  refine ⟨_, hp.2.2.2.2.1, counts_free (Names.Variants_iter.callPath ..) (Variants.iter_eq ..), fun history => ⟨_, ?_,
    (C68_variants history ⟨s⟩).1.2⟩⟩
  have inv : ∀ {j j' : VariantsIter} {x : Option Variant}, j.data = s ∧ BoundInv j → (j.next = .ok (x, j') ∨ j.nextBack = .ok (x, j')) →
      j'.data = s ∧ BoundInv j' := fun {j j' x} hj e =>
    ⟨(variants_inv ⟨hj.1, hj.2.1⟩ e).1, e.elim (fun e => ((work_variantsNext j hj.2).2 x j' e).1) fun e => ((work_variantsNextBack j hj.2).2 x j' e).1⟩
  exact countCalls_collectSides (next := Timed.variantsNext) (nextBack := Timed.variantsNextBack) (fun j => j.data = s ∧ BoundInv j)
    (fun j hj => runCounted_next (Names.VariantsIter_Iterator_next.callPath ..) (VariantsIter.next_eq _ _ _ (by rw [hj.1]; exact h)))
    (fun j x j' hj e => inv hj (.inl ((work_variantsNext j hj.2).1.1.symm.trans e)))
    (fun j hj => runCounted_next (Names.VariantsIter_DoubleEndedIterator_next_back.callPath ..) (VariantsIter.next_back_eq _ _ _ (by rw [hj.1]; exact h)))
    (fun j x j' hj e => inv hj (.inr ((work_variantsNextBack j hj.2).1.1.symm.trans e))) history _ ⟨rfl, boundInv_iter ⟨s⟩⟩

example : (ascii "rozaj-1994").length + 1 ≤ 100 ∧ (collectSidesTimed Timed.variantsNext Timed.variantsNextBack
    [.back, .front, .front, .back] (Variants.iter ⟨ascii "rozaj-1994"⟩)).steps = 11 := by decide +kernel

end Langtag.Props
