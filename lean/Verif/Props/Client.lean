import Verif.Source.ClientParts

/-!
# C70: whatever calls a program makes

Statements about the text of the crate and every program that uses it: `Obtainable max v` says that some sequence of calls of public
functions (`api`), each on values got before, gets hold of `v`.
-/

set_option autoImplicit false

namespace Langtag.Props
open Langtag.Source Langtag.Spec

/-- C70: every call of a public function, on values a program can have, returns or panics. -/
theorem C70_ends (max : Nat) (hmax : 12 ≤ max) (F : PubFn) (hF : F ∈ api) (args : List Val) (hf : FitAll F.params args)
    (ha : ∀ a ∈ args, Obtainable max a) :
    (∃ v after, run max F.owner F.name args = some (.returns v after)) ∨ (∃ p, run max F.owner F.name args = some (.panics p)) := by
  rcases Client.api_calls hmax F hF args hf fun a h => Client.sound_of_obtainable hmax (ha a h) with ⟨v, after, h, _⟩ | ⟨h, _⟩
  · exact .inl ⟨v, after, h⟩
  · exact .inr ⟨_, h⟩

/-- C70: the calls that panic are the accessors of C22 and `langtag!` of a text that is not a tag; no history of calls leads to another. -/
theorem C70_panics (max : Nat) (hmax : 12 ≤ max) (F : PubFn) (hF : F ∈ api) (args : List Val) (hf : FitAll F.params args)
    (ha : ∀ a ∈ args, Obtainable max a) : (∃ p, run max F.owner F.name args = some (.panics p)) ↔ Panics F args := by
  rcases Client.api_calls hmax F hF args hf fun a h => Client.sound_of_obtainable hmax (ha a h) with ⟨v, after, h, _, hp⟩ | ⟨h, hp⟩
  · refine ⟨fun ⟨p, h'⟩ => ?_, fun h => absurd h hp⟩
    rw [h] at h'
    cases h'
  · exact ⟨fun _ => hp, fun _ => ⟨_, h⟩⟩

/-- C70: and the accessors panic because they slice a text out of its range, never because a sum is too large or an index out of bounds. -/
theorem C70_panic (max : Nat) (hmax : 12 ≤ max) (F : PubFn) (hF : F ∈ api) (args : List Val) (hf : FitAll F.params args)
    (ha : ∀ a ∈ args, Obtainable max a) (p : Model.Panic) (h : run max F.owner F.name args = some (.panics p)) : p = panicOf F := by
  rcases Client.api_calls hmax F hF args hf fun a h => Client.sound_of_obtainable hmax (ha a h) with ⟨v, after, h', _⟩ | ⟨h', _⟩ <;>
    rw [h'] at h <;> cases h
  rfl

/-- C70: a value of a string type has a text of the production of its type, or is one of the two exceptions of C24, whatever calls it comes
from. -/
theorem C70_texts (max : Nat) (hmax : 12 ≤ max) (T : String) (hT : T ∈ stringTypes) (s : Text) (h : Obtainable max (tag T s)) :
    InProduction T s ∨ Exceptional T s := by
  obtain ⟨s', e, ht, _⟩ := Client.sound_text hT (Client.sound_of_obtainable hmax h) rfl
  injection e with _ _ e
  injection e with e
  injection e with e
  subst e
  exact ht

/-- C70: and a `Singleton` a program can have holds a letter or digit other than `x` and `X`. -/
theorem C70_singletons (max : Nat) (hmax : 12 ≤ max) (v : Val) (h : Obtainable max v) (hT : typeName v = some "Singleton") :
    ∃ b, v = .ctor ["Singleton"] "Singleton" [.u8 b] ∧ Grammar.singleton.Matches [b] := by
  obtain ⟨g, rfl, hg⟩ := Client.sound_singleton (Client.sound_of_obtainable hmax h) hT
  exact ⟨g.byte, rfl, hg⟩

/-! ## C73 -/

/-- C73: every `&str` a program can get hold of is UTF-8: those it made itself, and those it got from the crate, whose unsafe code makes them
without a check. -/
theorem C73_str (max : Nat) (hmax : 12 ≤ max) (s : Text) (h : Obtainable max (.str s)) : IsUtf8 s :=
  (Client.sound_str (Client.sound_of_obtainable hmax h)).1

/-- C73: the text of every value of a string type is ASCII. -/
theorem C73_text (max : Nat) (hmax : 12 ≤ max) (T : String) (hT : T ∈ stringTypes) (s : Text) (h : Obtainable max (tag T s)) :
    (∀ b ∈ s, b < 128) ∧ IsUtf8 s := by
  obtain ⟨s', e, ht, _⟩ := Client.sound_text hT (Client.sound_of_obtainable hmax h) rfl
  injection e with _ _ e
  injection e with e
  injection e with e
  subst e
  have ha := Client.ascii_of_textOf hT ht
  exact ⟨ha, Client.isUtf8_of_ascii ha⟩

/-! ## What can be reached -/

section
open Langtag.Model hiding Singleton
open Langtag.Proof hiding run
open Langtag.Client

variable {max : Nat}

theorem obtainable_ok {v : Val} (h : Obtainable max (.ok v)) : Obtainable max v :=
  .field "Result" "Ok" [v] v (by decide) (by simp) h

theorem obtainable_some {v : Val} (h : Obtainable max (.some v)) : Obtainable max v :=
  .field "Option" "Some" [v] v (by decide) (by simp) h

/-- A method call. -/
theorem obtainable_method {T f : String} {v w : Val} (hf : ⟨[T], f, [.of T]⟩ ∈ api) (hT : typeName v = some T) (hv : Obtainable max v)
    (h : run max [T] f [v] = some (.returns w [])) : Obtainable max w :=
  .call _ hf [v] ⟨hT, trivial⟩ (by simpa using hv) w [] h w (by simp)

theorem obtainable_new {n : String} {M : Type} [StrNewtype M] [Compare M] [Rep M] (src : IsSource n M) {g : Abnf} (hg : ConstructorIs M g)
    (hn : n ∈ stringTypes) (hp : production n = some g) {s : Text} (h : g.Matches s) (hs : s.length + 1 ≤ max) : Obtainable max (tag n s) := by
  obtain ⟨t, ht, e⟩ := (hg s).1 h
  have hr := src.new max s hs
  rw [ht] at hr
  have hv : val t = tag n s := by rw [src.val_eq, e]
  have ho : Obtainable max (.ok (val t)) :=
    .call ⟨[n], "new", [.str]⟩ ((by decide : ∀ n ∈ stringTypes, (⟨[n], "new", [.str]⟩ : PubFn) ∈ api) n hn) [.str s] ⟨⟨s, rfl⟩, trivial⟩
      (by simpa using Obtainable.str s (isUtf8_of_ascii (ascii_of_textOf hn (textOf hp h))) hs) _ [] hr _ (List.mem_singleton.mpr rfl)
  rw [← hv]
  exact obtainable_ok ho

theorem obtainable_of_production {T : String} (hT : T ∈ stringTypes) {s : Text} (h : InProduction T s) (hs : s.length + 1 ≤ max) :
    Obtainable max (tag T s) := by
  obtain ⟨g, hp, h⟩ := h
  have hT' := hT
  simp only [stringTypes, List.mem_cons, List.not_mem_nil, or_false] at hT
  rcases hT with rfl | rfl | rfl | rfl | rfl | rfl | rfl | rfl | rfl | rfl | rfl | rfl | rfl | rfl | rfl <;>
    (have hp' := hp; simp only [production, Option.some.injEq] at hp'; subst hp')
  · exact obtainable_new LangTag.source is_LangTag hT' hp h hs
  · exact obtainable_new NormalLangTag.source is_NormalLangTag hT' hp h hs
  · exact obtainable_new Language.source is_Language hT' hp h hs
  · exact obtainable_new PrimaryLanguage.source is_PrimaryLanguage hT' hp h hs
  · exact obtainable_new LanguageExtension.source is_LanguageExtension hT' hp h hs
  · exact obtainable_new ExtendedLangTag.source is_ExtendedLangTag hT' hp h hs
  · exact obtainable_new Script.source is_Script hT' hp h hs
  · exact obtainable_new Region.source is_Region hT' hp h hs
  · exact obtainable_new Variant.source is_Variant hT' hp h hs
  · exact obtainable_new Variants.source is_Variants hT' hp h hs
  · exact obtainable_new Extension.source is_Extension hT' hp h hs
  · exact obtainable_new Extensions.source is_Extensions hT' hp h hs
  · exact obtainable_new ExtensionSubtag.source is_ExtensionSubtag hT' hp h hs
  · exact obtainable_new PrivateUse.source is_PrivateUse hT' hp h hs
  · exact obtainable_new PrivateUseSubtag.source is_PrivateUseSubtag hT' hp h hs

/-- C70: the bound of `C70_texts` is exact: every text of the production of a type is the text of a value a program can have, and so is every
exception (that leaves room for `en-` before it). -/
theorem C70_reached (max : Nat) (T : String) (hT : T ∈ stringTypes) (s : Text) :
    (InProduction T s → s.length + 1 ≤ max → Obtainable max (tag T s)) ∧
    (Exceptional T s → s.length + 4 ≤ max → Obtainable max (tag T s)) := by
  refine ⟨obtainable_of_production hT, ?_⟩
  rintro (⟨rfl, h1, h2, h3⟩ | ⟨rfl, es, x, hne, h1, h2, rfl⟩) hs
  · have hm : Grammar.language.Matches s := (matches_language s).mpr (.inr ⟨h1, h2, h3⟩)
    have ho : Obtainable max (tag "Language" s) := obtainable_of_production (by decide) ⟨_, rfl, hm⟩ (by omega)
    have hr := (C69_parts max s ⟨0⟩ (by omega)).1
    have hd : dash ∉ s := fun h => absurd (h3 _ h) (by unfold IsAlpha; decide)
    have e : (Language.primary ⟨s⟩).str = s := (C25_split ⟨s⟩ s [] (subtags_of_dashFree hd)).1
    have hv : val (Language.primary ⟨s⟩) = tag "PrimaryLanguage" s := by
      show tag "PrimaryLanguage" (Language.primary ⟨s⟩).str = _
      rw [e]
    rw [← hv]
    exact obtainable_method (by decide) rfl ho hr
  · have hd := decomposes_en_rest (x := x) (by simp [hne]) h1 h2
    have hl : (ascii "en" ++ dash :: joinDash (es ++ x.toList)).length + 1 ≤ max := by
      have : (ascii "en").length = 2 := by decide +kernel
      simp only [List.length_append, List.length_cons, this]
      omega
    have ho : Obtainable max (tag "NormalLangTag" (ascii "en" ++ dash :: joinDash (es ++ x.toList))) :=
      obtainable_of_production (by decide) ⟨_, rfl, (matches_langtag _).mpr ⟨_, hd⟩⟩ hl
    have hr := (C69_normalLangTag max ⟨_⟩ hl).2.2.2.2.2.1
    rw [(C21_privateUse_partial ⟨_⟩ _ hd).2.1 hne] at hr
    exact obtainable_some (obtainable_method (by decide) rfl ho hr)

-- C70 is about such programs: `NormalLangTag::new("en-a-bbb-x-foo").unwrap().private_use().unwrap()`, an exception of C24, and its subtags
theorem obtainable_a_x : Obtainable 100 (tag "PrivateUse" (ascii "a-bbb-x-foo")) :=
  (C70_reached 100 "PrivateUse" (by decide) (ascii "a-bbb-x-foo")).2
    (.inr ⟨rfl, [ascii "a-bbb"], some (ascii "x-foo"), by simp,
      by simpa using (accepts_iff is_Extension _).mp (accepts_of_isOk (by decide +kernel)),
      by simpa using (accepts_iff is_PrivateUse _).mp (accepts_of_isOk (by decide +kernel)), by decide +kernel⟩)
    (by decide +kernel)

-- C73 of that value, and of its text, which it hands out as `&str`
example : IsUtf8 (ascii "a-bbb-x-foo") ∧ ∀ b ∈ ascii "a-bbb-x-foo", b < 128 :=
  ⟨C73_str 100 (by decide) _ (.text "PrivateUse" _ (by decide) obtainable_a_x), (C73_text 100 (by decide) "PrivateUse" (by decide) _ obtainable_a_x).1⟩

-- its iterator can be asked for
example : (∃ v after, run 100 ["PrivateUse"] "iter" [tag "PrivateUse" (ascii "a-bbb-x-foo")] = some (.returns v after)) ∨
    (∃ p, run 100 ["PrivateUse"] "iter" [tag "PrivateUse" (ascii "a-bbb-x-foo")] = some (.panics p)) :=
  C70_ends 100 (by decide) ⟨["PrivateUse"], "iter", [.of "PrivateUse"]⟩ (by decide) [_] ⟨rfl, trivial⟩ (by simpa using obtainable_a_x)

theorem obtainable_en : Obtainable 100 (tag "NormalLangTag" (ascii "en")) :=
  (C70_reached 100 "NormalLangTag" (by decide) (ascii "en")).1 ⟨_, rfl, (matches_langtag _).mpr ⟨_, decomposes_en⟩⟩ (by decide +kernel)

-- `NormalLangTag::new("en").unwrap().script()` is a call that panics
example : ∃ p, run 100 ["NormalLangTag"] "script" [tag "NormalLangTag" (ascii "en")] = some (.panics p) :=
  (C70_panics 100 (by decide) ⟨["NormalLangTag"], "script", [.of "NormalLangTag"]⟩ (by decide) [tag "NormalLangTag" (ascii "en")] ⟨rfl, trivial⟩
    (by simpa using obtainable_en)).mpr
    (.inl ⟨"NormalLangTag", by decide, rfl, ascii "en", _, rfl, decomposes_en, by simp [searched, Parts.afterLanguage, Parts.afterScript,
      Parts.afterRegion, Parts.afterVariants]⟩)

-- and every such panic is one of slicing
example (p : Model.Panic) (h : run 100 ["NormalLangTag"] "script" [tag "NormalLangTag" (ascii "en")] = some (.panics p)) : p = .slice :=
  C70_panic 100 (by decide) ⟨["NormalLangTag"], "script", [.of "NormalLangTag"]⟩ (by decide) [tag "NormalLangTag" (ascii "en")] ⟨rfl, trivial⟩
    (by simpa using obtainable_en) p h

-- a `Singleton` got from an extension
example : ∃ b, singletonVal 97 = .ctor ["Singleton"] "Singleton" [.u8 b] ∧ Grammar.singleton.Matches [b] :=
  C70_singletons 100 (by decide) (singletonVal 97)
    (obtainable_method (T := "Extension") (f := "singleton") (v := tag "Extension" (ascii "a-bb")) (by decide) rfl
      ((C70_reached 100 "Extension" (by decide) (ascii "a-bb")).1 ⟨_, rfl, extension_a_bb _ (by simp)⟩ (by decide +kernel))
      C48_source_violated.2.1) rfl

end

/-! ## The table of public functions -/

/-- The functions that are not public: those of `utils.rs` and of `normal/mod.rs` outside of types, the constructors of iterators, and the ranges of
the parts of a normal tag.  `grammar.rs` is a private module. -/
def privateFns : List (List String × String) :=
  [([], "into_smallcase"), ([], "case_insensitive_eq"), ([], "case_insensitive_hash"), ([], "case_insensitive_cmp"), ([], "find_list_end"),
   ([], "find_segment_end"), ([], "find_segment_start"), (["VariantsIter"], "new"), (["ExtensionIter"], "new"), (["ExtensionsIter"], "new"),
   (["PrivateUseIter"], "new"), (["LanguageExtensionIter"], "new"), (["NormalLangTag"], "language_end"), (["NormalLangTag"], "script_range"),
   (["NormalLangTag"], "region_range"), (["NormalLangTag"], "variants_range"), (["NormalLangTag"], "extensions_range"),
   (["NormalLangTag"], "private_use_offset")]

/-- C70: the table has every function of the text of the crate that is not private. -/
theorem C70_table (max : Nat) (P : Program) (h : readCrate max = some P) :
    ∀ F ∈ P.fns, F.owner.head? = some "grammar" ∨ (F.owner, F.fn.name) ∈ privateFns ∨ ∃ G ∈ api, G.owner = F.owner ∧ G.name = F.fn.name := by
  rw [readCrate_eq] at h
  cases h
  show ∀ F ∈ (crate 0).fns, _
  decide +kernel

end Langtag.Props
