import Verif.Spec.Client
import Verif.Props.SourceMore
import Verif.Props.Validity
import Verif.Props.Slices
import Verif.Props.Total

/-! # An invariant of the values of programs that use the crate -/

set_option autoImplicit false

namespace Langtag.Client
open Langtag.Model hiding Singleton
open Langtag.Source Langtag.Spec Langtag.Props
open Langtag.Proof hiding run

/-! ## Iterators -/

section
variable {σ α : Type} {next nextBack : σ → Rust (Option α × σ)} {it : σ} {items : List α}

theorem enumerates_step (h : Enumerates next it items) : ∃ it', next it = .ok (items.head?, it') ∧ Enumerates next it' items.tail := by
  cases hn : next it with
  | error p =>
    have := h 1
    simp [collect, hn, bind, Except.bind] at this
  | ok r =>
    obtain ⟨x, it'⟩ := r
    have key : ∀ n, (do let xs ← collect next n it'; return x :: xs : Rust (List (Option α))) =
        .ok (items.head? :: (List.range n).map fun k => items.tail[k]?) := by
      intro n
      have := h (n + 1)
      rw [collect, hn, List.range_succ_eq_map] at this
      refine this.trans ?_
      simp only [List.map_cons, List.map_map, List.head?_eq_getElem?]
      congr 2
      refine List.map_congr_left fun k _ => ?_
      simp
    have h0 := key 0
    simp only [collect, bind, Except.bind, pure, Except.pure, Except.ok.injEq, List.cons.injEq] at h0
    refine ⟨it', by rw [h0.1], fun n => ?_⟩
    have hn := key n
    cases hc : collect next n it' with
    | error p => rw [hc] at hn; cases hn
    | ok xs =>
      rw [hc] at hn
      simp only [bind, Except.bind, pure, Except.pure, Except.ok.injEq, List.cons.injEq] at hn
      rw [hn.2]

theorem bothEnds_step (h : EnumeratesBothEnds next nextBack it items) :
    (∃ it', next it = .ok (items.head?, it') ∧ EnumeratesBothEnds next nextBack it' items.tail) ∧
    (∃ it', nextBack it = .ok (items.getLast?, it') ∧ EnumeratesBothEnds next nextBack it' items.dropLast) := by
  constructor
  · cases hn : next it with
    | error p =>
      have := h [.front]
      simp [collectSides, hn, bind, Except.bind] at this
    | ok r =>
      obtain ⟨x, it'⟩ := r
      have key : ∀ hist, (do let xs ← collectSides next nextBack hist it'; return x :: xs : Rust (List (Option α))) =
          .ok (items.head? :: takeSides hist items.tail) := by
        intro hist
        have := h (.front :: hist)
        simp only [collectSides, hn] at this
        exact this
      have h0 := key []
      simp only [collectSides, bind, Except.bind, pure, Except.pure, Except.ok.injEq, List.cons.injEq] at h0
      refine ⟨it', by rw [h0.1], fun hist => ?_⟩
      have hn := key hist
      cases hc : collectSides next nextBack hist it' with
      | error p => rw [hc] at hn; cases hn
      | ok xs =>
        rw [hc] at hn
        simp only [bind, Except.bind, pure, Except.pure, Except.ok.injEq, List.cons.injEq] at hn
        rw [hn.2]
  · cases hn : nextBack it with
    | error p =>
      have := h [.back]
      simp [collectSides, hn, bind, Except.bind] at this
    | ok r =>
      obtain ⟨x, it'⟩ := r
      have key : ∀ hist, (do let xs ← collectSides next nextBack hist it'; return x :: xs : Rust (List (Option α))) =
          .ok (items.getLast? :: takeSides hist items.dropLast) := by
        intro hist
        have := h (.back :: hist)
        simp only [collectSides, hn] at this
        exact this
      have h0 := key []
      simp only [collectSides, bind, Except.bind, pure, Except.pure, Except.ok.injEq, List.cons.injEq] at h0
      refine ⟨it', by rw [h0.1], fun hist => ?_⟩
      have hn := key hist
      cases hc : collectSides next nextBack hist it' with
      | error p => rw [hc] at hn; cases hn
      | ok xs =>
        rw [hc] at hn
        simp only [bind, Except.bind, pure, Except.pure, Except.ok.injEq, List.cons.injEq] at hn
        rw [hn.2]
end

/-! ## Texts -/

/-- The text is one of the production of the type, or an exception. -/
def TextOf (T : String) (s : Text) : Prop := InProduction T s ∨ Exceptional T s

theorem textOf {T : String} {s : Text} {g : Abnf} (hT : production T = some g) (h : g.Matches s) : TextOf T s := .inl ⟨g, hT, h⟩

theorem matches_of_textOf {T : String} {s : Text} {g : Abnf} (hT : production T = some g) (h1 : T ≠ "PrimaryLanguage") (h2 : T ≠ "PrivateUse")
    (h : TextOf T s) : g.Matches s := by
  rcases h with ⟨g', e, h⟩ | ⟨e, _⟩ | ⟨e, _⟩
  · rw [hT] at e; cases e; exact h
  · exact absurd e h1
  · exact absurd e h2

/-- The two forms of a `PrivateUse` a program can have. -/
theorem privateUse_of_textOf {s : Text} (h : TextOf "PrivateUse" s) :
    ∃ (es : List Text) (x : Option Text), es ++ x.toList ≠ [] ∧ (∀ e ∈ es, Grammar.extension.Matches e) ∧
      (∀ w, x = some w → Grammar.privateuse.Matches w) ∧ s = joinDash (es ++ x.toList) := by
  rcases h with ⟨g, e, h⟩ | ⟨e, _⟩ | ⟨_, es, x, h1, h2, h3, h4⟩
  · simp only [production, Option.some.injEq] at e
    subst e
    refine ⟨[], some s, by simp, by simp, fun w hw => ?_, rfl⟩
    cases hw; exact h
  · simp at e
  · exact ⟨es, x, by simp [h1], h2, h3, h4⟩

theorem isUtf8_of_ascii {s : Text} (h : Ascii s) : IsUtf8 s := by
  refine ⟨s.map fun b => Char.ofNat b.toNat, ?_⟩
  induction s with
  | nil => rfl
  | cons b s ih =>
    have hb : b.toNat < 128 := UInt8.lt_iff_toNat_lt.mp (h b (by simp))
    rw [List.map_cons, List.flatMap_cons, ← ih fun c hc => h c (by simp [hc])]
    have key : ∀ n : Fin 128, encodeChar (Char.ofNat n.1) = [UInt8.ofNat n.1] := by decide +kernel
    rw [key ⟨b.toNat, hb⟩]
    simp

theorem length_joinDash_append (a b : List Text) : (joinDash b).length ≤ (joinDash (a ++ b)).length ∧ (joinDash a).length ≤ (joinDash (a ++ b)).length := by
  by_cases hb : b = []
  · subst hb; simp [joinDash]
  induction a with
  | nil => simp [joinDash]
  | cons u a ih =>
    rw [List.cons_append, joinDash_cons_of_ne_nil _ (by simp [hb])]
    by_cases ha : a = []
    · subst ha; simp [joinDash]; omega
    · rw [joinDash_cons_of_ne_nil _ ha]; simp; omega

theorem RunOf.length_le {u w : Text} (h : RunOf u w) : u.length ≤ w.length := by
  by_cases hu : u = []
  · simp [hu]
  obtain ⟨pre, post, h⟩ := h
  rw [listItems, if_neg hu] at h
  have h1 := (length_joinDash_append (pre ++ subtags u) post).2
  have h2 := (length_joinDash_append pre (subtags u)).1
  rw [← h, joinDash_subtags] at h1
  rw [joinDash_subtags] at h2
  omega

/-- A normal tag with these extensions and this private use part. -/
theorem decomposes_en_rest {es : List Text} {x : Option Text} (hne : es ++ x.toList ≠ []) (h1 : ∀ e ∈ es, Grammar.extension.Matches e)
    (h2 : ∀ w, x = some w → Grammar.privateuse.Matches w) :
    Decomposes (ascii "en" ++ dash :: joinDash (es ++ x.toList)) ⟨ascii "en", none, none, [], es, x⟩ := by
  refine ⟨⟨?_, by simp, by simp, by simp, h1, h2⟩, ?_⟩
  · show Grammar.language.Matches (ascii "en")
    exact (accepts_iff is_Language _).mp (accepts_of_isOk (by decide +kernel))
  · simp only [Parts.render, Parts.afterLanguage, Parts.afterScript, Parts.afterRegion, Parts.afterVariants, Option.toList_none, List.nil_append]
    rw [joinDash_cons_of_ne_nil _ hne]

/-- The texts of the types are ASCII. -/
theorem ascii_of_textOf {T : String} {s : Text} (hT : T ∈ stringTypes) (h : TextOf T s) : Ascii s := by
  rcases h with ⟨g, e, h⟩ | ⟨_, _, _, h⟩ | ⟨_, es, x, hne, h1, h2, rfl⟩
  · refine ascii_of_matches ?_ h
    simp only [stringTypes, List.mem_cons, List.not_mem_nil, or_false] at hT
    rcases hT with rfl | rfl | rfl | rfl | rfl | rfl | rfl | rfl | rfl | rfl | rfl | rfl | rfl | rfl | rfl <;>
      (simp only [production, Option.some.injEq] at e; subst e; decide +kernel)
  · intro b hb
    exact isAlphanum_lt (.inl (h b hb))
  · have := (matches_langtag _).mpr ⟨_, decomposes_en_rest (by simp [hne]) h1 h2⟩
    intro b hb
    exact ascii_of_matches Proof.okRe_langtag this b (by simp [hb])

/-! ## The invariant -/

/-- The iterator holds a text of this length at most, will not panic, and gives items with this property. -/
def IterOk {σ α : Type} (next : σ → Rust (Option α × σ)) (data : σ → Text) (str : α → Text) (max : Nat) (P : Text → Prop) (it : σ) : Prop :=
  (data it).length + 1 ≤ max ∧ ∃ items, Enumerates next it items ∧ ∀ x ∈ items, P (str x) ∧ (str x).length + 1 ≤ max

/-- The same for the iterator with two ends. -/
def VariantsOk (max : Nat) (it : VariantsIter) : Prop :=
  it.data.length + 1 ≤ max ∧ it.end_ ≤ it.data.length ∧ ∃ items, EnumeratesBothEnds VariantsIter.next VariantsIter.nextBack it items ∧
    ∀ x ∈ items, Grammar.variant.Matches x.str ∧ x.str.length + 1 ≤ max

/-- What a typed tag holds. -/
def TypedOk (max : Nat) : TypedLangTag → Prop
  | .Normal t => Grammar.langtag.Matches t.str ∧ t.str.length + 1 ≤ max
  | .PrivateUse p => TextOf "PrivateUse" p.str ∧ p.str.length + 1 ≤ max
  | .Grandfathered _ => True

/-- What holds of every value a program can get hold of. -/
inductive Sound (max : Nat) : Val → Prop
  | bool (b : Bool) : Sound max (.bool b)
  | u8 (b : UInt8) : Sound max (.u8 b)
  | char (c : Char) : Sound max (.char c)
  | str (s : Text) (h : IsUtf8 s) (hs : s.length + 1 ≤ max) : Sound max (.str s)
  | bytes (s : Text) (hs : s.length + 1 ≤ max) : Sound max (.bytes s)
  | hasher (w : List UInt8) : Sound max (.hasher w)
  | formatter (f : Formatter) (out : List Char) : Sound max (.formatter f out)
  | unit : Sound max (.tuple [])
  | ordering (o : Ordering) : Sound max (.ordering o)
  | text (T : String) (hT : T ∈ stringTypes) (s : Text) (h : TextOf T s) (hs : s.length + 1 ≤ max) : Sound max (tag T s)
  | kind (k : Kind) : Sound max (val k)
  | grandfathered (g : GrandfatheredLangTag) : Sound max (val g)
  | typed (t : TypedLangTag) (h : TypedOk max t) : Sound max (val t)
  | singleton (g : Model.Singleton) (h : Grammar.singleton.Matches [g.byte]) : Sound max (val g)
  | privateUseIter (it : PrivateUseIter)
      (h : IterOk PrivateUseIter.next (·.data) (·.str) max Grammar.privateuseSubtag.Matches it) : Sound max (val it)
  | extensionIter (it : ExtensionIter)
      (h : IterOk ExtensionIter.next (·.data) (·.str) max Grammar.extensionSubtag.Matches it) : Sound max (val it)
  | languageExtensionIter (it : LanguageExtensionIter)
      (h : IterOk LanguageExtensionIter.next (·.data) (·.str) max Grammar.extlangTag.Matches it) : Sound max (val it)
  | extensionsIter (it : ExtensionsIter)
      (h : IterOk ExtensionsIter.next (·.data) (·.str) max Grammar.extension.Matches it) : Sound max (val it)
  | variantsIter (it : VariantsIter) (h : VariantsOk max it) : Sound max (val it)
  | none : Sound max .none
  | some (v : Val) (h : Sound max v) : Sound max (.some v)
  | ok (v : Val) (h : Sound max v) : Sound max (.ok v)
  | err (v : Val) (h : Sound max v) : Sound max (.err v)
  | invalidSingleton (v : Val) (h : Sound max v) : Sound max (.ctor ["InvalidSingleton"] "InvalidSingleton" [v])
  | invalidGrandfathered (v : Val) (h : Sound max v) : Sound max (.ctor ["InvalidGrandfatheredTag"] "InvalidGrandfatheredTag" [v])

section
variable {max : Nat} {v : Val}

theorem typeName_ordering (o : Ordering) : typeName (.ordering o) = some "Ordering" := by cases o <;> rfl
theorem typeName_kind (k : Kind) : typeName (val k) = some "Kind" := by cases k <;> rfl
theorem typeName_typed (t : TypedLangTag) : typeName (val t) = some "TypedLangTag" := by rcases t with t | t | t <;> rfl
theorem typeName_ctor (T x : String) (vs : List Val) : typeName (.ctor [T] x vs) = some T := rfl
theorem typeName_struct (T : String) (vs : List (String × Val)) : typeName (.struct [T] vs) = some T := rfl

theorem not_mem {T U : String} {Ts : List String} (hn : some U = some T) (hU : U ∉ Ts) (hT : T ∈ Ts) : False := by
  cases hn; exact hU hT

/-- The cases of a sound value whose type is not among those of which `hT` says that it is. -/
macro "other_types " hn:ident hT:ident : tactic => `(tactic| first
  | (cases $hn:ident; done)
  | exact not_mem ((typeName_ordering _).symm.trans $hn:ident) (by decide) $hT:ident
  | exact not_mem ((typeName_kind _).symm.trans $hn:ident) (by decide) $hT:ident
  | exact not_mem ((typeName_typed _).symm.trans $hn:ident) (by decide) $hT:ident
  | exact not_mem ((typeName_ctor ..).symm.trans $hn:ident) (by decide) $hT:ident
  | exact not_mem ((typeName_struct ..).symm.trans $hn:ident) (by decide) $hT:ident)

theorem sound_text {T : String} (hT : T ∈ stringTypes) (h : Sound max v) (hn : typeName v = some T) :
    ∃ s, v = tag T s ∧ TextOf T s ∧ s.length + 1 ≤ max := by
  cases h with
  | text T' hT' s h hs =>
    injection hn with hn
    subst hn
    exact ⟨s, rfl, h, hs⟩
  | _ => exfalso; other_types hn hT

theorem sound_str {s : Text} (h : Sound max (.str s)) : IsUtf8 s ∧ s.length + 1 ≤ max := by
  generalize e : Val.str s = v at h
  cases h with
  | str s h hs => cases e; exact ⟨h, hs⟩
  | ordering o => cases o <;> cases e
  | kind k => cases k <;> cases e
  | typed t => rcases t with t | t | t <;> cases e
  | _ => cases e

theorem sound_bytes {s : Text} (h : Sound max (.bytes s)) : s.length + 1 ≤ max := by
  generalize e : Val.bytes s = v at h
  cases h with
  | bytes s hs => cases e; exact hs
  | ordering o => cases o <;> cases e
  | kind k => cases k <;> cases e
  | typed t => rcases t with t | t | t <;> cases e
  | _ => cases e

theorem not_stringType {T U : String} (hU : U ∉ stringTypes) (hT : T ∈ stringTypes) {s : Text} (hn : typeName (tag T s) = some U) : False := by
  cases hn; exact hU hT

theorem sound_kind (h : Sound max v) (hn : typeName v = some "Kind") : ∃ k : Kind, v = val k := by
  have hT : "Kind" ∈ ["Kind"] := by decide
  cases h with
  | kind k => exact ⟨k, rfl⟩
  | text _ hT => exact (not_stringType (by decide) hT hn).elim
  | _ => exfalso; other_types hn hT

theorem sound_grandfathered (h : Sound max v) (hn : typeName v = some "GrandfatheredLangTag") : ∃ g : GrandfatheredLangTag, v = val g := by
  have hT : "GrandfatheredLangTag" ∈ ["GrandfatheredLangTag"] := by decide
  cases h with
  | grandfathered g => exact ⟨g, rfl⟩
  | text _ hT => exact (not_stringType (by decide) hT hn).elim
  | _ => exfalso; other_types hn hT

theorem sound_typed (h : Sound max v) (hn : typeName v = some "TypedLangTag") : ∃ t : TypedLangTag, v = val t ∧ TypedOk max t := by
  have hT : "TypedLangTag" ∈ ["TypedLangTag"] := by decide
  cases h with
  | typed t h => exact ⟨t, rfl, h⟩
  | text _ hT => exact (not_stringType (by decide) hT hn).elim
  | _ => exfalso; other_types hn hT

theorem sound_singleton (h : Sound max v) (hn : typeName v = some "Singleton") :
    ∃ g : Model.Singleton, v = val g ∧ Grammar.singleton.Matches [g.byte] := by
  have hT : "Singleton" ∈ ["Singleton"] := by decide
  cases h with
  | singleton g h => exact ⟨g, rfl, h⟩
  | text _ hT => exact (not_stringType (by decide) hT hn).elim
  | _ => exfalso; other_types hn hT

theorem sound_privateUseIter (h : Sound max v) (hn : typeName v = some "PrivateUseIter") :
    ∃ it : PrivateUseIter, v = val it ∧ IterOk PrivateUseIter.next (·.data) (·.str) max Grammar.privateuseSubtag.Matches it := by
  have hT : "PrivateUseIter" ∈ ["PrivateUseIter"] := by decide
  cases h with
  | privateUseIter g h => exact ⟨g, rfl, h⟩
  | text _ hT => exact (not_stringType (by decide) hT hn).elim
  | _ => exfalso; other_types hn hT

theorem sound_extensionIter (h : Sound max v) (hn : typeName v = some "ExtensionIter") :
    ∃ it : ExtensionIter, v = val it ∧ IterOk ExtensionIter.next (·.data) (·.str) max Grammar.extensionSubtag.Matches it := by
  have hT : "ExtensionIter" ∈ ["ExtensionIter"] := by decide
  cases h with
  | extensionIter g h => exact ⟨g, rfl, h⟩
  | text _ hT => exact (not_stringType (by decide) hT hn).elim
  | _ => exfalso; other_types hn hT

theorem sound_languageExtensionIter (h : Sound max v) (hn : typeName v = some "LanguageExtensionIter") :
    ∃ it : LanguageExtensionIter, v = val it ∧ IterOk LanguageExtensionIter.next (·.data) (·.str) max Grammar.extlangTag.Matches it := by
  have hT : "LanguageExtensionIter" ∈ ["LanguageExtensionIter"] := by decide
  cases h with
  | languageExtensionIter g h => exact ⟨g, rfl, h⟩
  | text _ hT => exact (not_stringType (by decide) hT hn).elim
  | _ => exfalso; other_types hn hT

theorem sound_extensionsIter (h : Sound max v) (hn : typeName v = some "ExtensionsIter") :
    ∃ it : ExtensionsIter, v = val it ∧ IterOk ExtensionsIter.next (·.data) (·.str) max Grammar.extension.Matches it := by
  have hT : "ExtensionsIter" ∈ ["ExtensionsIter"] := by decide
  cases h with
  | extensionsIter g h => exact ⟨g, rfl, h⟩
  | text _ hT => exact (not_stringType (by decide) hT hn).elim
  | _ => exfalso; other_types hn hT

theorem sound_variantsIter (h : Sound max v) (hn : typeName v = some "VariantsIter") : ∃ it : VariantsIter, v = val it ∧ VariantsOk max it := by
  have hT : "VariantsIter" ∈ ["VariantsIter"] := by decide
  cases h with
  | variantsIter g h => exact ⟨g, rfl, h⟩
  | text _ hT => exact (not_stringType (by decide) hT hn).elim
  | _ => exfalso; other_types hn hT

/-- The fields of the types with public fields. -/
theorem sound_field {T x : String} {vs : List Val} {w : Val} (h : Sound max (.ctor [T] x vs)) (hT : T ∈ openTypes) (hw : w ∈ vs) : Sound max w := by
  generalize hv : Val.ctor [T] x vs = v at h
  have hn : typeName v = some T := by rw [← hv]; rfl
  cases h with
  | none => cases hv; cases hw
  | some v h => cases hv; rw [List.mem_singleton] at hw; rw [hw]; exact h
  | ok v h => cases hv; rw [List.mem_singleton] at hw; rw [hw]; exact h
  | err v h => cases hv; rw [List.mem_singleton] at hw; rw [hw]; exact h
  | invalidSingleton v h => cases hv; rw [List.mem_singleton] at hw; rw [hw]; exact h
  | invalidGrandfathered v h => cases hv; rw [List.mem_singleton] at hw; rw [hw]; exact h
  | typed t h =>
    rcases t with t | t | t <;> (cases hv; rw [List.mem_singleton] at hw; rw [hw])
    · exact .text "NormalLangTag" (by decide) t.str (textOf rfl h.1) h.2
    · exact .text "PrivateUse" (by decide) t.str h.1 h.2
    · exact .grandfathered t
  | text U hU s =>
    cases hn
    exact absurd hT ((by decide : ∀ T ∈ stringTypes, T ∉ openTypes) _ hU)
  | _ => exfalso; other_types hn hT
end

end Langtag.Client
