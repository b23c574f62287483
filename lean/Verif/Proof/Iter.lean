import Verif.Model.Variant
import Verif.Model.PrivateUse
import Verif.Model.Extension
import Verif.Model.Language
import Verif.Spec.Api
import Verif.Proof.Accessors

/-! # Iterators -/

set_option autoImplicit false

namespace Langtag.Proof
open Langtag.Spec Langtag.Model

/-! ## Invariants -/

theorem enumerates_of_inv {σ α : Type} {next : σ → Rust (Option α × σ)} {Inv : σ → List α → Prop}
    (hnil : ∀ it, Inv it [] → ∃ it', next it = .ok (none, it') ∧ Inv it' [])
    (hcons : ∀ it x xs, Inv it (x :: xs) → ∃ it', next it = .ok (some x, it') ∧ Inv it' xs)
    {it : σ} {items : List α} (h : Inv it items) : Enumerates next it items := by
  intro n
  induction n generalizing it items with
  | zero => rfl
  | succ n ih =>
    rw [List.range_succ_eq_map]
    cases items with
    | nil =>
      obtain ⟨it', h1, h2⟩ := hnil it h
      simp only [collect, h1, bind, Except.bind, ih h2]
      simp [pure, Except.pure]
    | cons x xs =>
      obtain ⟨it', h1, h2⟩ := hcons it x xs h
      simp only [collect, h1, bind, Except.bind, ih h2]
      simp [pure, Except.pure, Function.comp_def]

theorem enumeratesBothEnds_of_inv {σ α : Type} {next nextBack : σ → Rust (Option α × σ)} {Inv : σ → List α → Prop}
    (hf : ∀ it xs, Inv it xs → ∃ it', next it = .ok (xs.head?, it') ∧ Inv it' xs.tail)
    (hb : ∀ it xs, Inv it xs → ∃ it', nextBack it = .ok (xs.getLast?, it') ∧ Inv it' xs.dropLast)
    {it : σ} {items : List α} (h : Inv it items) : EnumeratesBothEnds next nextBack it items := by
  intro history
  induction history generalizing it items with
  | nil => rfl
  | cons side history ih =>
    cases side with
    | front =>
      obtain ⟨it', h1, h2⟩ := hf it items h
      simp only [collectSides, h1, bind, Except.bind, ih h2]
      rfl
    | back =>
      obtain ⟨it', h1, h2⟩ := hb it items h
      simp only [collectSides, h1, bind, Except.bind, ih h2]
      rfl

/-! ## Segment iterators -/

/-- The items still to come are the segments of `data` from `offset` on. -/
def SegInv (data : Text) (offset : Nat) (items : List Text) : Prop :=
  Ascii data ∧
  ((items = [] ∧ data.length ≤ offset) ∨
    (items ≠ [] ∧ (∀ u ∈ items, dash ∉ u ∧ u ≠ []) ∧ ∃ pre, data = pre ++ joinDash items ∧ offset = pre.length))

theorem segInv_nil {data : Text} {offset : Nat} (h : SegInv data offset []) : ¬ offset < data.length := by
  rcases h.2 with ⟨_, h⟩ | ⟨h, _⟩
  · omega
  · exact absurd rfl h

theorem segInv_cons {data : Text} {offset : Nat} {x : Text} {xs : List Text} (h : SegInv data offset (x :: xs)) :
    offset < data.length ∧ findSegmentEnd data offset = .ok (offset + x.length) ∧
      sliceRange data offset (offset + x.length) = .ok x ∧ SegInv data (offset + x.length + 1) xs := by
  obtain ⟨ha, ⟨h, _⟩ | ⟨_, hu, pre, rfl, rfl⟩⟩ := h
  · simp at h
  rw [List.forall_mem_cons] at hu
  obtain ⟨⟨hd, hne⟩, hxs⟩ := hu
  have hlen : 0 < x.length := List.length_pos_iff.mpr hne
  have e : pre ++ joinDash (x :: xs) = pre ++ x ++ tail xs := by rw [joinDash_cons_tail, List.append_assoc]
  rw [e] at ha ⊢
  refine ⟨?_, ?_, ?_, ha, ?_⟩
  · simp; omega
  · refine findSegmentEnd_eq hd ?_
    cases xs <;> simp [tail]
  · exact sliceRange_append ha
  · by_cases hx : xs = []
    · subst hx
      left; simp [tail]
    · right
      refine ⟨hx, hxs, pre ++ x ++ [dash], ?_, ?_⟩
      · rw [tail_eq_of_ne_nil hx]; simp
      · simp; omega

theorem segInv_start {pre : Text} {items : List Text} (ha : Ascii (pre ++ joinDash items))
    (hu : ∀ u ∈ items, dash ∉ u ∧ u ≠ []) : SegInv (pre ++ joinDash items) pre.length items := by
  refine ⟨ha, ?_⟩
  by_cases h : items = []
  · subst h; left; simp [joinDash]
  · exact Or.inr ⟨h, hu, pre, rfl, rfl⟩

theorem privateUseIter_enumerates {data : Text} {offset : Nat} {items : List Text} (h : SegInv data offset items) :
    Enumerates PrivateUseIter.next ⟨data, offset⟩ (items.map PrivateUseSubtag.mk) := by
  refine enumerates_of_inv (Inv := fun it xs => ∃ us, xs = us.map PrivateUseSubtag.mk ∧ SegInv it.data it.offset us)
    ?_ ?_ ⟨items, rfl, h⟩
  · rintro it ⟨us, hx, hi⟩
    obtain rfl : us = [] := by simpa using hx.symm
    refine ⟨it, ?_, [], rfl, hi⟩
    unfold PrivateUseIter.next
    rw [if_neg (segInv_nil hi)]; rfl
  · rintro it x xs ⟨us, hx, hi⟩
    cases us with
    | nil => simp at hx
    | cons u us =>
      simp only [List.map_cons, List.cons.injEq] at hx
      obtain ⟨rfl, rfl⟩ := hx
      obtain ⟨h1, h2, h3, h4⟩ := segInv_cons hi
      refine ⟨⟨it.data, it.offset + u.length + 1⟩, ?_, us, rfl, h4⟩
      unfold PrivateUseIter.next
      rw [if_pos h1, h2]
      simp only [bind, Except.bind, h3]; rfl

theorem extensionIter_enumerates {data : Text} {offset : Nat} {items : List Text} (h : SegInv data offset items) :
    Enumerates ExtensionIter.next ⟨data, offset⟩ (items.map ExtensionSubtag.mk) := by
  refine enumerates_of_inv (Inv := fun it xs => ∃ us, xs = us.map ExtensionSubtag.mk ∧ SegInv it.data it.offset us)
    ?_ ?_ ⟨items, rfl, h⟩
  · rintro it ⟨us, hx, hi⟩
    obtain rfl : us = [] := by simpa using hx.symm
    refine ⟨it, ?_, [], rfl, hi⟩
    unfold ExtensionIter.next
    rw [if_neg (segInv_nil hi)]; rfl
  · rintro it x xs ⟨us, hx, hi⟩
    cases us with
    | nil => simp at hx
    | cons u us =>
      simp only [List.map_cons, List.cons.injEq] at hx
      obtain ⟨rfl, rfl⟩ := hx
      obtain ⟨h1, h2, h3, h4⟩ := segInv_cons hi
      refine ⟨⟨it.data, it.offset + u.length + 1⟩, ?_, us, rfl, h4⟩
      unfold ExtensionIter.next
      rw [if_pos h1, h2]
      simp only [bind, Except.bind, h3]; rfl

theorem languageExtensionIter_enumerates {data : Text} {offset : Nat} {items : List Text}
    (h : SegInv data offset items) :
    Enumerates LanguageExtensionIter.next ⟨data, offset⟩ (items.map ExtendedLangTag.mk) := by
  refine enumerates_of_inv (Inv := fun it xs => ∃ us, xs = us.map ExtendedLangTag.mk ∧ SegInv it.data it.offset us)
    ?_ ?_ ⟨items, rfl, h⟩
  · rintro it ⟨us, hx, hi⟩
    obtain rfl : us = [] := by simpa using hx.symm
    refine ⟨it, ?_, [], rfl, hi⟩
    unfold LanguageExtensionIter.next
    rw [if_neg (segInv_nil hi)]; rfl
  · rintro it x xs ⟨us, hx, hi⟩
    cases us with
    | nil => simp at hx
    | cons u us =>
      simp only [List.map_cons, List.cons.injEq] at hx
      obtain ⟨rfl, rfl⟩ := hx
      obtain ⟨h1, h2, h3, h4⟩ := segInv_cons hi
      refine ⟨⟨it.data, it.offset + u.length + 1⟩, ?_, us, rfl, h4⟩
      unfold LanguageExtensionIter.next
      rw [if_pos h1, h2]
      simp only [bind, Except.bind, h3]; rfl

/-! ## `VariantsIter` -/

/-- The items still to come are the segments of `data` between `offset` and `end_`. -/
def DequeInv (data : Text) (offset end_ : Nat) (items : List Text) : Prop :=
  Ascii data ∧
  ((items = [] ∧ end_ ≤ offset) ∨
    (items ≠ [] ∧ (∀ u ∈ items, dash ∉ u ∧ u ≠ []) ∧ ∃ pre post, data = pre ++ joinDash items ++ post ∧
      offset = pre.length ∧ end_ = pre.length + (joinDash items).length ∧
      (∀ b ∈ pre.getLast?, b = dash) ∧ (∀ b ∈ post.head?, b = dash)))

theorem dequeInv_nil {data : Text} {offset end_ : Nat} (h : DequeInv data offset end_ []) : ¬ offset < end_ := by
  rcases h.2 with ⟨_, h⟩ | ⟨h, _⟩
  · omega
  · exact absurd rfl h

theorem dequeInv_cons {data : Text} {offset end_ : Nat} {x : Text} {xs : List Text}
    (h : DequeInv data offset end_ (x :: xs)) :
    offset < end_ ∧ findSegmentEnd data offset = .ok (offset + x.length) ∧
      sliceRange data offset (offset + x.length) = .ok x ∧ DequeInv data (offset + x.length + 1) end_ xs := by
  obtain ⟨ha, ⟨h, _⟩ | ⟨_, hu, pre, post, rfl, rfl, rfl, hpre, hpost⟩⟩ := h
  · simp at h
  rw [List.forall_mem_cons] at hu
  obtain ⟨⟨hd, hne⟩, hxs⟩ := hu
  have hlen : 0 < x.length := List.length_pos_iff.mpr hne
  have e : pre ++ joinDash (x :: xs) ++ post = pre ++ x ++ (tail xs ++ post) := by
    rw [joinDash_cons_tail]; simp
  rw [e] at ha ⊢
  refine ⟨?_, ?_, ?_, ha, ?_⟩
  · rw [joinDash_cons_tail]; simp; omega
  · refine findSegmentEnd_eq hd ?_
    cases xs
    · simpa [tail] using hpost
    · simp [tail]
  · exact sliceRange_append ha
  · by_cases hx : xs = []
    · subst hx
      left; simp [joinDash]
    · right
      refine ⟨hx, hxs, pre ++ x ++ [dash], post, ?_, ?_, ?_, by simp, hpost⟩
      · rw [tail_eq_of_ne_nil hx]; simp
      · simp; omega
      · rw [joinDash_cons_of_ne_nil x hx]; simp; omega

theorem dequeInv_snoc {data : Text} {offset end_ : Nat} {x : Text} {xs : List Text}
    (h : DequeInv data offset end_ (xs ++ [x])) :
    ∃ start, offset < end_ ∧ findSegmentStart data end_ = .ok start ∧ sliceRange data start end_ = .ok x ∧
      DequeInv data offset (if start > 0 then start - 1 else 0) xs := by
  obtain ⟨ha, ⟨h, _⟩ | ⟨_, hu, pre, post, rfl, rfl, rfl, hpre, hpost⟩⟩ := h
  · simp at h
  obtain ⟨hd, hne⟩ := hu x (by simp)
  have hlen : 0 < x.length := List.length_pos_iff.mpr hne
  by_cases hx : xs = []
  · subst hx
    simp only [List.nil_append, joinDash] at *
    refine ⟨pre.length, by omega, findSegmentStart_eq hd hne hpre, sliceRange_append ha, ha, Or.inl ⟨rfl, ?_⟩⟩
    split <;> omega
  · have e0 : joinDash (xs ++ [x]) = joinDash xs ++ dash :: x := joinDash_append hx (by simp)
    have e : pre ++ joinDash (xs ++ [x]) ++ post = (pre ++ joinDash xs ++ [dash]) ++ x ++ post := by
      rw [e0]; simp
    have e2 : pre.length + (joinDash (xs ++ [x])).length = (pre ++ joinDash xs ++ [dash]).length + x.length := by
      rw [e0]; simp; omega
    rw [e] at ha ⊢
    rw [e2]
    refine ⟨(pre ++ joinDash xs ++ [dash]).length, ?_, findSegmentStart_eq hd hne (by simp), sliceRange_append ha, ha,
      Or.inr ⟨hx, fun u hm => hu u (by simp [hm]), pre, dash :: (x ++ post), ?_, rfl, ?_, hpre, by simp⟩⟩
    · simp; omega
    · simp
    · rw [if_pos (by simp; omega)]; simp

theorem dequeInv_start {items : List Text} (ha : Ascii (joinDash items)) (hu : ∀ u ∈ items, dash ∉ u ∧ u ≠ []) :
    DequeInv (joinDash items) 0 (joinDash items).length items := by
  refine ⟨ha, ?_⟩
  by_cases h : items = []
  · subst h; left; simp [joinDash]
  · exact Or.inr ⟨h, hu, [], [], by simp, rfl, by simp, by simp, by simp⟩

theorem variantsIter_next {it : VariantsIter} {us : List Text} (h : DequeInv it.data it.offset it.end_ us) :
    ∃ it', it.next = .ok ((us.map Variant.mk).head?, it') ∧ DequeInv it'.data it'.offset it'.end_ us.tail := by
  cases us with
  | nil =>
    refine ⟨it, ?_, h⟩
    unfold VariantsIter.next
    rw [if_neg (dequeInv_nil h)]; rfl
  | cons u us =>
    obtain ⟨h1, h2, h3, h4⟩ := dequeInv_cons h
    refine ⟨⟨it.data, it.offset + u.length + 1, it.end_⟩, ?_, h4⟩
    unfold VariantsIter.next
    rw [if_pos h1, h2]
    simp only [bind, Except.bind, h3]; rfl

theorem variantsIter_nextBack {it : VariantsIter} {us : List Text} (h : DequeInv it.data it.offset it.end_ us) :
    ∃ it', it.nextBack = .ok ((us.map Variant.mk).getLast?, it') ∧
      DequeInv it'.data it'.offset it'.end_ us.dropLast := by
  by_cases hn : us = []
  · subst hn
    refine ⟨it, ?_, h⟩
    unfold VariantsIter.nextBack
    rw [if_neg (dequeInv_nil h)]; rfl
  · have e := List.dropLast_concat_getLast hn
    rw [← e] at h
    obtain ⟨start, h1, h2, h3, h4⟩ := dequeInv_snoc h
    refine ⟨⟨it.data, it.offset, if start > 0 then start - 1 else 0⟩, ?_, h4⟩
    unfold VariantsIter.nextBack
    rw [if_pos h1, h2]
    simp only [bind, Except.bind, h3, List.getLast?_map, List.getLast?_eq_some_getLast hn]
    rfl

theorem variantsIter_enumerates {data : Text} {offset end_ : Nat} {items : List Text}
    (h : DequeInv data offset end_ items) :
    EnumeratesBothEnds VariantsIter.next VariantsIter.nextBack ⟨data, offset, end_⟩ (items.map Variant.mk) := by
  refine enumeratesBothEnds_of_inv
    (Inv := fun it xs => ∃ us, xs = us.map Variant.mk ∧ DequeInv it.data it.offset it.end_ us) ?_ ?_ ⟨items, rfl, h⟩
  · rintro it xs ⟨us, rfl, hi⟩
    obtain ⟨it', h1, h2⟩ := variantsIter_next hi
    exact ⟨it', h1, us.tail, by simp, h2⟩
  · rintro it xs ⟨us, rfl, hi⟩
    obtain ⟨it', h1, h2⟩ := variantsIter_nextBack hi
    exact ⟨it', h1, us.dropLast, by simp, h2⟩

/-! ## `ExtensionsIter` -/

/-- The items still to come are the extensions of `data` from `offset` on. -/
def ExtInv (data : Text) (offset : Nat) (items : List Text) : Prop :=
  Ascii data ∧
  ((items = [] ∧ data.length ≤ offset) ∨
    (items ≠ [] ∧ (∀ u ∈ items, Grammar.extension.Matches u) ∧ ∃ pre, data = pre ++ joinDash items ∧ offset = pre.length))

theorem extInv_nil {data : Text} {offset : Nat} (h : ExtInv data offset []) : ¬ offset < data.length := by
  rcases h.2 with ⟨_, h⟩ | ⟨h, _⟩
  · omega
  · exact absurd rfl h

/-- The end of an extension found by a scan that goes on over the subtags and stops at a segment of one byte. -/
theorem findListEnd_extension {f : Nat → Str → Rust Bool} {pre : Text} {b : UInt8} {us : List Text} {xs : List Text}
    (hne : us ≠ []) (hus : ∀ u ∈ us, Grammar.extensionSubtag.Matches u) (hxs : ∀ x ∈ xs, Grammar.extension.Matches x)
    (ha : Ascii (pre ++ joinDash ([b] :: us) ++ tail xs))
    (hf1 : ∀ off u, Grammar.extensionSubtag.Matches u → f off u = .ok true)
    (hf2 : ∀ off (u : Text), u.length = 1 → f off u = .ok false) :
    findListEnd (pre ++ joinDash ([b] :: us) ++ tail xs) (pre.length + 2) f =
      .ok (pre.length + (joinDash ([b] :: us)).length) := by
  have e : pre ++ joinDash ([b] :: us) ++ tail xs = (pre ++ [b]) ++ tail (us ++ xs.flatMap subtags) := by
    rw [joinDash_cons_tail, tail_append, tail_flatMap_subtags]; simp
  rw [e] at ha ⊢
  have e2 : pre.length + 2 = (pre ++ [b]).length + 1 := by simp
  rw [e2, findListEnd_list (by simp [hne]) ha]
  · rw [if_neg hne, joinDash_cons_tail]
    simp
  · intro u hu
    rcases List.mem_append.mp hu with hu | hu
    · exact dashFree_of_alphanum ((matches_extensionSubtag u).mp (hus u hu)).2.2
    · obtain ⟨v, _, hv⟩ := List.mem_flatMap.mp hu
      exact subtags_dashFree v u hv
  · exact fun off a ham => hf1 off a (hus a ham)
  · intro off _ a ham
    obtain ⟨u, hu, ham⟩ := head?_flatMap_subtags ham
    obtain ⟨c, cs, e, _⟩ := subtags_extension (hxs u (List.mem_of_mem_head? hu))
    rw [e] at ham
    simp only [List.head?_cons, Option.mem_def, Option.some.injEq] at ham
    subst ham
    exact hf2 off _ rfl

theorem extInv_cons {data : Text} {offset : Nat} {x : Text} {xs : List Text} (h : ExtInv data offset (x :: xs)) :
    offset < data.length ∧
      findListEnd data (offset + 2) (fun _ segment => .ok (StrNewtype.isOk ExtensionSubtag segment)) =
        .ok (offset + x.length) ∧
      sliceRange data offset (offset + x.length) = .ok x ∧ ExtInv data (offset + x.length + 1) xs := by
  obtain ⟨ha, ⟨h, _⟩ | ⟨_, hu, pre, rfl, rfl⟩⟩ := h
  · simp at h
  rw [List.forall_mem_cons] at hu
  obtain ⟨hx, hxs⟩ := hu
  obtain ⟨b, us, rfl, hne, hb, hus⟩ := (matches_extension x).mp hx
  have e : pre ++ joinDash (joinDash ([b] :: us) :: xs) = pre ++ joinDash ([b] :: us) ++ tail xs := by
    rw [joinDash_cons_tail, List.append_assoc]
  rw [e] at ha ⊢
  refine ⟨?_, ?_, ?_, ha, ?_⟩
  · rw [joinDash_cons_tail]; simp
  · refine findListEnd_extension hne hus hxs ha ?_ ?_
    · intro _ u hu
      rw [(isOk_ExtensionSubtag u).mpr hu]
    · intro _ u hu
      rw [isOk_false (isOk_ExtensionSubtag u)]
      intro hm
      have := ((matches_extensionSubtag u).mp hm).1
      omega
  · exact sliceRange_append ha
  · by_cases hx : xs = []
    · subst hx
      left; simp [tail]
    · right
      refine ⟨hx, hxs, pre ++ joinDash ([b] :: us) ++ [dash], ?_, ?_⟩
      · rw [tail_eq_of_ne_nil hx]; simp
      · simp; omega

theorem extInv_start {items : List Text} (ha : Ascii (joinDash items))
    (hu : ∀ u ∈ items, Grammar.extension.Matches u) : ExtInv (joinDash items) 0 items := by
  refine ⟨ha, ?_⟩
  by_cases h : items = []
  · subst h; left; simp [joinDash]
  · exact Or.inr ⟨h, hu, [], rfl, rfl⟩

theorem extensionsIter_enumerates {data : Text} {offset : Nat} {items : List Text} (h : ExtInv data offset items) :
    Enumerates ExtensionsIter.next ⟨data, offset⟩ (items.map Extension.mk) := by
  refine enumerates_of_inv (Inv := fun it xs => ∃ us, xs = us.map Extension.mk ∧ ExtInv it.data it.offset us)
    ?_ ?_ ⟨items, rfl, h⟩
  · rintro it ⟨us, hx, hi⟩
    obtain rfl : us = [] := by simpa using hx.symm
    refine ⟨it, ?_, [], rfl, hi⟩
    unfold ExtensionsIter.next
    rw [if_neg (extInv_nil hi)]; rfl
  · rintro it x xs ⟨us, hx, hi⟩
    cases us with
    | nil => simp at hx
    | cons u us =>
      simp only [List.map_cons, List.cons.injEq] at hx
      obtain ⟨rfl, rfl⟩ := hx
      obtain ⟨h1, h2, h3, h4⟩ := extInv_cons hi
      refine ⟨⟨it.data, it.offset + u.length + 1⟩, ?_, us, rfl, h4⟩
      unfold ExtensionsIter.next
      rw [if_pos h1]
      simp only [h2, bind, Except.bind, h3]; rfl

end Langtag.Proof
