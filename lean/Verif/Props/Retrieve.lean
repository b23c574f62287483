import Verif.Props.Iterators
import Verif.Props.Order

/-! # C64: extensions are found by their singletons -/

set_option autoImplicit false

namespace Langtag.Props
open Langtag.Spec Langtag.Model Langtag.Proof

/-- C64 is false: `a-bbb-a-ccc` is accepted and has the two extensions `a-bbb` and `a-ccc`; `get(a)` finds the first, so the second is
never found. -/
theorem C64_violated :
    ¬ ∀ x : Extensions, Constructed x → ∀ e : Extension, Yields ExtensionsIter.next x.iter e →
      ∀ g, e.singleton = .ok g → x.get g = .ok (some e) := by
  intro h
  have := h ⟨ascii "a-bbb-a-ccc"⟩ ⟨ascii "a-bbb-a-ccc", by decide +kernel⟩ ⟨ascii "a-ccc"⟩
    ⟨2, [some ⟨ascii "a-bbb"⟩, some ⟨ascii "a-ccc"⟩], by decide +kernel, by simp⟩ ⟨97⟩ (by decide +kernel)
  revert this
  decide +kernel

/-- C64, what holds: `get` of the singleton of an extension of the list finds an extension with that singleton, and it is that
extension if none before it in the list has the same singleton.  Missing: the others. -/
theorem C64_get_partial (x : Extensions) (pre post : List Text) (e : Text) (h : IsListOf x (pre ++ e :: post)) :
    ∃ g, (Extension.mk e).singleton = .ok g ∧
      (∃ f ∈ pre ++ e :: post, (Extension.mk f).singleton = .ok g ∧ x.get g = .ok (some ⟨f⟩)) ∧
      ((∀ f ∈ pre, (Extension.mk f).singleton ≠ .ok g) → x.get g = .ok (some ⟨e⟩)) ∧
      ((∃ f ∈ pre, (Extension.mk f).singleton = .ok g) → ∃ f ∈ pre, x.get g = .ok (some ⟨f⟩)) := by
  obtain ⟨g, hg, -⟩ := C33_singleton _ (constructed_extension (h.1 e (by simp)))
  have hget := C30_get x _ h g
  have hno : (∀ f ∈ pre, (Extension.mk f).singleton ≠ .ok g) → x.get g = .ok (some ⟨e⟩) := by
    intro hn
    rw [hget, List.map_append, List.find?_append, List.map_cons, List.find?_cons_of_pos (by simp [hg])]
    have : (pre.map Extension.mk).find? (fun e => decide (e.singleton = .ok g)) = none := by
      simpa using hn
    rw [this]; rfl
  have hyes : (∃ f ∈ pre, (Extension.mk f).singleton = .ok g) →
      ∃ f ∈ pre, (Extension.mk f).singleton = .ok g ∧ x.get g = .ok (some ⟨f⟩) := by
    rintro ⟨f, hf, hfg⟩
    rw [hget, List.map_append, List.find?_append]
    cases hx : (pre.map Extension.mk).find? (fun e => decide (e.singleton = .ok g)) with
    | none =>
      rw [List.find?_eq_none] at hx
      exact absurd (decide_eq_true hfg) (hx _ (List.mem_map_of_mem hf))
    | some d =>
      obtain ⟨w, hw, rfl⟩ := List.mem_map.mp (List.mem_of_find?_eq_some hx)
      have hw' := List.find?_some hx
      exact ⟨w, hw, by simpa using hw', rfl⟩
  refine ⟨g, hg, ?_, hno, fun hf => ?_⟩
  · by_cases hf : ∃ f ∈ pre, (Extension.mk f).singleton = .ok g
    · obtain ⟨f, h1, h2, h3⟩ := hyes hf
      exact ⟨f, List.mem_append_left _ h1, h2, h3⟩
    · exact ⟨e, by simp, hg, hno fun f h1 h2 => hf ⟨f, h1, h2⟩⟩
  · obtain ⟨f, h1, _, h3⟩ := hyes hf
    exact ⟨f, h1, h3⟩

/-- C64, for lists that repeat no singleton (as RFC 5646 §2.2.6 asks): each extension is found. -/
theorem C64_distinct_partial (x : Extensions) (es : List Text) (h : IsListOf x es)
    (hd : es.Pairwise fun e f => (Extension.mk e).singleton ≠ (Extension.mk f).singleton) (e : Text) (he : e ∈ es) :
    ∃ g, (Extension.mk e).singleton = .ok g ∧ x.get g = .ok (some ⟨e⟩) := by
  obtain ⟨pre, post, rfl⟩ := List.append_of_mem he
  obtain ⟨g, hg, -, hno, -⟩ := C64_get_partial x pre post e h
  refine ⟨g, hg, hno fun f hf hfg => ?_⟩
  exact (List.pairwise_append.mp hd).2.2 f hf e List.mem_cons_self (hfg.trans hg.symm)

/-! ## C31, singletons in different cases -/

/-- C31, what holds for singletons written in any case: what `get` finds in one of two equal lists, `get` finds in the other with the
singleton in the case it is written in there; the two are equal if the list repeats no singleton in any case.  Missing: the singleton
has to be written the same. -/
theorem C31_otherCase_partial (x y : Extensions) (es fs : List Text) (hx : IsListOf x es) (hy : IsListOf y fs)
    (hc : Compare.eq x y = .ok true) (g : Singleton) (e : Extension) (h : x.get g = .ok (some e)) :
    ∃ g' f, lower g'.unwrap = lower g.unwrap ∧ y.get g' = .ok (some f) ∧
      (es.Pairwise (fun a b => (lowerText a).head? ≠ (lowerText b).head?) → Compare.eq e f = .ok true) := by
  have hl := lower_lists hx hy ((eq_true_iff x y).mp hc)
  rw [C30_get x es hx] at h
  have hf := Except.ok.inj h
  obtain ⟨w, hw, rfl⟩ := List.mem_map.mp (List.mem_of_find?_eq_some hf)
  have hs := List.find?_some hf
  simp only [decide_eq_true_eq] at hs
  obtain ⟨pre, post, rfl⟩ := List.append_of_mem hw
  rw [List.map_append, List.map_cons] at hl
  obtain ⟨pre', l', rfl, hpre, hl'⟩ := List.map_eq_append_iff.mp hl.symm
  obtain ⟨v, post', rfl, hv, hpost⟩ := List.map_eq_cons_iff.mp hl'
  obtain ⟨g', hg', ⟨v', hv', hs', hget⟩, -, -⟩ := C64_get_partial y pre' post' v hy
  have head {u : Text} (hu : Grammar.extension.Matches u) {k : Singleton} (hk : (Extension.mk u).singleton = .ok k) :
      u.head? = some k.unwrap := by
    obtain ⟨k', h1, h2, _⟩ := C33_singleton _ (constructed_extension hu)
    rw [hk] at h1
    obtain rfl := Except.ok.inj h1
    exact h2
  have hw0 := head (hx.1 w (by simp)) hs
  have hv0 := head (hy.1 v (by simp)) hg'
  have hv1 := head (hy.1 v' hv') hs'
  have lowerHead (u : Text) : (lowerText u).head? = u.head?.map lower := by cases u <;> rfl
  have hgg : lower g'.unwrap = lower g.unwrap := by
    have := congrArg List.head? hv
    rw [lowerHead, lowerHead, hv0, hw0] at this
    exact Option.some.inj this
  refine ⟨g', ⟨v'⟩, hgg, hget, fun hd => ?_⟩
  have hd' : ((pre' ++ v :: post').map lowerText).Pairwise fun a b => a.head? ≠ b.head? := by
    have : (pre' ++ v :: post').map lowerText = (pre ++ w :: post).map lowerText := by
      simp [hpre, hv, hpost]
    rw [this]
    exact List.pairwise_map.mpr hd
  have hvv : v' = v := by
    rw [List.pairwise_map, List.pairwise_append, List.pairwise_cons] at hd'
    have hsame : (lowerText v').head? = (lowerText v).head? := by rw [lowerHead, lowerHead, hv0, hv1]
    rcases List.mem_append.mp hv' with hm | hm
    · exact absurd hsame (hd'.2.2 v' hm v List.mem_cons_self)
    · rcases List.mem_cons.mp hm with hm | hm
      · exact hm
      · exact absurd hsame.symm (hd'.2.1.1 v' hm)
  rw [eq_true_iff]
  change lowerText w = lowerText v'
  rw [hvv, hv]

-- lists the hypotheses hold of
example : (Extensions.mk (ascii "a-bb-C-dd")).get ⟨67⟩ = .ok (some ⟨ascii "C-dd"⟩) ∧
    Compare.eq (Extensions.mk (ascii "a-bb-C-dd")) ⟨ascii "A-bb-c-DD"⟩ = .ok true ∧
    (Extensions.mk (ascii "A-bb-c-DD")).get ⟨99⟩ = .ok (some ⟨ascii "c-DD"⟩) := by decide +kernel

-- a list without repetition, and one with
example : IsListOf ⟨ascii "a-bbb-cc-b-dd"⟩ [ascii "a-bbb-cc", ascii "b-dd"] ∧
    [ascii "a-bbb-cc", ascii "b-dd"].Pairwise fun e f => (Extension.mk e).singleton ≠ (Extension.mk f).singleton :=
  ⟨isListOf_example, by simp only [List.pairwise_cons]; decide +kernel⟩
example : IsListOf ⟨ascii "a-bbb-a-ccc"⟩ ([ascii "a-bbb"] ++ ascii "a-ccc" :: []) := by
  refine ⟨?_, by decide +kernel⟩
  simp only [List.cons_append, List.nil_append, List.mem_cons, List.not_mem_nil, or_false, forall_eq_or_imp, forall_eq]
  exact ⟨(isOk_Extension _).mp (by decide +kernel), (isOk_Extension _).mp (by decide +kernel)⟩

end Langtag.Props
