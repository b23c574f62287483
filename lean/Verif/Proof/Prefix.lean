import Verif.Proof.Unique

/-! # Prefixes of the list of subtags of a normal tag -/

set_option autoImplicit false

namespace Langtag.Proof
open Langtag.Spec Langtag.Model

theorem prefix_append_cases {α : Type} {q a b : List α} (h : q <+: a ++ b) : q <+: a ∨ ∃ r, q = a ++ r ∧ r <+: b := by
  obtain ⟨t, ht⟩ := h
  rcases List.append_eq_append_iff.mp ht with ⟨c, h1, h2⟩ | ⟨c, h1, h2⟩
  · exact Or.inl ⟨c, h1.symm⟩
  · exact Or.inr ⟨c, h1, ⟨t, h2.symm⟩⟩

theorem subtags_render {p : Parts} (h : p.WF) : subtags p.render = subtags p.language ++ segs1 p := by
  have e : p.render = joinDash (subtags p.language ++ segs1 p) := by
    rw [render_eq]
    by_cases hs : segs1 p = []
    · simp [hs, joinDash_subtags, tail]
    · rw [joinDash_append (subtags_ne_nil _) hs, joinDash_subtags, tail_eq_of_ne_nil hs]
  rw [e]
  refine subtags_joinDash_of_dashFree (by simp [subtags_ne_nil]) ?_
  intro u hu
  rcases List.mem_append.mp hu with hu | hu
  · exact subtags_dashFree _ u hu
  · exact dashFree_segs1 h u hu

/-- A prefix of a language that keeps the first subtag is a language. -/
theorem prefix_language {l : Text} (h : Grammar.language.Matches l) {q : List Text} (hq : q <+: subtags l) (hne : q ≠ []) :
    ∃ l', Grammar.language.Matches l' ∧ subtags l' = q := by
  rcases (matches_language l).mp h with ⟨v, us, rfl, hl, hv, hus⟩ | ⟨h1, h2, h3⟩
  · have hv' := (matches_primary v).mp hv
    have hd : ∀ u ∈ v :: us, dash ∉ u := by
      rw [List.forall_mem_cons]
      exact ⟨dashFree_of_alpha hv'.2.2, fun u hu => dashFree_of_alpha ((matches_extlangTag u).mp (hus u hu)).2⟩
    rw [subtags_joinDash_of_dashFree (by simp) hd] at hq
    obtain ⟨t, ht⟩ := hq
    cases q with
    | nil => exact absurd rfl hne
    | cons v' us' =>
      simp only [List.cons_append, List.cons.injEq] at ht
      obtain ⟨rfl, rfl⟩ := ht
      refine ⟨joinDash (v' :: us'), (matches_language _).mpr (Or.inl ⟨v', us', rfl, ?_, hv, ?_⟩), ?_⟩
      · rw [List.length_append] at hl; omega
      · exact fun u hu => hus u (by simp [hu])
      · refine subtags_joinDash_of_dashFree (by simp) fun u hu => hd u ?_
        rcases List.mem_cons.mp hu with rfl | hu <;> simp [*]
  · have e := subtags_of_dashFree (dashFree_of_alpha h3)
    rw [e] at hq
    refine ⟨l, h, ?_⟩
    rw [e]
    obtain ⟨t, ht⟩ := hq
    cases q with
    | nil => exact absurd rfl hne
    | cons v' us' => simp at ht; simp [ht]

theorem getLast?_suffix {α : Type} {a b : List α} {x : α} (h : x ∈ b.getLast?) : x ∈ (a ++ b).getLast? := by
  rw [List.getLast?_append]
  simp only [Option.mem_def] at h
  simp [h]

/-- A prefix of `singleton-subtags…` that is not only the singleton, or is empty. -/
theorem prefix_headed {b : UInt8} {us q : List Text} (hq : q <+: [b] :: us) (hl : ∀ u ∈ q.getLast?, u.length ≠ 1) :
    q = [] ∨ ∃ us', us' ≠ [] ∧ (∀ u ∈ us', u ∈ us) ∧ q = [b] :: us' := by
  obtain ⟨t, ht⟩ := hq
  cases q with
  | nil => exact Or.inl rfl
  | cons v us' =>
    right
    simp only [List.cons_append, List.cons.injEq] at ht
    obtain ⟨rfl, rfl⟩ := ht
    refine ⟨us', ?_, fun u hu => by simp [hu], rfl⟩
    rintro rfl
    exact hl [b] (by simp) rfl

theorem prefix_extensions {es : List Text} (h : ∀ e ∈ es, Grammar.extension.Matches e) {q : List Text}
    (hq : q <+: es.flatMap subtags) (hl : ∀ u ∈ q.getLast?, u.length ≠ 1) :
    ∃ es' : List Text, (∀ e ∈ es', Grammar.extension.Matches e) ∧ es'.flatMap subtags = q := by
  induction es generalizing q with
  | nil => exact ⟨[], by simp, by simpa using hq⟩
  | cons e es ih =>
    rw [List.forall_mem_cons] at h
    rw [List.flatMap_cons] at hq
    rcases prefix_append_cases hq with hq | ⟨r, rfl, hr⟩
    · obtain ⟨b, us, hs, hne, hb, hus⟩ := subtags_extension h.1
      rw [hs] at hq
      rcases prefix_headed hq hl with rfl | ⟨us', hne', hmem, rfl⟩
      · exact ⟨[], by simp, rfl⟩
      · have hm : Grammar.extension.Matches (joinDash ([b] :: us')) :=
          (matches_extension _).mpr ⟨b, us', rfl, hne', hb, fun u hu => hus u (hmem u hu)⟩
        refine ⟨[joinDash ([b] :: us')], by simpa using hm, ?_⟩
        have hd : ∀ u ∈ [b] :: us', dash ∉ u := by
          intro u hu
          refine subtags_dashFree e u ?_
          rw [hs]
          rcases List.mem_cons.mp hu with rfl | hu
          · simp
          · exact List.mem_cons_of_mem _ (hmem u hu)
        simp [subtags_joinDash_of_dashFree (by simp) hd]
    · obtain ⟨es', h1, h2⟩ := ih h.2 hr fun u hu => hl u (getLast?_suffix hu)
      refine ⟨e :: es', ?_, by rw [List.flatMap_cons, h2]⟩
      rw [List.forall_mem_cons]
      exact ⟨h.1, h1⟩

/-- Every non-empty prefix of the subtags of a normal tag that does not end in a subtag of one character is a
normal tag. -/
theorem prefix_normal {p : Parts} (h : p.WF) {q : List Text} (hq : q <+: subtags p.render) (hne : q ≠ [])
    (hl : ∀ u ∈ q.getLast?, u.length ≠ 1) : ∃ p' : Parts, p'.WF ∧ subtags p'.render = q := by
  rw [subtags_render h] at hq
  rcases prefix_append_cases hq with hq | ⟨r, rfl, hr1⟩
  · obtain ⟨l', h1, h2⟩ := prefix_language h.language hq hne
    have hw : Parts.WF { language := l' } := ⟨h1, by simp, by simp, by simp, by simp, by simp⟩
    refine ⟨{ language := l' }, hw, ?_⟩
    rw [subtags_render hw, h2]
    simp [segs1, segs2, segs3, segs4, Parts.afterVariants]
  · replace hl := fun u hu => hl u (getLast?_suffix hu)
    suffices ∃ p' : Parts, p'.WF ∧ p'.language = p.language ∧ segs1 p' = r by
      obtain ⟨p', h1, h2, h3⟩ := this
      exact ⟨p', h1, by rw [subtags_render h1, h2, h3]⟩
    clear hq hne
    unfold segs1 at hr1
    rcases prefix_append_cases hr1 with hr | ⟨r, rfl, hr2⟩
    · refine ⟨{ language := p.language, script := r.head? }, ⟨h.language, ?_, by simp, by simp, by simp, by simp⟩, rfl, ?_⟩
      · intro s hs
        refine h.script s ?_
        simpa using hr.subset (List.mem_of_mem_head? hs)
      · have := hr.length_le
        have h1 : p.script.toList.length ≤ 1 := by cases p.script <;> simp
        match r with
        | [] => rfl
        | [s] => rfl
        | _ :: _ :: _ => simp at this; omega
    · replace hl := fun u hu => hl u (getLast?_suffix hu)
      unfold segs2 at hr2
      rcases prefix_append_cases hr2 with hr | ⟨r, rfl, hr3⟩
      · refine ⟨{ language := p.language, script := p.script, region := r.head? },
          ⟨h.language, h.script, ?_, by simp, by simp, by simp⟩, rfl, ?_⟩
        · intro s hs
          refine h.region s ?_
          simpa using hr.subset (List.mem_of_mem_head? hs)
        · have := hr.length_le
          have h1 : p.region.toList.length ≤ 1 := by cases p.region <;> simp
          match r with
          | [] => simp [segs1, segs2, segs3, segs4, Parts.afterVariants]
          | [s] => simp [segs1, segs2, segs3, segs4, Parts.afterVariants]
          | _ :: _ :: _ => simp at this; omega
      · replace hl := fun u hu => hl u (getLast?_suffix hu)
        unfold segs3 at hr3
        rcases prefix_append_cases hr3 with hr | ⟨r, rfl, hr4⟩
        · refine ⟨{ language := p.language, script := p.script, region := p.region, variants := r },
            ⟨h.language, h.script, h.region, fun v hv => h.variants v (hr.subset hv), by simp, by simp⟩, rfl, ?_⟩
          simp [segs1, segs2, segs3, segs4, Parts.afterVariants]
        · replace hl := fun u hu => hl u (getLast?_suffix hu)
          unfold segs4 Parts.afterVariants at hr4
          rw [List.flatMap_append] at hr4
          rcases prefix_append_cases hr4 with hr | ⟨r, rfl, hr⟩
          · obtain ⟨es', h1, rfl⟩ := prefix_extensions h.extensions hr hl
            refine ⟨{ p with extensions := es', privateUse := none }, ⟨h.language, h.script, h.region, h.variants, h1, by simp⟩, rfl, ?_⟩
            simp [segs1, segs2, segs3, segs4, Parts.afterVariants]
          · replace hl := fun u hu => hl u (getLast?_suffix hu)
            have : ∃ x : Option Text, (∀ s, x = some s → Grammar.privateuse.Matches s) ∧ x.toList.flatMap subtags = r := by
              cases hp : p.privateUse with
              | none => exact ⟨none, by simp, by simpa [hp] using hr⟩
              | some x =>
                obtain ⟨b, us, hs, hne, hb, hus⟩ := subtags_privateuse (h.privateUse x hp)
                rw [hp] at hr
                simp only [Option.toList_some, List.flatMap_cons, List.flatMap_nil, List.append_nil, hs] at hr
                rcases prefix_headed hr hl with rfl | ⟨us', hne', hmem, rfl⟩
                · exact ⟨none, by simp, rfl⟩
                · refine ⟨some (joinDash ([b] :: us')), ?_, ?_⟩
                  · intro s hs'
                    obtain rfl := Option.some.inj hs'
                    exact (matches_privateuse _).mpr ⟨b, us', rfl, hne', hb, fun u hu => hus u (hmem u hu)⟩
                  · have hd : ∀ u ∈ [b] :: us', dash ∉ u := by
                      intro u hu
                      refine subtags_dashFree x u ?_
                      rw [hs]
                      rcases List.mem_cons.mp hu with rfl | hu
                      · simp
                      · exact List.mem_cons_of_mem _ (hmem u hu)
                    simp [subtags_joinDash_of_dashFree (by simp) hd]
            obtain ⟨x, h1, rfl⟩ := this
            refine ⟨{ p with privateUse := x }, ⟨h.language, h.script, h.region, h.variants, h.extensions, h1⟩, rfl, ?_⟩
            simp [segs1, segs2, segs3, segs4, Parts.afterVariants]

end Langtag.Proof
