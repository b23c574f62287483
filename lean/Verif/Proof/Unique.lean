import Verif.Proof.Accessors

/-! # A normal tag has only one decomposition -/

set_option autoImplicit false

namespace Langtag.Proof
open Langtag.Spec Langtag.Model

theorem span_unique {α : Type} {P : α → Prop} {as bs as' bs' : List α} (h : as ++ bs = as' ++ bs')
    (ha : ∀ a ∈ as, P a) (hb : ∀ b ∈ bs.head?, ¬ P b) (ha' : ∀ a ∈ as', P a) (hb' : ∀ b ∈ bs'.head?, ¬ P b) :
    as = as' ∧ bs = bs' := by
  induction as generalizing as' with
  | nil =>
    cases as' with
    | nil => exact ⟨rfl, h⟩
    | cons x xs =>
      simp only [List.nil_append] at h
      subst h
      exact absurd (ha' x (by simp)) (hb x rfl)
  | cons a as ih =>
    cases as' with
    | nil =>
      simp only [List.nil_append] at h
      subst h
      exact absurd (ha a (by simp)) (hb' a rfl)
    | cons x xs =>
      simp only [List.cons_append, List.cons.injEq] at h
      obtain ⟨rfl, h⟩ := h
      rw [List.forall_mem_cons] at ha ha'
      obtain ⟨rfl, rfl⟩ := ih h ha.2 ha'.2
      exact ⟨rfl, rfl⟩

theorem head_extensions {es : List Text} (h : ∀ e ∈ es, Grammar.extension.Matches e) :
    ∀ a ∈ (es.flatMap subtags).head?, a.length = 1 := by
  intro a ha
  obtain ⟨u, hu, ha⟩ := head?_flatMap_subtags ha
  obtain ⟨b, us, e, _⟩ := subtags_extension (h u (List.mem_of_mem_head? hu))
  rw [e] at ha
  simp only [List.head?_cons, Option.mem_def, Option.some.injEq] at ha
  subst ha; rfl

theorem subtags_inj {u v : Text} (h : subtags u = subtags v) : u = v := by
  rw [← joinDash_subtags u, h, joinDash_subtags]

theorem extensions_unique {es es' : List Text} (h : ∀ e ∈ es, Grammar.extension.Matches e)
    (h' : ∀ e ∈ es', Grammar.extension.Matches e) (heq : es.flatMap subtags = es'.flatMap subtags) : es = es' := by
  induction es generalizing es' with
  | nil =>
    simp only [List.flatMap_nil] at heq
    exact (flatMap_subtags_eq_nil.mp heq.symm).symm
  | cons e es ih =>
    cases es' with
    | nil => exact flatMap_subtags_eq_nil.mp heq
    | cons e' es' =>
      rw [List.forall_mem_cons] at h h'
      obtain ⟨b, us, hu, _, _, hus⟩ := subtags_extension h.1
      obtain ⟨b', us', hu', _, _, hus'⟩ := subtags_extension h'.1
      simp only [List.flatMap_cons, hu, hu', List.cons_append, List.cons.injEq] at heq
      obtain ⟨⟨rfl, _⟩, heq⟩ := heq
      have hlen : ∀ u ∈ us, 2 ≤ u.length := fun u hu => ((matches_extensionSubtag u).mp (hus u hu)).1
      have hlen' : ∀ u ∈ us', 2 ≤ u.length := fun u hu => ((matches_extensionSubtag u).mp (hus' u hu)).1
      obtain ⟨rfl, h2⟩ := span_unique heq hlen (fun b hb => by have := head_extensions h.2 b hb; omega) hlen'
        (fun b hb => by have := head_extensions h'.2 b hb; omega)
      rw [ih h.2 h'.2 h2]
      rw [subtags_inj (hu.trans hu'.symm)]

theorem joinDash_extensions_unique {es es' : List Text} (h : ∀ e ∈ es, Grammar.extension.Matches e)
    (h' : ∀ e ∈ es', Grammar.extension.Matches e) (heq : joinDash es = joinDash es') : es = es' := by
  have pos : ∀ {es : List Text}, (∀ e ∈ es, Grammar.extension.Matches e) → es ≠ [] → 0 < (joinDash es).length := by
    intro es h hne
    refine joinDash_length_pos hne ?_
    rintro v hv rfl
    obtain ⟨b, us, e, _⟩ := (matches_extension _).mp (h _ hv)
    simp [joinDash_cons] at e
  by_cases h1 : es = []
  · by_cases h2 : es' = []
    · rw [h1, h2]
    · have := pos h' h2
      rw [← heq, h1] at this
      simp [joinDash] at this
  · by_cases h2 : es' = []
    · have := pos h h1
      rw [heq, h2] at this
      simp [joinDash] at this
    · refine extensions_unique h h' ?_
      rw [← subtags_joinDash h1, heq, subtags_joinDash h2]

theorem joinDash_variants_unique {es es' : List Text} (h : ∀ e ∈ es, Grammar.variant.Matches e)
    (h' : ∀ e ∈ es', Grammar.variant.Matches e) (heq : joinDash es = joinDash es') : es = es' := by
  have pos : ∀ {es : List Text}, (∀ e ∈ es, Grammar.variant.Matches e) → es ≠ [] → 0 < (joinDash es).length := by
    intro es h hne
    refine joinDash_length_pos hne ?_
    rintro v hv rfl
    have := length_variant (h _ hv)
    simp at this
  by_cases h1 : es = []
  · by_cases h2 : es' = []
    · rw [h1, h2]
    · have := pos h' h2
      rw [← heq, h1] at this
      simp [joinDash] at this
  · by_cases h2 : es' = []
    · have := pos h h1
      rw [heq, h2] at this
      simp [joinDash] at this
    · exact joinDash_inj h1 h2 (fun u hu => dashFree_variant (h u hu)) (fun u hu => dashFree_variant (h' u hu)) heq

theorem tail_inj {us vs : List Text} (hu : ∀ u ∈ us, dash ∉ u) (hv : ∀ u ∈ vs, dash ∉ u) (h : tail us = tail vs) :
    us = vs := by
  by_cases h1 : us = []
  · by_cases h2 : vs = []
    · rw [h1, h2]
    · rw [tail_eq_of_ne_nil h2, h1] at h; simp [tail] at h
  · by_cases h2 : vs = []
    · rw [tail_eq_of_ne_nil h1, h2] at h; simp [tail] at h
    · rw [tail_eq_of_ne_nil h1, tail_eq_of_ne_nil h2, List.cons.injEq] at h
      exact joinDash_inj h1 h2 hu hv h.2

theorem option_span {α : Type} {P : α → Prop} {o o' : Option α} {bs bs' : List α}
    (h : o.toList ++ bs = o'.toList ++ bs') (ho : ∀ a, o = some a → P a) (ho' : ∀ a, o' = some a → P a)
    (hb : ∀ b ∈ bs.head?, ¬ P b) (hb' : ∀ b ∈ bs'.head?, ¬ P b) : o = o' ∧ bs = bs' := by
  obtain ⟨h1, h2⟩ := span_unique h (by simpa using ho) hb (by simpa using ho') hb'
  refine ⟨?_, h2⟩
  cases o <;> cases o' <;> simp_all

/-- Everything but the split of the extensions follows from the segments. -/
theorem decomposes_unique {w : Text} {p q : Parts} (hp : Decomposes w p) (hq : Decomposes w q) : p = q := by
  obtain ⟨hp, rfl⟩ := hp
  obtain ⟨hq, heq⟩ := hq
  have hlang : p.language = q.language := by
    have h1 := language_eq hp
    have h2 := language_eq hq
    rw [heq, h1] at h2
    exact (Language.mk.inj (Except.ok.inj h2))
  have h1 : segs1 p = segs1 q := by
    rw [render_eq p, render_eq q, hlang] at heq
    exact (tail_inj (dashFree_segs1 hq) (dashFree_segs1 hp) (List.append_cancel_left heq)).symm
  obtain ⟨hsc, h2⟩ := option_span h1 hp.script hq.script (head2_not_script hp) (head2_not_script hq)
  obtain ⟨hre, h3⟩ := option_span h2 hp.region hq.region (head3_not_region hp) (head3_not_region hq)
  obtain ⟨hva, h4⟩ := span_unique h3 hp.variants (head4_not_variant hp) hq.variants (head4_not_variant hq)
  have hext : p.extensions = q.extensions := by
    by_cases hA : p.afterVariants = []
    · have hB : q.afterVariants = [] := by rw [← segs4_eq_nil] at hA ⊢; rw [← h4, hA]
      simp only [Parts.afterVariants, List.append_eq_nil_iff] at hA hB
      rw [hA.1, hB.1]
    · have hB : q.afterVariants ≠ [] := by
        intro hh; rw [← segs4_eq_nil] at hA hh; exact hA (h4.trans hh)
      have e1 := extensions_eq hp
      have e2 := extensions_eq hq
      rw [heq, e1, if_neg hA, if_neg hB] at e2
      exact joinDash_extensions_unique hp.extensions hq.extensions (Extensions.mk.inj (Except.ok.inj e2))
  have hpu : p.privateUse = q.privateUse := by
    have : tail p.afterVariants = tail q.afterVariants := by
      rw [← tail_flatMap_subtags, ← tail_flatMap_subtags q.afterVariants]
      exact congrArg tail h4
    simp only [Parts.afterVariants, tail_append, hext] at this
    have := List.append_cancel_left this
    cases hx : p.privateUse <;> cases hy : q.privateUse <;> simp_all [tail]
  cases p; cases q
  simp_all

end Langtag.Proof
