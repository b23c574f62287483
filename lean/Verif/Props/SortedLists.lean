import Verif.Spec.SortedLists
import Verif.Props.Maps

/-! # C65: sorting, removing duplicates and binary search -/

set_option autoImplicit false

namespace Langtag.Props
open Langtag.Spec Langtag.Model Langtag.Proof

/-- `u` is equal to `v` or comes before it. -/
def Le (u v : Text) : Prop := u = v ∨ Precedes u v

theorem not_gt_iff (u v : Text) : cmpText u v ≠ .gt ↔ Le u v := by
  unfold Le
  rw [← cmpText_eq_iff, ← cmpText_lt_iff]
  cases cmpText u v <;> simp

theorem le_trans {u v w : Text} (h1 : Le u v) (h2 : Le v w) : Le u w := by
  rcases h1 with rfl | h1
  · exact h2
  · rcases h2 with rfl | h2
    · exact Or.inr h1
    · exact Or.inr (precedes_trans h1 h2)

theorem not_precedes_swap {u v : Text} (h : Precedes u v) : ¬ Precedes v u := by
  intro h'
  rw [← cmpText_lt_iff] at h
  rw [← cmpText_gt_iff, h] at h'
  cases h'

theorem le_antisymm {u v : Text} (h1 : Le u v) (h2 : Le v u) : u = v := by
  rcases h1 with rfl | h1
  · rfl
  · rcases h2 with rfl | h2
    · rfl
    · exact absurd h2 (not_precedes_swap h1)

section
variable {K : Type} [StrNewtype K] [Compare K] [LawfulCompare K]

theorem isSorted_iff (l : List K) : IsSorted l ↔ l.Pairwise fun a b => Le (keyOf a) (keyOf b) := by
  have h1 : IsSorted l ↔ ∀ i a b, l[i]? = some a → l[i + 1]? = some b → Le (keyOf a) (keyOf b) := by
    unfold IsSorted
    simp only [cmp_keyOf, ← not_gt_iff]
    refine forall_congr' fun i => forall_congr' fun a => forall_congr' fun b => forall_congr' fun _ => forall_congr' fun _ => ?_
    constructor
    · rintro ⟨o, h, hne⟩
      exact Except.ok.inj h ▸ hne
    · exact fun h => ⟨_, rfl, h⟩
  rw [h1]
  clear h1
  induction l with
  | nil => simp
  | cons a l ih =>
    rw [List.pairwise_cons]
    constructor
    · intro h
      have hl := ih.mp fun i b c hb hc => h (i + 1) b c (by simpa using hb) (by simpa using hc)
      refine ⟨?_, hl⟩
      cases l with
      | nil => simp
      | cons b l =>
        have hab := h 0 a b rfl rfl
        intro c hc
        rcases List.mem_cons.mp hc with rfl | hc
        · exact hab
        · exact le_trans hab ((List.pairwise_cons.mp hl).1 c hc)
    · rintro ⟨ha, hl⟩ i b c hb hc
      cases i with
      | zero =>
        simp only [List.getElem?_cons_zero, Option.some.injEq] at hb
        subst hb
        exact ha c (List.mem_of_getElem? (by simpa using hc))
      | succ i => exact ih.mpr hl i b c (by simpa using hb) (by simpa using hc)

theorem insertSorted_eq (k : K) (l : List K) (hl : l.Pairwise fun a b => Le (keyOf a) (keyOf b)) :
    ∃ l', insertSorted k l = .ok l' ∧ l'.Perm (k :: l) ∧ l'.Pairwise fun a b => Le (keyOf a) (keyOf b) := by
  induction l with
  | nil => exact ⟨[k], rfl, List.Perm.refl _, by simp⟩
  | cons a l ih =>
    rw [insertSorted, cmp_keyOf]
    have hl' := List.pairwise_cons.mp hl
    obtain ⟨l', h1, h2, h3⟩ := ih hl'.2
    have other (hne : cmpText (keyOf k) (keyOf a) ≠ .lt) : (a :: l').Perm (k :: a :: l) ∧
        (a :: l').Pairwise fun a b => Le (keyOf a) (keyOf b) := by
      have hak : Le (keyOf a) (keyOf k) := by
        rw [← not_gt_iff, ← cmpText_swap]
        revert hne
        cases cmpText (keyOf k) (keyOf a) <;> simp
      refine ⟨(h2.cons a).trans (List.Perm.swap _ _ _), List.pairwise_cons.mpr ⟨fun c hc => ?_, h3⟩⟩
      rcases List.mem_cons.mp (h2.mem_iff.mp hc) with rfl | hc
      · exact hak
      · exact hl'.1 c hc
    cases hc : cmpText (keyOf k) (keyOf a) with
    | lt =>
      refine ⟨k :: a :: l, rfl, List.Perm.refl _, List.pairwise_cons.mpr ⟨fun c hm => ?_, hl⟩⟩
      have hka : Le (keyOf k) (keyOf a) := Or.inr ((cmpText_lt_iff _ _).mp hc)
      rcases List.mem_cons.mp hm with rfl | hm
      · exact hka
      · exact le_trans hka (hl'.1 c hm)
    | eq => exact ⟨a :: l', by rw [h1]; rfl, other (by simp [hc])⟩
    | gt => exact ⟨a :: l', by rw [h1]; rfl, other (by simp [hc])⟩

theorem sort_eq (l : List K) : ∃ l', sort l = .ok l' ∧ l'.Perm l ∧ l'.Pairwise fun a b => Le (keyOf a) (keyOf b) := by
  induction l with
  | nil => exact ⟨[], rfl, List.Perm.refl _, List.Pairwise.nil⟩
  | cons a l ih =>
    obtain ⟨l', h1, h2, h3⟩ := ih
    obtain ⟨l'', h4, h5, h6⟩ := insertSorted_eq a l' h3
    refine ⟨l'', ?_, h5.trans (h2.cons a), h6⟩
    rw [sort, h1]
    exact h4

theorem dedupAfter_eq (last : K) (l : List K) (hl : (last :: l).Pairwise fun a b => Le (keyOf a) (keyOf b)) :
    ∃ l', dedupAfter last l = .ok l' ∧ l'.Sublist l ∧ (last :: l').Pairwise (fun a b => Precedes (keyOf a) (keyOf b)) ∧
      ∀ a ∈ l, keyOf a = keyOf last ∨ ∃ b ∈ l', keyOf b = keyOf a := by
  induction l generalizing last with
  | nil => exact ⟨[], rfl, List.Sublist.refl _, by simp, by simp⟩
  | cons a l ih =>
    rw [dedupAfter, eq_keyOf]
    obtain ⟨hhead, htail⟩ := List.pairwise_cons.mp hl
    by_cases h : keyOf a = keyOf last
    · have : (last :: l).Pairwise fun a b => Le (keyOf a) (keyOf b) :=
        List.pairwise_cons.mpr ⟨fun c hc => hhead c (List.mem_cons_of_mem _ hc), (List.pairwise_cons.mp htail).2⟩
      obtain ⟨l', h1, h2, h3, h4⟩ := ih last this
      refine ⟨l', ?_, h2.cons _, h3, ?_⟩
      · simp only [h, decide_true]
        exact h1
      · intro b hb
        rcases List.mem_cons.mp hb with rfl | hb
        · exact Or.inl h
        · exact h4 b hb
    · obtain ⟨l', h1, h2, h3, h4⟩ := ih a htail
      refine ⟨a :: l', ?_, h2.cons_cons _, ?_, ?_⟩
      · simp only [h, decide_false, h1]
        rfl
      · have hla : Precedes (keyOf last) (keyOf a) := (hhead a List.mem_cons_self).resolve_left (Ne.symm h)
        refine List.pairwise_cons.mpr ⟨fun c hc => ?_, h3⟩
        rcases List.mem_cons.mp hc with rfl | hc
        · exact hla
        · exact precedes_trans hla ((List.pairwise_cons.mp h3).1 c hc)
      · intro b hb
        rcases List.mem_cons.mp hb with rfl | hb
        · exact Or.inr ⟨b, List.mem_cons_self, rfl⟩
        · rcases h4 b hb with h | ⟨c, hc, h⟩
          · exact Or.inr ⟨a, List.mem_cons_self, h.symm⟩
          · exact Or.inr ⟨c, List.mem_cons_of_mem _ hc, h⟩

omit [StrNewtype K] [Compare K] [LawfulCompare K] in
theorem pairwise_getElem? {l : List K} {R : K → K → Prop} (h : l.Pairwise R) {i j : Nat} {a b : K} (hij : i < j)
    (ha : l[i]? = some a) (hb : l[j]? = some b) : R a b := by
  obtain ⟨hi, rfl⟩ := List.getElem?_eq_some_iff.mp ha
  obtain ⟨hj, rfl⟩ := List.getElem?_eq_some_iff.mp hb
  exact List.pairwise_iff_getElem.mp h i j hi hj hij

/-- What `search` returns when the elements before `lo` are less than `k` and those from `hi` on are greater. -/
theorem search_eq (mid : Nat → Nat → Nat) (l : List K) (k : K) (hl : l.Pairwise fun a b => Le (keyOf a) (keyOf b)) (lo hi : Nat)
    (hlo : lo ≤ hi) (hhi : hi ≤ l.length)
    (hbelow : ∀ i a, i < lo → l[i]? = some a → Precedes (keyOf a) (keyOf k))
    (habove : ∀ i a, hi ≤ i → l[i]? = some a → Precedes (keyOf k) (keyOf a)) :
    (∃ i a, search mid l k lo hi = .ok (.ok i) ∧ l[i]? = some a ∧ keyOf a = keyOf k) ∨
    (∃ i, search mid l k lo hi = .ok (.error i) ∧ i ≤ l.length ∧ (∀ j a, j < i → l[j]? = some a → Precedes (keyOf a) (keyOf k)) ∧
      (∀ j a, i ≤ j → l[j]? = some a → Precedes (keyOf k) (keyOf a))) := by
  rw [search]
  split
  · rename_i h
    have hp := probe_bounds mid h
    have hp' : probe mid lo hi < l.length := by omega
    have hg : l[probe mid lo hi]? = some l[probe mid lo hi] := List.getElem?_eq_getElem hp'
    simp only [hg, cmp_keyOf]
    cases hc : cmpText (keyOf l[probe mid lo hi]) (keyOf k) with
    | eq => exact Or.inl ⟨_, _, rfl, hg, (cmpText_eq_iff _ _).mp hc⟩
    | lt =>
      have hlt := (cmpText_lt_iff _ _).mp hc
      refine search_eq mid l k hl (probe mid lo hi + 1) hi (by omega) hhi (fun i a hi ha => ?_) habove
      rcases Nat.lt_or_eq_of_le (Nat.le_of_lt_succ hi) with hi | rfl
      · rcases pairwise_getElem? hl hi ha hg with h | h
        · rw [h]; exact hlt
        · exact precedes_trans h hlt
      · rw [hg] at ha
        exact Option.some.inj ha ▸ hlt
    | gt =>
      have hgt := (cmpText_gt_iff _ _).mp hc
      refine search_eq mid l k hl lo (probe mid lo hi) (by omega) (by omega) hbelow (fun i a hi ha => ?_)
      rcases Nat.lt_or_eq_of_le hi with hi | rfl
      · rcases pairwise_getElem? hl hi hg ha with h | h
        · rw [← h]; exact hgt
        · exact precedes_trans hgt h
      · rw [hg] at ha
        exact Option.some.inj ha ▸ hgt
  · have : lo = hi := by omega
    subst this
    exact Or.inr ⟨lo, rfl, hhi, hbelow, habove⟩
termination_by hi - lo

end

section
variable {K : Type} [StrNewtype K] [Compare K] [LawfulCompare K]

theorem sort_sorted : ∀ xs : List K, ∃ ys, sort xs = .ok ys ∧ ys.Perm xs ∧ IsSorted ys := by
  intro xs
  obtain ⟨ys, h1, h2, h3⟩ := sort_eq xs
  exact ⟨ys, h1, h2, (isSorted_iff ys).mpr h3⟩

theorem sort_unique : ∀ xs ys : List K, xs.Perm ys → IsSorted xs → IsSorted ys →
    xs.length = ys.length ∧ ∀ (i : Nat) x y, xs[i]? = some x → ys[i]? = some y → Compare.eq x y = .ok true := by
  intro xs ys hp hx hy
  refine ⟨hp.length_eq, fun i x y h1 h2 => ?_⟩
  rw [isSorted_iff] at hx hy
  have he : xs.map keyOf = ys.map keyOf := by
    refine List.Perm.eq_of_pairwise (le := Le) (fun _ _ _ _ => le_antisymm) ?_ ?_ (hp.map _)
    · exact List.pairwise_map.mpr hx
    · exact List.pairwise_map.mpr hy
  have := congrArg (·[i]?) he
  simp only [List.getElem?_map, h1, h2, Option.map_some, Option.some.injEq] at this
  rw [eq_keyOf, decide_eq_true this]

theorem dedup_sorted : ∀ xs : List K, IsSorted xs → ∃ ys, dedup xs = .ok ys ∧ ys.Sublist xs ∧
    (ys.Pairwise fun a b => Compare.eq a b = .ok false ∧ Compare.cmp a b = .ok .lt) ∧
    ∀ x ∈ xs, ∃ y ∈ ys, Compare.eq x y = .ok true := by
  intro xs hx
  rw [isSorted_iff] at hx
  cases xs with
  | nil => exact ⟨[], rfl, List.Sublist.refl _, by simp, by simp⟩
  | cons a l =>
    obtain ⟨l', h1, h2, h3, h4⟩ := dedupAfter_eq a l hx
    refine ⟨a :: l', by rw [dedup, h1]; rfl, h2.cons_cons _, h3.imp fun {b c} hbc => ?_, fun x hx => ?_⟩
    · have hne : keyOf b ≠ keyOf c := fun h => not_precedes_swap (h ▸ hbc : Precedes (keyOf c) (keyOf c)) (h ▸ hbc)
      rw [eq_keyOf, decide_eq_false hne, cmp_keyOf, (cmpText_lt_iff _ _).mpr hbc]
      exact ⟨rfl, rfl⟩
    · simp only [eq_keyOf, Except.ok.injEq, decide_eq_true_eq]
      rcases List.mem_cons.mp hx with rfl | hx
      · exact ⟨x, List.mem_cons_self, rfl⟩
      · rcases h4 x hx with h | ⟨b, hb, h⟩
        · exact ⟨a, List.mem_cons_self, h⟩
        · exact ⟨b, List.mem_cons_of_mem _ hb, h.symm⟩

theorem search_sorted : ∀ (mid : Nat → Nat → Nat) (xs : List K) (k : K), IsSorted xs →
    (∃ i x, search mid xs k 0 xs.length = .ok (.ok i) ∧ xs[i]? = some x ∧ Compare.eq x k = .ok true) ∨
    (∃ i, search mid xs k 0 xs.length = .ok (.error i) ∧ i ≤ xs.length ∧ (∀ x ∈ xs.take i, Compare.cmp x k = .ok .lt) ∧
      ∀ x ∈ xs.drop i, Compare.cmp x k = .ok .gt) := by
  intro mid xs k hx
  rw [isSorted_iff] at hx
  rcases search_eq mid xs k hx 0 xs.length (Nat.zero_le _) (Nat.le_refl _) (fun i _ h => absurd h (Nat.not_lt_zero i))
    (fun i a hi ha => by rw [List.getElem?_eq_none hi] at ha; cases ha) with ⟨i, a, h1, h2, h3⟩ | ⟨i, h1, h2, h3, h4⟩
  · exact Or.inl ⟨i, a, h1, h2, by rw [eq_keyOf, decide_eq_true h3]⟩
  · refine Or.inr ⟨i, h1, h2, fun x hx => ?_, fun x hx => ?_⟩
    · obtain ⟨j, hj, rfl⟩ := List.mem_take_iff_getElem.mp hx
      rw [cmp_keyOf, (cmpText_lt_iff _ _).mpr (h3 j _ (by omega) (List.getElem?_eq_getElem (by omega)))]
    · obtain ⟨j, hj, rfl⟩ := List.mem_drop_iff_getElem.mp hx
      rw [cmp_keyOf, (cmpText_gt_iff _ _).mpr (h4 (i + j) _ (by omega) (List.getElem?_eq_getElem (by omega)))]

end

/-- C65: sorting never panics, and gives a permutation in ascending order. -/
theorem C65_sort : ForEachType fun T => ∀ xs : List T, ∃ ys, sort xs = .ok ys ∧ ys.Perm xs ∧ IsSorted ys :=
  forEachType_of fun _ => sort_sorted

/-- C65: however a list is sorted, and in whatever order it was, the results are equal one by one. -/
theorem C65_sortUnique : ForEachType fun T => ∀ xs ys : List T, xs.Perm ys → IsSorted xs → IsSorted ys →
    xs.length = ys.length ∧ ∀ (i : Nat) x y, xs[i]? = some x → ys[i]? = some y → Compare.eq x y = .ok true :=
  forEachType_of fun _ => sort_unique

/-- C65: removing consecutive duplicates from a sorted list never panics, drops elements only, leaves no two equal ones, and one for
each of the original. -/
theorem C65_dedup : ForEachType fun T => ∀ xs : List T, IsSorted xs → ∃ ys, dedup xs = .ok ys ∧ ys.Sublist xs ∧
    (ys.Pairwise fun a b => Compare.eq a b = .ok false ∧ Compare.cmp a b = .ok .lt) ∧
    ∀ x ∈ xs, ∃ y ∈ ys, Compare.eq x y = .ok true :=
  forEachType_of fun _ => dedup_sorted

/-- C65: binary search in a sorted list never panics, whichever positions it looks at.  It returns the position of an element equal to
the one searched, or there is none, and it returns the position up to which the elements are less and from which they are greater. -/
theorem C65_search : ForEachType fun T => ∀ (mid : Nat → Nat → Nat) (xs : List T) (k : T), IsSorted xs →
    (∃ i x, search mid xs k 0 xs.length = .ok (.ok i) ∧ xs[i]? = some x ∧ Compare.eq x k = .ok true) ∨
    (∃ i, search mid xs k 0 xs.length = .ok (.error i) ∧ i ≤ xs.length ∧ (∀ x ∈ xs.take i, Compare.cmp x k = .ok .lt) ∧
      ∀ x ∈ xs.drop i, Compare.cmp x k = .ok .gt) :=
  forEachType_of fun _ => search_sorted

/-- `fr`, `EN-us`, `en`, `en-US` -/
def sampleTags : List LangTag := [⟨ascii "fr"⟩, ⟨ascii "EN-us"⟩, ⟨ascii "en"⟩, ⟨ascii "en-US"⟩]

-- sorting, removing duplicates and searching
example : sort sampleTags = .ok [⟨ascii "en-US"⟩, ⟨ascii "EN-us"⟩, ⟨ascii "en"⟩, ⟨ascii "fr"⟩] := by decide +kernel
example : dedup [⟨ascii "en-US"⟩, ⟨ascii "EN-us"⟩, ⟨ascii "en"⟩, (⟨ascii "fr"⟩ : LangTag)] =
    .ok [⟨ascii "en-US"⟩, ⟨ascii "en"⟩, ⟨ascii "fr"⟩] := by decide +kernel
example : ∃ ys, sort sampleTags = .ok ys ∧ ys.Perm sampleTags ∧ IsSorted ys := C65_sort.1 sampleTags

end Langtag.Props
