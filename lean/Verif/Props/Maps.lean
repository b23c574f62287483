import Verif.Spec.Maps
import Verif.Props.Order

/-! # C61, C62: values of the crate as keys of a hash map and of an ordered map -/

set_option autoImplicit false

namespace Langtag.Props
open Langtag.Spec Langtag.Model Langtag.Proof

section
variable {K V : Type} [StrNewtype K]

/-- The key of a value of the crate: its text in lower case. -/
def keyOf (k : K) : Text := lowerText (StrNewtype.str k)

/-- The value of the first entry with a given key. -/
def assoc (t : Text) : List (K × V) → Option V
  | [] => none
  | (k, v) :: l => if keyOf k = t then some v else assoc t l

theorem assoc_eq_none {t : Text} {l : List (K × V)} (h : ∀ e ∈ l, keyOf e.1 ≠ t) : assoc t l = none := by
  induction l with
  | nil => rfl
  | cons e l ih =>
    rw [assoc, if_neg (h e List.mem_cons_self), ih fun e he => h e (List.mem_cons_of_mem _ he)]

variable [Compare K] [LawfulCompare K]

theorem eq_keyOf (a b : K) : Compare.eq a b = .ok (decide (keyOf a = keyOf b)) := by
  rw [LawfulCompare.eq, caseInsensitiveEq_eq]
  rfl

theorem cmp_keyOf (a b : K) : Compare.cmp a b = .ok (cmpText (keyOf a) (keyOf b)) := cmp_eq_cmpText a b

/-! ## Hash tables -/

theorem find_eq (k : K) (l : List (K × V)) : Table.find k l = .ok (assoc (keyOf k) l) := by
  induction l with
  | nil => rfl
  | cons e l ih =>
    obtain ⟨k', v⟩ := e
    simp only [Table.find, assoc, eq_keyOf, bind, Except.bind, decide_eq_true_eq, eq_comm (a := keyOf k)]
    split
    · rfl
    · exact ih

/-- Distinct keys. -/
def Distinct (l : List (K × V)) : Prop := l.Pairwise fun e f => keyOf e.1 ≠ keyOf f.1

theorem put_eq (k : K) (v : V) (l : List (K × V)) (hd : Distinct l) :
    ∃ l', Table.put k v l = .ok l' ∧ Distinct l' ∧ (∀ e ∈ l', keyOf e.1 = keyOf k ∨ ∃ f ∈ l, keyOf f.1 = keyOf e.1) ∧
      ∀ t, assoc t l' = if t = keyOf k then some v else assoc t l := by
  induction l with
  | nil =>
    refine ⟨[(k, v)], rfl, List.pairwise_singleton _ _, fun e he => Or.inl (by simp_all), fun t => ?_⟩
    simp only [assoc, eq_comm (a := t)]
  | cons e l ih =>
    obtain ⟨k', v'⟩ := e
    rw [Distinct, List.pairwise_cons] at hd
    simp only [Table.put, eq_keyOf, bind, Except.bind]
    by_cases h : keyOf k = keyOf k'
    · simp only [h, decide_true, if_true]
      refine ⟨_, rfl, List.pairwise_cons.mpr hd, ?_, fun t => ?_⟩
      · intro e he
        rcases List.mem_cons.mp he with rfl | he
        · exact Or.inl rfl
        · exact Or.inr ⟨e, List.mem_cons_of_mem _ he, rfl⟩
      · simp only [assoc, eq_comm (a := t)]
        split <;> simp_all
    · simp only [h, decide_false]
      obtain ⟨l', h1, h2, h3, h4⟩ := ih hd.2
      rw [h1]
      refine ⟨(k', v') :: l', rfl, List.pairwise_cons.mpr ⟨fun e he => ?_, h2⟩, ?_, fun t => ?_⟩
      · rcases h3 e he with hk | ⟨f, hf, hk⟩
        · rw [hk]; exact fun hh => h hh.symm
        · rw [← hk]; exact hd.1 f hf
      · intro e he
        rcases List.mem_cons.mp he with rfl | he
        · exact Or.inr ⟨_, List.mem_cons_self, rfl⟩
        · rcases h3 e he with hk | ⟨f, hf, hk⟩
          · exact Or.inl hk
          · exact Or.inr ⟨f, List.mem_cons_of_mem _ hf, hk⟩
      · simp only [assoc, h4]
        by_cases ht : keyOf k' = t
        · subst ht; simp [eq_comm, h]
        · simp [ht]

theorem erase_eq (k : K) (l : List (K × V)) (hd : Distinct l) :
    ∃ l', Table.erase k l = .ok l' ∧ Distinct l' ∧ (∀ e ∈ l', e ∈ l) ∧
      ∀ t, assoc t l' = if t = keyOf k then none else assoc t l := by
  induction l with
  | nil => exact ⟨[], rfl, List.Pairwise.nil, fun _ h => h, fun t => by simp [assoc]⟩
  | cons e l ih =>
    obtain ⟨k', v'⟩ := e
    rw [Distinct, List.pairwise_cons] at hd
    simp only [Table.erase, eq_keyOf, bind, Except.bind]
    by_cases h : keyOf k = keyOf k'
    · simp only [h, decide_true, if_true]
      refine ⟨l, rfl, hd.2, fun _ => List.mem_cons_of_mem _, fun t => ?_⟩
      by_cases ht : t = keyOf k'
      · subst ht
        rw [if_pos rfl, assoc_eq_none fun e he => (hd.1 e he).symm]
      · rw [if_neg ht, assoc, if_neg fun hh => ht hh.symm]
    · simp only [h, decide_false]
      obtain ⟨l', h1, h2, h3, h4⟩ := ih hd.2
      rw [h1]
      refine ⟨(k', v') :: l', rfl, List.pairwise_cons.mpr ⟨fun e he => hd.1 e (h3 e he), h2⟩, ?_, fun t => ?_⟩
      · intro e he
        rcases List.mem_cons.mp he with rfl | he
        · exact List.mem_cons_self
        · exact List.mem_cons_of_mem _ (h3 e he)
      · simp only [assoc, h4]
        by_cases ht : keyOf k' = t
        · subst ht; simp [eq_comm, h]
        · simp [ht]

/-- The bucket of a key. -/
def bucket (B : Buckets) (t : Text) : Nat := B.finish (t.foldl B.hasher.writeU8 B.init)

/-- The table holds the map `m`. -/
def TableHolds (B : Buckets) (s : Table K V) (m : Text → Option V) : Prop :=
  (∀ i, Distinct (s i)) ∧ ∀ t, assoc t (s (bucket B t)) = m t

omit [Compare K] [LawfulCompare K] in
theorem TableHolds.set {B : Buckets} {s : Table K V} {m : Text → Option V} (h : TableHolds B s m) {k : K} {l : List (K × V)} {o : Option V}
    (hd : Distinct l) (hl : ∀ t, assoc t l = if t = keyOf k then o else assoc t (s (bucket B (keyOf k)))) :
    TableHolds B (s.set (bucket B (keyOf k)) l) fun t => if t = keyOf k then o else m t := by
  refine ⟨fun i => ?_, fun t => ?_⟩
  · unfold Table.set
    split
    · exact hd
    · exact h.1 i
  · unfold Table.set
    split
    · next hb => rw [hl, ← hb, h.2]
    · next hb =>
      have : t ≠ keyOf k := fun hh => hb (by rw [hh])
      change _ = if t = keyOf k then o else m t
      rw [if_neg this, h.2]

theorem step_holds {B : Buckets} {s : Table K V} {m : Text → Option V} (h : TableHolds B s m) (op : MapOp K V) :
    ∃ s', Table.step B s op = .ok ((op.apply keyOf m).1, s') ∧ TableHolds B s' (op.apply keyOf m).2 := by
  cases op with
  | get k =>
    refine ⟨s, ?_, h⟩
    simp only [Table.step, hash_eq_foldl, find_eq, bind, Except.bind]
    exact congrArg (fun x => Except.ok (x, s)) (h.2 (keyOf k))
  | insert k v =>
    obtain ⟨l', h1, h2, -, h4⟩ := put_eq k v (s (bucket B (keyOf k))) (h.1 _)
    refine ⟨s.set (bucket B (keyOf k)) l', ?_, h.set h2 h4⟩
    simp only [Table.step, hash_eq_foldl, find_eq, bind, Except.bind]
    rw [bucket, keyOf] at h1
    rw [h1]
    exact congrArg (fun x => Except.ok (x, _)) (h.2 (keyOf k))
  | remove k =>
    obtain ⟨l', h1, h2, -, h4⟩ := erase_eq k (s (bucket B (keyOf k))) (h.1 _)
    refine ⟨s.set (bucket B (keyOf k)) l', ?_, h.set h2 h4⟩
    simp only [Table.step, hash_eq_foldl, find_eq, bind, Except.bind]
    rw [bucket, keyOf] at h1
    rw [h1]
    exact congrArg (fun x => Except.ok (x, _)) (h.2 (keyOf k))

omit [Compare K] [LawfulCompare K] in
theorem history_holds {σ : Type} (step : σ → MapOp K V → Rust (Option V × σ)) (I : σ → (Text → Option V) → Prop)
    (hstep : ∀ s m op, I s m → ∃ s', step s op = .ok ((op.apply keyOf m).1, s') ∧ I s' (op.apply keyOf m).2)
    (s : σ) (m : Text → Option V) (h : I s m) (ops : List (MapOp K V)) :
    ∃ s' m', history step s ops = .ok (MapOp.results keyOf m ops, s') ∧ I s' m' := by
  induction ops generalizing s m with
  | nil => exact ⟨s, m, rfl, h⟩
  | cons op ops ih =>
    obtain ⟨s1, h1, h2⟩ := hstep s m op h
    obtain ⟨s2, m2, h3, h4⟩ := ih s1 _ h2
    refine ⟨s2, m2, ?_, h4⟩
    simp only [history, h1, bind, Except.bind, h3]
    rfl

/-! ## Ordered maps -/

/-- Ascending keys. -/
def Ascending (l : Sorted K V) : Prop := l.Pairwise fun e f => Precedes (keyOf e.1) (keyOf f.1)

theorem not_precedes_self (u : Text) : ¬ Precedes u u := by
  rw [← cmpText_lt_iff, (cmpText_eq_iff u u).mpr rfl]
  decide

omit [Compare K] [LawfulCompare K] in
theorem assoc_none_of_precedes {t : Text} {l : List (K × V)} (h : ∀ e ∈ l, Precedes t (keyOf e.1)) : assoc t l = none :=
  assoc_eq_none fun e he hh => not_precedes_self t (by have := h e he; rwa [hh] at this)

theorem sortedFind_eq (k : K) (l : Sorted K V) (hl : Ascending l) : Sorted.find k l = .ok (assoc (keyOf k) l) := by
  induction l with
  | nil => rfl
  | cons e l ih =>
    obtain ⟨k', v⟩ := e
    rw [Ascending, List.pairwise_cons] at hl
    simp only [Sorted.find, cmp_keyOf, bind, Except.bind]
    split
    · next h =>
      rw [cmpText_gt_iff] at h
      have : keyOf k' ≠ keyOf k := fun hh => not_precedes_self (keyOf k) (by rwa [hh] at h)
      rw [assoc, if_neg this]
      exact ih hl.2
    · next h =>
      rw [cmpText_eq_iff] at h
      rw [assoc, if_pos h.symm]
      rfl
    · next h =>
      rw [cmpText_lt_iff] at h
      rw [assoc_none_of_precedes]
      · rfl
      · intro e he
        rcases List.mem_cons.mp he with rfl | he
        · exact h
        · exact precedes_trans h (hl.1 e he)

theorem sortedPut_eq (k : K) (v : V) (l : Sorted K V) (hl : Ascending l) :
    ∃ l', Sorted.put k v l = .ok l' ∧ Ascending l' ∧ (∀ e ∈ l', keyOf e.1 = keyOf k ∨ ∃ f ∈ l, keyOf f.1 = keyOf e.1) ∧
      ∀ t, assoc t l' = if t = keyOf k then some v else assoc t l := by
  induction l with
  | nil =>
    refine ⟨[(k, v)], rfl, List.pairwise_singleton _ _, fun e he => Or.inl (by simp_all), fun t => ?_⟩
    simp only [assoc, eq_comm (a := t)]
  | cons e l ih =>
    obtain ⟨k', v'⟩ := e
    have hl0 := hl
    rw [Ascending, List.pairwise_cons] at hl
    simp only [Sorted.put, cmp_keyOf, bind, Except.bind]
    split
    · next h =>
      rw [cmpText_gt_iff] at h
      have hne : keyOf k' ≠ keyOf k := fun hh => not_precedes_self (keyOf k) (by rwa [hh] at h)
      obtain ⟨l', h1, h2, h3, h4⟩ := ih hl.2
      rw [h1]
      refine ⟨(k', v') :: l', rfl, List.pairwise_cons.mpr ⟨fun e he => ?_, h2⟩, ?_, fun t => ?_⟩
      · rcases h3 e he with hk | ⟨f, hf, hk⟩
        · rw [hk]; exact h
        · rw [← hk]; exact hl.1 f hf
      · intro e he
        rcases List.mem_cons.mp he with rfl | he
        · exact Or.inr ⟨_, List.mem_cons_self, rfl⟩
        · rcases h3 e he with hk | ⟨f, hf, hk⟩
          · exact Or.inl hk
          · exact Or.inr ⟨f, List.mem_cons_of_mem _ hf, hk⟩
      · simp only [assoc, h4]
        by_cases ht : keyOf k' = t
        · subst ht; simp [hne]
        · simp [ht]
    · next h =>
      rw [cmpText_eq_iff] at h
      refine ⟨_, rfl, List.pairwise_cons.mpr hl, ?_, fun t => ?_⟩
      · intro e he
        rcases List.mem_cons.mp he with rfl | he
        · exact Or.inl h.symm
        · exact Or.inr ⟨e, List.mem_cons_of_mem _ he, rfl⟩
      · simp only [assoc, h, eq_comm (a := t)]
        split <;> simp_all
    · next h =>
      rw [cmpText_lt_iff] at h
      refine ⟨_, rfl, List.pairwise_cons.mpr ⟨fun e he => ?_, hl0⟩, ?_, fun t => ?_⟩
      · rcases List.mem_cons.mp he with rfl | he
        · exact h
        · exact precedes_trans h (hl.1 e he)
      · intro e he
        rcases List.mem_cons.mp he with rfl | he
        · exact Or.inl rfl
        · exact Or.inr ⟨e, he, rfl⟩
      · rw [assoc]
        simp only [eq_comm (a := t)]

theorem sortedErase_eq (k : K) (l : Sorted K V) (hl : Ascending l) :
    ∃ l', Sorted.erase k l = .ok l' ∧ Ascending l' ∧ (∀ e ∈ l', e ∈ l) ∧
      ∀ t, assoc t l' = if t = keyOf k then none else assoc t l := by
  induction l with
  | nil => exact ⟨[], rfl, List.Pairwise.nil, fun _ h => h, fun t => by simp [assoc]⟩
  | cons e l ih =>
    obtain ⟨k', v'⟩ := e
    have hl0 := hl
    rw [Ascending, List.pairwise_cons] at hl
    simp only [Sorted.erase, cmp_keyOf, bind, Except.bind]
    split
    · next h =>
      rw [cmpText_gt_iff] at h
      have hne : keyOf k' ≠ keyOf k := fun hh => not_precedes_self (keyOf k) (by rwa [hh] at h)
      obtain ⟨l', h1, h2, h3, h4⟩ := ih hl.2
      rw [h1]
      refine ⟨(k', v') :: l', rfl, List.pairwise_cons.mpr ⟨fun e he => hl.1 e (h3 e he), h2⟩, ?_, fun t => ?_⟩
      · intro e he
        rcases List.mem_cons.mp he with rfl | he
        · exact List.mem_cons_self
        · exact List.mem_cons_of_mem _ (h3 e he)
      · simp only [assoc, h4]
        by_cases ht : keyOf k' = t
        · subst ht; simp [hne]
        · simp [ht]
    · next h =>
      rw [cmpText_eq_iff] at h
      refine ⟨l, rfl, hl.2, fun _ => List.mem_cons_of_mem _, fun t => ?_⟩
      by_cases ht : t = keyOf k
      · subst ht
        rw [if_pos rfl, assoc_none_of_precedes]
        rw [h]; exact hl.1
      · rw [if_neg ht, assoc, if_neg fun hh => ht (by rw [h, hh])]
    · next h =>
      rw [cmpText_lt_iff] at h
      refine ⟨_, rfl, hl0, fun _ h => h, fun t => ?_⟩
      split
      · next ht =>
        subst ht
        refine assoc_none_of_precedes fun e he => ?_
        rcases List.mem_cons.mp he with rfl | he
        · exact h
        · exact precedes_trans h (hl.1 e he)
      · rfl

/-- The list holds the map `m`. -/
def SortedHolds (s : Sorted K V) (m : Text → Option V) : Prop := Ascending s ∧ ∀ t, assoc t s = m t

theorem sortedStep_holds {s : Sorted K V} {m : Text → Option V} (h : SortedHolds s m) (op : MapOp K V) :
    ∃ s', Sorted.step s op = .ok ((op.apply keyOf m).1, s') ∧ SortedHolds s' (op.apply keyOf m).2 := by
  cases op with
  | get k =>
    refine ⟨s, ?_, h⟩
    simp only [Sorted.step, sortedFind_eq k s h.1, bind, Except.bind]
    exact congrArg (fun x => Except.ok (x, s)) (h.2 (keyOf k))
  | insert k v =>
    obtain ⟨l', h1, h2, -, h4⟩ := sortedPut_eq k v s h.1
    refine ⟨l', ?_, h2, fun t => by rw [h4, h.2]; rfl⟩
    simp only [Sorted.step, sortedFind_eq k s h.1, bind, Except.bind, h1]
    exact congrArg (fun x => Except.ok (x, l')) (h.2 (keyOf k))
  | remove k =>
    obtain ⟨l', h1, h2, -, h4⟩ := sortedErase_eq k s h.1
    refine ⟨l', ?_, h2, fun t => by rw [h4, h.2]; rfl⟩
    simp only [Sorted.step, sortedFind_eq k s h.1, bind, Except.bind, h1]
    exact congrArg (fun x => Except.ok (x, l')) (h.2 (keyOf k))

end

section
variable {K : Type} [StrNewtype K] [Compare K] [LawfulCompare K]

theorem hashMap_history (V : Type) (B : Buckets) (ops : List (MapOp K V)) :
    ∃ t, history (Table.step B) (fun _ => []) ops =
      .ok (MapOp.results (fun k => lowerText (StrNewtype.str k)) (fun _ => none) ops, t) := by
  obtain ⟨s, m, h, -⟩ := history_holds (Table.step B) (TableHolds B) (fun _ _ op h => step_holds h op) (fun _ => []) (fun _ => none)
    ⟨fun _ => List.Pairwise.nil, fun _ => rfl⟩ ops
  exact ⟨s, h⟩

theorem orderedMap_history (V : Type) (ops : List (MapOp K V)) :
    ∃ l : Sorted K V, history Sorted.step [] ops =
        .ok (MapOp.results (fun k => lowerText (StrNewtype.str k)) (fun _ => none) ops, l) ∧
      l.Pairwise fun e f => Compare.cmp e.1 f.1 = .ok .lt := by
  obtain ⟨s, m, h, hs, -⟩ := history_holds Sorted.step SortedHolds (fun _ _ op h => sortedStep_holds h op) [] (fun _ => none)
    ⟨List.Pairwise.nil, fun _ => rfl⟩ ops
  refine ⟨s, h, hs.imp fun {a b} hab => ?_⟩
  rw [cmp_keyOf, (cmpText_lt_iff _ _).mpr hab]

end

/-- C61: whatever the hasher and the buckets, and whatever the history of `get`, `insert` and `remove`, a hash table with keys of
any of the types never panics and answers as a map whose keys are the texts in lower case: a value is found under every spelling
of the key it was inserted with, and under no other. -/
theorem C61_hashMap : ForEachType fun T => ∀ (V : Type) (B : Buckets) (ops : List (MapOp T V)),
    ∃ t, history (Table.step B) (fun _ => []) ops =
      .ok (MapOp.results (fun k => lowerText (StrNewtype.str k)) (fun _ => none) ops, t) :=
  forEachType_of fun _ => fun V B ops => hashMap_history V B ops

/-- C62: the same for an ordered map, whose keys are at all times in strictly ascending order. -/
theorem C62_orderedMap : ForEachType fun T => ∀ (V : Type) (ops : List (MapOp T V)),
    ∃ l : Sorted T V, history Sorted.step [] ops =
        .ok (MapOp.results (fun k => lowerText (StrNewtype.str k)) (fun _ => none) ops, l) ∧
      l.Pairwise fun e f => Compare.cmp e.1 f.1 = .ok .lt :=
  forEachType_of fun _ => fun V ops => orderedMap_history V ops

/-- A history: insert under one spelling, look up and remove under others. -/
def sampleHistory : List (MapOp LangTag Nat) :=
  [.insert ⟨ascii "en-US"⟩ 1, .insert ⟨ascii "fr"⟩ 2, .get ⟨ascii "EN-us"⟩, .insert ⟨ascii "En-Us"⟩ 3, .get ⟨ascii "en"⟩,
    .remove ⟨ascii "EN-US"⟩, .get ⟨ascii "en-US"⟩, .get ⟨ascii "FR"⟩]

example : MapOp.results (fun k => lowerText (StrNewtype.str k)) (fun _ => none) sampleHistory =
    [none, none, some 1, some 1, none, some 3, none, some 2] := by decide +kernel

example : (history (Table.step ⟨⟨Nat, fun n b => 31 * n + b.toNat⟩, 7, (· % 4)⟩) (fun _ => []) sampleHistory).map Prod.fst =
    .ok [none, none, some 1, some 1, none, some 3, none, some 2] := by decide +kernel

example : (history Sorted.step [] sampleHistory).map Prod.fst = .ok [none, none, some 1, some 1, none, some 3, none, some 2] := by
  decide +kernel

end Langtag.Props
