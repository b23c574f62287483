import Verif.Spec.RunMaps
import Verif.Props.SourceItems
import Verif.Props.Maps
import Verif.Props.SortedLists

/-!
# C61, C62, C65, of the text of the crate

The keys of the maps and the elements of the lists are compared and hashed by running the text of the crate.
-/

set_option autoImplicit false

namespace Langtag.Props
open Langtag.Model hiding Singleton
open Langtag.Source Langtag.Spec Langtag.Proof

/-- Used in proofs only: the lemmas about maps are about types around a text. -/
@[reducible] def keyNewtype (max : Nat) (T : String) (d : Key max T) : StrNewtype (Key max T) where
  automaton := StrNewtype.automaton LangTag
  newUnchecked s := if h : s.length + 1 ≤ max then ⟨s, h⟩ else d
  str k := k.text

theorem answers_ordering (o : Ordering) : answersOrdering (returns (.ordering o)) = .ok o ∧ answersPartial (returns (.some (.ordering o))) = .ok (some o) := by
  cases o <;> exact ⟨rfl, rfl⟩

theorem keyLawful {max : Nat} {T : String} (hT : T ∈ stringTypes) (d : Key max T) :
    @LawfulCompare (Key max T) (keyNewtype max T d) inferInstance := by
  letI := keyNewtype max T d
  have hc : ∀ a b : Key max T, Compare.cmp a b = .ok (cmpText (lowerText a.text) (lowerText b.text)) := fun a b => by
    show answersOrdering _ = _
    rw [run_cmp hT b.text a.fits]
    exact (answers_ordering _).1
  refine ⟨fun a b => ?_, fun a b => ?_, fun a b => ?_, fun H a st => ?_⟩
  · show answersBool _ = caseInsensitiveEq a.text b.text
    rw [caseInsensitiveEq_eq]
    by_cases h : CaseEq a.text b.text
    · rw [(C34_source T hT max a.text b.text).1 h, decide_eq_true h]; rfl
    · rw [(C34_source T hT max a.text b.text).2 h, decide_eq_false h]; rfl
  · rw [hc]
    exact (caseInsensitiveCmp_eq _ _).symm
  · rw [hc]
    show answersPartial _ = _
    rw [(C36_source T hT max a.text b.text a.fits (cmpText (lowerText a.text) (lowerText b.text)) ?_).2]
    · exact (answers_ordering _).2
    · cases h : cmpText (lowerText a.text) (lowerText b.text) with
      | lt => exact (cmpText_lt_iff _ _).mp h
      | eq => exact (cmpText_eq_iff _ _).mp h
      | gt => exact (cmpText_gt_iff _ _).mp h
  · show Except.map _ (answersHash _) = _
    rw [C37_source T hT max a.text []]
    exact (Proof.hash_eq H a.text st).symm

/-- C61: a hash map whose keys are hashed and compared by the text of the crate answers as a map of the texts in lower case. -/
theorem C61_source : ∀ T ∈ stringTypes, ∀ (max : Nat) (V : Type) (B : Buckets) (ops : List (MapOp (Key max T) V)),
    ∃ t, history (Table.step B) (fun _ => []) ops = .ok (MapOp.results (fun k => lowerText k.text) (fun _ => none) ops, t) := by
  intro T hT max V B ops
  match ops with
  | [] => exact ⟨_, rfl⟩
  | op :: ops =>
    letI := keyNewtype max T (match op with | .get k => k | .insert k _ => k | .remove k => k)
    letI := keyLawful hT (match op with | .get k => k | .insert k _ => k | .remove k => k)
    exact hashMap_history V B (op :: ops)

/-- C62: an ordered map whose keys are compared by the text of the crate answers as a map of the texts in lower case, and its keys ascend. -/
theorem C62_source : ∀ T ∈ stringTypes, ∀ (max : Nat) (V : Type) (ops : List (MapOp (Key max T) V)),
    ∃ l : Sorted (Key max T) V, history Sorted.step [] ops = .ok (MapOp.results (fun k => lowerText k.text) (fun _ => none) ops, l) ∧
      l.Pairwise fun e f => run max [T] "cmp" [tag T e.1.text, tag T f.1.text] = returns (.ordering .lt) := by
  intro T hT max V ops
  match ops with
  | [] => exact ⟨_, rfl, List.Pairwise.nil⟩
  | op :: ops =>
    letI := keyNewtype max T (match op with | .get k => k | .insert k _ => k | .remove k => k)
    letI := keyLawful hT (match op with | .get k => k | .insert k _ => k | .remove k => k)
    obtain ⟨l, h1, h2⟩ := orderedMap_history V (op :: ops)
    refine ⟨l, h1, h2.imp fun {a b} h => ?_⟩
    rw [cmp_keyOf] at h
    rw [run_cmp hT b.1.text a.1.fits]
    exact congrArg (fun o => returns (.ordering o)) (Except.ok.inj h)

/-- A key, from a literal. -/
def aKey (T : String) (s : String) (h : (ascii s).length + 1 ≤ 100 := by decide +kernel) : Key 100 T := ⟨ascii s, h⟩

example : ∃ l : Sorted (Key 100 "LangTag") Nat,
    history Sorted.step [] [.insert (aKey _ "en-US") 1, .insert (aKey _ "fr") 2, .get (aKey _ "EN-us"), .insert (aKey _ "En-Us") 3, .get (aKey _ "en"),
      .remove (aKey _ "EN-US"), .get (aKey _ "en-US"), .get (aKey _ "FR")] = .ok ([none, none, some 1, some 1, none, some 3, none, some 2], l) := by
  obtain ⟨l, h, _⟩ := C62_source "LangTag" (by simp [stringTypes]) 100 Nat
    [.insert (aKey _ "en-US") 1, .insert (aKey _ "fr") 2, .get (aKey _ "EN-us"), .insert (aKey _ "En-Us") 3, .get (aKey _ "en"),
      .remove (aKey _ "EN-US"), .get (aKey _ "en-US"), .get (aKey _ "FR")]
  exact ⟨l, h.trans (congrArg (fun r => Except.ok (r, l)) (by decide +kernel))⟩

theorem cmp_key {max : Nat} {T : String} (hT : T ∈ stringTypes) (a b : Key max T) (o : Ordering) :
    Compare.cmp a b = .ok o ↔ run max [T] "cmp" [tag T a.text, tag T b.text] = returns (.ordering o) := by
  have : Compare.cmp a b = .ok (cmpText (lowerText a.text) (lowerText b.text)) := by
    show answersOrdering _ = _
    rw [run_cmp hT b.text a.fits]
    exact (answers_ordering _).1
  rw [this, run_cmp hT b.text a.fits]
  exact ⟨fun h => congrArg (fun o => returns (.ordering o)) (Except.ok.inj h), fun h => congrArg Except.ok (ordering_inj h)⟩

theorem eq_key {max : Nat} {T : String} (hT : T ∈ stringTypes) (a b : Key max T) (v : Bool) :
    Compare.eq a b = .ok v ↔ run max [T] "eq" [tag T a.text, tag T b.text] = returns (.bool v) := by
  show answersBool _ = _ ↔ _
  by_cases h : CaseEq a.text b.text
  · rw [(C34_source T hT max a.text b.text).1 h]; simp [answersBool]
  · rw [(C34_source T hT max a.text b.text).2 h]; simp [answersBool]

theorem runSorted_iff {max : Nat} {T : String} (hT : T ∈ stringTypes) (l : List (Key max T)) : RunSorted max T l ↔ IsSorted l := by
  refine forall_congr' fun i => forall_congr' fun a => forall_congr' fun b => forall_congr' fun _ => forall_congr' fun _ => ?_
  refine ⟨fun h => ?_, fun ⟨o, h, hne⟩ e => hne ?_⟩
  · refine ⟨cmpText (lowerText a.text) (lowerText b.text), (cmp_key hT a b _).mpr (run_cmp hT b.text a.fits), fun e => h ?_⟩
    rw [run_cmp hT b.text a.fits, e]
  · exact ordering_inj (((cmp_key hT a b o).mp h).symm.trans e)

/-- C65: sorting, removing duplicates and searching with the comparisons of the text of the crate. -/
theorem C65_source : ∀ T ∈ stringTypes, ∀ (max : Nat) (xs : List (Key max T)),
    (∃ ys, sort xs = .ok ys ∧ ys.Perm xs ∧ RunSorted max T ys) ∧
    (∀ ys, xs.Perm ys → RunSorted max T xs → RunSorted max T ys → xs.length = ys.length ∧
      ∀ (i : Nat) x y, xs[i]? = some x → ys[i]? = some y → run max [T] "eq" [tag T x.text, tag T y.text] = returns (.bool true)) ∧
    (RunSorted max T xs → ∃ ys, dedup xs = .ok ys ∧ ys.Sublist xs ∧
      (ys.Pairwise fun a b => run max [T] "eq" [tag T a.text, tag T b.text] = returns (.bool false) ∧
        run max [T] "cmp" [tag T a.text, tag T b.text] = returns (.ordering .lt)) ∧
      ∀ x ∈ xs, ∃ y ∈ ys, run max [T] "eq" [tag T x.text, tag T y.text] = returns (.bool true)) ∧
    (∀ (mid : Nat → Nat → Nat) (k : Key max T), RunSorted max T xs →
      (∃ i x, search mid xs k 0 xs.length = .ok (.ok i) ∧ xs[i]? = some x ∧ run max [T] "eq" [tag T x.text, tag T k.text] = returns (.bool true)) ∨
      (∃ i, search mid xs k 0 xs.length = .ok (.error i) ∧ i ≤ xs.length ∧
        (∀ x ∈ xs.take i, run max [T] "cmp" [tag T x.text, tag T k.text] = returns (.ordering .lt)) ∧
        ∀ x ∈ xs.drop i, run max [T] "cmp" [tag T x.text, tag T k.text] = returns (.ordering .gt))) := by
  intro T hT max xs
  have key : ∀ d : Key max T, _ := fun d => by
    letI := keyNewtype max T d
    letI := keyLawful hT d
    have h1 := sort_sorted xs
    have h2 := sort_unique xs
    have h3 := dedup_sorted xs
    have h4 := fun mid => search_sorted mid xs
    simp only [← runSorted_iff hT, eq_key hT, cmp_key hT] at h1 h2 h3 h4
    exact And.intro h1 (And.intro h2 (And.intro h3 h4))
  cases xs with
  | nil =>
    refine ⟨⟨[], rfl, .refl _, fun i a b h => by cases h⟩, fun ys hp _ _ => ⟨hp.length_eq, fun i x y h => by cases h⟩,
      fun _ => ⟨[], rfl, .refl _, .nil, fun x h => by cases h⟩, fun mid k => (key k).2.2.2 mid k⟩
  | cons d l => exact key d

example : ∃ ys, sort [aKey "Region" "us", aKey _ "GB", aKey _ "US"] = .ok ys ∧ ys.Perm [aKey "Region" "us", aKey _ "GB", aKey _ "US"] ∧
    RunSorted 100 "Region" ys := (C65_source "Region" (by simp [stringTypes]) 100 _).1

end Langtag.Props
