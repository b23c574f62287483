import Verif.Model.Compare
import Verif.Spec.Text

/-!
# Sorted lists of values of the crate

What users do with `cmp` and `==`: `slice::sort`, `Vec::dedup`, `slice::binary_search`.  These are not in the repository.  Here are
small versions that use the comparisons the way the standard library's do.
-/

set_option autoImplicit false

namespace Langtag.Spec
open Langtag.Model

variable {K : Type} [Compare K]

/-- No element is greater than the next one, as `slice::is_sorted` checks. -/
def IsSorted (l : List K) : Prop :=
  ∀ i a b, l[i]? = some a → l[i + 1]? = some b → ∃ o, Compare.cmp a b = .ok o ∧ o ≠ .gt

/-- Insert after the elements that are less than or equal. -/
def insertSorted (k : K) : List K → Rust (List K)
  | [] => .ok [k]
  | a :: l => do
      match ← Compare.cmp k a with
      | .lt => return k :: a :: l
      | _ => return a :: (← insertSorted k l)

/-- Insertion sort. -/
def sort : List K → Rust (List K)
  | [] => .ok []
  | a :: l => do insertSorted a (← sort l)

/-- Drop the elements that are `==` to the last one kept, `Vec::dedup`; `last` is that one. -/
def dedupAfter (last : K) : List K → Rust (List K)
  | [] => .ok []
  | a :: l => do
      if ← Compare.eq a last then dedupAfter last l
      else return a :: (← dedupAfter a l)

/-- `Vec::dedup`: of consecutive `==` elements keep the first. -/
def dedup : List K → Rust (List K)
  | [] => .ok []
  | a :: l => do return a :: (← dedupAfter a l)

/-- The position to look at between `lo` and `hi`: the one `mid` chooses if it lies between them. -/
def probe (mid : Nat → Nat → Nat) (lo hi : Nat) : Nat := if lo ≤ mid lo hi ∧ mid lo hi < hi then mid lo hi else lo

theorem probe_bounds (mid : Nat → Nat → Nat) {lo hi : Nat} (h : lo < hi) : lo ≤ probe mid lo hi ∧ probe mid lo hi < hi := by
  unfold probe; split <;> omega

/-- `slice::binary_search` between `lo` and `hi`, with any choice of the positions to look at: `Ok` of the position of an equal
element, or `Err` of the position to insert at. -/
def search (mid : Nat → Nat → Nat) (l : List K) (k : K) (lo hi : Nat) : Rust (Except Nat Nat) :=
  if h : lo < hi then
    have := probe_bounds mid h
    match l[probe mid lo hi]? with
    | none => .error .index
    | some a => do
        match ← Compare.cmp a k with
        | .eq => return .ok (probe mid lo hi)
        | .lt => search mid l k (probe mid lo hi + 1) hi
        | .gt => search mid l k lo (probe mid lo hi)
  else return .error lo
termination_by hi - lo

end Langtag.Spec
