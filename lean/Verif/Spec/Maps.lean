import Verif.Model.Compare
import Verif.Spec.Text

/-!
# Maps whose keys are values of the crate

What users do with `==`, `hash` and `cmp`: keep values as keys of a `std::collections::HashMap` or `BTreeMap`.  The containers are not
in the repository.  Here are small ones that use the comparisons the way the standard library's do: a hash table with chaining
(without resizing), and a list of entries in ascending order (one node of a B-tree).  Beside them, what a map is.
-/

set_option autoImplicit false

namespace Langtag.Spec
open Langtag.Model

/-- An operation on a map.  Each returns the value the map had for the key. -/
inductive MapOp (K V : Type)
  | get (k : K)
  | insert (k : K) (v : V)
  | remove (k : K)

namespace MapOp

/-- A map whose keys are texts written without upper case letters: what an operation returns, and the map after it. -/
def apply {K V : Type} (key : K → Text) (m : Text → Option V) : MapOp K V → Option V × (Text → Option V)
  | get k => (m (key k), m)
  | insert k v => (m (key k), fun t => if t = key k then some v else m t)
  | remove k => (m (key k), fun t => if t = key k then none else m t)

/-- What the operations of a history return, one after the other. -/
def results {K V : Type} (key : K → Text) (m : Text → Option V) : List (MapOp K V) → List (Option V)
  | [] => []
  | op :: ops => (op.apply key m).1 :: results key (op.apply key m).2 ops

end MapOp

/-- What the operations of a history return in a container, and the container after them. -/
def history {σ K V : Type} (step : σ → MapOp K V → Rust (Option V × σ)) : σ → List (MapOp K V) → Rust (List (Option V) × σ)
  | s, [] => .ok ([], s)
  | s, op :: ops => do
      let (r, s) ← step s op
      let (rs, s) ← history step s ops
      return (r :: rs, s)

section Containers
variable {K V : Type} [Compare K]

/-- How keys are assigned to the buckets of a hash table: a hasher, its first state, and the bucket of a final state. -/
structure Buckets where
  hasher : Hasher
  init : hasher.State
  finish : hasher.State → Nat

/-- A hash table: the entries of each bucket. -/
abbrev Table (K V : Type) := Nat → List (K × V)

namespace Table

/-- The value of the first entry whose key is `==` to `k`. -/
def find (k : K) : List (K × V) → Rust (Option V)
  | [] => .ok none
  | (k', v) :: l => do if ← Compare.eq k k' then return some v else find k l

/-- Change the value of the first entry whose key is `==` to `k`, or add one. -/
def put (k : K) (v : V) : List (K × V) → Rust (List (K × V))
  | [] => .ok [(k, v)]
  | (k', v') :: l => do
      if ← Compare.eq k k' then return (k', v) :: l
      else return (k', v') :: (← put k v l)

/-- Remove the first entry whose key is `==` to `k`. -/
def erase (k : K) : List (K × V) → Rust (List (K × V))
  | [] => .ok []
  | (k', v') :: l => do
      if ← Compare.eq k k' then return l
      else return (k', v') :: (← erase k l)

/-- The table with another bucket `i`. -/
def set (t : Table K V) (i : Nat) (l : List (K × V)) : Table K V := fun j => if j = i then l else t j

/-- An operation on a hash table: hash the key, look at one bucket. -/
def step (B : Buckets) (t : Table K V) : MapOp K V → Rust (Option V × Table K V)
  | .get k => do
      let i := B.finish (← Compare.hash B.hasher k B.init)
      return (← find k (t i), t)
  | .insert k v => do
      let i := B.finish (← Compare.hash B.hasher k B.init)
      return (← find k (t i), t.set i (← put k v (t i)))
  | .remove k => do
      let i := B.finish (← Compare.hash B.hasher k B.init)
      return (← find k (t i), t.set i (← erase k (t i)))

end Table

/-- An ordered map: the entries in ascending order. -/
abbrev Sorted (K V : Type) := List (K × V)

namespace Sorted

/-- Go past the smaller keys; the value of the next entry if its key is equal. -/
def find (k : K) : Sorted K V → Rust (Option V)
  | [] => .ok none
  | (k', v) :: l => do
      match ← Compare.cmp k k' with
      | .gt => find k l
      | .eq => return some v
      | .lt => return none

/-- Go past the smaller keys; change the value of the next entry if its key is equal, or add an entry before it. -/
def put (k : K) (v : V) : Sorted K V → Rust (Sorted K V)
  | [] => .ok [(k, v)]
  | (k', v') :: l => do
      match ← Compare.cmp k k' with
      | .gt => return (k', v') :: (← put k v l)
      | .eq => return (k', v) :: l
      | .lt => return (k, v) :: (k', v') :: l

/-- Go past the smaller keys; remove the next entry if its key is equal. -/
def erase (k : K) : Sorted K V → Rust (Sorted K V)
  | [] => .ok []
  | (k', v') :: l => do
      match ← Compare.cmp k k' with
      | .gt => return (k', v') :: (← erase k l)
      | .eq => return l
      | .lt => return (k', v') :: l

/-- An operation on an ordered map. -/
def step (l : Sorted K V) : MapOp K V → Rust (Option V × Sorted K V)
  | .get k => do return (← find k l, l)
  | .insert k v => do return (← find k l, ← put k v l)
  | .remove k => do return (← find k l, ← erase k l)

end Sorted
end Containers

end Langtag.Spec
