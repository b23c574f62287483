import Verif.Spec.Run

/-!
# The methods every iterator has

`core::iter::Iterator` and `DoubleEndedIterator` provide them, written with nothing but `next` and `next_back`, which are executed from the text of the
crate.  `for` is `fold`; `rev()` exchanges `next` and `next_back`; `size_hint`, which the crate does not redefine, is `(0, None)` and promises nothing.
-/

set_option autoImplicit false

namespace Langtag.Spec
open Langtag.Source

/-- What a call of `next` gave: the item, if any, and the iterator afterwards; `none` if it panicked or did not end. -/
def stepOf : Option Outcome → Option (Option Val × Val)
  | some (.returns (.ctor ["Option"] "Some" [x]) [it]) => some (some x, it)
  | some (.returns (.ctor ["Option"] "None" []) [it]) => some (none, it)
  | _ => none

/-- The call of `next`, or of `next_back`, of the iterator type `I`. -/
def step (max : Nat) (I f : String) (it : Val) : Option (Option Val × Val) := stepOf (run max [I] f [it])

section
variable (next : Val → Option (Option Val × Val))

/-- `Iterator::fold` (core): `while let Some(x) = self.next() { acc = g(acc, x) }`, and the iterator afterwards. -/
def fold {A : Type} (g : A → Val → A) (acc : A) (it : Val) : Option (A × Val) := do
  match ← next it with
  | (some x, it) => fold g (g acc x) it
  | (none, it) => return (acc, it)
partial_fixpoint

/-- `Iterator::find` (core): `while let Some(x) = self.next() { if p(&x) { return Some(x) } }`.  `position`, `any` and `all` stop at the same place. -/
def find (p : Val → Bool) (it : Val) : Option (Option Val × Val) := do
  match ← next it with
  | (some x, it) => if p x then return (some x, it) else find p it
  | (none, it) => return (none, it)
partial_fixpoint

/-- `Iterator::nth` (core): `for _ in 0..n { self.next()?; }`, then `self.next()`. -/
def nth : Nat → Val → Option (Option Val × Val)
  | 0, it => next it
  | n + 1, it => do
    match ← next it with
    | (some _, it) => nth n it
    | (none, it) => return (none, it)

/-- `Iterator::count` (core): `self.fold(0, |n, _| n + 1)`. -/
def count (it : Val) : Option Nat := (fold next (fun n _ => n + 1) 0 it).map (·.1)

/-- `Iterator::last` (core): `self.fold(None, |_, x| Some(x))`. -/
def last (it : Val) : Option (Option Val) := (fold next (fun _ x => some x) none it).map (·.1)

/-- `Iterator::collect::<Vec<_>>` (alloc): pushes what `next` gives. -/
def collectVec (it : Val) : Option (List Val) := (fold next (fun xs x => xs ++ [x]) [] it).map (·.1)
end

/-- The methods that are written with this `next` see exactly these items, in this order, and leave an iterator with those they did not take. -/
structure SeesItems (next : Val → Option (Option Val × Val)) (it : Val) (T : String) (items : List Text) (Left : Val → List Text → Prop) : Prop where
  /-- a `for` loop that is not left, and whatever accumulates -/
  fold : ∀ (A : Type) (g : A → Val → A) (a : A), ∃ it', fold next g a it = some ((items.map (tag T)).foldl g a, it') ∧ Left it' []
  find : ∀ p : Val → Bool, ∃ it', find next p it = some ((items.map (tag T)).find? p, it') ∧
    Left it' (items.drop ((items.map (tag T)).findIdx p + 1))
  nth : ∀ n, ∃ it', nth next n it = some (items[n]?.map (tag T), it') ∧ Left it' (items.drop (n + 1))
  count : count next it = some items.length
  last : last next it = some (items.getLast?.map (tag T))
  collect : collectVec next it = some (items.map (tag T))

/-- The iterators with one end, and the type of their items. -/
def iterators : List (String × String) :=
  [("PrivateUseIter", "PrivateUseSubtag"), ("ExtensionIter", "ExtensionSubtag"), ("LanguageExtensionIter", "ExtendedLangTag"), ("ExtensionsIter", "Extension")]

end Langtag.Spec
