import Verif.Model.Compare
import Verif.Spec.Grammar
import Verif.Spec.Text

/-!
# Vocabulary for statements about the API

Short names for "the constructor accepts", "calling `next` repeatedly gives".
-/

set_option autoImplicit false

namespace Langtag.Spec
open Langtag.Model

/-- `T::new(s)` succeeds. -/
def Accepts (T : Type) [StrNewtype T] (s : Text) : Prop := ∃ t, StrNewtype.new T s = .ok t

/-- `t` was obtained from the checking constructor: `T::new(s) = Ok(t)` for some `s`. -/
def Constructed {T : Type} [StrNewtype T] (t : T) : Prop := ∃ s, StrNewtype.new T s = .ok t

/-- The constructor of `T` accepts exactly the texts matching `g`; it keeps the text on success and gives it back
on failure. -/
def ConstructorIs (T : Type) [StrNewtype T] (g : Abnf) : Prop :=
  ∀ s : Text,
    (g.Matches s → ∃ t, StrNewtype.new T s = .ok t ∧ StrNewtype.str t = s) ∧
    (¬ g.Matches s → StrNewtype.new T s = .error s)

/-- The statement holds for each of the fifteen string types of the crate. -/
def ForEachType (P : (T : Type) → [StrNewtype T] → [Compare T] → Prop) : Prop :=
  P LangTag ∧ P NormalLangTag ∧ P Language ∧ P PrimaryLanguage ∧ P LanguageExtension ∧ P ExtendedLangTag ∧ P Script ∧ P Region ∧
  P Variant ∧ P Variants ∧ P Extension ∧ P Extensions ∧ P ExtensionSubtag ∧ P PrivateUse ∧ P PrivateUseSubtag

/-- The elements of a possibly empty `-`-separated list. -/
def listItems (w : Text) : List Text := if w = [] then [] else subtags w

/-- `u` is some consecutive subtags of `w`, possibly none. -/
def RunOf (u w : Text) : Prop := ∃ pre post, subtags w = pre ++ listItems u ++ post

-- whole subtags only, in their order and letter case
example : RunOf (ascii "Latn-US") (ascii "en-Latn-US") := ⟨[ascii "en"], [], by decide +kernel⟩
example : ¬ RunOf (ascii "Lat") (ascii "en-Latn-US") := by
  rintro ⟨pre, post, h⟩
  have hm : ascii "Lat" ∈ subtags (ascii "en-Latn-US") := by
    rw [h, show listItems (ascii "Lat") = [ascii "Lat"] from by decide +kernel]; simp
  exact absurd hm (by decide +kernel)

/-- The results of `n` calls of `next` on an iterator. -/
def collect {σ α : Type} (next : σ → Rust (Option α × σ)) : Nat → σ → Rust (List (Option α))
  | 0, _ => .ok []
  | n + 1, it => do
    let (x, it) ← next it
    let xs ← collect next n it
    return x :: xs

/-- However many times `next` is called, it returns the items in order and then `None` for ever, and does
not panic. -/
def Enumerates {σ α : Type} (next : σ → Rust (Option α × σ)) (it : σ) (items : List α) : Prop :=
  ∀ n, collect next n it = .ok ((List.range n).map fun k => items[k]?)

/-- Some number of calls of `next` gives `x`. -/
def Yields {σ α : Type} (next : σ → Rust (Option α × σ)) (it : σ) (x : α) : Prop :=
  ∃ n xs, collect next n it = .ok xs ∧ some x ∈ xs

/-- The end of a double-ended iterator a call takes from. -/
inductive Side
  /-- `next` -/
  | front
  /-- `next_back` -/
  | back
  deriving DecidableEq

/-- The results of a history of calls of `next` and `next_back`. -/
def collectSides {σ α : Type} (next nextBack : σ → Rust (Option α × σ)) : List Side → σ → Rust (List (Option α))
  | [], _ => .ok []
  | side :: history, it => do
    let (x, it) ← match side with
      | .front => next it
      | .back => nextBack it
    let xs ← collectSides next nextBack history it
    return x :: xs

/-- What a list gives to a history of calls that take its first or its last remaining item. -/
def takeSides {α : Type} : List Side → List α → List (Option α)
  | [], _ => []
  | .front :: history, items => items.head? :: takeSides history items.tail
  | .back :: history, items => items.getLast? :: takeSides history items.dropLast

-- one from the front, two from the back, and nothing is left
example : takeSides [.front, .back, .back, .front, .back] [1, 2, 3] = [some 1, some 3, some 2, none, none] := rfl

/-- Whatever the history of calls, each call takes the first or the last item not taken yet, and none panics. -/
def EnumeratesBothEnds {σ α : Type} (next nextBack : σ → Rust (Option α × σ)) (it : σ) (items : List α) : Prop :=
  ∀ history, collectSides next nextBack history it = .ok (takeSides history items)

end Langtag.Spec
