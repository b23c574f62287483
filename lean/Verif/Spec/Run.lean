import Verif.Source.Run
import Verif.Spec.Api

/-!
# Vocabulary for statements about the text of the crate

These statements mention the text of `/repo/src` (`run` reads it and executes it) and the specification, and nothing of the model.
-/

set_option autoImplicit false

namespace Langtag.Spec
open Langtag.Source

/-- The call ends, without a panic, with this value. -/
abbrev returns (v : Val) : Option Outcome := some (.returns v [])

/-- `Some(v)`, where `v` has the type `T` and this text, or `None`. -/
def optTag (T : String) : Option Text → Val
  | some s => .some (tag T s)
  | none => .none

/-- The fifteen types around a text. -/
def stringTypes : List String :=
  ["LangTag", "NormalLangTag", "Language", "PrimaryLanguage", "LanguageExtension", "ExtendedLangTag", "Script", "Region", "Variant", "Variants",
   "Extension", "Extensions", "ExtensionSubtag", "PrivateUse", "PrivateUseSubtag"]

/-- `T::new` accepts exactly the texts matching `g`; it keeps the text on success and gives it back on failure. -/
def RunConstructorIs (T : String) (g : Abnf) : Prop :=
  ∀ (max : Nat) (s : Text), s.length + 1 ≤ max →
    (g.Matches s → run max [T] "new" [.str s] = returns (.ok (tag T s))) ∧
    (¬ g.Matches s → run max [T] "new" [.str s] = returns (.err (.str s)))

/-- `T::new(s)` is `Ok` of that text. -/
def RunAccepts (max : Nat) (T : String) (s : Text) : Prop := run max [T] "new" [.str s] = returns (.ok (tag T s))

/-- Two calls have the same result up to letter case: both panic, both return `None`, or both return, in `Some` or not, texts that differ only in the
case of their letters. -/
inductive SameOutcome (T : String) : Option Outcome → Option Outcome → Prop
  | panic (p q : Langtag.Model.Panic) : SameOutcome T (some (.panics p)) (some (.panics q))
  | none : SameOutcome T (returns .none) (returns .none)
  | some (u v : Text) : CaseEq u v → SameOutcome T (returns (optTag T (some u))) (returns (optTag T (some v)))
  | text (u v : Text) : CaseEq u v → SameOutcome T (returns (tag T u)) (returns (tag T v))

/-- The accessors of `NormalLangTag` return these texts. -/
structure RunParts (max : Nat) (s language : Text) (script region : Option Text) (variants extensions : Text) (privateUse : Option Text) :
    Prop where
  language : run max ["NormalLangTag"] "language" [tag "NormalLangTag" s] = returns (tag "Language" language)
  script : run max ["NormalLangTag"] "script" [tag "NormalLangTag" s] = returns (optTag "Script" script)
  region : run max ["NormalLangTag"] "region" [tag "NormalLangTag" s] = returns (optTag "Region" region)
  variants : run max ["NormalLangTag"] "variants" [tag "NormalLangTag" s] = returns (tag "Variants" variants)
  extensions : run max ["NormalLangTag"] "extensions" [tag "NormalLangTag" s] = returns (tag "Extensions" extensions)
  privateUse : run max ["NormalLangTag"] "private_use" [tag "NormalLangTag" s] = returns (optTag "PrivateUse" privateUse)

/-- The texts of the parts, those that are there, with `-` in between. -/
def joinParts (language : Text) (script region : Option Text) (variants extensions : Text) (privateUse : Option Text) : Text :=
  joinDash (language :: (script.toList ++ region.toList ++ [variants, extensions].filter (· ≠ []) ++ privateUse.toList))

/-- The result of a call on an iterator, followed by the results of further calls on the iterator as the call leaves it. -/
def followedBy (further : Val → Option (List Val)) : Option Outcome → Option (List Val)
  | some (.returns v [it]) => (further it).map (v :: ·)
  | _ => none

/-- The results of the calls of these functions of `T`, one after the other, on an iterator; `none` if one of them panics or does not end. -/
def runCalls (max : Nat) (T : String) : List String → Val → Option (List Val)
  | [], _ => some []
  | f :: fs, it => followedBy (runCalls max T fs) (run max [T] f [it])

/-- However many times `next` of the iterator type `I` is called on `it`, it returns the items, of type `T`, in order and then `None` for ever, and
does not panic. -/
def RunEnumerates (max : Nat) (I : String) (it : Val) (T : String) (items : List Text) : Prop :=
  ∀ n, runCalls max I (List.replicate n "next") it = some ((List.range n).map fun k => optTag T items[k]?)

/-- The name of the function that takes from this end. -/
def Side.fn : Side → String
  | .front => "next"
  | .back => "next_back"

/-- Whatever the history of calls of `next` and `next_back`, each call takes the first or the last item not taken yet, and none panics. -/
def RunEnumeratesBothEnds (max : Nat) (I : String) (it : Val) (T : String) (items : List Text) : Prop :=
  ∀ history : List Side, runCalls max I (history.map Side.fn) it = some ((takeSides history items).map (optTag T))

/-- The call `T::f(args)` returns an iterator, of type `I`, with these items. -/
def RunIterates (max : Nat) (T f : String) (args : List Val) (I U : String) (items : List Text) : Prop :=
  ∃ it, run max [T] f args = returns it ∧ RunEnumerates max I it U items

end Langtag.Spec
