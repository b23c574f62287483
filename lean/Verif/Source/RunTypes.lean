import Verif.Source.Run

/-! # Running the functions of the fifteen string types -/

set_option autoImplicit false

namespace Langtag.Source
open Langtag.Model (Panic Rust StrNewtype)
open Langtag.Model

/-- The functions every string type has: run, they do what the model says. -/
structure IsSource (n : String) (T : Type) [StrNewtype T] [Compare T] [Rep T] : Prop where
  val_eq : ∀ t : T, val t = tag n (StrNewtype.str t)
  ofText : ∀ s : Str, ∃ t : T, StrNewtype.str t = s
  new : ∀ (max : Nat) (s : Str), s.length + 1 ≤ max → run max [n] "new" [.str s] = gives (.ok (StrNewtype.new T s))
  eq : ∀ (max : Nat) (a b : T), run max [n] "eq" [val a, val b] = gives (Compare.eq a b)
  cmp : ∀ (max : Nat) (a b : T), (StrNewtype.str a).length + 1 ≤ max → run max [n] "cmp" [val a, val b] = gives (Compare.cmp a b)
  partialCmp : ∀ (max : Nat) (a b : T), (StrNewtype.str a).length + 1 ≤ max →
    run max [n] "partial_cmp" [val a, val b] = gives (Compare.partialCmp a b)
  hash : ∀ (max : Nat) (a : T) (w : List UInt8), run max [n] "hash" [val a, .hasher w] =
    match Compare.hash logHasher a w with
    | .ok w => some (.returns (.tuple []) [.hasher w])
    | .error p => some (.panics p)

theorem outcome_hash (r : Rust (List UInt8)) (σ : Env) :
    outcome (lift (fun w => (.tuple [], [none, some (.hasher w)])) r σ) =
    match r with
    | .ok w => some (.returns (.tuple []) [.hasher w])
    | .error p => some (.panics p) := by cases r <;> rfl

theorem outcome_new {T : Type} [StrNewtype T] [Rep T] {n : String} (hv : ∀ t : T, val t = tag n (StrNewtype.str t)) (s : Str)
    (hn : StrNewtype.str (StrNewtype.newUnchecked (T := T) s) = s) :
    outcome (if StrNewtype.isOk T s = true then some (.ok (.ctor ["Result"] "Ok" [.ctor [n] n [.str s]], []) [])
      else some (.ok (.ctor ["Result"] "Err" [.str s], []) [])) = gives (.ok (StrNewtype.new T s)) := by
  rw [new_isOk]
  split
  · have := hv (StrNewtype.newUnchecked s)
    rw [hn] at this
    show _ = some (Outcome.returns (.ctor ["Result"] "Ok" [val (StrNewtype.newUnchecked (T := T) s)]) [])
    rw [this]
    rfl
  · rfl

macro "source_type " t:str M:ident : command => do
  let .str _ T := M.getId | Lean.Macro.throwUnsupported
  let i := Lean.mkIdent (.mkStr2 T "source")
  let n := Lean.mkIdent (.mkStr2 T "new_eq")
  let e := Lean.mkIdent (.mkStr2 T "eq_eq")
  let c := Lean.mkIdent (.mkStr2 T "cmp_eq")
  let p := Lean.mkIdent (.mkStr2 T "partial_cmp_eq")
  let h := Lean.mkIdent (.mkStr2 T "hash_eq")
  let e' := Lean.mkIdent (.mkStr3 "Names" (T ++ "_PartialEq_eq") "callPath")
  let c' := Lean.mkIdent (.mkStr3 "Names" (T ++ "_Ord_cmp") "callPath")
  let p' := Lean.mkIdent (.mkStr3 "Names" (T ++ "_PartialOrd_partial_cmp") "callPath")
  let h' := Lean.mkIdent (.mkStr3 "Names" (T ++ "_Hash_hash") "callPath")
  `(theorem $i : IsSource $t $M where
      val_eq _ := rfl
      ofText s := ⟨StrNewtype.newUnchecked s, rfl⟩
      new max s hs := by
        rw [run_eq, $n:ident _ _ _ _ hs]
        exact outcome_new (fun _ => rfl) s rfl
      eq max a b := run_lift2 ($e' ..) ($e ..)
      cmp max a b h := run_lift2 ($c' ..) ($c _ _ _ _ h)
      partialCmp max a b h := run_lift2 ($p' ..) ($p _ _ _ _ h)
      hash max a w := by
        rw [run_eq]
        exact (congrArg outcome (($h' ..).trans ($h ..))).trans (outcome_hash _ _))

source_type "LangTag" Langtag.Model.LangTag
source_type "NormalLangTag" Langtag.Model.NormalLangTag
source_type "Language" Langtag.Model.Language
source_type "PrimaryLanguage" Langtag.Model.PrimaryLanguage
source_type "LanguageExtension" Langtag.Model.LanguageExtension
source_type "ExtendedLangTag" Langtag.Model.ExtendedLangTag
source_type "Script" Langtag.Model.Script
source_type "Region" Langtag.Model.Region
source_type "Variant" Langtag.Model.Variant
source_type "Variants" Langtag.Model.Variants
source_type "Extension" Langtag.Model.Extension
source_type "Extensions" Langtag.Model.Extensions
source_type "ExtensionSubtag" Langtag.Model.ExtensionSubtag
source_type "PrivateUse" Langtag.Model.PrivateUse
source_type "PrivateUseSubtag" Langtag.Model.PrivateUseSubtag

theorem forEachSource_of {P : String → (T : Type) → [StrNewtype T] → [Compare T] → [Rep T] → Prop}
    (h : ∀ (n : String) (T : Type) [StrNewtype T] [Compare T] [Rep T], IsSource n T → P n T) : ForEachSource P :=
  ⟨h _ _ LangTag.source, h _ _ NormalLangTag.source, h _ _ Language.source, h _ _ PrimaryLanguage.source, h _ _ LanguageExtension.source,
   h _ _ ExtendedLangTag.source, h _ _ Script.source, h _ _ Region.source, h _ _ Variant.source, h _ _ Variants.source,
   h _ _ Extension.source, h _ _ Extensions.source, h _ _ ExtensionSubtag.source, h _ _ PrivateUse.source, h _ _ PrivateUseSubtag.source⟩

end Langtag.Source
