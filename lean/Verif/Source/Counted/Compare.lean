import Verif.Source.Counted.Newtypes
import Verif.Source.Refine.Compare

/-! # `==`, `cmp`, `partial_cmp` and `hash` of the fifteen types: the text and the counting model -/

set_option autoImplicit false

namespace Langtag.Source.Counted
open Langtag.Model (Panic Rust Timed)
open Langtag.Source (val)

theorem timed_map_ok {α β : Type} (f : α → β) (a : α) (n : Nat) : f <$> (⟨.ok a, n⟩ : Timed α) = ⟨.ok (f a), n⟩ := rfl
theorem timed_map_error {α β : Type} (f : α → β) (p : Panic) (n : Nat) : f <$> (⟨.error p, n⟩ : Timed α) = ⟨.error p, n⟩ := rfl

/-- The rules for the comparisons of a type. -/
macro "counted_compare_refines " t:str : command => do
  let T := t.getString
  let e := Lean.mkIdent (.mkStr2 T "eq_eq")
  let c := Lean.mkIdent (.mkStr2 T "cmp_eq")
  let p := Lean.mkIdent (.mkStr2 T "partial_cmp_eq")
  let h := Lean.mkIdent (.mkStr2 T "hash_eq")
  let e' := Lean.mkIdent (.mkStr2 "Ast" (T ++ "_PartialEq_eq"))
  let c' := Lean.mkIdent (.mkStr2 "Ast" (T ++ "_Ord_cmp"))
  let p' := Lean.mkIdent (.mkStr2 "Ast" (T ++ "_PartialOrd_partial_cmp"))
  let h' := Lean.mkIdent (.mkStr2 "Ast" (T ++ "_Hash_hash"))
  `(@[cnt] theorem $e (max : Nat) (σ : Env) (a b : List UInt8) :
      callFn (crate max) ⟨[$t], "PartialEq", $e'⟩ [.ctor [$t] $t [.str a], .ctor [$t] $t [.str b]] σ =
        liftT (fun r => (val r, [none, none])) (Timed.caseInsensitiveEq a b) σ := by
      rw [callFn_apply]
      simp only [$e':ident]
      count
      rcases Timed.caseInsensitiveEq a b with ⟨_ | _, k⟩ <;> count
    @[cnt] theorem $c (max : Nat) (σ : Env) (a b : List UInt8) (ha : a.length + 1 ≤ max) :
      callFn (crate max) ⟨[$t], "Ord", $c'⟩ [.ctor [$t] $t [.str a], .ctor [$t] $t [.str b]] σ =
        liftT (fun r => (val r, [none, none])) (Timed.caseInsensitiveCmp a b) σ := by
      rw [callFn_apply]
      simp only [$c':ident]
      count [ha]
      rcases Timed.caseInsensitiveCmp a b with ⟨_ | _, k⟩ <;> count
    @[cnt] theorem $p (max : Nat) (σ : Env) (a b : List UInt8) (ha : a.length + 1 ≤ max) :
      callFn (crate max) ⟨[$t], "PartialOrd", $p'⟩ [.ctor [$t] $t [.str a], .ctor [$t] $t [.str b]] σ =
        liftT (fun r => (val r, [none, none])) (some <$> Timed.caseInsensitiveCmp a b) σ := by
      rw [callFn_apply]
      simp only [$p':ident]
      count [ha]
      rcases Timed.caseInsensitiveCmp a b with ⟨_ | _, k⟩ <;> count [timed_map_ok, timed_map_error]
    @[cnt] theorem $h (max : Nat) (σ : Env) (a w : List UInt8) :
      callFn (crate max) ⟨[$t], "Hash", $h'⟩ [.ctor [$t] $t [.str a], .hasher w] σ =
        liftT (fun w => (.tuple [], [none, some (.hasher w)])) (hashLog a w) σ := by
      rw [callFn_apply]
      simp only [$h':ident]
      count
      rcases hashLog a w with ⟨_ | _, k⟩ <;> count)

counted_compare_refines "LangTag"
counted_compare_refines "NormalLangTag"
counted_compare_refines "Language"
counted_compare_refines "PrimaryLanguage"
counted_compare_refines "LanguageExtension"
counted_compare_refines "ExtendedLangTag"
counted_compare_refines "Script"
counted_compare_refines "Region"
counted_compare_refines "Variant"
counted_compare_refines "Variants"
counted_compare_refines "Extension"
counted_compare_refines "Extensions"
counted_compare_refines "ExtensionSubtag"
counted_compare_refines "PrivateUse"
counted_compare_refines "PrivateUseSubtag"

end Langtag.Source.Counted
