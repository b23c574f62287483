import Verif.Source.Refine.Newtypes
import Verif.Model.Compare
import Verif.Proof.Checked

/-! # `==`, `cmp`, `partial_cmp` and `hash` of the fifteen types: the text and the model -/

set_option autoImplicit false

namespace Langtag.Source
open Langtag.Model (Panic Rust Compare)

/-- The rules for the comparisons of a type. -/
macro "compare_refines " t:str M:ident : command => do
  let .str _ T := M.getId | Lean.Macro.throwUnsupported
  let e := Lean.mkIdent (.mkStr2 T "eq_eq")
  let c := Lean.mkIdent (.mkStr2 T "cmp_eq")
  let p := Lean.mkIdent (.mkStr2 T "partial_cmp_eq")
  let h := Lean.mkIdent (.mkStr2 T "hash_eq")
  let e' := Lean.mkIdent (.mkStr2 "Ast" (T ++ "_PartialEq_eq"))
  let c' := Lean.mkIdent (.mkStr2 "Ast" (T ++ "_Ord_cmp"))
  let p' := Lean.mkIdent (.mkStr2 "Ast" (T ++ "_PartialOrd_partial_cmp"))
  let h' := Lean.mkIdent (.mkStr2 "Ast" (T ++ "_Hash_hash"))
  `(@[src] theorem $e (max : Nat) (σ : Env) (a b : List UInt8) :
      callFn (crate max) ⟨[$t], "PartialEq", $e'⟩ [.ctor [$t] $t [.str a], .ctor [$t] $t [.str b]] σ =
        lift (fun r => (val r, [none, none])) (Compare.eq (⟨a⟩ : $M) ⟨b⟩) σ := by
      rw [callFn_apply]
      show _ = lift (fun r => (val r, [none, none])) (Langtag.Model.caseInsensitiveEq a b) σ
      simp only [$e':ident]
      exec
      cases Langtag.Model.caseInsensitiveEq a b <;> exec
    @[src] theorem $c (max : Nat) (σ : Env) (a b : List UInt8) (ha : a.length + 1 ≤ max) :
      callFn (crate max) ⟨[$t], "Ord", $c'⟩ [.ctor [$t] $t [.str a], .ctor [$t] $t [.str b]] σ =
        lift (fun r => (val r, [none, none])) (Compare.cmp (⟨a⟩ : $M) ⟨b⟩) σ := by
      rw [callFn_apply]
      show _ = lift (fun r => (val r, [none, none])) (Langtag.Model.caseInsensitiveCmp a b) σ
      rw [← Langtag.Proof.caseInsensitiveCmp_checked (show a.length ≤ max by omega)]
      simp only [$c':ident]
      exec
      cases Langtag.Model.Checked.caseInsensitiveCmp max a b <;> exec
    @[src] theorem $p (max : Nat) (σ : Env) (a b : List UInt8) (ha : a.length + 1 ≤ max) :
      callFn (crate max) ⟨[$t], "PartialOrd", $p'⟩ [.ctor [$t] $t [.str a], .ctor [$t] $t [.str b]] σ =
        lift (fun r => (val r, [none, none])) (Compare.partialCmp (⟨a⟩ : $M) ⟨b⟩) σ := by
      rw [callFn_apply]
      show _ = lift (fun r => (val r, [none, none])) (Compare.cmp (⟨a⟩ : $M) ⟨b⟩ >>= fun o => .ok (some o)) σ
      simp only [$p':ident]
      exec [ha]
      cases Compare.cmp (⟨a⟩ : $M) ⟨b⟩ <;> exec
    @[src] theorem $h (max : Nat) (σ : Env) (a w : List UInt8) :
      callFn (crate max) ⟨[$t], "Hash", $h'⟩ [.ctor [$t] $t [.str a], .hasher w] σ =
        lift (fun w => (.tuple [], [none, some (.hasher w)])) (Compare.hash logHasher (⟨a⟩ : $M) w) σ := by
      rw [callFn_apply]
      show _ = lift (fun w => (Val.tuple [], [none, some (Val.hasher w)])) (hashLog a w) σ
      simp only [$h':ident]
      exec
      cases hashLog a w <;> exec)

compare_refines "LangTag" Langtag.Model.LangTag
compare_refines "NormalLangTag" Langtag.Model.NormalLangTag
compare_refines "Language" Langtag.Model.Language
compare_refines "PrimaryLanguage" Langtag.Model.PrimaryLanguage
compare_refines "LanguageExtension" Langtag.Model.LanguageExtension
compare_refines "ExtendedLangTag" Langtag.Model.ExtendedLangTag
compare_refines "Script" Langtag.Model.Script
compare_refines "Region" Langtag.Model.Region
compare_refines "Variant" Langtag.Model.Variant
compare_refines "Variants" Langtag.Model.Variants
compare_refines "Extension" Langtag.Model.Extension
compare_refines "Extensions" Langtag.Model.Extensions
compare_refines "ExtensionSubtag" Langtag.Model.ExtensionSubtag
compare_refines "PrivateUse" Langtag.Model.PrivateUse
compare_refines "PrivateUseSubtag" Langtag.Model.PrivateUseSubtag

end Langtag.Source
