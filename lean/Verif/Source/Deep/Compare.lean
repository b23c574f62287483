import Verif.Source.Deep.Newtypes
import Verif.Source.Refine.Compare

/-! # `==`, `cmp`, `partial_cmp` and `hash` of the fifteen types, with bounded nesting -/

set_option autoImplicit false

namespace Langtag.Source.Deep

open Langtag.Model (Panic Rust Compare)

/-- The rules for the comparisons of a type. -/
macro "deep_compare_refines " t:str M:ident : command => do
  let .str _ T := M.getId | Lean.Macro.throwUnsupported
  let e := Lean.mkIdent (.mkStr2 T "eq_eq")
  let c := Lean.mkIdent (.mkStr2 T "cmp_eq")
  let p := Lean.mkIdent (.mkStr2 T "partial_cmp_eq")
  let h := Lean.mkIdent (.mkStr2 T "hash_eq")
  let e' := Lean.mkIdent (.mkStr2 "Ast" (T ++ "_PartialEq_eq"))
  let c' := Lean.mkIdent (.mkStr2 "Ast" (T ++ "_Ord_cmp"))
  let p' := Lean.mkIdent (.mkStr2 "Ast" (T ++ "_PartialOrd_partial_cmp"))
  let h' := Lean.mkIdent (.mkStr2 "Ast" (T ++ "_Hash_hash"))
  `(@[dep] theorem $e (δ max : Nat) (σ : Env) (a b : List UInt8) :
      callFn (δ + 3) (crate max) ⟨[$t], "PartialEq", $e'⟩ [.ctor [$t] $t [.str a], .ctor [$t] $t [.str b]] σ =
        lift (fun r => (val r, [none, none])) (Compare.eq (⟨a⟩ : $M) ⟨b⟩) σ := by
      rw [callFn_apply]
      show _ = lift (fun r => (val r, [none, none])) (Langtag.Model.caseInsensitiveEq a b) σ
      simp only [$e':ident]
      deep
      cases Langtag.Model.caseInsensitiveEq a b <;> deep
    @[dep] theorem $c (δ max : Nat) (σ : Env) (a b : List UInt8) (ha : a.length + 1 ≤ max) :
      callFn (δ + 3) (crate max) ⟨[$t], "Ord", $c'⟩ [.ctor [$t] $t [.str a], .ctor [$t] $t [.str b]] σ =
        lift (fun r => (val r, [none, none])) (Compare.cmp (⟨a⟩ : $M) ⟨b⟩) σ := by
      rw [callFn_apply]
      show _ = lift (fun r => (val r, [none, none])) (Langtag.Model.caseInsensitiveCmp a b) σ
      rw [← Langtag.Proof.caseInsensitiveCmp_checked (show a.length ≤ max by omega)]
      simp only [$c':ident]
      deep
      cases Langtag.Model.Checked.caseInsensitiveCmp max a b <;> deep
    @[dep] theorem $p (δ max : Nat) (σ : Env) (a b : List UInt8) (ha : a.length + 1 ≤ max) :
      callFn (δ + 4) (crate max) ⟨[$t], "PartialOrd", $p'⟩ [.ctor [$t] $t [.str a], .ctor [$t] $t [.str b]] σ =
        lift (fun r => (val r, [none, none])) (Compare.partialCmp (⟨a⟩ : $M) ⟨b⟩) σ := by
      rw [callFn_apply]
      show _ = lift (fun r => (val r, [none, none])) (Compare.cmp (⟨a⟩ : $M) ⟨b⟩ >>= fun o => .ok (some o)) σ
      simp only [$p':ident]
      deep [ha]
      cases Compare.cmp (⟨a⟩ : $M) ⟨b⟩ <;> deep
    @[dep] theorem $h (δ max : Nat) (σ : Env) (a w : List UInt8) :
      callFn (δ + 3) (crate max) ⟨[$t], "Hash", $h'⟩ [.ctor [$t] $t [.str a], .hasher w] σ =
        lift (fun w => (.tuple [], [none, some (.hasher w)])) (Compare.hash logHasher (⟨a⟩ : $M) w) σ := by
      rw [callFn_apply]
      show _ = lift (fun w => (Val.tuple [], [none, some (Val.hasher w)])) (hashLog a w) σ
      simp only [$h':ident]
      deep
      cases hashLog a w <;> deep)

deep_compare_refines "LangTag" Langtag.Model.LangTag

deep_compare_refines "NormalLangTag" Langtag.Model.NormalLangTag

deep_compare_refines "Language" Langtag.Model.Language

deep_compare_refines "PrimaryLanguage" Langtag.Model.PrimaryLanguage

deep_compare_refines "LanguageExtension" Langtag.Model.LanguageExtension

deep_compare_refines "ExtendedLangTag" Langtag.Model.ExtendedLangTag

deep_compare_refines "Script" Langtag.Model.Script

deep_compare_refines "Region" Langtag.Model.Region

deep_compare_refines "Variant" Langtag.Model.Variant

deep_compare_refines "Variants" Langtag.Model.Variants

deep_compare_refines "Extension" Langtag.Model.Extension

deep_compare_refines "Extensions" Langtag.Model.Extensions

deep_compare_refines "ExtensionSubtag" Langtag.Model.ExtensionSubtag

deep_compare_refines "PrivateUse" Langtag.Model.PrivateUse

deep_compare_refines "PrivateUseSubtag" Langtag.Model.PrivateUseSubtag

end Langtag.Source.Deep
