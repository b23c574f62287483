import Verif.Source.Deep.Iterators
import Verif.Source.Refine.Globals

/-! # Paths that name functions and constants of the crate, with bounded nesting -/

set_option autoImplicit false

namespace Langtag.Source.Deep

open Langtag.Model

variable {δ : Nat} {C : Ctx} {σ : Env} {max : Nat}

theorem global_fn {o x : String} (h1 : [o, x] ≠ ["u8", "MAX"]) (hm : memberOf (crate max) C [o, x] = ([o], x))
    (hc : ((crate max).consts.find? fun (o', x', _) => o' = [o] && x' = x) = none) :
    globalR δ (crate max) C [o, x] none σ = some (.ok (.fn [o] x) σ) := globalR_fn h1 hm hc

@[dep] theorem LanguageExtension.iter_fn : globalR δ (crate max) C ["LanguageExtension", "iter"] none σ = some (.ok (.fn ["LanguageExtension"] "iter") σ) :=
  global_fn (by decide) (by kernel_rfl) (by kernel_rfl)

@[dep] theorem Extension.iter_fn : globalR δ (crate max) C ["Extension", "iter"] none σ = some (.ok (.fn ["Extension"] "iter") σ) :=
  global_fn (by decide) (by kernel_rfl) (by kernel_rfl)

@[dep] theorem PrivateUse.iter_fn : globalR δ (crate max) C ["PrivateUse", "iter"] none σ = some (.ok (.fn ["PrivateUse"] "iter") σ) :=
  global_fn (by decide) (by kernel_rfl) (by kernel_rfl)

@[dep] theorem NormalLangTag.script_fn : globalR δ (crate max) C ["NormalLangTag", "script"] none σ = some (.ok (.fn ["NormalLangTag"] "script") σ) :=
  global_fn (by decide) (by kernel_rfl) (by kernel_rfl)

@[dep] theorem NormalLangTag.region_fn : globalR δ (crate max) C ["NormalLangTag", "region"] none σ = some (.ok (.fn ["NormalLangTag"] "region") σ) :=
  global_fn (by decide) (by kernel_rfl) (by kernel_rfl)

@[dep] theorem NormalLangTag.variants_fn : globalR δ (crate max) C ["NormalLangTag", "variants"] none σ = some (.ok (.fn ["NormalLangTag"] "variants") σ) :=
  global_fn (by decide) (by kernel_rfl) (by kernel_rfl)

@[dep] theorem NormalLangTag.extensions_fn : globalR δ (crate max) C ["NormalLangTag", "extensions"] none σ = some (.ok (.fn ["NormalLangTag"] "extensions") σ) :=
  global_fn (by decide) (by kernel_rfl) (by kernel_rfl)

@[dep] theorem NormalLangTag.private_use_fn : globalR δ (crate max) C ["NormalLangTag", "private_use"] none σ = some (.ok (.fn ["NormalLangTag"] "private_use") σ) :=
  global_fn (by decide) (by kernel_rfl) (by kernel_rfl)

/-- `Variants::EMPTY` -/
@[dep] theorem Variants.empty_const : globalR δ (crate max) C ["Variants", "EMPTY"] none σ = some (.ok (.ctor ["Variants"] "Variants" [.str []]) σ) := by
  have hm : memberOf (crate max) C ["Variants", "EMPTY"] = (["Variants"], "EMPTY") := by kernel_rfl
  have hc : ((crate max).consts.find? fun (o', x', _) => o' = ["Variants"] && x' = "EMPTY") =
      some (["Variants"], "EMPTY", (.block [] (.call (.path ["Self", "new_unchecked"]) [(.lit (.str []))]))) := by kernel_rfl
  rw [globalR_const (by decide) hm hc]
  deep [List.all_nil, litBytes]

/-- `Extensions::EMPTY` -/
@[dep] theorem Extensions.empty_const : globalR δ (crate max) C ["Extensions", "EMPTY"] none σ = some (.ok (.ctor ["Extensions"] "Extensions" [.str []]) σ) := by
  have hm : memberOf (crate max) C ["Extensions", "EMPTY"] = (["Extensions"], "EMPTY") := by kernel_rfl
  have hc : ((crate max).consts.find? fun (o', x', _) => o' = ["Extensions"] && x' = "EMPTY") =
      some (["Extensions"], "EMPTY", (.block [] (.call (.path ["Self", "new_unchecked"]) [(.lit (.str []))]))) := by kernel_rfl
  rw [globalR_const (by decide) hm hc]
  deep [List.all_nil, litBytes]

end Langtag.Source.Deep
