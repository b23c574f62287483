import Verif.Source.Deep.Automata
import Verif.Source.Refine.Newtypes

/-! # The derived functions of the types with an automaton, with bounded nesting

`T::new(s)` runs the automaton named in the attribute of `T` (which one that is, is read from the text), and the model's `T` has the table of
that automaton. -/

set_option autoImplicit false

namespace Langtag.Source.Deep

open Langtag.Model (Panic Rust Dfa StrNewtype)

open Automata

variable {δ : Nat} {C : Ctx} {σ : Env} {max : Nat}

/-! ## The automata of the crate -/

/-! ## `T::new` -/

theorem new_newtype {ty : List String} {s : List UInt8} {f : String} {name : String} {d : Dfa} (hs : s.length + 1 ≤ max)
    (h1 : (crate max).lookup ty f [.str s] = none)
    (h2 : newOf (crate max) ty f [.str s] = some (["grammar", name], s)) (H : IsAutomaton max name d) :
    callPath (δ + 3) (crate max) C ty f [.str s] σ =
      if d.validateStr s = true then some (.ok (.ctor ["Result"] "Ok" [newtype ty s], []) σ)
      else some (.ok (.ctor ["Result"] "Err" [.str s], []) σ) := by
  rw [callPath, h1]
  simp only [h2, bind_apply]
  rw [validateStr_eq H s (by omega)]
  cases d.validateStr s <;> rfl

/-- The rules for a type with an automaton. -/
macro "deep_newtype_refines " t:str T:ident M:ident H:ident : command => do
  let n := Lean.mkIdent (T.getId.str "new_eq")
  `(@[dep] theorem $n (δ max : Nat) (C : Ctx) (σ : Env) (s : List UInt8) (hs : s.length + 1 ≤ max) :
      callPath (δ + 3) (crate max) C [$t] "new" [.str s] σ =
        if StrNewtype.isOk $M s = true then some (.ok (.ctor ["Result"] "Ok" [.ctor [$t] $t [.str s]], []) σ)
        else some (.ok (.ctor ["Result"] "Err" [.str s], []) σ) := by
      rw [isOk_eq]
      exact new_newtype hs (by kernel_rfl) (by kernel_rfl) ($H max))

deep_newtype_refines "LangTag" LangTag Langtag.Model.LangTag languageTag_automaton
deep_newtype_refines "NormalLangTag" NormalLangTag Langtag.Model.NormalLangTag langtag_automaton
deep_newtype_refines "Language" Language Langtag.Model.Language language_automaton
deep_newtype_refines "PrimaryLanguage" PrimaryLanguage Langtag.Model.PrimaryLanguage primary_automaton
deep_newtype_refines "LanguageExtension" LanguageExtension Langtag.Model.LanguageExtension extlang_automaton
deep_newtype_refines "ExtendedLangTag" ExtendedLangTag Langtag.Model.ExtendedLangTag extlangTag_automaton
deep_newtype_refines "Script" Script Langtag.Model.Script script_automaton
deep_newtype_refines "Region" Region Langtag.Model.Region region_automaton
deep_newtype_refines "Variant" Variant Langtag.Model.Variant variant_automaton
deep_newtype_refines "Variants" Variants Langtag.Model.Variants variants_automaton
deep_newtype_refines "Extension" Extension Langtag.Model.Extension extension_automaton
deep_newtype_refines "Extensions" Extensions Langtag.Model.Extensions extensions_automaton
deep_newtype_refines "ExtensionSubtag" ExtensionSubtag Langtag.Model.ExtensionSubtag extensionSubtag_automaton
deep_newtype_refines "PrivateUse" PrivateUse Langtag.Model.PrivateUse privateuse_automaton
deep_newtype_refines "PrivateUseSubtag" PrivateUseSubtag Langtag.Model.PrivateUseSubtag privateuseSubtag_automaton

end Langtag.Source.Deep
