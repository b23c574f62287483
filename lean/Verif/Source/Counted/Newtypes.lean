import Verif.Source.Counted.Automata
import Verif.Source.Refine.Newtypes

/-! # `T::new` of the types with an automaton: the text and the counting model -/

set_option autoImplicit false

namespace Langtag.Source.Counted
open Langtag.Model (Panic Rust Timed Dfa StrNewtype)
open Langtag.Source (val)
open Automata

variable {C : Ctx} {σ : Env} {max : Nat}

theorem timed_eq {α : Type} {t : Timed α} {r : Rust α} (h : t.result = r) : t = ⟨r, t.steps⟩ := by rw [← h]

theorem new_eq_steps (T : Type) [StrNewtype T] (s : List UInt8) : (Timed.new T s).steps = (Timed.validateStr (StrNewtype.automaton T) s).steps := by
  rw [Timed.new, timed_eq (Langtag.Proof.validateStr_timed (StrNewtype.automaton T) s)]
  show _ + (ite _ _ _ : Timed _).steps = _
  split <;> rfl

theorem isOk_eq_steps (T : Type) [StrNewtype T] (s : List UInt8) : (Timed.isOk T s).steps = (Timed.new T s).steps := by
  rw [Timed.isOk, timed_eq (Langtag.Proof.new_timed T s)]
  show _ + (match StrNewtype.new T s with | .ok _ => _ | .error _ => _ : Timed Bool).steps = _
  split <;> rfl

/-- How `Timed.new` ends. -/
@[cnt] theorem liftT_new_bind {T β γ : Type} [StrNewtype T] (k : β → γ) (s : List UInt8) (f : Except (List UInt8) T → Timed β) :
    liftT k (Timed.new T s >>= f) σ = addTicks (Timed.new T s).steps
      (if StrNewtype.isOk T s = true then liftT k (f (.ok (StrNewtype.newUnchecked s))) σ else liftT k (f (.error s)) σ) := by
  have h : StrNewtype.new T s = if StrNewtype.isOk T s = true then .ok (StrNewtype.newUnchecked s) else .error s := by
    rw [isOk_eq]
    rfl
  rw [timed_eq (Langtag.Proof.new_timed T s), timed_ok_bind]
  dsimp only
  rw [h]
  split <;> rfl

/-- How `Timed.isOk` ends. -/
@[cnt] theorem liftT_isOk {T γ : Type} [StrNewtype T] (k : Bool → γ) (s : List UInt8) :
    liftT k (Timed.isOk T s) σ = addTicks (Timed.new T s).steps (fin (.ok (k (StrNewtype.isOk T s)) σ)) := by
  rw [timed_eq (Langtag.Proof.isOk_timed T s), liftT_ok, isOk_eq_steps]

theorem new_newtype {ty : List String} {s : List UInt8} {f : String} {name : String} {d : Dfa} (hs : s.length + 1 ≤ max)
    (h1 : (crate max).lookup ty f [.str s] = none)
    (h2 : newOf (crate max) ty f [.str s] = some (["grammar", name], s)) (H : IsAutomaton max name d) :
    callPath (crate max) C ty f [.str s] σ = addTicks (Timed.validateStr d s).steps
      (if d.validateStr s = true then fin (.ok (.ctor ["Result"] "Ok" [newtype ty s], []) σ)
      else fin (.ok (.ctor ["Result"] "Err" [.str s], []) σ)) := by
  rw [callPath, h1]
  simp only [h2, bind_apply]
  rw [validateStr_eq H s (by omega), timed_eq (Langtag.Proof.validateStr_timed d s), liftT_ok, bindR_ticks, bindR_ok]
  cases d.validateStr s <;> rfl

/-- The rules for a type with an automaton. -/
macro "counted_newtype_refines " t:str T:ident M:ident H:ident : command => do
  let n := Lean.mkIdent (T.getId.str "new_eq")
  `(@[cnt] theorem $n (max : Nat) (C : Ctx) (σ : Env) (s : List UInt8) (hs : s.length + 1 ≤ max) :
      callPath (crate max) C [$t] "new" [.str s] σ = addTicks (Timed.new $M s).steps
        (if StrNewtype.isOk $M s = true then fin (.ok (.ctor ["Result"] "Ok" [.ctor [$t] $t [.str s]], []) σ)
        else fin (.ok (.ctor ["Result"] "Err" [.str s], []) σ)) := by
      rw [isOk_eq, new_eq_steps]
      exact new_newtype hs (by kernel_rfl) (by kernel_rfl) ($H max))

counted_newtype_refines "LangTag" LangTag Langtag.Model.LangTag languageTag_automaton
counted_newtype_refines "NormalLangTag" NormalLangTag Langtag.Model.NormalLangTag langtag_automaton
counted_newtype_refines "Language" Language Langtag.Model.Language language_automaton
counted_newtype_refines "PrimaryLanguage" PrimaryLanguage Langtag.Model.PrimaryLanguage primary_automaton
counted_newtype_refines "LanguageExtension" LanguageExtension Langtag.Model.LanguageExtension extlang_automaton
counted_newtype_refines "ExtendedLangTag" ExtendedLangTag Langtag.Model.ExtendedLangTag extlangTag_automaton
counted_newtype_refines "Script" Script Langtag.Model.Script script_automaton
counted_newtype_refines "Region" Region Langtag.Model.Region region_automaton
counted_newtype_refines "Variant" Variant Langtag.Model.Variant variant_automaton
counted_newtype_refines "Variants" Variants Langtag.Model.Variants variants_automaton
counted_newtype_refines "Extension" Extension Langtag.Model.Extension extension_automaton
counted_newtype_refines "Extensions" Extensions Langtag.Model.Extensions extensions_automaton
counted_newtype_refines "ExtensionSubtag" ExtensionSubtag Langtag.Model.ExtensionSubtag extensionSubtag_automaton
counted_newtype_refines "PrivateUse" PrivateUse Langtag.Model.PrivateUse privateuse_automaton
counted_newtype_refines "PrivateUseSubtag" PrivateUseSubtag Langtag.Model.PrivateUseSubtag privateuseSubtag_automaton

end Langtag.Source.Counted
