import Verif.Source.Refine.Automata
import Verif.Model.LangTag

/-! # The derived functions of the types with an automaton: the text and the model

`T::new(s)` runs the automaton named in the attribute of `T` (which one that is, is read from the text), and the model's `T` has the table of
that automaton. -/

set_option autoImplicit false

namespace Langtag.Source
open Langtag.Model (Panic Rust Dfa StrNewtype)
open Automata

variable {C : Ctx} {σ : Env} {max : Nat}

/-- The value of the program that stands for a value of the model. -/
class Rep (α : Type) where
  val : α → Val
export Rep (val)

instance : Rep Bool := ⟨.bool⟩
instance : Rep Nat := ⟨.usize⟩
instance : Rep UInt8 := ⟨.u8⟩
instance : Rep Ordering := ⟨.ordering⟩
instance : Rep (Nat × Nat) := ⟨fun (a, b) => .range a b⟩
instance {α : Type} [Rep α] : Rep (Option α) := ⟨fun
  | some a => .ctor ["Option"] "Some" [val a]
  | none => .ctor ["Option"] "None" []⟩
instance {ε α : Type} [Rep ε] [Rep α] : Rep (Except ε α) := ⟨fun
  | .ok a => .ctor ["Result"] "Ok" [val a]
  | .error e => .ctor ["Result"] "Err" [val e]⟩

@[src] theorem val_bool (b : Bool) : val b = .bool b := rfl
@[src] theorem val_nat (n : Nat) : val n = .usize n := rfl
@[src] theorem val_u8 (n : UInt8) : val n = .u8 n := rfl
@[src] theorem val_ordering (o : Ordering) : val o = .ordering o := rfl
@[src] theorem val_range (r : Nat × Nat) : val r = .range r.1 r.2 := rfl
@[src] theorem val_some {α : Type} [Rep α] (a : α) : val (some a) = .ctor ["Option"] "Some" [val a] := rfl
@[src] theorem val_none {α : Type} [Rep α] : val (none : Option α) = .ctor ["Option"] "None" [] := rfl
@[src] theorem val_ok {ε α : Type} [Rep ε] [Rep α] (a : α) : val (.ok a : Except ε α) = .ctor ["Result"] "Ok" [val a] := rfl
@[src] theorem val_error {ε α : Type} [Rep ε] [Rep α] (e : ε) : val (.error e : Except ε α) = .ctor ["Result"] "Err" [val e] := rfl

/-! ## The automata of the crate -/

/-- The functions of an automaton of the crate are the ones written from its table. -/
macro "is_automaton " n:ident t:str d:ident : command =>
  `(theorem $n (max : Nat) : IsAutomaton max $t $d where
      new := by kernel_rfl
      push _ _ := by kernel_rfl
      isAccepting _ := by kernel_rfl
      validateStr _ := by kernel_rfl
      validateBytes _ := by kernel_rfl
      type _ _ := by kernel_rfl
      notEnum _ := by kernel_rfl)

is_automaton languageTag_automaton "LanguageTag" Langtag.Model.Automata.languageTag
is_automaton privateuse_automaton "Privateuse" Langtag.Model.Automata.privateuse
is_automaton privateuseSubtag_automaton "PrivateuseSubtag" Langtag.Model.Automata.privateuseSubtag
is_automaton langtag_automaton "Langtag" Langtag.Model.Automata.langtag
is_automaton language_automaton "Language" Langtag.Model.Automata.language
is_automaton primary_automaton "Primary" Langtag.Model.Automata.primary
is_automaton extlang_automaton "Extlang" Langtag.Model.Automata.extlang
is_automaton extlangTag_automaton "ExtlangTag" Langtag.Model.Automata.extlangTag
is_automaton script_automaton "Script" Langtag.Model.Automata.script
is_automaton region_automaton "Region" Langtag.Model.Automata.region
is_automaton variant_automaton "Variant" Langtag.Model.Automata.variant
is_automaton variants_automaton "Variants" Langtag.Model.Automata.variants
is_automaton extension_automaton "Extension" Langtag.Model.Automata.extension
is_automaton extensionSubtag_automaton "ExtensionSubtag" Langtag.Model.Automata.extensionSubtag
is_automaton extensions_automaton "Extensions" Langtag.Model.Automata.extensions

/-! ## `T::new` -/

theorem new_newtype {ty : List String} {s : List UInt8} {f : String} {name : String} {d : Dfa} (hs : s.length + 1 ≤ max)
    (h1 : (crate max).lookup ty f [.str s] = none)
    (h2 : newOf (crate max) ty f [.str s] = some (["grammar", name], s)) (H : IsAutomaton max name d) :
    callPath (crate max) C ty f [.str s] σ =
      if d.validateStr s = true then some (.ok (.ctor ["Result"] "Ok" [newtype ty s], []) σ)
      else some (.ok (.ctor ["Result"] "Err" [.str s], []) σ) := by
  rw [callPath, h1]
  simp only [h2, bind_apply]
  rw [validateStr_eq H s (by omega)]
  cases d.validateStr s <;> rfl

theorem isOk_eq (T : Type) [StrNewtype T] (s : List UInt8) : StrNewtype.isOk T s = (StrNewtype.automaton T).validateStr s := by
  simp only [StrNewtype.isOk, StrNewtype.new]
  cases (StrNewtype.automaton T).validateStr s <;> rfl

/-- The rules for a type with an automaton. -/
macro "newtype_refines " t:str T:ident M:ident H:ident : command => do
  let n := Lean.mkIdent (T.getId.str "new_eq")
  let v := Lean.mkIdent (T.getId.str "val_eq")
  let i := Lean.mkIdent (T.getId.str "rep")
  `(instance $i:ident : Rep $M := ⟨fun t => .ctor [$t] $t [.str t.str]⟩
    @[src] theorem $v (s : List UInt8) : val (⟨s⟩ : $M) = .ctor [$t] $t [.str s] := rfl
    @[src] theorem $n (max : Nat) (C : Ctx) (σ : Env) (s : List UInt8) (hs : s.length + 1 ≤ max) :
      callPath (crate max) C [$t] "new" [.str s] σ =
        if StrNewtype.isOk $M s = true then some (.ok (.ctor ["Result"] "Ok" [.ctor [$t] $t [.str s]], []) σ)
        else some (.ok (.ctor ["Result"] "Err" [.str s], []) σ) := by
      rw [isOk_eq]
      exact new_newtype hs (by kernel_rfl) (by kernel_rfl) ($H max))

newtype_refines "LangTag" LangTag Langtag.Model.LangTag languageTag_automaton
newtype_refines "NormalLangTag" NormalLangTag Langtag.Model.NormalLangTag langtag_automaton
newtype_refines "Language" Language Langtag.Model.Language language_automaton
newtype_refines "PrimaryLanguage" PrimaryLanguage Langtag.Model.PrimaryLanguage primary_automaton
newtype_refines "LanguageExtension" LanguageExtension Langtag.Model.LanguageExtension extlang_automaton
newtype_refines "ExtendedLangTag" ExtendedLangTag Langtag.Model.ExtendedLangTag extlangTag_automaton
newtype_refines "Script" Script Langtag.Model.Script script_automaton
newtype_refines "Region" Region Langtag.Model.Region region_automaton
newtype_refines "Variant" Variant Langtag.Model.Variant variant_automaton
newtype_refines "Variants" Variants Langtag.Model.Variants variants_automaton
newtype_refines "Extension" Extension Langtag.Model.Extension extension_automaton
newtype_refines "Extensions" Extensions Langtag.Model.Extensions extensions_automaton
newtype_refines "ExtensionSubtag" ExtensionSubtag Langtag.Model.ExtensionSubtag extensionSubtag_automaton
newtype_refines "PrivateUse" PrivateUse Langtag.Model.PrivateUse privateuse_automaton
newtype_refines "PrivateUseSubtag" PrivateUseSubtag Langtag.Model.PrivateUseSubtag privateuseSubtag_automaton

end Langtag.Source
