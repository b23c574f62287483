import Verif.Source.Deep.Macro
import Verif.Source.Deep.Compare
import Verif.Source.Deep.Sound
import Verif.Source.Run

/-!
# Running the crate, with a bound on the nesting of calls

`runWithin n max T f args` is `run max T f args` when no more than `n` calls of functions of the crate, or of closures in it, are ever under way
at the same time.
-/

set_option autoImplicit false

namespace Langtag.Source.Deep
open Langtag.Source (val tag)
open Langtag.Model

/-- The call `T::f(args)` in a program, if the program could be read. -/
def withinIn (n : Nat) (T : List String) (f : String) (args : List Val) : Option Program → Option Outcome
  | some P => outcome (callPath n P ⟨[], "", .tuple []⟩ T f args [])
  | none => some .stuck

/-- The call `T::f(args)`: the text of the crate is read, and the function of that name executed.  `none` if it does not end, or has more than `n`
calls under way at the same time. -/
def runWithin (n max : Nat) (T : List String) (f : String) (args : List Val) : Option Outcome := withinIn n T f args (readCrate max)

theorem runWithin_eq (n max : Nat) (T : List String) (f : String) (args : List Val) :
    runWithin n max T f args = outcome (callPath n (crate max) ⟨[], "", .tuple []⟩ T f args []) :=
  congrArg (withinIn n T f args) (readCrate_eq max)

theorem outcome_eq_some {x y : Option (Res (Val × List (Option Val)))} (h : ∀ r, x = some r → y = some r) {o : Outcome} (hx : outcome x = some o) :
    outcome y = some o := by
  cases x with
  | none => cases hx
  | some r => rw [h r rfl]; exact hx

/-- The bound does not change how a call ends. -/
theorem runWithin_run {n max : Nat} {T : List String} {f : String} {args : List Val} {o : Outcome}
    (h : runWithin n max T f args = some o) : run max T f args = some o := by
  rw [runWithin_eq] at h
  rw [run_eq]
  have he : Agrees _ _ := (agrees_all (crate max)).2.2.2.2.2.2.2.2.1 n ⟨[], "", .tuple []⟩ T f args
  unfold Agrees at he
  exact outcome_eq_some (he []) h

/-- A larger bound does not change how a call ends. -/
theorem runWithin_succ {n max : Nat} {T : List String} {f : String} {args : List Val} {o : Outcome}
    (h : runWithin n max T f args = some o) : runWithin (n + 1) max T f args = some o := by
  rw [runWithin_eq] at h ⊢
  have he : Agrees _ _ := (agrees_succ (crate max)).2.2.2.2.2.2.2.2.1 n ⟨[], "", .tuple []⟩ T f args
  unfold Agrees at he
  exact outcome_eq_some (he []) h

/-- The call ends with no more than `n` calls under way at the same time. -/
def Within (n max : Nat) (T : List String) (f : String) (args : List Val) : Prop := ∃ o, runWithin n max T f args = some o

variable {n max : Nat} {T : List String} {f : String} {args : List Val} {F : Fn}

theorem within_succ (h : Within n max T f args) : Within (n + 1) max T f args := h.imp fun _ => runWithin_succ
theorem within_le {m : Nat} (hm : n ≤ m) (h : Within n max T f args) : Within m max T f args := by
  induction hm with
  | refl => exact h
  | step _ ih => exact within_succ ih

theorem outcome_some (r : Res (Val × List (Option Val))) : ∃ o, outcome (some r) = some o := by
  rcases r with a | ⟨c, τ⟩
  · exact ⟨_, rfl⟩
  · cases c <;> exact ⟨_, rfl⟩

theorem within_some {r : Res (Val × List (Option Val))} (h : callPath n (crate max) ⟨[], "", .tuple []⟩ T f args [] = some r) :
    Within n max T f args := by
  unfold Within
  rw [runWithin_eq, h]
  exact outcome_some r

theorem within_ite {c : Prop} [Decidable c] {a b : Res (Val × List (Option Val))}
    (h : callPath n (crate max) ⟨[], "", .tuple []⟩ T f args [] = if c then some a else some b) : Within n max T f args := by
  split at h <;> exact within_some h

theorem within_ok (h : callPath n (crate max) ⟨[], "", .tuple []⟩ T f args [] = callFn n (crate max) F args [])
    {r : Res (Val × List (Option Val))} (h' : callFn n (crate max) F args [] = some r) : Within n max T f args :=
  within_some (h.trans h')

theorem within_lift (h : callPath n (crate max) ⟨[], "", .tuple []⟩ T f args [] = callFn n (crate max) F args [])
    {α : Type} {k : α → Val × List (Option Val)} {r : Rust α} (h' : callFn n (crate max) F args [] = lift k r []) : Within n max T f args := by
  cases r <;> exact within_ok h h'

attribute [irreducible] runWithin

/-! ## The functions every string type has -/

/-- The functions every string type has: how deep the calls go. -/
structure WithinSource (n : String) : Prop where
  new : ∀ (max : Nat) (s : Str), s.length + 1 ≤ max → Within 3 max [n] "new" [.str s]
  eq : ∀ (max : Nat) (a b : Str), Within 3 max [n] "eq" [tag n a, tag n b]
  cmp : ∀ (max : Nat) (a b : Str), a.length + 1 ≤ max → Within 3 max [n] "cmp" [tag n a, tag n b]
  partialCmp : ∀ (max : Nat) (a b : Str), a.length + 1 ≤ max → Within 4 max [n] "partial_cmp" [tag n a, tag n b]
  hash : ∀ (max : Nat) (a : Str) (w : List UInt8), Within 3 max [n] "hash" [tag n a, .hasher w]

macro "deep_type " t:str T:ident : command => do
  let .str _ T := T.getId | Lean.Macro.throwUnsupported
  let i := Lean.mkIdent (.mkStr2 T "within")
  let n := Lean.mkIdent (.mkStr2 T "new_eq")
  let e := Lean.mkIdent (.mkStr2 T "eq_eq")
  let c := Lean.mkIdent (.mkStr2 T "cmp_eq")
  let p := Lean.mkIdent (.mkStr2 T "partial_cmp_eq")
  let h := Lean.mkIdent (.mkStr2 T "hash_eq")
  let e' := Lean.mkIdent (.mkStr3 "Names" (T ++ "_PartialEq_eq") "callPath")
  let c' := Lean.mkIdent (.mkStr3 "Names" (T ++ "_Ord_cmp") "callPath")
  let p' := Lean.mkIdent (.mkStr3 "Names" (T ++ "_PartialOrd_partial_cmp") "callPath")
  let h' := Lean.mkIdent (.mkStr3 "Names" (T ++ "_Hash_hash") "callPath")
  `(theorem $i : WithinSource $t where
      new max s hs := within_ite ($n:ident 0 _ _ _ _ hs)
      eq max a b := within_lift ($e' 3 ..) ($e 0 ..)
      cmp max a b h := within_lift ($c' 3 ..) ($c 0 _ _ _ _ h)
      partialCmp max a b h := within_lift ($p' 4 ..) ($p 0 _ _ _ _ h)
      hash max a w := within_lift ($h' 3 ..) ($h 0 ..))

deep_type "LangTag" Langtag.Model.LangTag
deep_type "NormalLangTag" Langtag.Model.NormalLangTag
deep_type "Language" Langtag.Model.Language
deep_type "PrimaryLanguage" Langtag.Model.PrimaryLanguage
deep_type "LanguageExtension" Langtag.Model.LanguageExtension
deep_type "ExtendedLangTag" Langtag.Model.ExtendedLangTag
deep_type "Script" Langtag.Model.Script
deep_type "Region" Langtag.Model.Region
deep_type "Variant" Langtag.Model.Variant
deep_type "Variants" Langtag.Model.Variants
deep_type "Extension" Langtag.Model.Extension
deep_type "Extensions" Langtag.Model.Extensions
deep_type "ExtensionSubtag" Langtag.Model.ExtensionSubtag
deep_type "PrivateUse" Langtag.Model.PrivateUse
deep_type "PrivateUseSubtag" Langtag.Model.PrivateUseSubtag

/-! ## The functions of the tags and of their parts, on any text -/

section
variable (max : Nat)

theorem normalLangTag_within (s : Str) (h : s.length + 1 ≤ max) :
    Within 7 max ["NormalLangTag"] "language" [tag "NormalLangTag" s] ∧ Within 8 max ["NormalLangTag"] "script" [tag "NormalLangTag" s] ∧
    Within 9 max ["NormalLangTag"] "region" [tag "NormalLangTag" s] ∧ Within 10 max ["NormalLangTag"] "variants" [tag "NormalLangTag" s] ∧
    Within 11 max ["NormalLangTag"] "extensions" [tag "NormalLangTag" s] ∧ Within 11 max ["NormalLangTag"] "private_use" [tag "NormalLangTag" s] ∧
    Within 12 max ["NormalLangTag"] "private_use_subtags" [tag "NormalLangTag" s] :=
  ⟨within_lift (Names.NormalLangTag_language.callPath ..) (NormalLangTag.language_eq _ _ h),
   within_lift (Names.NormalLangTag_script.callPath ..) (NormalLangTag.script_eq _ _ h),
   within_lift (Names.NormalLangTag_region.callPath ..) (NormalLangTag.region_eq _ _ h),
   within_lift (Names.NormalLangTag_variants.callPath ..) (NormalLangTag.variants_eq _ _ h),
   within_lift (Names.NormalLangTag_extensions.callPath ..) (NormalLangTag.extensions_eq _ _ h),
   within_lift (Names.NormalLangTag_private_use.callPath ..) (NormalLangTag.private_use_eq _ _ h),
   within_lift (Names.NormalLangTag_private_use_subtags.callPath ..) (NormalLangTag.private_use_subtags_eq _ _ h)⟩

theorem langTag_within (s : Str) (h : s.length + 1 ≤ max) :
    Within 8 max ["LangTag"] "language" [tag "LangTag" s] ∧ Within 9 max ["LangTag"] "script" [tag "LangTag" s] ∧
    Within 10 max ["LangTag"] "region" [tag "LangTag" s] ∧ Within 11 max ["LangTag"] "variants" [tag "LangTag" s] ∧
    Within 12 max ["LangTag"] "extensions" [tag "LangTag" s] ∧ Within 12 max ["LangTag"] "private_use" [tag "LangTag" s] ∧
    Within 13 max ["LangTag"] "private_use_subtags" [tag "LangTag" s] ∧ Within 5 max ["LangTag"] "is_normal" [tag "LangTag" s] ∧
    Within 5 max ["LangTag"] "is_private_use" [tag "LangTag" s] ∧ Within 6 max ["LangTag"] "is_grandfathered" [tag "LangTag" s] ∧
    Within 4 max ["LangTag"] "as_normal" [tag "LangTag" s] ∧ Within 4 max ["LangTag"] "as_private_use" [tag "LangTag" s] ∧
    Within 5 max ["LangTag"] "as_grandfathered" [tag "LangTag" s] ∧ Within 6 max ["LangTag"] "kind" [tag "LangTag" s] ∧
    Within 5 max ["LangTag"] "as_typed" [tag "LangTag" s] :=
  ⟨within_lift (Names.LangTag_language.callPath ..) (LangTag.language_eq _ _ h),
   within_lift (Names.LangTag_script.callPath ..) (LangTag.script_eq _ _ h),
   within_lift (Names.LangTag_region.callPath ..) (LangTag.region_eq _ _ h),
   within_lift (Names.LangTag_variants.callPath ..) (LangTag.variants_eq _ _ h),
   within_lift (Names.LangTag_extensions.callPath ..) (LangTag.extensions_eq _ _ h),
   within_lift (Names.LangTag_private_use.callPath ..) (LangTag.private_use_eq _ _ h),
   within_lift (Names.LangTag_private_use_subtags.callPath ..) (LangTag.private_use_subtags_eq _ _ h),
   within_ok (Names.LangTag_is_normal.callPath ..) (LangTag.is_normal_eq _ _ h),
   within_ok (Names.LangTag_is_private_use.callPath ..) (LangTag.is_private_use_eq _ _ h),
   within_lift (Names.LangTag_is_grandfathered.callPath ..) (LangTag.is_grandfathered_eq _ _),
   within_ok (Names.LangTag_as_normal.callPath ..) (LangTag.as_normal_eq _ _ h),
   within_ok (Names.LangTag_as_private_use.callPath ..) (LangTag.as_private_use_eq _ _ h),
   within_lift (Names.LangTag_as_grandfathered.callPath ..) (LangTag.as_grandfathered_eq _ _),
   within_lift (Names.LangTag_kind.callPath ..) (LangTag.kind_eq _ _ h),
   within_lift (Names.LangTag_as_typed.callPath ..) (LangTag.as_typed_eq _ _ h)⟩

theorem typedLangTag_within (t : TypedLangTag) (h : typedLength t + 1 ≤ max) :
    Within 8 max ["TypedLangTag"] "language" [val t] ∧ Within 1 max ["TypedLangTag"] "kind" [val t] ∧
    Within 2 max ["TypedLangTag"] "is_normal" [val t] ∧ Within 2 max ["TypedLangTag"] "is_private_use" [val t] ∧
    Within 2 max ["TypedLangTag"] "is_grandfathered" [val t] ∧ Within 1 max ["TypedLangTag"] "as_normal" [val t] ∧
    Within 1 max ["TypedLangTag"] "as_private_use" [val t] ∧ Within 1 max ["TypedLangTag"] "as_grandfathered" [val t] := by
  have hv : ∃ x v, val t = .ctor ["TypedLangTag"] x [v] := by rcases t with t | t | t <;> exact ⟨_, _, rfl⟩
  obtain ⟨x, v, hv⟩ := hv
  have a := TypedLangTag.language_eq (δ := 0) (max := max) (σ := []) t h
  have b := TypedLangTag.kind_eq (δ := 0) (max := max) (σ := []) t
  have c := TypedLangTag.is_normal_eq (δ := 0) (max := max) (σ := []) t
  have d := TypedLangTag.is_private_use_eq (δ := 0) (max := max) (σ := []) t
  have e := TypedLangTag.is_grandfathered_eq (δ := 0) (max := max) (σ := []) t
  have f := TypedLangTag.as_normal_eq (δ := 0) (max := max) (σ := []) t
  have g := TypedLangTag.as_private_use_eq (δ := 0) (max := max) (σ := []) t
  have i := TypedLangTag.as_grandfathered_eq (δ := 0) (max := max) (σ := []) t
  rw [hv] at a b c d e f g i ⊢
  exact ⟨within_lift (Names.TypedLangTag_language.callPath ..) a, within_ok (Names.TypedLangTag_kind.callPath ..) b,
    within_ok (Names.TypedLangTag_is_normal.callPath ..) c, within_ok (Names.TypedLangTag_is_private_use.callPath ..) d,
    within_ok (Names.TypedLangTag_is_grandfathered.callPath ..) e, within_ok (Names.TypedLangTag_as_normal.callPath ..) f,
    within_ok (Names.TypedLangTag_as_private_use.callPath ..) g, within_ok (Names.TypedLangTag_as_grandfathered.callPath ..) i⟩

theorem kind_within (k : Kind) :
    Within 1 max ["Kind"] "is_normal" [val k] ∧ Within 1 max ["Kind"] "is_private_use" [val k] ∧
    Within 1 max ["Kind"] "is_grandfathered" [val k] := by
  have a := Kind.is_normal_eq (δ := 0) (max := max) (σ := []) k
  have b := Kind.is_private_use_eq (δ := 0) (max := max) (σ := []) k
  have c := Kind.is_grandfathered_eq (δ := 0) (max := max) (σ := []) k
  have hv : ∃ x, val k = .ctor ["Kind"] x [] := by cases k <;> exact ⟨_, rfl⟩
  obtain ⟨x, hv⟩ := hv
  rw [hv] at a b c ⊢
  exact ⟨within_ok (Names.Kind_is_normal.callPath ..) a, within_ok (Names.Kind_is_private_use.callPath ..) b,
    within_ok (Names.Kind_is_grandfathered.callPath ..) c⟩

theorem grandfathered_within (g : GrandfatheredLangTag) (s : Str) (f : Formatter) (out : List Char) :
    Within 4 max ["GrandfatheredLangTag"] "new" [.str s] ∧ Within 3 max ["GrandfatheredLangTag"] "try_from" [.bytes s] ∧
    Within 1 max ["GrandfatheredLangTag"] "language" [val g] ∧ Within 1 max ["GrandfatheredLangTag"] "as_bytes" [val g] ∧
    Within 2 max ["GrandfatheredLangTag"] "as_str" [val g] ∧ Within 3 max ["GrandfatheredLangTag"] "fmt" [val g, .formatter f out] :=
  ⟨within_lift (Names.GrandfatheredLangTag_new.callPath ..) (GrandfatheredLangTag.new_eq _),
   within_lift (Names.GrandfatheredLangTag_TryFrom_try_from.callPath ..) (GrandfatheredLangTag.try_from_eq _),
   within_ok (Names.GrandfatheredLangTag_language.callPath ..) (GrandfatheredLangTag.language_eq _),
   within_ok (Names.GrandfatheredLangTag_as_bytes.callPath ..) (GrandfatheredLangTag.as_bytes_eq _),
   within_ok (Names.GrandfatheredLangTag_as_str.callPath ..) (GrandfatheredLangTag.as_str_eq _),
   within_ok (Names.GrandfatheredLangTag_Display_fmt.callPath ..) (GrandfatheredLangTag.fmt_eq _ _ _)⟩

theorem parts_within (s : Str) (g : Model.Singleton) (h : s.length + 1 ≤ max) :
    Within 1 max ["Language"] "primary" [tag "Language" s] ∧ Within 2 max ["Language"] "extension" [tag "Language" s] ∧
    Within 3 max ["Language"] "extension_subtags" [tag "Language" s] ∧ Within 2 max ["LanguageExtension"] "iter" [tag "LanguageExtension" s] ∧
    Within 2 max ["Variants"] "iter" [tag "Variants" s] ∧ Within 3 max ["Variants"] "first" [tag "Variants" s] ∧
    Within 3 max ["Variants"] "last" [tag "Variants" s] ∧ Within 1 max ["Extension"] "singleton" [tag "Extension" s] ∧
    Within 2 max ["Extension"] "iter" [tag "Extension" s] ∧ Within 3 max ["Extensions"] "get" [tag "Extensions" s, val g] ∧
    Within 2 max ["Extensions"] "iter" [tag "Extensions" s] ∧ Within 4 max ["Extensions"] "iter_extension" [tag "Extensions" s, val g] ∧
    Within 2 max ["PrivateUse"] "iter" [tag "PrivateUse" s] :=
  ⟨within_ok (Names.Language_primary.callPath ..) (Language.primary_eq ..),
   within_ok (Names.Language_extension.callPath ..) (Language.extension_eq ..),
   within_ok (Names.Language_extension_subtags.callPath ..) (Language.extension_subtags_eq ..),
   within_ok (Names.LanguageExtension_iter.callPath ..) (LanguageExtension.iter_eq ..),
   within_ok (Names.Variants_iter.callPath ..) (Variants.iter_eq ..),
   within_lift (Names.Variants_first.callPath ..) (Variants.first_eq _ _ h),
   within_lift (Names.Variants_last.callPath ..) (Variants.last_eq _ _ h),
   within_lift (Names.Extension_singleton.callPath ..) (Extension.singleton_eq ..),
   within_ok (Names.Extension_iter.callPath ..) (Extension.iter_eq ..),
   within_lift (Names.Extensions_get.callPath ..) (Extensions.get_eq _ _ _ _ h),
   within_ok (Names.Extensions_iter.callPath ..) (Extensions.iter_eq ..),
   within_lift (Names.Extensions_iter_extension.callPath ..) (Extensions.iter_extension_eq _ _ _ _ h),
   within_ok (Names.PrivateUse_iter.callPath ..) (PrivateUse.iter_eq ..)⟩

theorem singleton_within (g : Model.Singleton) (s : Str) (b : UInt8) (c : Char) (f : Formatter) (out : List Char) :
    Within 1 max ["Singleton"] "new" [.u8 b] ∧ Within 2 max ["Singleton"] "try_from" [.u8 b] ∧ Within 2 max ["Singleton"] "try_from" [.char c] ∧
    Within 3 max ["Singleton"] "from_string" [.str s] ∧ Within 4 max ["Singleton"] "from_str" [.str s] ∧
    Within 1 max ["Singleton"] "unwrap" [val g] ∧ Within 1 max ["Singleton"] "eq" [val g, .u8 b] ∧ Within 1 max ["Singleton"] "eq" [val g, .char c] ∧
    Within 1 max ["Singleton"] "fmt" [val g, .formatter f out] :=
  ⟨within_ok (Names.Singleton_new.callPath ..) (Singleton.new_eq ..),
   within_ok (Names.Singleton_TryFrom_try_from.callPath ..) (Singleton.try_from_u8_eq ..),
   within_ok (Names.Singleton_TryFrom_try_from_2.callPath ..) (Singleton.try_from_char_eq ..),
   within_lift (Names.Singleton_from_string.callPath ..) (Singleton.from_string_eq ..),
   within_lift (Names.Singleton_FromStr_from_str.callPath ..) (Singleton.from_str_eq ..),
   within_ok (Names.Singleton_unwrap.callPath ..) (Singleton.unwrap_eq ..),
   within_ok (Names.Singleton_PartialEq_eq.callPath ..) (Singleton.eq_u8_eq ..),
   within_ok (Names.Singleton_PartialEq_eq_2.callPath ..) (Singleton.eq_char_eq ..),
   within_ok (Names.Singleton_Display_fmt.callPath ..) (Singleton.fmt_eq ..)⟩

theorem empty_within :
    Within 1 max ["VariantsIter"] "empty" [] ∧ Within 1 max ["ExtensionIter"] "empty" [] ∧ Within 1 max ["PrivateUseIter"] "empty" [] ∧
    Within 1 max ["LanguageExtensionIter"] "empty" [] :=
  ⟨within_ok (Names.VariantsIter_empty.callPath ..) VariantsIter.empty_eq,
   within_ok (Names.ExtensionIter_empty.callPath ..) ExtensionIter.empty_eq,
   within_ok (Names.PrivateUseIter_empty.callPath ..) PrivateUseIter.empty_eq,
   within_ok (Names.LanguageExtensionIter_empty.callPath ..) LanguageExtensionIter.empty_eq⟩

theorem iterators_within (d : Str) (o e : Nat) (h : d.length + 1 ≤ max) :
    Within 2 max ["VariantsIter"] "next" [val (⟨d, o, e⟩ : VariantsIter)] ∧ Within 2 max ["VariantsIter"] "next_back" [val (⟨d, o, e⟩ : VariantsIter)] ∧
    Within 2 max ["ExtensionIter"] "next" [val (⟨d, o⟩ : ExtensionIter)] ∧ Within 6 max ["ExtensionsIter"] "next" [val (⟨d, o⟩ : ExtensionsIter)] ∧
    Within 2 max ["PrivateUseIter"] "next" [val (⟨d, o⟩ : PrivateUseIter)] ∧
    Within 2 max ["LanguageExtensionIter"] "next" [val (⟨d, o⟩ : LanguageExtensionIter)] :=
  ⟨within_lift (Names.VariantsIter_Iterator_next.callPath ..) (VariantsIter.next_checked ..),
   within_lift (Names.VariantsIter_DoubleEndedIterator_next_back.callPath ..) (VariantsIter.next_back_checked ..),
   within_lift (Names.ExtensionIter_Iterator_next.callPath ..) (ExtensionIter.next_checked ..),
   within_lift (Names.ExtensionsIter_Iterator_next.callPath ..) (ExtensionsIter.next_checked _ _ h),
   within_lift (Names.PrivateUseIter_Iterator_next.callPath ..) (PrivateUseIter.next_checked ..),
   within_lift (Names.LanguageExtensionIter_Iterator_next.callPath ..) (LanguageExtensionIter.next_checked ..)⟩

theorem macro_within (s : Str) (h : s.length + 1 ≤ max) : Within 4 max [] "langtag" [.str s] :=
  within_lift (langtagFn_callPath _) (langtag_eq s h)

end

end Langtag.Source.Deep
