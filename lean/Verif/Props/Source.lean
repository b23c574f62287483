import Verif.Source.Derive
import Verif.Spec.Text

/-!
# C69: the text of the crate, executed, does what the model says

`run max ["T"] "f" args` reads the text of the files of `/repo/src` (kept in `Verif/Source/Text`), and executes the call `T::f(args)`.
The result is `none` if that does not end.  The equations below say that it ends, and how.
-/

set_option autoImplicit false

namespace Langtag.Props
open Langtag.Model Langtag.Source
open Langtag.Model (Singleton)
open Langtag.Spec (ascii)

/-- C69: the constructor, the comparisons and `hash` of the fifteen string types. -/
theorem C69_types : ForEachSource fun n T => ∀ (max : Nat) (s : Str) (a b : T) (w : List UInt8),
    s.length + 1 ≤ max → (StrNewtype.str a).length + 1 ≤ max →
    run max [n] "new" [.str s] = gives (.ok (StrNewtype.new T s)) ∧
    run max [n] "eq" [val a, val b] = gives (Compare.eq a b) ∧
    run max [n] "cmp" [val a, val b] = gives (Compare.cmp a b) ∧
    run max [n] "partial_cmp" [val a, val b] = gives (Compare.partialCmp a b) ∧
    run max [n] "hash" [val a, .hasher w] =
      match Compare.hash logHasher a w with
      | .ok w => some (.returns (.tuple []) [.hasher w])
      | .error p => some (.panics p) :=
  forEachSource_of fun _ _ => fun h max s a b w hs ha =>
    ⟨h.new max s hs, h.eq max a b, h.cmp max a b ha, h.partialCmp max a b ha, h.hash max a w⟩

/-- C69: the accessors of a normal tag. -/
theorem C69_normalLangTag (max : Nat) (t : NormalLangTag) (h : t.str.length + 1 ≤ max) :
    run max ["NormalLangTag"] "language" [val t] = gives t.language ∧
    run max ["NormalLangTag"] "script" [val t] = gives t.script ∧
    run max ["NormalLangTag"] "region" [val t] = gives t.region ∧
    run max ["NormalLangTag"] "variants" [val t] = gives t.variants ∧
    run max ["NormalLangTag"] "extensions" [val t] = gives t.extensions ∧
    run max ["NormalLangTag"] "private_use" [val t] = gives t.privateUse ∧
    run max ["NormalLangTag"] "private_use_subtags" [val t] = gives t.privateUseSubtags :=
  ⟨run_lift1 (Names.NormalLangTag_language.callPath ..) (NormalLangTag.language_eq _ _ h),
   run_lift1 (Names.NormalLangTag_script.callPath ..) (NormalLangTag.script_eq _ _ h),
   run_lift1 (Names.NormalLangTag_region.callPath ..) (NormalLangTag.region_eq _ _ h),
   run_lift1 (Names.NormalLangTag_variants.callPath ..) (NormalLangTag.variants_eq _ _ h),
   run_lift1 (Names.NormalLangTag_extensions.callPath ..) (NormalLangTag.extensions_eq _ _ h),
   run_lift1 (Names.NormalLangTag_private_use.callPath ..) (NormalLangTag.private_use_eq _ _ h),
   run_lift1 (Names.NormalLangTag_private_use_subtags.callPath ..) (NormalLangTag.private_use_subtags_eq _ _ h)⟩

/-- C69: the functions of `LangTag`. -/
theorem C69_langTag (max : Nat) (t : LangTag) (h : t.str.length + 1 ≤ max) :
    run max ["LangTag"] "language" [val t] = gives t.language ∧
    run max ["LangTag"] "script" [val t] = gives t.script ∧
    run max ["LangTag"] "region" [val t] = gives t.region ∧
    run max ["LangTag"] "variants" [val t] = gives t.variants ∧
    run max ["LangTag"] "extensions" [val t] = gives t.extensions ∧
    run max ["LangTag"] "private_use" [val t] = gives t.privateUse ∧
    run max ["LangTag"] "private_use_subtags" [val t] = gives t.privateUseSubtags ∧
    run max ["LangTag"] "is_normal" [val t] = gives (.ok t.isNormal) ∧
    run max ["LangTag"] "is_private_use" [val t] = gives (.ok t.isPrivateUse) ∧
    run max ["LangTag"] "is_grandfathered" [val t] = gives t.isGrandfathered ∧
    run max ["LangTag"] "as_normal" [val t] = gives (.ok t.asNormal) ∧
    run max ["LangTag"] "as_private_use" [val t] = gives (.ok (t.asPrivateUse : Option PrivateUse)) ∧
    run max ["LangTag"] "as_grandfathered" [val t] = gives t.asGrandfathered ∧
    run max ["LangTag"] "kind" [val t] = gives t.kind ∧
    run max ["LangTag"] "as_typed" [val t] = gives t.asTyped :=
  ⟨run_lift1 (Names.LangTag_language.callPath ..) (LangTag.language_eq _ _ h),
   run_lift1 (Names.LangTag_script.callPath ..) (LangTag.script_eq _ _ h),
   run_lift1 (Names.LangTag_region.callPath ..) (LangTag.region_eq _ _ h),
   run_lift1 (Names.LangTag_variants.callPath ..) (LangTag.variants_eq _ _ h),
   run_lift1 (Names.LangTag_extensions.callPath ..) (LangTag.extensions_eq _ _ h),
   run_lift1 (Names.LangTag_private_use.callPath ..) (LangTag.private_use_eq _ _ h),
   run_lift1 (Names.LangTag_private_use_subtags.callPath ..) (LangTag.private_use_subtags_eq _ _ h),
   run_ok1 (Names.LangTag_is_normal.callPath ..) (LangTag.is_normal_eq _ _ h),
   run_ok1 (Names.LangTag_is_private_use.callPath ..) (LangTag.is_private_use_eq _ _ h),
   run_lift1 (Names.LangTag_is_grandfathered.callPath ..) (LangTag.is_grandfathered_eq _ _),
   run_ok1 (Names.LangTag_as_normal.callPath ..) (LangTag.as_normal_eq _ _ h),
   run_ok1 (Names.LangTag_as_private_use.callPath ..) (LangTag.as_private_use_eq _ _ h),
   run_lift1 (Names.LangTag_as_grandfathered.callPath ..) (LangTag.as_grandfathered_eq _ _),
   run_lift1 (Names.LangTag_kind.callPath ..) (LangTag.kind_eq _ _ h),
   run_lift1 (Names.LangTag_as_typed.callPath ..) (LangTag.as_typed_eq _ _ h)⟩

/-- C69: the functions of `TypedLangTag`. -/
theorem C69_typedLangTag (max : Nat) (t : TypedLangTag) (h : typedLength t + 1 ≤ max) :
    run max ["TypedLangTag"] "language" [val t] = gives t.language ∧
    run max ["TypedLangTag"] "kind" [val t] = gives (.ok t.kind) ∧
    run max ["TypedLangTag"] "is_normal" [val t] = gives (.ok t.isNormal) ∧
    run max ["TypedLangTag"] "is_private_use" [val t] = gives (.ok t.isPrivateUse) ∧
    run max ["TypedLangTag"] "is_grandfathered" [val t] = gives (.ok t.isGrandfathered) ∧
    run max ["TypedLangTag"] "as_normal" [val t] = gives (.ok t.asNormal) ∧
    run max ["TypedLangTag"] "as_private_use" [val t] = gives (.ok (t.asPrivateUse : Option PrivateUse)) ∧
    run max ["TypedLangTag"] "as_grandfathered" [val t] = gives (.ok t.asGrandfathered) := by
  have hv : ∃ x v, val t = .ctor ["TypedLangTag"] x [v] := by rcases t with t | t | t <;> exact ⟨_, _, rfl⟩
  obtain ⟨x, v, hv⟩ := hv
  have a := TypedLangTag.language_eq (max := max) (σ := []) t h
  have b := TypedLangTag.kind_eq (max := max) (σ := []) t
  have c := TypedLangTag.is_normal_eq (max := max) (σ := []) t
  have d := TypedLangTag.is_private_use_eq (max := max) (σ := []) t
  have e := TypedLangTag.is_grandfathered_eq (max := max) (σ := []) t
  have f := TypedLangTag.as_normal_eq (max := max) (σ := []) t
  have g := TypedLangTag.as_private_use_eq (max := max) (σ := []) t
  have i := TypedLangTag.as_grandfathered_eq (max := max) (σ := []) t
  rw [hv] at a b c d e f g i ⊢
  exact ⟨run_lift1 (Names.TypedLangTag_language.callPath ..) a, run_ok1 (Names.TypedLangTag_kind.callPath ..) b,
    run_ok1 (Names.TypedLangTag_is_normal.callPath ..) c, run_ok1 (Names.TypedLangTag_is_private_use.callPath ..) d,
    run_ok1 (Names.TypedLangTag_is_grandfathered.callPath ..) e, run_ok1 (Names.TypedLangTag_as_normal.callPath ..) f,
    run_ok1 (Names.TypedLangTag_as_private_use.callPath ..) g, run_ok1 (Names.TypedLangTag_as_grandfathered.callPath ..) i⟩

/-- C69: the functions of `Kind`. -/
theorem C69_kind (max : Nat) (k : Kind) :
    run max ["Kind"] "is_normal" [val k] = gives (.ok k.isNormal) ∧
    run max ["Kind"] "is_private_use" [val k] = gives (.ok k.isPrivateUse) ∧
    run max ["Kind"] "is_grandfathered" [val k] = gives (.ok k.isGrandfathered) := by
  have a := Kind.is_normal_eq (max := max) (σ := []) k
  have b := Kind.is_private_use_eq (max := max) (σ := []) k
  have c := Kind.is_grandfathered_eq (max := max) (σ := []) k
  have hv : ∃ x, val k = .ctor ["Kind"] x [] := by cases k <;> exact ⟨_, rfl⟩
  obtain ⟨x, hv⟩ := hv
  rw [hv] at a b c ⊢
  exact ⟨run_ok1 (Names.Kind_is_normal.callPath ..) a, run_ok1 (Names.Kind_is_private_use.callPath ..) b,
    run_ok1 (Names.Kind_is_grandfathered.callPath ..) c⟩

/-- C69: the functions of `GrandfatheredLangTag`. -/
theorem C69_grandfathered (max : Nat) (g : GrandfatheredLangTag) (s : Str) (f : Formatter) (out : List Char) :
    run max ["GrandfatheredLangTag"] "new" [.str s] = givesBy newResult (GrandfatheredLangTag.new s) ∧
    run max ["GrandfatheredLangTag"] "try_from" [.bytes s] = givesBy tryFromResult (GrandfatheredLangTag.tryFrom s) ∧
    run max ["GrandfatheredLangTag"] "language" [val g] = gives (.ok g.language) ∧
    run max ["GrandfatheredLangTag"] "as_bytes" [val g] = some (.returns (.bytes g.asBytes) []) ∧
    run max ["GrandfatheredLangTag"] "as_str" [val g] = some (.returns (.str g.asStr) []) ∧
    run max ["GrandfatheredLangTag"] "fmt" [val g, .formatter f out] =
      some (.returns (.ok (.tuple [])) [.formatter f (out ++ g.fmt f)]) :=
  ⟨run_lift1' (Names.GrandfatheredLangTag_new.callPath ..) (GrandfatheredLangTag.new_eq _),
   run_lift1' (Names.GrandfatheredLangTag_TryFrom_try_from.callPath ..) (GrandfatheredLangTag.try_from_eq _),
   run_ok1 (Names.GrandfatheredLangTag_language.callPath ..) (GrandfatheredLangTag.language_eq _),
   run_ok1' (Names.GrandfatheredLangTag_as_bytes.callPath ..) (GrandfatheredLangTag.as_bytes_eq _),
   run_ok1' (Names.GrandfatheredLangTag_as_str.callPath ..) (GrandfatheredLangTag.as_str_eq _),
   run_fmt (Names.GrandfatheredLangTag_Display_fmt.callPath ..) (GrandfatheredLangTag.fmt_eq _ _ _)⟩

/-- C69: the functions of the parts of a normal tag. -/
theorem C69_parts (max : Nat) (s : Str) (g : Singleton) (h : s.length + 1 ≤ max) :
    run max ["Language"] "primary" [val (⟨s⟩ : Language)] = gives (.ok (Language.primary ⟨s⟩)) ∧
    run max ["Language"] "extension" [val (⟨s⟩ : Language)] = gives (.ok (Language.extension ⟨s⟩)) ∧
    run max ["Language"] "extension_subtags" [val (⟨s⟩ : Language)] = gives (.ok (Language.extensionSubtags ⟨s⟩)) ∧
    run max ["LanguageExtension"] "iter" [val (⟨s⟩ : LanguageExtension)] = gives (.ok (LanguageExtension.iter ⟨s⟩)) ∧
    run max ["Variants"] "iter" [val (⟨s⟩ : Variants)] = gives (.ok (Variants.iter ⟨s⟩)) ∧
    run max ["Variants"] "first" [val (⟨s⟩ : Variants)] = gives (Variants.first ⟨s⟩) ∧
    run max ["Variants"] "last" [val (⟨s⟩ : Variants)] = gives (Variants.last ⟨s⟩) ∧
    run max ["Extension"] "singleton" [val (⟨s⟩ : Extension)] = gives (Extension.singleton ⟨s⟩) ∧
    run max ["Extension"] "iter" [val (⟨s⟩ : Extension)] = gives (.ok (Extension.iter ⟨s⟩)) ∧
    run max ["Extensions"] "get" [val (⟨s⟩ : Extensions), val g] = gives (Extensions.get ⟨s⟩ g) ∧
    run max ["Extensions"] "iter" [val (⟨s⟩ : Extensions)] = gives (.ok (Extensions.iter ⟨s⟩)) ∧
    run max ["Extensions"] "iter_extension" [val (⟨s⟩ : Extensions), val g] = gives (Extensions.iterExtension ⟨s⟩ g) ∧
    run max ["PrivateUse"] "iter" [val (⟨s⟩ : PrivateUse)] = gives (.ok (PrivateUse.iter ⟨s⟩)) :=
  ⟨run_ok1 (Names.Language_primary.callPath ..) (Language.primary_eq ..),
   run_ok1 (Names.Language_extension.callPath ..) (Language.extension_eq ..),
   run_ok1 (Names.Language_extension_subtags.callPath ..) (Language.extension_subtags_eq ..),
   run_ok1 (Names.LanguageExtension_iter.callPath ..) (LanguageExtension.iter_eq ..),
   run_ok1 (Names.Variants_iter.callPath ..) (Variants.iter_eq ..),
   run_lift1 (Names.Variants_first.callPath ..) (Variants.first_eq _ _ h),
   run_lift1 (Names.Variants_last.callPath ..) (Variants.last_eq _ _ h),
   run_lift1 (Names.Extension_singleton.callPath ..) (Extension.singleton_eq ..),
   run_ok1 (Names.Extension_iter.callPath ..) (Extension.iter_eq ..),
   run_lift2 (Names.Extensions_get.callPath ..) (Extensions.get_eq _ _ _ _ h),
   run_ok1 (Names.Extensions_iter.callPath ..) (Extensions.iter_eq ..),
   run_lift2 (Names.Extensions_iter_extension.callPath ..) (Extensions.iter_extension_eq _ _ _ _ h),
   run_ok1 (Names.PrivateUse_iter.callPath ..) (PrivateUse.iter_eq ..)⟩

/-- C69: the functions of `Singleton`.  For the output of its `Debug` the crate calls that of a `char`, which is known here only for ASCII
letters and digits. -/
theorem C69_singleton (max : Nat) (g : Singleton) (s : Str) (b : UInt8) (c : Char) (f : Formatter) (out : List Char) :
    run max ["Singleton"] "new" [.u8 b] = givesBy (singletonResult .u8) (.ok (Singleton.new b)) ∧
    run max ["Singleton"] "try_from" [.u8 b] = givesBy (singletonResult .u8) (.ok (Singleton.tryFromU8 b)) ∧
    run max ["Singleton"] "try_from" [.char c] = givesBy (singletonResult .char) (.ok (Singleton.tryFromChar c)) ∧
    run max ["Singleton"] "from_string" [.str s] = givesBy (singletonResult .str) (Singleton.fromString s) ∧
    run max ["Singleton"] "from_str" [.str s] = givesBy (singletonResult .str) (Singleton.fromStr s) ∧
    run max ["Singleton"] "unwrap" [val g] = gives (.ok g.unwrap) ∧
    run max ["Singleton"] "eq" [val g, .u8 b] = gives (.ok (g.eqU8 b)) ∧
    run max ["Singleton"] "eq" [val g, .char c] = gives (.ok (g.eqChar c)) ∧
    run max ["Singleton"] "fmt" [val g, .formatter f out] = some (.returns (.ok (.tuple [])) [.formatter f (out ++ g.fmt f)]) ∧
    ((Char.ofNat g.byte.toNat).isAlphanum = true →
      runAs max "Debug" "Singleton" "fmt" [val g, .formatter f out] = some (.returns (.ok (.tuple [])) [.formatter f (out ++ g.fmtDebug f)])) :=
  ⟨run_ok1' (Names.Singleton_new.callPath ..) (Singleton.new_eq ..),
   run_ok1' (Names.Singleton_TryFrom_try_from.callPath ..) (Singleton.try_from_u8_eq ..),
   run_ok1' (Names.Singleton_TryFrom_try_from_2.callPath ..) (Singleton.try_from_char_eq ..),
   run_lift1' (Names.Singleton_from_string.callPath ..) (Singleton.from_string_eq ..),
   run_lift1' (Names.Singleton_FromStr_from_str.callPath ..) (Singleton.from_str_eq ..),
   run_ok1 (Names.Singleton_unwrap.callPath ..) (Singleton.unwrap_eq ..),
   run_ok2 (Names.Singleton_PartialEq_eq.callPath ..) (Singleton.eq_u8_eq ..),
   run_ok2 (Names.Singleton_PartialEq_eq_2.callPath ..) (Singleton.eq_char_eq ..),
   run_fmt (Names.Singleton_Display_fmt.callPath ..) (Singleton.fmt_eq ..),
   fun hg => by
     rw [runAs_eq (F := ⟨["Singleton"], "Debug", Ast.Singleton_Debug_fmt⟩) (by kernel_rfl)]
     exact congrArg outcome (Singleton.fmt_debug_eq _ hg _ _ _)⟩

/-- C69: `next`, `next_back`, `new` and `empty` of the iterators. -/
theorem C69_iterators (max : Nat) (d : Str) (o e : Nat) (h : d.length + 1 ≤ max) :
    run max ["VariantsIter"] "new" [.str d] = gives (.ok (VariantsIter.new d)) ∧
    run max ["ExtensionIter"] "new" [.str d] = gives (.ok (ExtensionIter.new d)) ∧
    run max ["ExtensionsIter"] "new" [.str d] = gives (.ok (ExtensionsIter.new d)) ∧
    run max ["PrivateUseIter"] "new" [.str d] = gives (.ok (PrivateUseIter.new d)) ∧
    run max ["LanguageExtensionIter"] "new" [.str d] = gives (.ok (LanguageExtensionIter.new d)) ∧
    run max ["VariantsIter"] "empty" [] = gives (.ok VariantsIter.empty) ∧
    run max ["ExtensionIter"] "empty" [] = gives (.ok ExtensionIter.empty) ∧
    run max ["PrivateUseIter"] "empty" [] = gives (.ok PrivateUseIter.empty) ∧
    run max ["LanguageExtensionIter"] "empty" [] = gives (.ok LanguageExtensionIter.empty) ∧
    (e ≤ d.length → run max ["VariantsIter"] "next" [val (⟨d, o, e⟩ : VariantsIter)] = givesNext (VariantsIter.next ⟨d, o, e⟩)) ∧
    run max ["VariantsIter"] "next_back" [val (⟨d, o, e⟩ : VariantsIter)] = givesNext (VariantsIter.nextBack ⟨d, o, e⟩) ∧
    run max ["ExtensionIter"] "next" [val (⟨d, o⟩ : ExtensionIter)] = givesNext (ExtensionIter.next ⟨d, o⟩) ∧
    run max ["ExtensionsIter"] "next" [val (⟨d, o⟩ : ExtensionsIter)] = givesNext (ExtensionsIter.next ⟨d, o⟩) ∧
    run max ["PrivateUseIter"] "next" [val (⟨d, o⟩ : PrivateUseIter)] = givesNext (PrivateUseIter.next ⟨d, o⟩) ∧
    run max ["LanguageExtensionIter"] "next" [val (⟨d, o⟩ : LanguageExtensionIter)] = givesNext (LanguageExtensionIter.next ⟨d, o⟩) :=
  ⟨run_ok1 (Names.VariantsIter_new.callPath ..) (VariantsIter.new_eq ..),
   run_ok1 (Names.ExtensionIter_new.callPath ..) (ExtensionIter.new_eq ..),
   run_ok1 (Names.ExtensionsIter_new.callPath ..) (ExtensionsIter.new_eq ..),
   run_ok1 (Names.PrivateUseIter_new.callPath ..) (PrivateUseIter.new_eq ..),
   run_ok1 (Names.LanguageExtensionIter_new.callPath ..) (LanguageExtensionIter.new_eq ..),
   run_ok0 (Names.VariantsIter_empty.callPath ..) VariantsIter.empty_eq,
   run_ok0 (Names.ExtensionIter_empty.callPath ..) ExtensionIter.empty_eq,
   run_ok0 (Names.PrivateUseIter_empty.callPath ..) PrivateUseIter.empty_eq,
   run_ok0 (Names.LanguageExtensionIter_empty.callPath ..) LanguageExtensionIter.empty_eq,
   fun he => by
     rw [← Langtag.Proof.variantsNext_checked (max := max) (it := ⟨d, o, e⟩) h he]
     exact run_next (Names.VariantsIter_Iterator_next.callPath ..) (VariantsIter.next_checked ..),
   by rw [← Langtag.Proof.variantsNextBack_checked (max := max) (it := ⟨d, o, e⟩) h]
      exact run_next (Names.VariantsIter_DoubleEndedIterator_next_back.callPath ..) (VariantsIter.next_back_checked ..),
   by rw [← Langtag.Proof.extensionNext_checked (max := max) (it := ⟨d, o⟩) h]
      exact run_next (Names.ExtensionIter_Iterator_next.callPath ..) (ExtensionIter.next_checked ..),
   by rw [← Langtag.Proof.extensionsNext_checked (max := max) (it := ⟨d, o⟩) h]
      exact run_next (Names.ExtensionsIter_Iterator_next.callPath ..) (ExtensionsIter.next_checked _ _ h),
   by rw [← Langtag.Proof.privateUseNext_checked (max := max) (it := ⟨d, o⟩) h]
      exact run_next (Names.PrivateUseIter_Iterator_next.callPath ..) (PrivateUseIter.next_checked ..),
   by rw [← Langtag.Proof.languageExtensionNext_checked (max := max) (it := ⟨d, o⟩) h]
      exact run_next (Names.LanguageExtensionIter_Iterator_next.callPath ..) (LanguageExtensionIter.next_checked ..)⟩

/-- C69: the macro `langtag!`. -/
theorem C69_macro (max : Nat) (s : Str) (h : s.length + 1 ≤ max) : run max [] "langtag" [.str s] = gives (LangTag.langtag! s) :=
  run_lift1 (langtagFn_callPath _) (langtag_eq s h)

/-- C69: the comparisons, `hash` and `{:?}` derived for `Kind`, `GrandfatheredLangTag` and `Singleton`, from their declarations in the text. -/
theorem C69_derived (max : Nat) :
    (∀ (a b : Kind) (f : Formatter),
      runDerivedEq max "Kind" (val a) (val b) = some (a.eq b) ∧ runDerivedCmp max "Kind" (val a) (val b) = some (a.cmp b) ∧
      runDerivedPartialCmp max "Kind" (val a) (val b) = some (a.partialCmp b) ∧
      runDerivedHash max "Kind" (val a) = some (a.hash (fun w n => w ++ [.isize n]) []) ∧
      runDerivedDebug max "Kind" (val a) = some (a.fmtDebug f)) ∧
    (∀ a b : GrandfatheredLangTag,
      runDerivedEq max "GrandfatheredLangTag" (val a) (val b) = some (a.eq b) ∧
      runDerivedCmp max "GrandfatheredLangTag" (val a) (val b) = some (a.cmp b) ∧
      runDerivedPartialCmp max "GrandfatheredLangTag" (val a) (val b) = some (a.partialCmp b) ∧
      runDerivedHash max "GrandfatheredLangTag" (val a) = some (a.hash (fun w n => w ++ [.isize n]) [])) ∧
    ∀ a b : Singleton,
      runDerivedEq max "Singleton" (val a) (val b) = some (a.eq b) ∧ runDerivedCmp max "Singleton" (val a) (val b) = some (a.cmp b) ∧
      runDerivedPartialCmp max "Singleton" (val a) (val b) = some (a.partialCmp b) ∧
      runDerivedHash max "Singleton" (val a) = some (a.hash ⟨List HashWrite, fun w b => w ++ [.u8 b]⟩ []) := by
  refine ⟨fun a b f => ?_, fun a b => ?_, fun a b => ?_⟩
  · have h := Kind.derived max
    refine ⟨?_, ?_, ?_, ?_, ?_⟩
    · rw [h.eq, derivedEq_enum]; rfl
    · rw [h.cmp, derivedCmp_enum]; rfl
    · rw [h.partialCmp, derivedCmp_enum]; rfl
    · rw [h.hash]; rfl
    · exact Kind.debug max a
  · have h := GrandfatheredLangTag.derived max
    refine ⟨?_, ?_, ?_, ?_⟩
    · rw [h.eq, derivedEq_enum]; rfl
    · rw [h.cmp, derivedCmp_enum]; rfl
    · rw [h.partialCmp, derivedCmp_enum]; rfl
    · rw [h.hash]; rfl
  · have h := Singleton.derived max
    refine ⟨?_, ?_, ?_, ?_⟩
    · rw [h.eq, derivedEq_u8]; rfl
    · rw [h.cmp, derivedCmp_u8]; rfl
    · rw [h.partialCmp, derivedCmp_u8]; rfl
    · rw [h.hash]; rfl

-- the hypotheses are bounds on lengths: a tag, a tag with a type, an iterator under way
example : run 100 ["NormalLangTag"] "region" [val (⟨ascii "zh-Hant-HK"⟩ : NormalLangTag)] =
    some (.returns (.some (.ctor ["Region"] "Region" [.str (ascii "HK")])) []) := by
  rw [(C69_normalLangTag 100 ⟨ascii "zh-Hant-HK"⟩ (by decide +kernel)).2.2.1,
    show NormalLangTag.region ⟨ascii "zh-Hant-HK"⟩ = .ok (some ⟨ascii "HK"⟩) by decide +kernel]
  rfl
example : run 100 ["NormalLangTag"] "region" [val (⟨ascii "zh"⟩ : NormalLangTag)] = some (.panics .slice) := by
  rw [(C69_normalLangTag 100 ⟨ascii "zh"⟩ (by decide +kernel)).2.2.1, show NormalLangTag.region ⟨ascii "zh"⟩ = .error .slice by decide +kernel]
  rfl
example : typedLength (.Normal ⟨ascii "zh-Hant-HK"⟩) + 1 ≤ 100 := by decide +kernel
example : run 100 ["VariantsIter"] "next" [val (⟨ascii "1abc-abcde", 0, 10⟩ : VariantsIter)] =
    some (.returns (.some (.ctor ["Variant"] "Variant" [.str (ascii "1abc")])) [val (⟨ascii "1abc-abcde", 5, 10⟩ : VariantsIter)]) := by
  rw [(C69_iterators 100 (ascii "1abc-abcde") 0 10 (by decide +kernel)).2.2.2.2.2.2.2.2.2.1 (by decide +kernel),
    show VariantsIter.next ⟨ascii "1abc-abcde", 0, 10⟩ = .ok (some ⟨ascii "1abc"⟩, ⟨ascii "1abc-abcde", 5, 10⟩) by decide +kernel]
  rfl

end Langtag.Props
