import Verif.Source.Deep.Least

/-! # How deep calls are nested at least: comparisons and iterators -/

set_option autoImplicit false

namespace Langtag.Source.Deep

open Langtag.Model (Panic Rust StrNewtype)

open Langtag.Model Langtag.Proof Langtag.Spec

variable {δ : Nat} {C : Ctx} {σ : Env} {max : Nat}

/-! ## `/repo/src/utils.rs` -/

theorem case_insensitive_eq_none (a b : List UInt8) (h : a.length = b.length) (hp : a ≠ []) :
    callFn 1 (crate max) ⟨[], "", Ast.case_insensitive_eq⟩ [.bytes a, .bytes b] σ = none := by
  rw [callFn_apply]
  simp only [Ast.case_insensitive_eq]
  deep
  rw [if_pos h]
  have hi : 0 < a.length := List.length_pos_iff.mpr hp
  refine for_rule (fun r => callR _ σ (closeR _ (closeR _ (bindR r _)))) (fun _ => [("a", Val.bytes a), ("b", Val.bytes b)])
    (fun i => if i < a.length then none else some (.ok (.bool true, [none, none]) σ)) (Nat.zero_le _) ?_ ?_ |>.trans (if_pos hi)
  · rw [if_neg (Nat.lt_irrefl _)]
    deep

  · intro i hi ih
    rw [if_pos hi]
    have hix : Langtag.Model.index a i = .ok a[i] := by simp [Langtag.Model.index, List.getElem?_eq_getElem hi]
    deep [hix, callFn_zero]
    rfl

theorem case_insensitive_hash_none (s w : List UInt8) (hp : s ≠ []) :
    callFn 1 (crate max) ⟨[], "", Ast.case_insensitive_hash⟩ [.bytes s, .hasher w] σ = none := by
  rw [callFn_apply]
  simp only [Ast.case_insensitive_hash]
  deep
  refine for_list_rule (fun r => callR _ σ (closeR _ r)) _ (fun w => [("bytes", Val.bytes s), ("hasher", Val.hasher w)])
    (fun s w => if s = [] then lift (fun w => (Val.tuple [], [none, some (.hasher w)])) (hashLog s w) σ else none) s w ?_ ?_ |>.trans (if_neg hp)
  · intro w
    rw [if_pos rfl]
    deep
    rfl
  · intro a as w ih
    rw [if_neg (by simp)]
    deep [callFn_zero]
    rfl

theorem case_insensitive_cmp_none (a b : List UInt8) (ha : a ≠ []) (hb : b ≠ []) :
    callFn 1 (crate max) ⟨[], "", Ast.case_insensitive_cmp⟩ [.bytes a, .bytes b] σ = none := by
  rw [callFn_apply]
  simp only [Ast.case_insensitive_cmp]
  deep
  refine loop_rule (fun r => callR _ σ (closeR _ r)) (fun i => [("i", Val.usize i), ("a", Val.bytes a), ("b", Val.bytes b)]) (fun i => i = 0)
    (fun i => a.length - i) (fun _ => none) 0 rfl ?_
  rintro i rfl _
  have ha' : 0 < a.length := List.length_pos_iff.mpr ha
  have hb' : 0 < b.length := List.length_pos_iff.mpr hb
  have hix : Langtag.Model.index a 0 = .ok a[0] := by simp [Langtag.Model.index, List.getElem?_eq_getElem ha']
  deep
  rw [if_neg (by omega), if_neg (by omega)]
  deep [hix, callFn_zero]
  rfl

/-! ## Comparisons -/

/-- The same of the comparisons of a type. -/
macro "deep_compare_least " t:str T:ident : command => do
  let .str _ T := T.getId | Lean.Macro.throwUnsupported
  let e := Lean.mkIdent (.mkStr2 T "eq_none")
  let c := Lean.mkIdent (.mkStr2 T "cmp_none")
  let p := Lean.mkIdent (.mkStr2 T "partial_cmp_none")
  let h := Lean.mkIdent (.mkStr2 T "hash_none")
  let e' := Lean.mkIdent (.mkStr2 "Ast" (T ++ "_PartialEq_eq"))
  let c' := Lean.mkIdent (.mkStr2 "Ast" (T ++ "_Ord_cmp"))
  let p' := Lean.mkIdent (.mkStr2 "Ast" (T ++ "_PartialOrd_partial_cmp"))
  let h' := Lean.mkIdent (.mkStr2 "Ast" (T ++ "_Hash_hash"))
  `(theorem $e (max : Nat) (σ : Env) (a b : List UInt8) (h : a.length = b.length) (hp : a ≠ []) :
      callFn 2 (crate max) ⟨[$t], "PartialEq", $e'⟩ [.ctor [$t] $t [.str a], .ctor [$t] $t [.str b]] σ = none := by
      rw [callFn_apply]
      simp only [$e':ident]
      deep [case_insensitive_eq_none a b h hp]
      rfl
    theorem $c (max : Nat) (σ : Env) (a b : List UInt8) (ha : a ≠ []) (hb : b ≠ []) :
      callFn 2 (crate max) ⟨[$t], "Ord", $c'⟩ [.ctor [$t] $t [.str a], .ctor [$t] $t [.str b]] σ = none := by
      rw [callFn_apply]
      simp only [$c':ident]
      deep [case_insensitive_cmp_none a b ha hb]
      rfl
    theorem $p (max : Nat) (σ : Env) (a b : List UInt8) (ha : a ≠ []) (hb : b ≠ []) :
      callFn 3 (crate max) ⟨[$t], "PartialOrd", $p'⟩ [.ctor [$t] $t [.str a], .ctor [$t] $t [.str b]] σ = none := by
      rw [callFn_apply]
      simp only [$p':ident]
      have hc := fun σ => $c max σ a b ha hb
      deep [hc]
      rfl
    theorem $h (max : Nat) (σ : Env) (a w : List UInt8) (hp : a ≠ []) :
      callFn 2 (crate max) ⟨[$t], "Hash", $h'⟩ [.ctor [$t] $t [.str a], .hasher w] σ = none := by
      rw [callFn_apply]
      simp only [$h':ident]
      deep [case_insensitive_hash_none a w hp]
      rfl)

deep_compare_least "LangTag" Langtag.Model.LangTag
deep_compare_least "NormalLangTag" Langtag.Model.NormalLangTag
deep_compare_least "Language" Langtag.Model.Language
deep_compare_least "PrimaryLanguage" Langtag.Model.PrimaryLanguage
deep_compare_least "LanguageExtension" Langtag.Model.LanguageExtension
deep_compare_least "ExtendedLangTag" Langtag.Model.ExtendedLangTag
deep_compare_least "Script" Langtag.Model.Script
deep_compare_least "Region" Langtag.Model.Region
deep_compare_least "Variant" Langtag.Model.Variant
deep_compare_least "Variants" Langtag.Model.Variants
deep_compare_least "Extension" Langtag.Model.Extension
deep_compare_least "Extensions" Langtag.Model.Extensions
deep_compare_least "ExtensionSubtag" Langtag.Model.ExtensionSubtag
deep_compare_least "PrivateUse" Langtag.Model.PrivateUse
deep_compare_least "PrivateUseSubtag" Langtag.Model.PrivateUseSubtag

/-! ## Iterators -/

theorem VariantsIter.next_none (d : List UInt8) (o e : Nat) (h : o < e) :
    callFn 1 (crate max) ⟨["VariantsIter"], "Iterator", Ast.VariantsIter_Iterator_next⟩
      [.struct ["VariantsIter"] [("data", .str d), ("offset", .usize o), ("end", .usize e)]] σ = none := by
  rw [callFn_apply]
  simp only [Ast.VariantsIter_Iterator_next]
  deep [callFn_zero]
  rw [if_pos h]
  rfl

theorem VariantsIter.next_back_none (d : List UInt8) (o e : Nat) (h : o < e) :
    callFn 1 (crate max) ⟨["VariantsIter"], "DoubleEndedIterator", Ast.VariantsIter_DoubleEndedIterator_next_back⟩
      [.struct ["VariantsIter"] [("data", .str d), ("offset", .usize o), ("end", .usize e)]] σ = none := by
  rw [callFn_apply]
  simp only [Ast.VariantsIter_DoubleEndedIterator_next_back]
  deep [callFn_zero]
  rw [if_pos h]
  rfl

theorem ExtensionIter.next_none (d : List UInt8) (o : Nat) (h : o < d.length) :
    callFn 1 (crate max) ⟨["ExtensionIter"], "Iterator", Ast.ExtensionIter_Iterator_next⟩
      [.struct ["ExtensionIter"] [("data", .str d), ("offset", .usize o)]] σ = none := by
  rw [callFn_apply]
  simp only [Ast.ExtensionIter_Iterator_next]
  deep [callFn_zero]
  rw [if_pos h]
  rfl

theorem PrivateUseIter.next_none (d : List UInt8) (o : Nat) (h : o < d.length) :
    callFn 1 (crate max) ⟨["PrivateUseIter"], "Iterator", Ast.PrivateUseIter_Iterator_next⟩
      [.struct ["PrivateUseIter"] [("data", .str d), ("offset", .usize o)]] σ = none := by
  rw [callFn_apply]
  simp only [Ast.PrivateUseIter_Iterator_next]
  deep [callFn_zero]
  rw [if_pos h]
  rfl

theorem LanguageExtensionIter.next_none (d : List UInt8) (o : Nat) (h : o < d.length) :
    callFn 1 (crate max) ⟨["LanguageExtensionIter"], "Iterator", Ast.LanguageExtensionIter_Iterator_next⟩
      [.struct ["LanguageExtensionIter"] [("data", .str d), ("offset", .usize o)]] σ = none := by
  rw [callFn_apply]
  simp only [Ast.LanguageExtensionIter_Iterator_next]
  deep [callFn_zero]
  rw [if_pos h]
  rfl

/-- `find_list_end` for a closure that always nests too deep. -/
theorem find_list_end_none' (s : List UInt8) (offset : Nat) (g : Val) (ha : Ascii s) (ho : offset ≤ s.length) (hs : s.length + 1 ≤ max)
    (hg : ∀ C o t σ, applyVal δ (crate max) C g [.usize o, .str t] σ = none) :
    callFn (δ + 1) (crate max) ⟨[], "", Ast.find_list_end⟩ [.str s, .usize offset, g] σ = none := by
  rw [callFn_apply]
  simp only [Ast.find_list_end]
  deep
  refine while_rule (ι := Nat × Nat × Nat) (fun r => callR _ σ (closeR _ (bindR r _)))
    (fun (o, i, e) => [("end", Val.usize e), ("i", Val.usize i), ("bytes", Val.bytes s), ("string", Val.str s), ("offset", Val.usize o), ("f", g)])
    (fun (o, i, _) => o ≤ i ∧ i ≤ s.length) (fun (_, i, _) => s.length - i) (fun _ => none) (offset, offset, offset) ⟨Nat.le_refl _, ho⟩ ?_
  rintro ⟨o, i, e⟩ ⟨hoi, hi⟩ ih
  simp only at ih ⊢
  deep
  split
  · rename_i hlt
    have hix : Langtag.Model.index s i = .ok s[i] := by simp [Langtag.Model.index, List.getElem?_eq_getElem hlt]
    rw [hix]
    deep
    split
    · rw [sliceRange_ok ha hoi hi]
      deep
      rw [hg]
      rfl
    · rw [if_pos (by omega)]
      exact ih (o, i + 1, e) ⟨Nat.le_succ_of_le hoi, Nat.succ_le_of_lt hlt⟩ (by simp only; omega)
  · rw [show Langtag.Model.sliceFrom s o = .ok _ from sliceRange_ok ha (by omega) (Nat.le_refl _)]
    deep
    rw [hg]
    rfl

theorem ExtensionsIter.next_none (d : List UInt8) (o : Nat) (ha : Ascii d) (h : o + 2 ≤ d.length) (hs : d.length + 1 ≤ max) :
    callFn 5 (crate max) ⟨["ExtensionsIter"], "Iterator", Ast.ExtensionsIter_Iterator_next⟩
      [.struct ["ExtensionsIter"] [("data", .str d), ("offset", .usize o)]] σ = none := by
  rw [callFn_apply]
  simp only [Ast.ExtensionsIter_Iterator_next]
  deep
  rw [if_pos (by omega), if_pos (by omega)]
  rw [find_list_end_none' d _ _ ha h hs]
  · rfl
  · intro C p t τ
    deep [ExtensionSubtag.new_none]
    rfl

/-! ## The functions every string type has -/

theorem not_within {n max : Nat} {T : List String} {f : String} {args : List Val} (h : callPath n (crate max) ⟨[], "", .tuple []⟩ T f args [] = none) :
    ¬ Within n max T f args := by
  rintro ⟨o, ho⟩
  rw [runWithin_eq, h] at ho
  cases ho

/-- The functions every string type has: how deep the calls go at least. -/
structure LeastSource (n : String) : Prop where
  new : ∀ (max : Nat) (s : Str), ¬ Within 2 max [n] "new" [.str s]
  eq : ∀ (max : Nat) (a b : Str), a.length = b.length → a ≠ [] → ¬ Within 2 max [n] "eq" [tag n a, tag n b]
  cmp : ∀ (max : Nat) (a b : Str), a ≠ [] → b ≠ [] → ¬ Within 2 max [n] "cmp" [tag n a, tag n b]
  partialCmp : ∀ (max : Nat) (a b : Str), a ≠ [] → b ≠ [] → ¬ Within 3 max [n] "partial_cmp" [tag n a, tag n b]
  hash : ∀ (max : Nat) (a : Str) (w : List UInt8), a ≠ [] → ¬ Within 2 max [n] "hash" [tag n a, .hasher w]

theorem LangTag.least : LeastSource "LangTag" where
  new _ s := not_within (LangTag.new_none s)
  eq _ _ _ h hp := not_within ((Names.LangTag_PartialEq_eq.callPath 2 ..).trans (LangTag.eq_none _ _ _ _ h hp))
  cmp _ _ _ ha hb := not_within ((Names.LangTag_Ord_cmp.callPath 2 ..).trans (LangTag.cmp_none _ _ _ _ ha hb))
  partialCmp _ _ _ ha hb := not_within ((Names.LangTag_PartialOrd_partial_cmp.callPath 3 ..).trans (LangTag.partial_cmp_none _ _ _ _ ha hb))
  hash _ _ _ hp := not_within ((Names.LangTag_Hash_hash.callPath 2 ..).trans (LangTag.hash_none _ _ _ _ hp))

theorem NormalLangTag.least : LeastSource "NormalLangTag" where
  new _ s := not_within (NormalLangTag.new_none s)
  eq _ _ _ h hp := not_within ((Names.NormalLangTag_PartialEq_eq.callPath 2 ..).trans (NormalLangTag.eq_none _ _ _ _ h hp))
  cmp _ _ _ ha hb := not_within ((Names.NormalLangTag_Ord_cmp.callPath 2 ..).trans (NormalLangTag.cmp_none _ _ _ _ ha hb))
  partialCmp _ _ _ ha hb := not_within ((Names.NormalLangTag_PartialOrd_partial_cmp.callPath 3 ..).trans (NormalLangTag.partial_cmp_none _ _ _ _ ha hb))
  hash _ _ _ hp := not_within ((Names.NormalLangTag_Hash_hash.callPath 2 ..).trans (NormalLangTag.hash_none _ _ _ _ hp))

theorem Language.least : LeastSource "Language" where
  new _ s := not_within (Language.new_none s)
  eq _ _ _ h hp := not_within ((Names.Language_PartialEq_eq.callPath 2 ..).trans (Language.eq_none _ _ _ _ h hp))
  cmp _ _ _ ha hb := not_within ((Names.Language_Ord_cmp.callPath 2 ..).trans (Language.cmp_none _ _ _ _ ha hb))
  partialCmp _ _ _ ha hb := not_within ((Names.Language_PartialOrd_partial_cmp.callPath 3 ..).trans (Language.partial_cmp_none _ _ _ _ ha hb))
  hash _ _ _ hp := not_within ((Names.Language_Hash_hash.callPath 2 ..).trans (Language.hash_none _ _ _ _ hp))

theorem PrimaryLanguage.least : LeastSource "PrimaryLanguage" where
  new _ s := not_within (PrimaryLanguage.new_none s)
  eq _ _ _ h hp := not_within ((Names.PrimaryLanguage_PartialEq_eq.callPath 2 ..).trans (PrimaryLanguage.eq_none _ _ _ _ h hp))
  cmp _ _ _ ha hb := not_within ((Names.PrimaryLanguage_Ord_cmp.callPath 2 ..).trans (PrimaryLanguage.cmp_none _ _ _ _ ha hb))
  partialCmp _ _ _ ha hb := not_within ((Names.PrimaryLanguage_PartialOrd_partial_cmp.callPath 3 ..).trans (PrimaryLanguage.partial_cmp_none _ _ _ _ ha hb))
  hash _ _ _ hp := not_within ((Names.PrimaryLanguage_Hash_hash.callPath 2 ..).trans (PrimaryLanguage.hash_none _ _ _ _ hp))

theorem LanguageExtension.least : LeastSource "LanguageExtension" where
  new _ s := not_within (LanguageExtension.new_none s)
  eq _ _ _ h hp := not_within ((Names.LanguageExtension_PartialEq_eq.callPath 2 ..).trans (LanguageExtension.eq_none _ _ _ _ h hp))
  cmp _ _ _ ha hb := not_within ((Names.LanguageExtension_Ord_cmp.callPath 2 ..).trans (LanguageExtension.cmp_none _ _ _ _ ha hb))
  partialCmp _ _ _ ha hb := not_within ((Names.LanguageExtension_PartialOrd_partial_cmp.callPath 3 ..).trans (LanguageExtension.partial_cmp_none _ _ _ _ ha hb))
  hash _ _ _ hp := not_within ((Names.LanguageExtension_Hash_hash.callPath 2 ..).trans (LanguageExtension.hash_none _ _ _ _ hp))

theorem ExtendedLangTag.least : LeastSource "ExtendedLangTag" where
  new _ s := not_within (ExtendedLangTag.new_none s)
  eq _ _ _ h hp := not_within ((Names.ExtendedLangTag_PartialEq_eq.callPath 2 ..).trans (ExtendedLangTag.eq_none _ _ _ _ h hp))
  cmp _ _ _ ha hb := not_within ((Names.ExtendedLangTag_Ord_cmp.callPath 2 ..).trans (ExtendedLangTag.cmp_none _ _ _ _ ha hb))
  partialCmp _ _ _ ha hb := not_within ((Names.ExtendedLangTag_PartialOrd_partial_cmp.callPath 3 ..).trans (ExtendedLangTag.partial_cmp_none _ _ _ _ ha hb))
  hash _ _ _ hp := not_within ((Names.ExtendedLangTag_Hash_hash.callPath 2 ..).trans (ExtendedLangTag.hash_none _ _ _ _ hp))

theorem Script.least : LeastSource "Script" where
  new _ s := not_within (Script.new_none s)
  eq _ _ _ h hp := not_within ((Names.Script_PartialEq_eq.callPath 2 ..).trans (Script.eq_none _ _ _ _ h hp))
  cmp _ _ _ ha hb := not_within ((Names.Script_Ord_cmp.callPath 2 ..).trans (Script.cmp_none _ _ _ _ ha hb))
  partialCmp _ _ _ ha hb := not_within ((Names.Script_PartialOrd_partial_cmp.callPath 3 ..).trans (Script.partial_cmp_none _ _ _ _ ha hb))
  hash _ _ _ hp := not_within ((Names.Script_Hash_hash.callPath 2 ..).trans (Script.hash_none _ _ _ _ hp))

theorem Region.least : LeastSource "Region" where
  new _ s := not_within (Region.new_none s)
  eq _ _ _ h hp := not_within ((Names.Region_PartialEq_eq.callPath 2 ..).trans (Region.eq_none _ _ _ _ h hp))
  cmp _ _ _ ha hb := not_within ((Names.Region_Ord_cmp.callPath 2 ..).trans (Region.cmp_none _ _ _ _ ha hb))
  partialCmp _ _ _ ha hb := not_within ((Names.Region_PartialOrd_partial_cmp.callPath 3 ..).trans (Region.partial_cmp_none _ _ _ _ ha hb))
  hash _ _ _ hp := not_within ((Names.Region_Hash_hash.callPath 2 ..).trans (Region.hash_none _ _ _ _ hp))

theorem Variant.least : LeastSource "Variant" where
  new _ s := not_within (Variant.new_none s)
  eq _ _ _ h hp := not_within ((Names.Variant_PartialEq_eq.callPath 2 ..).trans (Variant.eq_none _ _ _ _ h hp))
  cmp _ _ _ ha hb := not_within ((Names.Variant_Ord_cmp.callPath 2 ..).trans (Variant.cmp_none _ _ _ _ ha hb))
  partialCmp _ _ _ ha hb := not_within ((Names.Variant_PartialOrd_partial_cmp.callPath 3 ..).trans (Variant.partial_cmp_none _ _ _ _ ha hb))
  hash _ _ _ hp := not_within ((Names.Variant_Hash_hash.callPath 2 ..).trans (Variant.hash_none _ _ _ _ hp))

theorem Variants.least : LeastSource "Variants" where
  new _ s := not_within (Variants.new_none s)
  eq _ _ _ h hp := not_within ((Names.Variants_PartialEq_eq.callPath 2 ..).trans (Variants.eq_none _ _ _ _ h hp))
  cmp _ _ _ ha hb := not_within ((Names.Variants_Ord_cmp.callPath 2 ..).trans (Variants.cmp_none _ _ _ _ ha hb))
  partialCmp _ _ _ ha hb := not_within ((Names.Variants_PartialOrd_partial_cmp.callPath 3 ..).trans (Variants.partial_cmp_none _ _ _ _ ha hb))
  hash _ _ _ hp := not_within ((Names.Variants_Hash_hash.callPath 2 ..).trans (Variants.hash_none _ _ _ _ hp))

theorem Extension.least : LeastSource "Extension" where
  new _ s := not_within (Extension.new_none s)
  eq _ _ _ h hp := not_within ((Names.Extension_PartialEq_eq.callPath 2 ..).trans (Extension.eq_none _ _ _ _ h hp))
  cmp _ _ _ ha hb := not_within ((Names.Extension_Ord_cmp.callPath 2 ..).trans (Extension.cmp_none _ _ _ _ ha hb))
  partialCmp _ _ _ ha hb := not_within ((Names.Extension_PartialOrd_partial_cmp.callPath 3 ..).trans (Extension.partial_cmp_none _ _ _ _ ha hb))
  hash _ _ _ hp := not_within ((Names.Extension_Hash_hash.callPath 2 ..).trans (Extension.hash_none _ _ _ _ hp))

theorem Extensions.least : LeastSource "Extensions" where
  new _ s := not_within (Extensions.new_none s)
  eq _ _ _ h hp := not_within ((Names.Extensions_PartialEq_eq.callPath 2 ..).trans (Extensions.eq_none _ _ _ _ h hp))
  cmp _ _ _ ha hb := not_within ((Names.Extensions_Ord_cmp.callPath 2 ..).trans (Extensions.cmp_none _ _ _ _ ha hb))
  partialCmp _ _ _ ha hb := not_within ((Names.Extensions_PartialOrd_partial_cmp.callPath 3 ..).trans (Extensions.partial_cmp_none _ _ _ _ ha hb))
  hash _ _ _ hp := not_within ((Names.Extensions_Hash_hash.callPath 2 ..).trans (Extensions.hash_none _ _ _ _ hp))

theorem ExtensionSubtag.least : LeastSource "ExtensionSubtag" where
  new _ s := not_within (ExtensionSubtag.new_none s)
  eq _ _ _ h hp := not_within ((Names.ExtensionSubtag_PartialEq_eq.callPath 2 ..).trans (ExtensionSubtag.eq_none _ _ _ _ h hp))
  cmp _ _ _ ha hb := not_within ((Names.ExtensionSubtag_Ord_cmp.callPath 2 ..).trans (ExtensionSubtag.cmp_none _ _ _ _ ha hb))
  partialCmp _ _ _ ha hb := not_within ((Names.ExtensionSubtag_PartialOrd_partial_cmp.callPath 3 ..).trans (ExtensionSubtag.partial_cmp_none _ _ _ _ ha hb))
  hash _ _ _ hp := not_within ((Names.ExtensionSubtag_Hash_hash.callPath 2 ..).trans (ExtensionSubtag.hash_none _ _ _ _ hp))

theorem PrivateUse.least : LeastSource "PrivateUse" where
  new _ s := not_within (PrivateUse.new_none s)
  eq _ _ _ h hp := not_within ((Names.PrivateUse_PartialEq_eq.callPath 2 ..).trans (PrivateUse.eq_none _ _ _ _ h hp))
  cmp _ _ _ ha hb := not_within ((Names.PrivateUse_Ord_cmp.callPath 2 ..).trans (PrivateUse.cmp_none _ _ _ _ ha hb))
  partialCmp _ _ _ ha hb := not_within ((Names.PrivateUse_PartialOrd_partial_cmp.callPath 3 ..).trans (PrivateUse.partial_cmp_none _ _ _ _ ha hb))
  hash _ _ _ hp := not_within ((Names.PrivateUse_Hash_hash.callPath 2 ..).trans (PrivateUse.hash_none _ _ _ _ hp))

theorem PrivateUseSubtag.least : LeastSource "PrivateUseSubtag" where
  new _ s := not_within (PrivateUseSubtag.new_none s)
  eq _ _ _ h hp := not_within ((Names.PrivateUseSubtag_PartialEq_eq.callPath 2 ..).trans (PrivateUseSubtag.eq_none _ _ _ _ h hp))
  cmp _ _ _ ha hb := not_within ((Names.PrivateUseSubtag_Ord_cmp.callPath 2 ..).trans (PrivateUseSubtag.cmp_none _ _ _ _ ha hb))
  partialCmp _ _ _ ha hb := not_within ((Names.PrivateUseSubtag_PartialOrd_partial_cmp.callPath 3 ..).trans (PrivateUseSubtag.partial_cmp_none _ _ _ _ ha hb))
  hash _ _ _ hp := not_within ((Names.PrivateUseSubtag_Hash_hash.callPath 2 ..).trans (PrivateUseSubtag.hash_none _ _ _ _ hp))

theorem iterators_least (max : Nat) (d : Str) (o e : Nat) (h : d.length + 1 ≤ max) (ha : Ascii d) :
    (o < e → ¬ Within 1 max ["VariantsIter"] "next" [val (⟨d, o, e⟩ : VariantsIter)]) ∧
    (o < e → ¬ Within 1 max ["VariantsIter"] "next_back" [val (⟨d, o, e⟩ : VariantsIter)]) ∧
    (o < d.length → ¬ Within 1 max ["ExtensionIter"] "next" [val (⟨d, o⟩ : ExtensionIter)]) ∧
    (o + 2 ≤ d.length → ¬ Within 5 max ["ExtensionsIter"] "next" [val (⟨d, o⟩ : ExtensionsIter)]) ∧
    (o < d.length → ¬ Within 1 max ["PrivateUseIter"] "next" [val (⟨d, o⟩ : PrivateUseIter)]) ∧
    (o < d.length → ¬ Within 1 max ["LanguageExtensionIter"] "next" [val (⟨d, o⟩ : LanguageExtensionIter)]) :=
  ⟨fun ho => not_within ((Names.VariantsIter_Iterator_next.callPath ..).trans (VariantsIter.next_none _ _ _ ho)),
   fun ho => not_within ((Names.VariantsIter_DoubleEndedIterator_next_back.callPath ..).trans (VariantsIter.next_back_none _ _ _ ho)),
   fun ho => not_within ((Names.ExtensionIter_Iterator_next.callPath ..).trans (ExtensionIter.next_none _ _ ho)),
   fun ho => not_within ((Names.ExtensionsIter_Iterator_next.callPath ..).trans (ExtensionsIter.next_none _ _ ha ho h)),
   fun ho => not_within ((Names.PrivateUseIter_Iterator_next.callPath ..).trans (PrivateUseIter.next_none _ _ ho)),
   fun ho => not_within ((Names.LanguageExtensionIter_Iterator_next.callPath ..).trans (LanguageExtensionIter.next_none _ _ ho))⟩

end Langtag.Source.Deep
