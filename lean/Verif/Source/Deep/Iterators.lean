import Verif.Source.Deep.Newtypes
import Verif.Source.Deep.Segments
import Verif.Source.Refine.Iterators

/-! # The iterators (`variant.rs`, `extension.rs`, `private_use.rs`, `language/extlang.rs`), with bounded nesting -/

set_option autoImplicit false

namespace Langtag.Source.Deep

open Langtag.Model (Panic Rust StrNewtype)

open Langtag.Model

variable {δ : Nat} {C : Ctx} {σ : Env} {max : Nat}

/-! ## `next` and `next_back` -/

@[dep] theorem VariantsIter.next_checked (d : List UInt8) (o e : Nat) :
    callFn (δ + 2) (crate max) ⟨["VariantsIter"], "Iterator", Ast.VariantsIter_Iterator_next⟩
      [.struct ["VariantsIter"] [("data", .str d), ("offset", .usize o), ("end", .usize e)]] σ =
    lift nextVal (Checked.variantsNext max ⟨d, o, e⟩) σ := by
  rw [callFn_apply]
  simp only [Ast.VariantsIter_Iterator_next, Checked.variantsNext]
  deep
  split
  · cases Checked.findSegmentEnd max d o <;> deep
    cases sliceRange d o _ <;> deep
  · rfl

@[dep] theorem VariantsIter.next_back_checked (d : List UInt8) (o e : Nat) :
    callFn (δ + 2) (crate max) ⟨["VariantsIter"], "DoubleEndedIterator", Ast.VariantsIter_DoubleEndedIterator_next_back⟩
      [.struct ["VariantsIter"] [("data", .str d), ("offset", .usize o), ("end", .usize e)]] σ =
    lift nextVal (Checked.variantsNextBack max ⟨d, o, e⟩) σ := by
  rw [callFn_apply]
  simp only [Ast.VariantsIter_DoubleEndedIterator_next_back, Checked.variantsNextBack]
  deep
  split
  · cases Checked.findSegmentStart max d e <;> deep
    cases sliceRange d _ e <;> deep
  · rfl

@[dep] theorem ExtensionIter.next_checked (d : List UInt8) (o : Nat) :
    callFn (δ + 2) (crate max) ⟨["ExtensionIter"], "Iterator", Ast.ExtensionIter_Iterator_next⟩
      [.struct ["ExtensionIter"] [("data", .str d), ("offset", .usize o)]] σ =
    lift nextVal (Checked.extensionNext max ⟨d, o⟩) σ := by
  rw [callFn_apply]
  simp only [Ast.ExtensionIter_Iterator_next, Checked.extensionNext]
  deep
  split
  · cases Checked.findSegmentEnd max d o <;> deep
    cases sliceRange d o _ <;> deep
  · rfl

@[dep] theorem PrivateUseIter.next_checked (d : List UInt8) (o : Nat) :
    callFn (δ + 2) (crate max) ⟨["PrivateUseIter"], "Iterator", Ast.PrivateUseIter_Iterator_next⟩
      [.struct ["PrivateUseIter"] [("data", .str d), ("offset", .usize o)]] σ =
    lift nextVal (Checked.privateUseNext max ⟨d, o⟩) σ := by
  rw [callFn_apply]
  simp only [Ast.PrivateUseIter_Iterator_next, Checked.privateUseNext]
  deep
  split
  · cases Checked.findSegmentEnd max d o <;> deep
    cases sliceRange d o _ <;> deep
  · rfl

@[dep] theorem LanguageExtensionIter.next_checked (d : List UInt8) (o : Nat) :
    callFn (δ + 2) (crate max) ⟨["LanguageExtensionIter"], "Iterator", Ast.LanguageExtensionIter_Iterator_next⟩
      [.struct ["LanguageExtensionIter"] [("data", .str d), ("offset", .usize o)]] σ =
    lift nextVal (Checked.languageExtensionNext max ⟨d, o⟩) σ := by
  rw [callFn_apply]
  simp only [Ast.LanguageExtensionIter_Iterator_next, Checked.languageExtensionNext]
  deep
  split
  · cases Checked.findSegmentEnd max d o <;> deep
    cases sliceRange d o _ <;> deep
  · rfl

@[dep] theorem ExtensionsIter.next_checked (d : List UInt8) (o : Nat) (hs : d.length + 1 ≤ max) :
    callFn (δ + 6) (crate max) ⟨["ExtensionsIter"], "Iterator", Ast.ExtensionsIter_Iterator_next⟩
      [.struct ["ExtensionsIter"] [("data", .str d), ("offset", .usize o)]] σ =
    lift nextVal (Checked.extensionsNext max ⟨d, o⟩) σ := by
  rw [callFn_apply]
  simp only [Ast.ExtensionsIter_Iterator_next, Checked.extensionsNext]
  deep
  split
  · split
    · rw [find_list_end_eq d _ _ (fun _ t => .ok (StrNewtype.isOk ExtensionSubtag t))]
      · cases Checked.findListEnd max d _ _ <;> deep
        cases sliceRange d o _ <;> deep
      · intro C p t τ ht
        have h' : t.length + 1 ≤ max := by omega
        deep [h']
        cases StrNewtype.isOk ExtensionSubtag t <;> rfl
    · rfl
  · rfl

/-! ## Constructors -/

theorem default_eq {P : Program} {ty : List String} {v : Val} (h1 : P.lookup ty "default" [] = none) (h2 : newOf P ty "default" [] = none)
    (h3 : corePath P ty "default" [] = pure v) : callPath δ P C ty "default" [] σ = some (.ok (v, []) σ) := by
  rw [callPath, h1]
  simp only [h2, bind_apply]
  rw [h3]
  rfl

@[dep] theorem VariantsIter.default_eq : callPath δ (crate max) C ["VariantsIter"] "default" [] σ = some (.ok (val VariantsIter.empty, []) σ) :=
  Deep.default_eq (by kernel_rfl) (by kernel_rfl) (by kernel_rfl)

@[dep] theorem ExtensionIter.default_eq : callPath δ (crate max) C ["ExtensionIter"] "default" [] σ = some (.ok (val ExtensionIter.empty, []) σ) :=
  Deep.default_eq (by kernel_rfl) (by kernel_rfl) (by kernel_rfl)

@[dep] theorem PrivateUseIter.default_eq : callPath δ (crate max) C ["PrivateUseIter"] "default" [] σ = some (.ok (val PrivateUseIter.empty, []) σ) :=
  Deep.default_eq (by kernel_rfl) (by kernel_rfl) (by kernel_rfl)

@[dep] theorem LanguageExtensionIter.default_eq :
    callPath δ (crate max) C ["LanguageExtensionIter"] "default" [] σ = some (.ok (val LanguageExtensionIter.empty, []) σ) :=
  Deep.default_eq (by kernel_rfl) (by kernel_rfl) (by kernel_rfl)

/-- `None.unwrap_or_default()`, as the result of a function. -/
theorem none_unwrap_or_default {o : List String} {t : String} {segs : List String} {ts : List Ty} {v : Val}
    (h : derivedDefault (crate max) (typePath (crate max) ⟨o, t, .path segs ts⟩ segs) = pure v) :
    callMethod δ (crate max) ⟨o, t, .path segs ts⟩ (.ctor ["Option"] "None" []) "unwrap_or_default" [] σ = some (.ok (v, []) σ) := by
  rw [core_eq (methodOf_option ..) rfl (by decide)]
  simp only [coreMethod, bind_apply]
  rw [h]
  rfl

@[dep] theorem ExtensionIter.unwrap_or_default (o : List String) (t : String) :
    callMethod δ (crate max) ⟨o, t, .path ["ExtensionIter"] []⟩ (.ctor ["Option"] "None" []) "unwrap_or_default" [] σ =
    some (.ok (val ExtensionIter.empty, []) σ) := none_unwrap_or_default (by kernel_rfl)

@[dep] theorem LanguageExtensionIter.unwrap_or_default (o : List String) (t : String) :
    callMethod δ (crate max) ⟨o, t, .path ["LanguageExtensionIter"] []⟩ (.ctor ["Option"] "None" []) "unwrap_or_default" [] σ =
    some (.ok (val LanguageExtensionIter.empty, []) σ) := none_unwrap_or_default (by kernel_rfl)

@[dep] theorem VariantsIter.new_eq (d : List UInt8) : callFn (δ + 1) (crate max) ⟨["VariantsIter"], "", Ast.VariantsIter_new⟩ [.str d] σ =
    some (.ok (val (VariantsIter.new d), [none]) σ) := by
  rw [callFn_apply]
  simp only [Ast.VariantsIter_new, VariantsIter.new]
  deep

@[dep] theorem ExtensionIter.new_eq (d : List UInt8) : callFn (δ + 1) (crate max) ⟨["ExtensionIter"], "", Ast.ExtensionIter_new⟩ [.str d] σ =
    some (.ok (val (ExtensionIter.new d), [none]) σ) := by
  rw [callFn_apply]
  simp only [Ast.ExtensionIter_new, ExtensionIter.new]
  deep

@[dep] theorem ExtensionsIter.new_eq (d : List UInt8) : callFn (δ + 1) (crate max) ⟨["ExtensionsIter"], "", Ast.ExtensionsIter_new⟩ [.str d] σ =
    some (.ok (val (ExtensionsIter.new d), [none]) σ) := by
  rw [callFn_apply]
  simp only [Ast.ExtensionsIter_new, ExtensionsIter.new]
  deep

@[dep] theorem PrivateUseIter.new_eq (d : List UInt8) : callFn (δ + 1) (crate max) ⟨["PrivateUseIter"], "", Ast.PrivateUseIter_new⟩ [.str d] σ =
    some (.ok (val (PrivateUseIter.new d), [none]) σ) := by
  rw [callFn_apply]
  simp only [Ast.PrivateUseIter_new, PrivateUseIter.new]
  deep

@[dep] theorem LanguageExtensionIter.new_eq (d : List UInt8) :
    callFn (δ + 1) (crate max) ⟨["LanguageExtensionIter"], "", Ast.LanguageExtensionIter_new⟩ [.str d] σ =
    some (.ok (val (LanguageExtensionIter.new d), [none]) σ) := by
  rw [callFn_apply]
  simp only [Ast.LanguageExtensionIter_new, LanguageExtensionIter.new]
  deep

@[dep] theorem VariantsIter.empty_eq : callFn (δ + 1) (crate max) ⟨["VariantsIter"], "", Ast.VariantsIter_empty⟩ [] σ =
    some (.ok (val VariantsIter.empty, []) σ) := by
  rw [callFn_apply]
  simp only [Ast.VariantsIter_empty]
  deep

@[dep] theorem ExtensionIter.empty_eq : callFn (δ + 1) (crate max) ⟨["ExtensionIter"], "", Ast.ExtensionIter_empty⟩ [] σ =
    some (.ok (val ExtensionIter.empty, []) σ) := by
  rw [callFn_apply]
  simp only [Ast.ExtensionIter_empty]
  deep

@[dep] theorem PrivateUseIter.empty_eq : callFn (δ + 1) (crate max) ⟨["PrivateUseIter"], "", Ast.PrivateUseIter_empty⟩ [] σ =
    some (.ok (val PrivateUseIter.empty, []) σ) := by
  rw [callFn_apply]
  simp only [Ast.PrivateUseIter_empty]
  deep

@[dep] theorem LanguageExtensionIter.empty_eq : callFn (δ + 1) (crate max) ⟨["LanguageExtensionIter"], "", Ast.LanguageExtensionIter_empty⟩ [] σ =
    some (.ok (val LanguageExtensionIter.empty, []) σ) := by
  rw [callFn_apply]
  simp only [Ast.LanguageExtensionIter_empty]
  deep

@[dep] theorem Variants.iter_eq (x : String) (s : List UInt8) : callFn (δ + 2) (crate max) ⟨["Variants"], "", Ast.Variants_iter⟩ [.ctor ["Variants"] x [.str s]] σ =
    some (.ok (val (Variants.iter ⟨s⟩), [none]) σ) := by
  rw [callFn_apply]
  simp only [Ast.Variants_iter, Variants.iter]
  deep

@[dep] theorem Extension.iter_eq (x : String) (s : List UInt8) : callFn (δ + 2) (crate max) ⟨["Extension"], "", Ast.Extension_iter⟩ [.ctor ["Extension"] x [.str s]] σ =
    some (.ok (val (Extension.iter ⟨s⟩), [none]) σ) := by
  rw [callFn_apply]
  simp only [Ast.Extension_iter, Extension.iter]
  deep

@[dep] theorem Extensions.iter_eq (x : String) (s : List UInt8) : callFn (δ + 2) (crate max) ⟨["Extensions"], "", Ast.Extensions_iter⟩ [.ctor ["Extensions"] x [.str s]] σ =
    some (.ok (val (Extensions.iter ⟨s⟩), [none]) σ) := by
  rw [callFn_apply]
  simp only [Ast.Extensions_iter, Extensions.iter]
  deep

@[dep] theorem PrivateUse.iter_eq (x : String) (s : List UInt8) : callFn (δ + 2) (crate max) ⟨["PrivateUse"], "", Ast.PrivateUse_iter⟩ [.ctor ["PrivateUse"] x [.str s]] σ =
    some (.ok (val (PrivateUse.iter ⟨s⟩), [none]) σ) := by
  rw [callFn_apply]
  simp only [Ast.PrivateUse_iter, PrivateUse.iter]
  deep

@[dep] theorem LanguageExtension.iter_eq (x : String) (s : List UInt8) :
    callFn (δ + 2) (crate max) ⟨["LanguageExtension"], "", Ast.LanguageExtension_iter⟩ [.ctor ["LanguageExtension"] x [.str s]] σ =
    some (.ok (val (LanguageExtension.iter ⟨s⟩), [none]) σ) := by
  rw [callFn_apply]
  simp only [Ast.LanguageExtension_iter, LanguageExtension.iter]
  deep

end Langtag.Source.Deep
