import Verif.Source.Refine.Newtypes
import Verif.Source.Refine.Segments
import Verif.Proof.Checked

/-! # The iterators (`variant.rs`, `extension.rs`, `private_use.rs`, `language/extlang.rs`): the text and the model -/

set_option autoImplicit false

namespace Langtag.Source
open Langtag.Model (Panic Rust StrNewtype)
open Langtag.Model

variable {C : Ctx} {σ : Env} {max : Nat}

instance : Rep VariantsIter := ⟨fun it => .struct ["VariantsIter"] [("data", .str it.data), ("offset", .usize it.offset), ("end", .usize it.end_)]⟩
instance : Rep ExtensionIter := ⟨fun it => .struct ["ExtensionIter"] [("data", .str it.data), ("offset", .usize it.offset)]⟩
instance : Rep ExtensionsIter := ⟨fun it => .struct ["ExtensionsIter"] [("data", .str it.data), ("offset", .usize it.offset)]⟩
instance : Rep PrivateUseIter := ⟨fun it => .struct ["PrivateUseIter"] [("data", .str it.data), ("offset", .usize it.offset)]⟩
instance : Rep LanguageExtensionIter := ⟨fun it => .struct ["LanguageExtensionIter"] [("data", .str it.data), ("offset", .usize it.offset)]⟩

@[src] theorem val_VariantsIter (d : List UInt8) (o e : Nat) : val (⟨d, o, e⟩ : VariantsIter) =
    .struct ["VariantsIter"] [("data", .str d), ("offset", .usize o), ("end", .usize e)] := rfl
@[src] theorem val_ExtensionIter (d : List UInt8) (o : Nat) : val (⟨d, o⟩ : ExtensionIter) =
    .struct ["ExtensionIter"] [("data", .str d), ("offset", .usize o)] := rfl
@[src] theorem val_ExtensionsIter (d : List UInt8) (o : Nat) : val (⟨d, o⟩ : ExtensionsIter) =
    .struct ["ExtensionsIter"] [("data", .str d), ("offset", .usize o)] := rfl
@[src] theorem val_PrivateUseIter (d : List UInt8) (o : Nat) : val (⟨d, o⟩ : PrivateUseIter) =
    .struct ["PrivateUseIter"] [("data", .str d), ("offset", .usize o)] := rfl
@[src] theorem val_LanguageExtensionIter (d : List UInt8) (o : Nat) : val (⟨d, o⟩ : LanguageExtensionIter) =
    .struct ["LanguageExtensionIter"] [("data", .str d), ("offset", .usize o)] := rfl

/-- The result of `next`: the item, and the iterator in its new state. -/
def nextVal {α β : Type} [Rep α] [Rep β] (r : Option α × β) : Val × List (Option Val) := (val r.1, [some (val r.2)])
@[src] theorem nextVal_eq {α β : Type} [Rep α] [Rep β] (a : Option α) (b : β) : nextVal (a, b) = (val a, [some (val b)]) := rfl

/-! ## `next` and `next_back` -/

@[src] theorem VariantsIter.next_checked (d : List UInt8) (o e : Nat) :
    callFn (crate max) ⟨["VariantsIter"], "Iterator", Ast.VariantsIter_Iterator_next⟩
      [.struct ["VariantsIter"] [("data", .str d), ("offset", .usize o), ("end", .usize e)]] σ =
    lift nextVal (Checked.variantsNext max ⟨d, o, e⟩) σ := by
  rw [callFn_apply]
  simp only [Ast.VariantsIter_Iterator_next, Checked.variantsNext]
  exec
  split
  · cases Checked.findSegmentEnd max d o <;> exec
    cases sliceRange d o _ <;> exec
  · rfl

@[src] theorem VariantsIter.next_back_checked (d : List UInt8) (o e : Nat) :
    callFn (crate max) ⟨["VariantsIter"], "DoubleEndedIterator", Ast.VariantsIter_DoubleEndedIterator_next_back⟩
      [.struct ["VariantsIter"] [("data", .str d), ("offset", .usize o), ("end", .usize e)]] σ =
    lift nextVal (Checked.variantsNextBack max ⟨d, o, e⟩) σ := by
  rw [callFn_apply]
  simp only [Ast.VariantsIter_DoubleEndedIterator_next_back, Checked.variantsNextBack]
  exec
  split
  · cases Checked.findSegmentStart max d e <;> exec
    cases sliceRange d _ e <;> exec
  · rfl

@[src] theorem ExtensionIter.next_checked (d : List UInt8) (o : Nat) :
    callFn (crate max) ⟨["ExtensionIter"], "Iterator", Ast.ExtensionIter_Iterator_next⟩
      [.struct ["ExtensionIter"] [("data", .str d), ("offset", .usize o)]] σ =
    lift nextVal (Checked.extensionNext max ⟨d, o⟩) σ := by
  rw [callFn_apply]
  simp only [Ast.ExtensionIter_Iterator_next, Checked.extensionNext]
  exec
  split
  · cases Checked.findSegmentEnd max d o <;> exec
    cases sliceRange d o _ <;> exec
  · rfl

@[src] theorem PrivateUseIter.next_checked (d : List UInt8) (o : Nat) :
    callFn (crate max) ⟨["PrivateUseIter"], "Iterator", Ast.PrivateUseIter_Iterator_next⟩
      [.struct ["PrivateUseIter"] [("data", .str d), ("offset", .usize o)]] σ =
    lift nextVal (Checked.privateUseNext max ⟨d, o⟩) σ := by
  rw [callFn_apply]
  simp only [Ast.PrivateUseIter_Iterator_next, Checked.privateUseNext]
  exec
  split
  · cases Checked.findSegmentEnd max d o <;> exec
    cases sliceRange d o _ <;> exec
  · rfl

@[src] theorem LanguageExtensionIter.next_checked (d : List UInt8) (o : Nat) :
    callFn (crate max) ⟨["LanguageExtensionIter"], "Iterator", Ast.LanguageExtensionIter_Iterator_next⟩
      [.struct ["LanguageExtensionIter"] [("data", .str d), ("offset", .usize o)]] σ =
    lift nextVal (Checked.languageExtensionNext max ⟨d, o⟩) σ := by
  rw [callFn_apply]
  simp only [Ast.LanguageExtensionIter_Iterator_next, Checked.languageExtensionNext]
  exec
  split
  · cases Checked.findSegmentEnd max d o <;> exec
    cases sliceRange d o _ <;> exec
  · rfl

@[src] theorem ExtensionsIter.next_checked (d : List UInt8) (o : Nat) (hs : d.length + 1 ≤ max) :
    callFn (crate max) ⟨["ExtensionsIter"], "Iterator", Ast.ExtensionsIter_Iterator_next⟩
      [.struct ["ExtensionsIter"] [("data", .str d), ("offset", .usize o)]] σ =
    lift nextVal (Checked.extensionsNext max ⟨d, o⟩) σ := by
  rw [callFn_apply]
  simp only [Ast.ExtensionsIter_Iterator_next, Checked.extensionsNext]
  exec
  split
  · split
    · rw [find_list_end_eq d _ _ (fun _ t => .ok (StrNewtype.isOk ExtensionSubtag t))]
      · cases Checked.findListEnd max d _ _ <;> exec
        cases sliceRange d o _ <;> exec
      · intro C p t τ ht
        have h' : t.length + 1 ≤ max := by omega
        exec [h']
        cases StrNewtype.isOk ExtensionSubtag t <;> rfl
    · rfl
  · rfl

/-! ## Constructors -/

theorem default_eq {P : Program} {ty : List String} {v : Val} (h1 : P.lookup ty "default" [] = none) (h2 : newOf P ty "default" [] = none)
    (h3 : corePath P ty "default" [] = pure v) : callPath P C ty "default" [] σ = some (.ok (v, []) σ) := by
  rw [callPath, h1]
  simp only [h2, bind_apply]
  rw [h3]
  rfl
@[src] theorem VariantsIter.default_eq : callPath (crate max) C ["VariantsIter"] "default" [] σ = some (.ok (val VariantsIter.empty, []) σ) :=
  Source.default_eq (by kernel_rfl) (by kernel_rfl) (by kernel_rfl)
@[src] theorem ExtensionIter.default_eq : callPath (crate max) C ["ExtensionIter"] "default" [] σ = some (.ok (val ExtensionIter.empty, []) σ) :=
  Source.default_eq (by kernel_rfl) (by kernel_rfl) (by kernel_rfl)
@[src] theorem PrivateUseIter.default_eq : callPath (crate max) C ["PrivateUseIter"] "default" [] σ = some (.ok (val PrivateUseIter.empty, []) σ) :=
  Source.default_eq (by kernel_rfl) (by kernel_rfl) (by kernel_rfl)
@[src] theorem LanguageExtensionIter.default_eq :
    callPath (crate max) C ["LanguageExtensionIter"] "default" [] σ = some (.ok (val LanguageExtensionIter.empty, []) σ) :=
  Source.default_eq (by kernel_rfl) (by kernel_rfl) (by kernel_rfl)

/-- `None.unwrap_or_default()`, as the result of a function. -/
theorem none_unwrap_or_default {o : List String} {t : String} {segs : List String} {ts : List Ty} {v : Val}
    (h : derivedDefault (crate max) (typePath (crate max) ⟨o, t, .path segs ts⟩ segs) = pure v) :
    callMethod (crate max) ⟨o, t, .path segs ts⟩ (.ctor ["Option"] "None" []) "unwrap_or_default" [] σ = some (.ok (v, []) σ) := by
  rw [core_eq (methodOf_option ..) rfl (by decide)]
  simp only [coreMethod, bind_apply]
  rw [h]
  rfl
@[src] theorem ExtensionIter.unwrap_or_default (o : List String) (t : String) :
    callMethod (crate max) ⟨o, t, .path ["ExtensionIter"] []⟩ (.ctor ["Option"] "None" []) "unwrap_or_default" [] σ =
    some (.ok (val ExtensionIter.empty, []) σ) := none_unwrap_or_default (by kernel_rfl)
@[src] theorem LanguageExtensionIter.unwrap_or_default (o : List String) (t : String) :
    callMethod (crate max) ⟨o, t, .path ["LanguageExtensionIter"] []⟩ (.ctor ["Option"] "None" []) "unwrap_or_default" [] σ =
    some (.ok (val LanguageExtensionIter.empty, []) σ) := none_unwrap_or_default (by kernel_rfl)

@[src] theorem VariantsIter.new_eq (d : List UInt8) : callFn (crate max) ⟨["VariantsIter"], "", Ast.VariantsIter_new⟩ [.str d] σ =
    some (.ok (val (VariantsIter.new d), [none]) σ) := by
  rw [callFn_apply]
  simp only [Ast.VariantsIter_new, VariantsIter.new]
  exec
@[src] theorem ExtensionIter.new_eq (d : List UInt8) : callFn (crate max) ⟨["ExtensionIter"], "", Ast.ExtensionIter_new⟩ [.str d] σ =
    some (.ok (val (ExtensionIter.new d), [none]) σ) := by
  rw [callFn_apply]
  simp only [Ast.ExtensionIter_new, ExtensionIter.new]
  exec
@[src] theorem ExtensionsIter.new_eq (d : List UInt8) : callFn (crate max) ⟨["ExtensionsIter"], "", Ast.ExtensionsIter_new⟩ [.str d] σ =
    some (.ok (val (ExtensionsIter.new d), [none]) σ) := by
  rw [callFn_apply]
  simp only [Ast.ExtensionsIter_new, ExtensionsIter.new]
  exec
@[src] theorem PrivateUseIter.new_eq (d : List UInt8) : callFn (crate max) ⟨["PrivateUseIter"], "", Ast.PrivateUseIter_new⟩ [.str d] σ =
    some (.ok (val (PrivateUseIter.new d), [none]) σ) := by
  rw [callFn_apply]
  simp only [Ast.PrivateUseIter_new, PrivateUseIter.new]
  exec
@[src] theorem LanguageExtensionIter.new_eq (d : List UInt8) :
    callFn (crate max) ⟨["LanguageExtensionIter"], "", Ast.LanguageExtensionIter_new⟩ [.str d] σ =
    some (.ok (val (LanguageExtensionIter.new d), [none]) σ) := by
  rw [callFn_apply]
  simp only [Ast.LanguageExtensionIter_new, LanguageExtensionIter.new]
  exec

@[src] theorem VariantsIter.empty_eq : callFn (crate max) ⟨["VariantsIter"], "", Ast.VariantsIter_empty⟩ [] σ =
    some (.ok (val VariantsIter.empty, []) σ) := by
  rw [callFn_apply]
  simp only [Ast.VariantsIter_empty]
  exec
@[src] theorem ExtensionIter.empty_eq : callFn (crate max) ⟨["ExtensionIter"], "", Ast.ExtensionIter_empty⟩ [] σ =
    some (.ok (val ExtensionIter.empty, []) σ) := by
  rw [callFn_apply]
  simp only [Ast.ExtensionIter_empty]
  exec
@[src] theorem PrivateUseIter.empty_eq : callFn (crate max) ⟨["PrivateUseIter"], "", Ast.PrivateUseIter_empty⟩ [] σ =
    some (.ok (val PrivateUseIter.empty, []) σ) := by
  rw [callFn_apply]
  simp only [Ast.PrivateUseIter_empty]
  exec
@[src] theorem LanguageExtensionIter.empty_eq : callFn (crate max) ⟨["LanguageExtensionIter"], "", Ast.LanguageExtensionIter_empty⟩ [] σ =
    some (.ok (val LanguageExtensionIter.empty, []) σ) := by
  rw [callFn_apply]
  simp only [Ast.LanguageExtensionIter_empty]
  exec

@[src] theorem Variants.iter_eq (x : String) (s : List UInt8) : callFn (crate max) ⟨["Variants"], "", Ast.Variants_iter⟩ [.ctor ["Variants"] x [.str s]] σ =
    some (.ok (val (Variants.iter ⟨s⟩), [none]) σ) := by
  rw [callFn_apply]
  simp only [Ast.Variants_iter, Variants.iter]
  exec
@[src] theorem Extension.iter_eq (x : String) (s : List UInt8) : callFn (crate max) ⟨["Extension"], "", Ast.Extension_iter⟩ [.ctor ["Extension"] x [.str s]] σ =
    some (.ok (val (Extension.iter ⟨s⟩), [none]) σ) := by
  rw [callFn_apply]
  simp only [Ast.Extension_iter, Extension.iter]
  exec
@[src] theorem Extensions.iter_eq (x : String) (s : List UInt8) : callFn (crate max) ⟨["Extensions"], "", Ast.Extensions_iter⟩ [.ctor ["Extensions"] x [.str s]] σ =
    some (.ok (val (Extensions.iter ⟨s⟩), [none]) σ) := by
  rw [callFn_apply]
  simp only [Ast.Extensions_iter, Extensions.iter]
  exec
@[src] theorem PrivateUse.iter_eq (x : String) (s : List UInt8) : callFn (crate max) ⟨["PrivateUse"], "", Ast.PrivateUse_iter⟩ [.ctor ["PrivateUse"] x [.str s]] σ =
    some (.ok (val (PrivateUse.iter ⟨s⟩), [none]) σ) := by
  rw [callFn_apply]
  simp only [Ast.PrivateUse_iter, PrivateUse.iter]
  exec
@[src] theorem LanguageExtension.iter_eq (x : String) (s : List UInt8) :
    callFn (crate max) ⟨["LanguageExtension"], "", Ast.LanguageExtension_iter⟩ [.ctor ["LanguageExtension"] x [.str s]] σ =
    some (.ok (val (LanguageExtension.iter ⟨s⟩), [none]) σ) := by
  rw [callFn_apply]
  simp only [Ast.LanguageExtension_iter, LanguageExtension.iter]
  exec

end Langtag.Source
