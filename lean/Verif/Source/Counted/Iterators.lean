import Verif.Source.Counted.Newtypes
import Verif.Source.Refine.Parts

/-! # The iterators (`variant.rs`, `extension.rs`, `private_use.rs`, `language/extlang.rs`): the text and the counting model -/

set_option autoImplicit false

namespace Langtag.Source.Counted
open Langtag.Source (val)
open Langtag.Model

variable {C : Ctx} {σ : Env} {max : Nat}

/-! ## `next` and `next_back` -/

@[cnt] theorem VariantsIter.next_eq (d : List UInt8) (o e : Nat) (hs : d.length + 1 ≤ max) :
    callFn (crate max) ⟨["VariantsIter"], "Iterator", Ast.VariantsIter_Iterator_next⟩
      [.struct ["VariantsIter"] [("data", .str d), ("offset", .usize o), ("end", .usize e)]] σ =
    liftT nextVal (Timed.variantsNext ⟨d, o, e⟩) σ := by
  rw [callFn_apply]
  simp only [Ast.VariantsIter_Iterator_next, Timed.variantsNext]
  count [hs]
  split
  · rcases Timed.findSegmentEnd d o with ⟨_ | e', k⟩ <;> count
    cases hsl : sliceRange d o e' <;> count
    rw [if_pos (by have := Langtag.Proof.sliceRange_ok_le hsl; omega)]
  · rfl

@[cnt] theorem VariantsIter.next_back_eq (d : List UInt8) (o e : Nat) (hs : d.length + 1 ≤ max) :
    callFn (crate max) ⟨["VariantsIter"], "DoubleEndedIterator", Ast.VariantsIter_DoubleEndedIterator_next_back⟩
      [.struct ["VariantsIter"] [("data", .str d), ("offset", .usize o), ("end", .usize e)]] σ =
    liftT nextVal (Timed.variantsNextBack ⟨d, o, e⟩) σ := by
  rw [callFn_apply]
  simp only [Ast.VariantsIter_DoubleEndedIterator_next_back, Timed.variantsNextBack]
  count [hs]
  split
  · rcases Timed.findSegmentStart d e with ⟨_ | b, k⟩ <;> count
    cases sliceRange d b e <;> count
    by_cases hb : b > 0
    · simp only [if_pos hb, if_pos (show 1 ≤ b by omega)]
    · simp only [if_neg hb]
  · rfl

@[cnt] theorem ExtensionIter.next_eq (d : List UInt8) (o : Nat) (hs : d.length + 1 ≤ max) :
    callFn (crate max) ⟨["ExtensionIter"], "Iterator", Ast.ExtensionIter_Iterator_next⟩
      [.struct ["ExtensionIter"] [("data", .str d), ("offset", .usize o)]] σ =
    liftT nextVal (Timed.extensionNext ⟨d, o⟩) σ := by
  rw [callFn_apply]
  simp only [Ast.ExtensionIter_Iterator_next, Timed.extensionNext]
  count [hs]
  split
  · rcases Timed.findSegmentEnd d o with ⟨_ | e', k⟩ <;> count
    cases hsl : sliceRange d o e' <;> count
    rw [if_pos (by have := Langtag.Proof.sliceRange_ok_le hsl; omega)]
  · rfl

@[cnt] theorem PrivateUseIter.next_eq (d : List UInt8) (o : Nat) (hs : d.length + 1 ≤ max) :
    callFn (crate max) ⟨["PrivateUseIter"], "Iterator", Ast.PrivateUseIter_Iterator_next⟩
      [.struct ["PrivateUseIter"] [("data", .str d), ("offset", .usize o)]] σ =
    liftT nextVal (Timed.privateUseNext ⟨d, o⟩) σ := by
  rw [callFn_apply]
  simp only [Ast.PrivateUseIter_Iterator_next, Timed.privateUseNext]
  count [hs]
  split
  · rcases Timed.findSegmentEnd d o with ⟨_ | e', k⟩ <;> count
    cases hsl : sliceRange d o e' <;> count
    rw [if_pos (by have := Langtag.Proof.sliceRange_ok_le hsl; omega)]
  · rfl

@[cnt] theorem LanguageExtensionIter.next_eq (d : List UInt8) (o : Nat) (hs : d.length + 1 ≤ max) :
    callFn (crate max) ⟨["LanguageExtensionIter"], "Iterator", Ast.LanguageExtensionIter_Iterator_next⟩
      [.struct ["LanguageExtensionIter"] [("data", .str d), ("offset", .usize o)]] σ =
    liftT nextVal (Timed.languageExtensionNext ⟨d, o⟩) σ := by
  rw [callFn_apply]
  simp only [Ast.LanguageExtensionIter_Iterator_next, Timed.languageExtensionNext]
  count [hs]
  split
  · rcases Timed.findSegmentEnd d o with ⟨_ | e', k⟩ <;> count
    cases hsl : sliceRange d o e' <;> count
    rw [if_pos (by have := Langtag.Proof.sliceRange_ok_le hsl; omega)]
  · rfl

@[cnt] theorem ExtensionsIter.next_eq (d : List UInt8) (o : Nat) (hs : d.length + 1 ≤ max) :
    callFn (crate max) ⟨["ExtensionsIter"], "Iterator", Ast.ExtensionsIter_Iterator_next⟩
      [.struct ["ExtensionsIter"] [("data", .str d), ("offset", .usize o)]] σ =
    liftT nextVal (Timed.extensionsNext ⟨d, o⟩) σ := by
  rw [callFn_apply]
  simp only [Ast.ExtensionsIter_Iterator_next, Timed.extensionsNext]
  count [hs]
  split
  · rw [if_pos (by omega), find_list_end_eq d _ _ (fun _ t => Timed.isOk ExtensionSubtag t) hs]
    · rcases Timed.findListEnd d (o + 2) _ with ⟨_ | e, k⟩ <;> count
      cases hsl : sliceRange d o e <;> count
      rw [if_pos (by have := Langtag.Proof.sliceRange_ok_le hsl; omega)]
    · intro C p t τ ht
      have h' : t.length + 1 ≤ max := by omega
      count [h']
      cases StrNewtype.isOk ExtensionSubtag t <;> rfl
  · rfl

/-! ## Constructors -/

theorem default_eq {P : Program} {ty : List String} {v : Val} (h1 : P.lookup ty "default" [] = none) (h2 : newOf P ty "default" [] = none)
    (h3 : corePath P ty "default" [] = pure v) : callPath P C ty "default" [] σ = fin (.ok (v, []) σ) := by
  rw [callPath, h1]
  simp only [h2, bind_apply]
  rw [h3]
  rfl
@[cnt] theorem VariantsIter.default_eq : callPath (crate max) C ["VariantsIter"] "default" [] σ = fin (.ok (val VariantsIter.empty, []) σ) :=
  Counted.default_eq (by kernel_rfl) (by kernel_rfl) (by kernel_rfl)
@[cnt] theorem ExtensionIter.default_eq : callPath (crate max) C ["ExtensionIter"] "default" [] σ = fin (.ok (val ExtensionIter.empty, []) σ) :=
  Counted.default_eq (by kernel_rfl) (by kernel_rfl) (by kernel_rfl)
@[cnt] theorem PrivateUseIter.default_eq : callPath (crate max) C ["PrivateUseIter"] "default" [] σ = fin (.ok (val PrivateUseIter.empty, []) σ) :=
  Counted.default_eq (by kernel_rfl) (by kernel_rfl) (by kernel_rfl)
@[cnt] theorem LanguageExtensionIter.default_eq :
    callPath (crate max) C ["LanguageExtensionIter"] "default" [] σ = fin (.ok (val LanguageExtensionIter.empty, []) σ) :=
  Counted.default_eq (by kernel_rfl) (by kernel_rfl) (by kernel_rfl)

/-- `None.unwrap_or_default()`, as the result of a function. -/
theorem none_unwrap_or_default {o : List String} {t : String} {segs : List String} {ts : List Ty} {v : Val}
    (h : derivedDefault (crate max) (typePath (crate max) ⟨o, t, .path segs ts⟩ segs) = pure v) :
    callMethod (crate max) ⟨o, t, .path segs ts⟩ (.ctor ["Option"] "None" []) "unwrap_or_default" [] σ = fin (.ok (v, []) σ) := by
  rw [core_eq (methodOf_option ..) rfl (by decide)]
  simp only [coreMethod]
  rw [h]
  rfl
@[cnt] theorem ExtensionIter.unwrap_or_default (o : List String) (t : String) :
    callMethod (crate max) ⟨o, t, .path ["ExtensionIter"] []⟩ (.ctor ["Option"] "None" []) "unwrap_or_default" [] σ =
    fin (.ok (val ExtensionIter.empty, []) σ) := none_unwrap_or_default (by kernel_rfl)
@[cnt] theorem LanguageExtensionIter.unwrap_or_default (o : List String) (t : String) :
    callMethod (crate max) ⟨o, t, .path ["LanguageExtensionIter"] []⟩ (.ctor ["Option"] "None" []) "unwrap_or_default" [] σ =
    fin (.ok (val LanguageExtensionIter.empty, []) σ) := none_unwrap_or_default (by kernel_rfl)

@[cnt] theorem VariantsIter.new_eq (d : List UInt8) : callFn (crate max) ⟨["VariantsIter"], "", Ast.VariantsIter_new⟩ [.str d] σ =
    fin (.ok (val (VariantsIter.new d), [none]) σ) := by
  rw [callFn_apply]
  simp only [Ast.VariantsIter_new, VariantsIter.new]
  count
@[cnt] theorem ExtensionIter.new_eq (d : List UInt8) : callFn (crate max) ⟨["ExtensionIter"], "", Ast.ExtensionIter_new⟩ [.str d] σ =
    fin (.ok (val (ExtensionIter.new d), [none]) σ) := by
  rw [callFn_apply]
  simp only [Ast.ExtensionIter_new, ExtensionIter.new]
  count
@[cnt] theorem ExtensionsIter.new_eq (d : List UInt8) : callFn (crate max) ⟨["ExtensionsIter"], "", Ast.ExtensionsIter_new⟩ [.str d] σ =
    fin (.ok (val (ExtensionsIter.new d), [none]) σ) := by
  rw [callFn_apply]
  simp only [Ast.ExtensionsIter_new, ExtensionsIter.new]
  count
@[cnt] theorem PrivateUseIter.new_eq (d : List UInt8) : callFn (crate max) ⟨["PrivateUseIter"], "", Ast.PrivateUseIter_new⟩ [.str d] σ =
    fin (.ok (val (PrivateUseIter.new d), [none]) σ) := by
  rw [callFn_apply]
  simp only [Ast.PrivateUseIter_new, PrivateUseIter.new]
  count
@[cnt] theorem LanguageExtensionIter.new_eq (d : List UInt8) :
    callFn (crate max) ⟨["LanguageExtensionIter"], "", Ast.LanguageExtensionIter_new⟩ [.str d] σ =
    fin (.ok (val (LanguageExtensionIter.new d), [none]) σ) := by
  rw [callFn_apply]
  simp only [Ast.LanguageExtensionIter_new, LanguageExtensionIter.new]
  count

@[cnt] theorem VariantsIter.empty_eq : callFn (crate max) ⟨["VariantsIter"], "", Ast.VariantsIter_empty⟩ [] σ =
    fin (.ok (val VariantsIter.empty, []) σ) := by
  rw [callFn_apply]
  simp only [Ast.VariantsIter_empty]
  count
@[cnt] theorem ExtensionIter.empty_eq : callFn (crate max) ⟨["ExtensionIter"], "", Ast.ExtensionIter_empty⟩ [] σ =
    fin (.ok (val ExtensionIter.empty, []) σ) := by
  rw [callFn_apply]
  simp only [Ast.ExtensionIter_empty]
  count
@[cnt] theorem PrivateUseIter.empty_eq : callFn (crate max) ⟨["PrivateUseIter"], "", Ast.PrivateUseIter_empty⟩ [] σ =
    fin (.ok (val PrivateUseIter.empty, []) σ) := by
  rw [callFn_apply]
  simp only [Ast.PrivateUseIter_empty]
  count
@[cnt] theorem LanguageExtensionIter.empty_eq : callFn (crate max) ⟨["LanguageExtensionIter"], "", Ast.LanguageExtensionIter_empty⟩ [] σ =
    fin (.ok (val LanguageExtensionIter.empty, []) σ) := by
  rw [callFn_apply]
  simp only [Ast.LanguageExtensionIter_empty]
  count

@[cnt] theorem Variants.iter_eq (x : String) (s : List UInt8) : callFn (crate max) ⟨["Variants"], "", Ast.Variants_iter⟩ [.ctor ["Variants"] x [.str s]] σ =
    fin (.ok (val (Variants.iter ⟨s⟩), [none]) σ) := by
  rw [callFn_apply]
  simp only [Ast.Variants_iter, Variants.iter]
  count
@[cnt] theorem Extension.iter_eq (x : String) (s : List UInt8) : callFn (crate max) ⟨["Extension"], "", Ast.Extension_iter⟩ [.ctor ["Extension"] x [.str s]] σ =
    fin (.ok (val (Extension.iter ⟨s⟩), [none]) σ) := by
  rw [callFn_apply]
  simp only [Ast.Extension_iter, Extension.iter]
  count
@[cnt] theorem Extensions.iter_eq (x : String) (s : List UInt8) : callFn (crate max) ⟨["Extensions"], "", Ast.Extensions_iter⟩ [.ctor ["Extensions"] x [.str s]] σ =
    fin (.ok (val (Extensions.iter ⟨s⟩), [none]) σ) := by
  rw [callFn_apply]
  simp only [Ast.Extensions_iter, Extensions.iter]
  count
@[cnt] theorem PrivateUse.iter_eq (x : String) (s : List UInt8) : callFn (crate max) ⟨["PrivateUse"], "", Ast.PrivateUse_iter⟩ [.ctor ["PrivateUse"] x [.str s]] σ =
    fin (.ok (val (PrivateUse.iter ⟨s⟩), [none]) σ) := by
  rw [callFn_apply]
  simp only [Ast.PrivateUse_iter, PrivateUse.iter]
  count
@[cnt] theorem LanguageExtension.iter_eq (x : String) (s : List UInt8) :
    callFn (crate max) ⟨["LanguageExtension"], "", Ast.LanguageExtension_iter⟩ [.ctor ["LanguageExtension"] x [.str s]] σ =
    fin (.ok (val (LanguageExtension.iter ⟨s⟩), [none]) σ) := by
  rw [callFn_apply]
  simp only [Ast.LanguageExtension_iter, LanguageExtension.iter]
  count

end Langtag.Source.Counted
