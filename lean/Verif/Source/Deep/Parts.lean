import Verif.Source.Deep.Globals
import Verif.Source.Refine.Parts

/-! # `variant.rs`, `language/mod.rs`, `extension.rs`, with bounded nesting -/

set_option autoImplicit false

namespace Langtag.Source.Deep

open Langtag.Model (Panic Rust StrNewtype)

open Langtag.Model

variable {δ : Nat} {C : Ctx} {σ : Env} {max : Nat}

/-! ## `Variants` -/

@[dep] theorem Variants.first_eq (x : String) (s : List UInt8) (hs : s.length + 1 ≤ max) :
    callFn (δ + 3) (crate max) ⟨["Variants"], "", Ast.Variants_first⟩ [.ctor ["Variants"] x [.str s]] σ =
    lift (fun r => (val r, [none])) (Variants.first ⟨s⟩) σ := by
  rw [callFn_apply]
  simp only [Ast.Variants_first, Variants.first]
  deep
  rw [Langtag.Proof.variantsNext_checked hs (Nat.le_refl _)]
  cases VariantsIter.next _ <;> rfl

@[dep] theorem Variants.last_eq (x : String) (s : List UInt8) (hs : s.length + 1 ≤ max) :
    callFn (δ + 3) (crate max) ⟨["Variants"], "", Ast.Variants_last⟩ [.ctor ["Variants"] x [.str s]] σ =
    lift (fun r => (val r, [none])) (Variants.last ⟨s⟩) σ := by
  rw [callFn_apply]
  simp only [Ast.Variants_last, Variants.last]
  deep
  rw [Langtag.Proof.variantsNextBack_checked hs]
  cases VariantsIter.nextBack _ <;> rfl

/-! ## `Language` -/

@[dep] theorem Language.primary_eq (x : String) (s : List UInt8) :
    callFn (δ + 1) (crate max) ⟨["Language"], "", Ast.Language_primary⟩ [.ctor ["Language"] x [.str s]] σ =
    some (.ok (val (Language.primary ⟨s⟩), [none]) σ) := by
  rw [callFn_apply]
  simp only [Ast.Language_primary, Language.primary]
  deep
  rcases splitOnceDash s with _ | ⟨a, b⟩ <;> deep

@[dep] theorem Language.extension_eq (x : String) (s : List UInt8) :
    callFn (δ + 2) (crate max) ⟨["Language"], "", Ast.Language_extension⟩ [.ctor ["Language"] x [.str s]] σ =
    some (.ok (val (Language.extension ⟨s⟩), [none]) σ) := by
  rw [callFn_apply]
  simp only [Ast.Language_extension, Language.extension]
  deep
  rcases splitOnceDash s with _ | ⟨a, b⟩ <;> deep <;> rfl

@[dep] theorem Language.extension_subtags_eq (x : String) (s : List UInt8) :
    callFn (δ + 3) (crate max) ⟨["Language"], "", Ast.Language_extension_subtags⟩ [.ctor ["Language"] x [.str s]] σ =
    some (.ok (val (Language.extensionSubtags ⟨s⟩), [none]) σ) := by
  rw [callFn_apply]
  simp only [Ast.Language_extension_subtags, Language.extensionSubtags]
  deep
  rcases Language.extension ⟨s⟩ with _ | ⟨⟨e⟩⟩ <;> deep

/-! ## `Extensions::get` -/

theorem Extensions.get_checked (x y : String) (s : List UInt8) (g : UInt8) :
    callFn (δ + 3) (crate max) ⟨["Extensions"], "", Ast.Extensions_get⟩ [.ctor ["Extensions"] x [.str s], .ctor ["Singleton"] y [.u8 g]] σ =
    lift (fun r => (val r, [none, none])) (Checked.get max ⟨s⟩ ⟨g⟩) σ := by
  rw [callFn_apply]
  simp only [Ast.Extensions_get, Checked.get]
  deep
  refine while_rule (ι := Nat × Bool) (fun r => callR _ σ (closeR _ (bindR r _)))
    (fun (i, b) => [("starting", Val.bool b), ("i", Val.usize i), ("bytes", Val.bytes s), ("self", Val.ctor ["Extensions"] x [Val.str s]),
      ("singleton", Val.ctor ["Singleton"] y [Val.u8 g])])
    (fun _ => True) (fun (i, b) => s.length - i) (fun (i, b) => lift _ (Checked.getLoop max s ⟨g⟩ i b) σ) (0, true) trivial ?_
  rintro ⟨i, b⟩ _ ih
  simp only at ih ⊢
  rw [Checked.getLoop, Checked.startsHere]
  deep
  split
  · rename_i hi
    split
    · cases b
      · deep
        cases Langtag.Model.index s i <;> deep [hi]
        split <;> exact ih (_, _) trivial (by simp only; omega)
      · deep
        cases Langtag.Model.index s i <;> deep [hi]
        split
        · cases Langtag.Model.index s (i + 1) <;> deep [hi]
          split
          · split
            · rw [find_list_end_eq s _ _ (fun _ t => .ok (decide (t.length > 1)))]
              · cases Checked.findListEnd max s _ _ <;> deep
                cases sliceRange s i _ <;> deep
              · intro C p t τ ht
                deep
            · rfl
          · exact ih (_, _) trivial (by simp only; omega)
        · exact ih (_, _) trivial (by simp only; omega)
    · rfl
  · rfl

@[dep] theorem Extensions.get_eq (x y : String) (s : List UInt8) (g : UInt8) (hs : s.length + 1 ≤ max) :
    callFn (δ + 3) (crate max) ⟨["Extensions"], "", Ast.Extensions_get⟩ [.ctor ["Extensions"] x [.str s], .ctor ["Singleton"] y [.u8 g]] σ =
    lift (fun r => (val r, [none, none])) (Extensions.get ⟨s⟩ ⟨g⟩) σ := by
  rw [Extensions.get_checked x y s g]
  show lift _ (Checked.getLoop max s ⟨g⟩ 0 true) σ = _
  rw [Langtag.Proof.getLoop_checked hs _ _ _ (Nat.zero_le _)]
  rfl

@[dep] theorem Extensions.iter_extension_eq (x y : String) (s : List UInt8) (g : UInt8) (hs : s.length + 1 ≤ max) :
    callFn (δ + 4) (crate max) ⟨["Extensions"], "", Ast.Extensions_iter_extension⟩ [.ctor ["Extensions"] x [.str s], .ctor ["Singleton"] y [.u8 g]] σ =
    lift (fun r => (val r, [none, none])) (Extensions.iterExtension ⟨s⟩ ⟨g⟩) σ := by
  rw [callFn_apply]
  simp only [Ast.Extensions_iter_extension, Extensions.iterExtension]
  deep [hs]
  rcases Extensions.get ⟨s⟩ ⟨g⟩ with _ | _ | ⟨⟨e⟩⟩ <;> deep

end Langtag.Source.Deep
