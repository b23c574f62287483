import Verif.Source.Counted.Iterators
import Verif.Source.Refine.Parts
import Verif.Proof.WorkIter

/-! # `variant.rs`, `language/mod.rs`, `extension.rs`: the text and the counting model -/

set_option autoImplicit false

namespace Langtag.Source.Counted
open Langtag.Source (val)
open Langtag.Model

variable {C : Ctx} {σ : Env} {max : Nat}

/-! ## Paths that name functions and constants of the crate -/

theorem global_fn {o x : String} (h1 : [o, x] ≠ ["u8", "MAX"]) (hm : memberOf (crate max) C [o, x] = ([o], x))
    (hc : ((crate max).consts.find? fun (o', x', _) => o' = [o] && x' = x) = none) :
    globalR (crate max) C [o, x] none σ = fin (.ok (.fn [o] x) σ) := globalR_fn h1 hm hc

@[cnt] theorem LanguageExtension.iter_fn : globalR (crate max) C ["LanguageExtension", "iter"] none σ = fin (.ok (.fn ["LanguageExtension"] "iter") σ) :=
  global_fn (by decide) (by kernel_rfl) (by kernel_rfl)
@[cnt] theorem Extension.iter_fn : globalR (crate max) C ["Extension", "iter"] none σ = fin (.ok (.fn ["Extension"] "iter") σ) :=
  global_fn (by decide) (by kernel_rfl) (by kernel_rfl)
@[cnt] theorem PrivateUse.iter_fn : globalR (crate max) C ["PrivateUse", "iter"] none σ = fin (.ok (.fn ["PrivateUse"] "iter") σ) :=
  global_fn (by decide) (by kernel_rfl) (by kernel_rfl)
@[cnt] theorem NormalLangTag.script_fn : globalR (crate max) C ["NormalLangTag", "script"] none σ = fin (.ok (.fn ["NormalLangTag"] "script") σ) :=
  global_fn (by decide) (by kernel_rfl) (by kernel_rfl)
@[cnt] theorem NormalLangTag.region_fn : globalR (crate max) C ["NormalLangTag", "region"] none σ = fin (.ok (.fn ["NormalLangTag"] "region") σ) :=
  global_fn (by decide) (by kernel_rfl) (by kernel_rfl)
@[cnt] theorem NormalLangTag.variants_fn : globalR (crate max) C ["NormalLangTag", "variants"] none σ = fin (.ok (.fn ["NormalLangTag"] "variants") σ) :=
  global_fn (by decide) (by kernel_rfl) (by kernel_rfl)
@[cnt] theorem NormalLangTag.extensions_fn : globalR (crate max) C ["NormalLangTag", "extensions"] none σ = fin (.ok (.fn ["NormalLangTag"] "extensions") σ) :=
  global_fn (by decide) (by kernel_rfl) (by kernel_rfl)
@[cnt] theorem NormalLangTag.private_use_fn : globalR (crate max) C ["NormalLangTag", "private_use"] none σ = fin (.ok (.fn ["NormalLangTag"] "private_use") σ) :=
  global_fn (by decide) (by kernel_rfl) (by kernel_rfl)

/-- `Variants::EMPTY` -/
@[cnt] theorem Variants.empty_const : globalR (crate max) C ["Variants", "EMPTY"] none σ = fin (.ok (.ctor ["Variants"] "Variants" [.str []]) σ) := by
  have hm : memberOf (crate max) C ["Variants", "EMPTY"] = (["Variants"], "EMPTY") := by kernel_rfl
  have hc : ((crate max).consts.find? fun (o', x', _) => o' = ["Variants"] && x' = "EMPTY") =
      some (["Variants"], "EMPTY", (.block [] (.call (.path ["Self", "new_unchecked"]) [(.lit (.str []))]))) := by kernel_rfl
  rw [globalR_const (by decide) hm hc]
  count [List.all_nil, litBytes]

/-- `Extensions::EMPTY` -/
@[cnt] theorem Extensions.empty_const : globalR (crate max) C ["Extensions", "EMPTY"] none σ = fin (.ok (.ctor ["Extensions"] "Extensions" [.str []]) σ) := by
  have hm : memberOf (crate max) C ["Extensions", "EMPTY"] = (["Extensions"], "EMPTY") := by kernel_rfl
  have hc : ((crate max).consts.find? fun (o', x', _) => o' = ["Extensions"] && x' = "EMPTY") =
      some (["Extensions"], "EMPTY", (.block [] (.call (.path ["Self", "new_unchecked"]) [(.lit (.str []))]))) := by kernel_rfl
  rw [globalR_const (by decide) hm hc]
  count [List.all_nil, litBytes]

@[cnt] theorem timed_liftM_ite_bind {α β γ : Type} {c : Prop} [Decidable c] (k : β → γ) (x y : Rust α) (f : α → Timed β) :
    liftT k ((liftM (if c then x else y) : Timed α) >>= f) σ =
      if c then liftT k ((liftM x : Timed α) >>= f) σ else liftT k ((liftM y : Timed α) >>= f) σ := by split <;> rfl

/-- What the counting model counts for `split_once` is how many bytes it looks at. -/
theorem splitOnceDash_steps (s : List UInt8) : (Timed.splitOnceDash s).steps = lookedAt s := by
  induction s with
  | nil => rfl
  | cons b s ih =>
    have h := Langtag.Proof.work_splitOnceDash s
    unfold Timed.splitOnceDash lookedAt
    show 1 + _ = _
    split
    · rfl
    · rw [← ih, timed_eq h.1]
      show 1 + (_ + 0) = _
      omega

/-- How `Timed.splitOnceDash` ends. -/
@[cnt] theorem liftT_splitOnceDash {β γ : Type} (k : β → γ) (s : List UInt8) (f : Option (Str × Str) → Timed β) :
    liftT k (Timed.splitOnceDash s >>= f) σ = addTicks (lookedAt s) (liftT k (f (splitOnceDash s)) σ) := by
  rw [timed_eq (Langtag.Proof.work_splitOnceDash s).1, timed_ok_bind, splitOnceDash_steps]

/-! ## `Variants` -/

@[cnt] theorem Variants.first_eq (x : String) (s : List UInt8) (hs : s.length + 1 ≤ max) :
    callFn (crate max) ⟨["Variants"], "", Ast.Variants_first⟩ [.ctor ["Variants"] x [.str s]] σ =
    liftT (fun r => (val r, [none])) (Timed.first ⟨s⟩) σ := by
  rw [callFn_apply]
  simp only [Ast.Variants_first, Timed.first]
  count [hs]
  rcases Timed.variantsNext _ with ⟨_ | ⟨_, _⟩, k⟩ <;> count

@[cnt] theorem Variants.last_eq (x : String) (s : List UInt8) (hs : s.length + 1 ≤ max) :
    callFn (crate max) ⟨["Variants"], "", Ast.Variants_last⟩ [.ctor ["Variants"] x [.str s]] σ =
    liftT (fun r => (val r, [none])) (Timed.last ⟨s⟩) σ := by
  rw [callFn_apply]
  simp only [Ast.Variants_last, Timed.last]
  count [hs]
  rcases Timed.variantsNextBack _ with ⟨_ | ⟨_, _⟩, k⟩ <;> count

/-! ## `Language` -/

@[cnt] theorem Language.primary_eq (x : String) (s : List UInt8) :
    callFn (crate max) ⟨["Language"], "", Ast.Language_primary⟩ [.ctor ["Language"] x [.str s]] σ =
    liftT (fun r => (val r, [none])) (Timed.primary ⟨s⟩) σ := by
  rw [callFn_apply]
  simp only [Ast.Language_primary, Timed.primary]
  count
  rcases splitOnceDash s with _ | ⟨a, b⟩ <;> count

@[cnt] theorem Language.extension_eq (x : String) (s : List UInt8) :
    callFn (crate max) ⟨["Language"], "", Ast.Language_extension⟩ [.ctor ["Language"] x [.str s]] σ =
    liftT (fun r => (val r, [none])) (Timed.extension ⟨s⟩) σ := by
  rw [callFn_apply]
  simp only [Ast.Language_extension, Timed.extension]
  count
  rcases splitOnceDash s with _ | ⟨a, b⟩ <;> count <;> rfl

@[cnt] theorem Language.extension_subtags_eq (x : String) (s : List UInt8) :
    callFn (crate max) ⟨["Language"], "", Ast.Language_extension_subtags⟩ [.ctor ["Language"] x [.str s]] σ =
    liftT (fun r => (val r, [none])) (Timed.extensionSubtags ⟨s⟩) σ := by
  rw [callFn_apply]
  simp only [Ast.Language_extension_subtags, Timed.extensionSubtags]
  count
  rcases Timed.extension ⟨s⟩ with ⟨_ | _ | ⟨⟨e⟩⟩, k⟩ <;> count

/-! ## `Extensions::get` -/

@[cnt] theorem Extensions.get_eq (x y : String) (s : List UInt8) (g : UInt8) (hs : s.length + 1 ≤ max) :
    callFn (crate max) ⟨["Extensions"], "", Ast.Extensions_get⟩ [.ctor ["Extensions"] x [.str s], .ctor ["Singleton"] y [.u8 g]] σ =
    liftT (fun r => (val r, [none, none])) (Timed.get ⟨s⟩ ⟨g⟩) σ := by
  rw [callFn_apply]
  simp only [Ast.Extensions_get, Timed.get]
  count
  refine while_rule (ι := Nat × Bool) (fun r => callR _ σ (closeR _ (bindR r _)))
    (fun (i, b) => [("starting", Val.bool b), ("i", Val.usize i), ("bytes", Val.bytes s), ("self", Val.ctor ["Extensions"] x [Val.str s]),
      ("singleton", Val.ctor ["Singleton"] y [Val.u8 g])])
    (fun (i, _) => i ≤ s.length) (fun (i, b) => s.length - i) (fun (i, b) => liftT _ (Timed.getLoop s ⟨g⟩ i b) σ) (0, true) (Nat.zero_le _) ?_
  rintro ⟨i, b⟩ hle ih
  simp only at ih hle ⊢
  rw [Timed.getLoop, Model.Extensions.startsHere]
  have hi : i + 1 ≤ max := by omega
  count [hi]
  split
  · cases b
    · count [hi]
      cases Langtag.Model.index s i <;> count [hi]
      split <;> exact addTicks_congr rfl (ih (_, _) (by simp only; omega) (by simp only; omega))
    · count [hi]
      cases Langtag.Model.index s i <;> count [hi]
      split
      · cases Langtag.Model.index s (i + 1) <;> count [hi]
        split
        · rw [if_pos (by omega), find_list_end_eq s _ _ (fun _ t => return decide (t.length > 1)) hs]
          · rcases Timed.findListEnd s (i + 2) _ with ⟨_ | e, k⟩ <;> count
            · exact addTicks_congr (Nat.add_comm ..) rfl
            · cases sliceRange s i e <;> count <;> exact addTicks_congr (Nat.add_comm ..) rfl
          · intro C p t τ ht
            count
        · exact addTicks_congr rfl (ih (_, _) (by simp only; omega) (by simp only; omega))
      · exact addTicks_congr rfl (ih (_, _) (by simp only; omega) (by simp only; omega))
  · rfl

@[cnt] theorem Extensions.iter_extension_eq (x y : String) (s : List UInt8) (g : UInt8) (hs : s.length + 1 ≤ max) :
    callFn (crate max) ⟨["Extensions"], "", Ast.Extensions_iter_extension⟩ [.ctor ["Extensions"] x [.str s], .ctor ["Singleton"] y [.u8 g]] σ =
    liftT (fun r => (val r, [none, none])) (Timed.iterExtension ⟨s⟩ ⟨g⟩) σ := by
  rw [callFn_apply]
  simp only [Ast.Extensions_iter_extension, Timed.iterExtension]
  count [hs]
  rcases Timed.get ⟨s⟩ ⟨g⟩ with ⟨_ | _ | ⟨⟨e⟩⟩, k⟩ <;> count

end Langtag.Source.Counted
