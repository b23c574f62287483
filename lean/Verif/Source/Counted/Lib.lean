import Verif.Source.Counted.Grandfathered
import Verif.Source.Refine.Lib

/-! # `/repo/src/lib.rs`: the text and the counting model -/

set_option autoImplicit false

namespace Langtag.Source.Counted
open Langtag.Source (val)
open Langtag.Model

variable {C : Ctx} {σ : Env} {max : Nat}

@[cnt] theorem TypedLangTag.kind_eq (t : TypedLangTag) :
    callFn (crate max) ⟨["TypedLangTag"], "", Ast.TypedLangTag_kind⟩ [val t] σ = fin (.ok (val t.kind, [none]) σ) := by
  rcases t with ⟨⟨s⟩⟩ | ⟨⟨s⟩⟩ | g <;> count <;> rw [callFn_apply] <;> simp only [Ast.TypedLangTag_kind, TypedLangTag.kind] <;> count

theorem asNormal_str {s n : List UInt8} {k : Nat} (h : Timed.LangTag.asNormal ⟨s⟩ = ⟨.ok (some ⟨n⟩), k⟩) : s = n := by
  have := (Langtag.Proof.work_asNormal ⟨s⟩).1
  rw [h] at this
  exact Langtag.Source.asNormal_str (Except.ok.inj this).symm

section
variable (x : String) (s : List UInt8) (hs : s.length + 1 ≤ max)
include hs

@[cnt] theorem LangTag.as_normal_eq :
    callFn (crate max) ⟨["LangTag"], "", Ast.LangTag_as_normal⟩ [.ctor ["LangTag"] x [.str s]] σ =
    liftT (fun r => (val r, [none])) (Timed.LangTag.asNormal ⟨s⟩) σ := by
  rw [callFn_apply]
  simp only [Ast.LangTag_as_normal, Timed.LangTag.asNormal]
  count [hs]
  split <;> count [okOf] <;> rfl

@[cnt] theorem LangTag.as_private_use_eq :
    callFn (crate max) ⟨["LangTag"], "", Ast.LangTag_as_private_use⟩ [.ctor ["LangTag"] x [.str s]] σ =
    liftT (fun r => (val (r : Option PrivateUse), [none])) (Timed.LangTag.asPrivateUse ⟨s⟩) σ := by
  rw [callFn_apply]
  simp only [Ast.LangTag_as_private_use, Timed.LangTag.asPrivateUse]
  count [hs]
  split <;> count [okOf] <;> rfl

omit hs in
@[cnt] theorem LangTag.as_grandfathered_eq :
    callFn (crate max) ⟨["LangTag"], "", Ast.LangTag_as_grandfathered⟩ [.ctor ["LangTag"] x [.str s]] σ =
    liftT (fun r => (val r, [none])) (Timed.LangTag.asGrandfathered ⟨s⟩) σ := by
  rw [callFn_apply]
  simp only [Ast.LangTag_as_grandfathered, Timed.LangTag.asGrandfathered]
  count
  rcases Timed.newGrandfathered s with ⟨_ | ⟨_ | _⟩, k⟩ <;> count [okOf]

@[cnt] theorem LangTag.script_eq :
    callFn (crate max) ⟨["LangTag"], "", Ast.LangTag_script⟩ [.ctor ["LangTag"] x [.str s]] σ =
    liftT (fun r => (val r, [none])) (Timed.LangTag.script ⟨s⟩) σ := by
  rw [callFn_apply]
  simp only [Ast.LangTag_script, Timed.LangTag.script]
  count [hs]
  rcases h : Timed.LangTag.asNormal ⟨s⟩ with ⟨_ | _ | ⟨⟨n⟩⟩, k⟩
  · count
  · count
  · cases asNormal_str h
    count [hs]
    rcases Timed.script ⟨s⟩ with ⟨_ | _, k⟩ <;> count

@[cnt] theorem LangTag.region_eq :
    callFn (crate max) ⟨["LangTag"], "", Ast.LangTag_region⟩ [.ctor ["LangTag"] x [.str s]] σ =
    liftT (fun r => (val r, [none])) (Timed.LangTag.region ⟨s⟩) σ := by
  rw [callFn_apply]
  simp only [Ast.LangTag_region, Timed.LangTag.region]
  count [hs]
  rcases h : Timed.LangTag.asNormal ⟨s⟩ with ⟨_ | _ | ⟨⟨n⟩⟩, k⟩
  · count
  · count
  · cases asNormal_str h
    count [hs]
    rcases Timed.region ⟨s⟩ with ⟨_ | _, k⟩ <;> count

@[cnt] theorem LangTag.private_use_eq :
    callFn (crate max) ⟨["LangTag"], "", Ast.LangTag_private_use⟩ [.ctor ["LangTag"] x [.str s]] σ =
    liftT (fun r => (val r, [none])) (Timed.LangTag.privateUse ⟨s⟩) σ := by
  rw [callFn_apply]
  simp only [Ast.LangTag_private_use, Timed.LangTag.privateUse]
  count [hs]
  rcases h : Timed.LangTag.asNormal ⟨s⟩ with ⟨_ | _ | ⟨⟨n⟩⟩, k⟩
  · count
  · count
  · cases asNormal_str h
    count [hs]
    rcases Timed.privateUse ⟨s⟩ with ⟨_ | _, k⟩ <;> count

@[cnt] theorem LangTag.variants_eq :
    callFn (crate max) ⟨["LangTag"], "", Ast.LangTag_variants⟩ [.ctor ["LangTag"] x [.str s]] σ =
    liftT (fun r => (val r, [none])) (Timed.LangTag.variants ⟨s⟩) σ := by
  rw [callFn_apply]
  simp only [Ast.LangTag_variants, Timed.LangTag.variants]
  count [hs]
  rcases h : Timed.LangTag.asNormal ⟨s⟩ with ⟨_ | _ | ⟨⟨n⟩⟩, k⟩
  · count
  · count
    rfl
  · cases asNormal_str h
    count [hs]
    rcases Timed.variants ⟨s⟩ with ⟨_ | _, k⟩ <;> count

@[cnt] theorem LangTag.extensions_eq :
    callFn (crate max) ⟨["LangTag"], "", Ast.LangTag_extensions⟩ [.ctor ["LangTag"] x [.str s]] σ =
    liftT (fun r => (val r, [none])) (Timed.LangTag.extensions ⟨s⟩) σ := by
  rw [callFn_apply]
  simp only [Ast.LangTag_extensions, Timed.LangTag.extensions]
  count [hs]
  rcases h : Timed.LangTag.asNormal ⟨s⟩ with ⟨_ | _ | ⟨⟨n⟩⟩, k⟩
  · count
  · count
    rfl
  · cases asNormal_str h
    count [hs]
    rcases Timed.extensions ⟨s⟩ with ⟨_ | _, k⟩ <;> count

@[cnt] theorem LangTag.private_use_subtags_eq :
    callFn (crate max) ⟨["LangTag"], "", Ast.LangTag_private_use_subtags⟩ [.ctor ["LangTag"] x [.str s]] σ =
    liftT (fun r => (val r, [none])) (Timed.LangTag.privateUseSubtags ⟨s⟩) σ := by
  rw [callFn_apply]
  simp only [Ast.LangTag_private_use_subtags, Timed.LangTag.privateUseSubtags]
  count [hs]
  rcases Timed.LangTag.privateUse ⟨s⟩ with ⟨_ | _ | ⟨⟨p⟩⟩, k⟩ <;> count

@[cnt] theorem LangTag.is_normal_eq :
    callFn (crate max) ⟨["LangTag"], "", Ast.LangTag_is_normal⟩ [.ctor ["LangTag"] x [.str s]] σ =
    liftT (fun r => (val r, [none])) (Timed.LangTag.isNormal ⟨s⟩) σ := by
  rw [callFn_apply]
  simp only [Ast.LangTag_is_normal, Timed.LangTag.isNormal]
  count [hs]
  rcases Timed.LangTag.asNormal ⟨s⟩ with ⟨_ | _ | _, k⟩ <;> count

@[cnt] theorem LangTag.is_private_use_eq :
    callFn (crate max) ⟨["LangTag"], "", Ast.LangTag_is_private_use⟩ [.ctor ["LangTag"] x [.str s]] σ =
    liftT (fun r => (val r, [none])) (Timed.LangTag.isPrivateUse ⟨s⟩) σ := by
  rw [callFn_apply]
  simp only [Ast.LangTag_is_private_use, Timed.LangTag.isPrivateUse]
  count [hs]
  rcases Timed.LangTag.asPrivateUse ⟨s⟩ with ⟨_ | _ | _, k⟩ <;> count

omit hs in
@[cnt] theorem LangTag.is_grandfathered_eq :
    callFn (crate max) ⟨["LangTag"], "", Ast.LangTag_is_grandfathered⟩ [.ctor ["LangTag"] x [.str s]] σ =
    liftT (fun r => (val r, [none])) (Timed.LangTag.isGrandfathered ⟨s⟩) σ := by
  rw [callFn_apply]
  simp only [Ast.LangTag_is_grandfathered, Timed.LangTag.isGrandfathered]
  count 
  rcases Timed.LangTag.asGrandfathered ⟨s⟩ with ⟨_ | _ | _, k⟩ <;> count

@[cnt] theorem LangTag.language_eq :
    callFn (crate max) ⟨["LangTag"], "", Ast.LangTag_language⟩ [.ctor ["LangTag"] x [.str s]] σ =
    liftT (fun r => (val r, [none])) (Timed.LangTag.language ⟨s⟩) σ := by
  rw [callFn_apply]
  simp only [Ast.LangTag_language, Timed.LangTag.language]
  count [hs]
  split
  · rcases Timed.language ⟨s⟩ with ⟨_ | _, k⟩ <;> count
  · rcases Timed.newGrandfathered s with ⟨_ | ⟨_ | _⟩, k⟩ <;> count

@[cnt] theorem LangTag.as_typed_eq :
    callFn (crate max) ⟨["LangTag"], "", Ast.LangTag_as_typed⟩ [.ctor ["LangTag"] x [.str s]] σ =
    liftT (fun r => (val r, [none])) (Timed.LangTag.asTyped ⟨s⟩) σ := by
  rw [callFn_apply]
  simp only [Ast.LangTag_as_typed, Timed.LangTag.asTyped]
  count [hs]
  split
  · rfl
  · congr 1
    split
    · rfl
    · rcases Timed.newGrandfathered s with ⟨_ | ⟨_ | _⟩, k⟩ <;> count

@[cnt] theorem LangTag.kind_eq :
    callFn (crate max) ⟨["LangTag"], "", Ast.LangTag_kind⟩ [.ctor ["LangTag"] x [.str s]] σ =
    liftT (fun r => (val r, [none])) (Timed.LangTag.kind ⟨s⟩) σ := by
  rw [callFn_apply]
  simp only [Ast.LangTag_kind, Timed.LangTag.kind]
  count [hs]
  rcases Timed.LangTag.asTyped ⟨s⟩ with ⟨_ | t, k⟩
  · count
  · count
    have hm : callMethod (crate max) ⟨["LangTag"], "", .path ["Kind"] []⟩ (val t) "kind" [] [("self", .ctor ["LangTag"] x [.str s])] =
        callFn (crate max) ⟨["TypedLangTag"], "", Ast.TypedLangTag_kind⟩ [val t] [("self", .ctor ["LangTag"] x [.str s])] := by
      cases t <;> count
    rw [hm]
    count

end

end Langtag.Source.Counted
