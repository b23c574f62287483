import Verif.Source.Refine.Grandfathered

/-! # `/repo/src/lib.rs`: the text and the model -/

set_option autoImplicit false

namespace Langtag.Source
open Langtag.Model (Panic Rust StrNewtype)
open Langtag.Model

variable {C : Ctx} {σ : Env} {max : Nat}

/-! ## `Kind` -/

instance : Rep Kind := ⟨fun
  | .Normal => .ctor ["Kind"] "Normal" []
  | .PrivateUse => .ctor ["Kind"] "PrivateUse" []
  | .Grandfathered => .ctor ["Kind"] "Grandfathered" []⟩
@[src] theorem val_Kind_Normal : val Kind.Normal = .ctor ["Kind"] "Normal" [] := rfl
@[src] theorem val_Kind_PrivateUse : val Kind.PrivateUse = .ctor ["Kind"] "PrivateUse" [] := rfl
@[src] theorem val_Kind_Grandfathered : val Kind.Grandfathered = .ctor ["Kind"] "Grandfathered" [] := rfl

theorem Kind.is_normal_eq (k : Kind) :
    callFn (crate max) ⟨["Kind"], "", Ast.Kind_is_normal⟩ [val k] σ = some (.ok (val k.isNormal, [none]) σ) := by
  cases k <;> exec <;> rw [callFn_apply] <;> simp only [Ast.Kind_is_normal, Kind.isNormal] <;> exec

theorem Kind.is_private_use_eq (k : Kind) :
    callFn (crate max) ⟨["Kind"], "", Ast.Kind_is_private_use⟩ [val k] σ = some (.ok (val k.isPrivateUse, [none]) σ) := by
  cases k <;> exec <;> rw [callFn_apply] <;> simp only [Ast.Kind_is_private_use, Kind.isPrivateUse] <;> exec

theorem Kind.is_grandfathered_eq (k : Kind) :
    callFn (crate max) ⟨["Kind"], "", Ast.Kind_is_grandfathered⟩ [val k] σ = some (.ok (val k.isGrandfathered, [none]) σ) := by
  cases k <;> exec <;> rw [callFn_apply] <;> simp only [Ast.Kind_is_grandfathered, Kind.isGrandfathered] <;> exec

/-! ## `TypedLangTag` -/

instance : Rep TypedLangTag := ⟨fun
  | .Normal t => .ctor ["TypedLangTag"] "Normal" [val t]
  | .PrivateUse t => .ctor ["TypedLangTag"] "PrivateUse" [val (t : PrivateUse)]
  | .Grandfathered t => .ctor ["TypedLangTag"] "Grandfathered" [val t]⟩
@[src] theorem val_TypedLangTag_Normal (t : NormalLangTag) : val (TypedLangTag.Normal t) = .ctor ["TypedLangTag"] "Normal" [val t] := rfl
@[src] theorem val_TypedLangTag_PrivateUse (t : PrivateUse) : val (TypedLangTag.PrivateUse t) = .ctor ["TypedLangTag"] "PrivateUse" [val t] := rfl
@[src] theorem val_TypedLangTag_Grandfathered (t : GrandfatheredLangTag) :
    val (TypedLangTag.Grandfathered t) = .ctor ["TypedLangTag"] "Grandfathered" [val t] := rfl

/-- The text of a typed tag, if it has one. -/
def typedLength : TypedLangTag → Nat
  | .Normal t => t.str.length
  | .PrivateUse t => t.str.length
  | .Grandfathered _ => 0

theorem TypedLangTag.language_eq (t : TypedLangTag) (hs : typedLength t + 1 ≤ max) :
    callFn (crate max) ⟨["TypedLangTag"], "", Ast.TypedLangTag_language⟩ [val t] σ =
    lift (fun r => (val r, [none])) t.language σ := by
  rcases t with ⟨⟨s⟩⟩ | ⟨⟨s⟩⟩ | g <;> exec <;> rw [callFn_apply] <;> simp only [Ast.TypedLangTag_language, TypedLangTag.language]
  · simp only [typedLength] at hs
    exec [hs]
    cases NormalLangTag.language ⟨s⟩ <;> exec
  · exec
  · exec

@[src] theorem TypedLangTag.kind_eq (t : TypedLangTag) :
    callFn (crate max) ⟨["TypedLangTag"], "", Ast.TypedLangTag_kind⟩ [val t] σ = some (.ok (val t.kind, [none]) σ) := by
  rcases t with ⟨⟨s⟩⟩ | ⟨⟨s⟩⟩ | g <;> exec <;> rw [callFn_apply] <;> simp only [Ast.TypedLangTag_kind, TypedLangTag.kind] <;> exec

theorem TypedLangTag.is_normal_eq (t : TypedLangTag) :
    callFn (crate max) ⟨["TypedLangTag"], "", Ast.TypedLangTag_is_normal⟩ [val t] σ = some (.ok (val t.isNormal, [none]) σ) := by
  rcases t with ⟨⟨s⟩⟩ | ⟨⟨s⟩⟩ | g <;> exec <;> rw [callFn_apply] <;> simp only [Ast.TypedLangTag_is_normal, TypedLangTag.isNormal] <;> exec

theorem TypedLangTag.is_private_use_eq (t : TypedLangTag) :
    callFn (crate max) ⟨["TypedLangTag"], "", Ast.TypedLangTag_is_private_use⟩ [val t] σ = some (.ok (val t.isPrivateUse, [none]) σ) := by
  rcases t with ⟨⟨s⟩⟩ | ⟨⟨s⟩⟩ | g <;> exec <;> rw [callFn_apply] <;> simp only [Ast.TypedLangTag_is_private_use, TypedLangTag.isPrivateUse] <;> exec

theorem TypedLangTag.is_grandfathered_eq (t : TypedLangTag) :
    callFn (crate max) ⟨["TypedLangTag"], "", Ast.TypedLangTag_is_grandfathered⟩ [val t] σ = some (.ok (val t.isGrandfathered, [none]) σ) := by
  rcases t with ⟨⟨s⟩⟩ | ⟨⟨s⟩⟩ | g <;> exec <;> rw [callFn_apply] <;> simp only [Ast.TypedLangTag_is_grandfathered, TypedLangTag.isGrandfathered] <;> exec

theorem TypedLangTag.as_normal_eq (t : TypedLangTag) :
    callFn (crate max) ⟨["TypedLangTag"], "", Ast.TypedLangTag_as_normal⟩ [val t] σ = some (.ok (val t.asNormal, [none]) σ) := by
  rcases t with ⟨⟨s⟩⟩ | ⟨⟨s⟩⟩ | g <;> exec <;> rw [callFn_apply] <;> simp only [Ast.TypedLangTag_as_normal, TypedLangTag.asNormal] <;> exec

theorem TypedLangTag.as_private_use_eq (t : TypedLangTag) :
    callFn (crate max) ⟨["TypedLangTag"], "", Ast.TypedLangTag_as_private_use⟩ [val t] σ = some (.ok (val (t.asPrivateUse : Option PrivateUse), [none]) σ) := by
  rcases t with ⟨⟨s⟩⟩ | ⟨⟨s⟩⟩ | g <;> exec <;> rw [callFn_apply] <;> simp only [Ast.TypedLangTag_as_private_use, TypedLangTag.asPrivateUse] <;> exec

theorem TypedLangTag.as_grandfathered_eq (t : TypedLangTag) :
    callFn (crate max) ⟨["TypedLangTag"], "", Ast.TypedLangTag_as_grandfathered⟩ [val t] σ = some (.ok (val t.asGrandfathered, [none]) σ) := by
  rcases t with ⟨⟨s⟩⟩ | ⟨⟨s⟩⟩ | g <;> exec <;> rw [callFn_apply] <;> simp only [Ast.TypedLangTag_as_grandfathered, TypedLangTag.asGrandfathered] <;> exec

/-! ## `LangTag` -/

theorem new_isOk (T : Type) [StrNewtype T] (s : Str) :
    StrNewtype.new T s = if StrNewtype.isOk T s = true then .ok (StrNewtype.newUnchecked s) else .error s := by
  rw [isOk_eq, StrNewtype.new]

section
variable (x : String) (s : List UInt8) (hs : s.length + 1 ≤ max)
include hs

@[src] theorem LangTag.as_normal_eq :
    callFn (crate max) ⟨["LangTag"], "", Ast.LangTag_as_normal⟩ [.ctor ["LangTag"] x [.str s]] σ =
    some (.ok (val (LangTag.asNormal ⟨s⟩), [none]) σ) := by
  rw [callFn_apply]
  simp only [Ast.LangTag_as_normal, LangTag.asNormal, new_isOk]
  exec [hs]
  split <;> exec [okOf] <;> rfl

@[src] theorem LangTag.as_private_use_eq :
    callFn (crate max) ⟨["LangTag"], "", Ast.LangTag_as_private_use⟩ [.ctor ["LangTag"] x [.str s]] σ =
    some (.ok (val (LangTag.asPrivateUse ⟨s⟩ : Option PrivateUse), [none]) σ) := by
  rw [callFn_apply]
  simp only [Ast.LangTag_as_private_use, LangTag.asPrivateUse, new_isOk]
  exec [hs]
  split <;> exec [okOf] <;> rfl

omit hs in
@[src] theorem LangTag.as_grandfathered_eq :
    callFn (crate max) ⟨["LangTag"], "", Ast.LangTag_as_grandfathered⟩ [.ctor ["LangTag"] x [.str s]] σ =
    lift (fun r => (val r, [none])) (LangTag.asGrandfathered ⟨s⟩) σ := by
  rw [callFn_apply]
  simp only [Ast.LangTag_as_grandfathered, LangTag.asGrandfathered]
  exec
  rcases GrandfatheredLangTag.new s with _ | ⟨_ | _⟩ <;> exec [okOf]

omit hs in
theorem asNormal_str {s n : List UInt8} (h : LangTag.asNormal ⟨s⟩ = some ⟨n⟩) : s = n := by
  simp only [LangTag.asNormal, new_isOk] at h
  split at h
  · cases h
    rfl
  · cases h

@[src] theorem LangTag.script_eq :
    callFn (crate max) ⟨["LangTag"], "", Ast.LangTag_script⟩ [.ctor ["LangTag"] x [.str s]] σ =
    lift (fun r => (val r, [none])) (LangTag.script ⟨s⟩) σ := by
  rw [callFn_apply]
  simp only [Ast.LangTag_script, LangTag.script]
  exec [hs]
  rcases h : LangTag.asNormal ⟨s⟩ with _ | ⟨⟨n⟩⟩
  · exec
  · cases asNormal_str h
    exec [hs]
    cases NormalLangTag.script ⟨s⟩ <;> exec

@[src] theorem LangTag.region_eq :
    callFn (crate max) ⟨["LangTag"], "", Ast.LangTag_region⟩ [.ctor ["LangTag"] x [.str s]] σ =
    lift (fun r => (val r, [none])) (LangTag.region ⟨s⟩) σ := by
  rw [callFn_apply]
  simp only [Ast.LangTag_region, LangTag.region]
  exec [hs]
  rcases h : LangTag.asNormal ⟨s⟩ with _ | ⟨⟨n⟩⟩
  · exec
  · cases asNormal_str h
    exec [hs]
    cases NormalLangTag.region ⟨s⟩ <;> exec

@[src] theorem LangTag.private_use_eq :
    callFn (crate max) ⟨["LangTag"], "", Ast.LangTag_private_use⟩ [.ctor ["LangTag"] x [.str s]] σ =
    lift (fun r => (val r, [none])) (LangTag.privateUse ⟨s⟩) σ := by
  rw [callFn_apply]
  simp only [Ast.LangTag_private_use, LangTag.privateUse]
  exec [hs]
  rcases h : LangTag.asNormal ⟨s⟩ with _ | ⟨⟨n⟩⟩
  · exec
  · cases asNormal_str h
    exec [hs]
    cases NormalLangTag.privateUse ⟨s⟩ <;> exec

@[src] theorem LangTag.variants_eq :
    callFn (crate max) ⟨["LangTag"], "", Ast.LangTag_variants⟩ [.ctor ["LangTag"] x [.str s]] σ =
    lift (fun r => (val r, [none])) (LangTag.variants ⟨s⟩) σ := by
  rw [callFn_apply]
  simp only [Ast.LangTag_variants, LangTag.variants]
  exec [hs]
  rcases h : LangTag.asNormal ⟨s⟩ with _ | ⟨⟨n⟩⟩
  · exec
    rfl
  · cases asNormal_str h
    exec [hs]
    cases NormalLangTag.variants ⟨s⟩ <;> exec

@[src] theorem LangTag.extensions_eq :
    callFn (crate max) ⟨["LangTag"], "", Ast.LangTag_extensions⟩ [.ctor ["LangTag"] x [.str s]] σ =
    lift (fun r => (val r, [none])) (LangTag.extensions ⟨s⟩) σ := by
  rw [callFn_apply]
  simp only [Ast.LangTag_extensions, LangTag.extensions]
  exec [hs]
  rcases h : LangTag.asNormal ⟨s⟩ with _ | ⟨⟨n⟩⟩
  · exec
    rfl
  · cases asNormal_str h
    exec [hs]
    cases NormalLangTag.extensions ⟨s⟩ <;> exec

@[src] theorem LangTag.private_use_subtags_eq :
    callFn (crate max) ⟨["LangTag"], "", Ast.LangTag_private_use_subtags⟩ [.ctor ["LangTag"] x [.str s]] σ =
    lift (fun r => (val r, [none])) (LangTag.privateUseSubtags ⟨s⟩) σ := by
  rw [callFn_apply]
  simp only [Ast.LangTag_private_use_subtags, LangTag.privateUseSubtags]
  exec [hs]
  rcases LangTag.privateUse ⟨s⟩ with _ | _ | ⟨⟨p⟩⟩ <;> exec

@[src] theorem LangTag.is_normal_eq :
    callFn (crate max) ⟨["LangTag"], "", Ast.LangTag_is_normal⟩ [.ctor ["LangTag"] x [.str s]] σ =
    some (.ok (val (LangTag.isNormal ⟨s⟩), [none]) σ) := by
  rw [callFn_apply]
  simp only [Ast.LangTag_is_normal, LangTag.isNormal]
  exec [hs]
  cases LangTag.asNormal ⟨s⟩ <;> exec

@[src] theorem LangTag.is_private_use_eq :
    callFn (crate max) ⟨["LangTag"], "", Ast.LangTag_is_private_use⟩ [.ctor ["LangTag"] x [.str s]] σ =
    some (.ok (val (LangTag.isPrivateUse ⟨s⟩), [none]) σ) := by
  rw [callFn_apply]
  simp only [Ast.LangTag_is_private_use, LangTag.isPrivateUse]
  exec [hs]
  cases (LangTag.asPrivateUse ⟨s⟩ : Option PrivateUse) <;> exec

omit hs in
@[src] theorem LangTag.is_grandfathered_eq :
    callFn (crate max) ⟨["LangTag"], "", Ast.LangTag_is_grandfathered⟩ [.ctor ["LangTag"] x [.str s]] σ =
    lift (fun r => (val r, [none])) (LangTag.isGrandfathered ⟨s⟩) σ := by
  rw [callFn_apply]
  simp only [Ast.LangTag_is_grandfathered, LangTag.isGrandfathered]
  exec 
  rcases LangTag.asGrandfathered ⟨s⟩ with _ | _ | _ <;> exec

@[src] theorem LangTag.language_eq :
    callFn (crate max) ⟨["LangTag"], "", Ast.LangTag_language⟩ [.ctor ["LangTag"] x [.str s]] σ =
    lift (fun r => (val r, [none])) (LangTag.language ⟨s⟩) σ := by
  rw [callFn_apply]
  simp only [Ast.LangTag_language, LangTag.language]
  exec [hs]
  simp only [new_isOk]
  split
  · exec [hs]
    cases NormalLangTag.language ⟨s⟩ <;> exec
  · exec
    rcases GrandfatheredLangTag.new s with _ | ⟨_ | _⟩ <;> exec

@[src] theorem LangTag.as_typed_eq :
    callFn (crate max) ⟨["LangTag"], "", Ast.LangTag_as_typed⟩ [.ctor ["LangTag"] x [.str s]] σ =
    lift (fun r => (val r, [none])) (LangTag.asTyped ⟨s⟩) σ := by
  rw [callFn_apply]
  simp only [Ast.LangTag_as_typed, LangTag.asTyped]
  exec [hs]
  simp only [new_isOk]
  split
  · exec
    rfl
  · split
    · exec
      rfl
    · exec
      rcases GrandfatheredLangTag.new s with _ | ⟨_ | _⟩ <;> exec

@[src] theorem LangTag.kind_eq :
    callFn (crate max) ⟨["LangTag"], "", Ast.LangTag_kind⟩ [.ctor ["LangTag"] x [.str s]] σ =
    lift (fun r => (val r, [none])) (LangTag.kind ⟨s⟩) σ := by
  rw [callFn_apply]
  simp only [Ast.LangTag_kind, LangTag.kind]
  exec [hs]
  rcases LangTag.asTyped ⟨s⟩ with _ | t
  · exec
  · exec
    have hm : callMethod (crate max) ⟨["LangTag"], "", .path ["Kind"] []⟩ (val t) "kind" [] [("self", .ctor ["LangTag"] x [.str s])] =
        callFn (crate max) ⟨["TypedLangTag"], "", Ast.TypedLangTag_kind⟩ [val t] [("self", .ctor ["LangTag"] x [.str s])] := by
      cases t <;> exec
    rw [hm]
    exec

end

end Langtag.Source
